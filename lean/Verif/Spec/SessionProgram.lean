import Verif.Spec.Session
import Verif.Spec.FloatFile

/-! # Specification: programs that draw a network with the calls of the API, in any order -/

namespace Pyodrx.Spec
open Pyodrx

variable {F : Type}

/-- The roads of the `OpenDrive` object `o`, as they are read through the references, with the geometries and lanes. -/
def worldOf (s : Session F) (o : Nat) : World F :=
  ⟨⟨(s.readOpenDrive (s.openDrives.cell o)).roads, s.geoms⟩, s.laneObjs⟩

/-- The call is a constructor and makes the object. -/
def Makes : Call F → Part → Prop
  | .geometry v _, x => x = .geometry v
  | .planView v _ _ _, x => x = .planView v
  | .lane v _ _ _ _ _ _, x => x = .lane v
  | .laneSection v _ _, x => x = .laneSection v
  | .laneLinker v, x => x = .linker v
  | .lanes v, x => x = .lanes v
  | .road v _ _ _ _ _ _, x => x = .road v
  | .object v _, x => x = .object v
  | .signal v _, x => x = .signal v
  | .connection v _ _ _ _, x => x = .connection v
  | .junction v _ _, x => x = .junction v
  | .openDrive v _, x => x = .openDrive v
  | _, _ => False

/-- The call is a method of the object or has it as an argument. -/
def Uses : Call F → Part → Prop
  | .addGeometry pv g _, x => x = .planView pv ∨ x = .geometry g
  | .setStartPoint pv _, x => x = .planView pv
  | .addRoadmark l _, x => x = .lane l
  | .addLaneLink l _ _, x => x = .lane l
  | .laneSection _ _ center, x => x = .lane center
  | .addLeftLane sec l, x => x = .laneSection sec ∨ x = .lane l
  | .addRightLane sec l, x => x = .laneSection sec ∨ x = .lane l
  | .linkLanes v a b, x => x = .linker v ∨ x = .lane a ∨ x = .lane b
  | .addLanesection v sec linkers, x => x = .lanes v ∨ x = .laneSection sec ∨ ∃ l ∈ linkers, x = .linker l
  | .road _ _ pv lanes _ _ _, x => x = .planView pv ∨ x = .lanes lanes
  | .addSuccessor r _ _ _ _, x => x = .road r
  | .addPredecessor r _ _ _ _, x => x = .road r
  | .addNeighbor r _ _ _, x => x = .road r
  | .repeatObject o _ _ _, x => x = .object o
  | .addObject r os, x => x = .road r ∨ ∃ o ∈ os, x = .object o
  | .addSignal r os, x => x = .road r ∨ ∃ o ∈ os, x = .signal o
  | .addLanelink c _ _, x => x = .connection c
  | .addConnection j c, x => x = .junction j ∨ x = .connection c
  | .addRoad o r, x => x = .openDrive o ∨ x = .road r
  | .addJunction o j, x => x = .openDrive o ∨ x = .junction j
  | .adjust o, x => x = .openDrive o
  | _, _ => False

/-- Every variable is assigned before it is used, and assigned once. -/
def Proper (p : List (Call F)) : Prop :=
  ∀ before c rest, p = before ++ c :: rest →
    (∀ x, Uses c x → ∃ d ∈ before, Makes d x) ∧ ∀ x, Makes c x → ¬ ∃ d ∈ before, Makes d x

/-- A program that draws roads, in any order of the calls: start poses are given completely or not at all; geometries are added
without headings; every planview gets a geometry and is given to one road; arcs are curved; the marks on lanes are as
`RoadMark` makes them, and so are the signals. It does not yet call `adjust_roads_and_lanes`. -/
structure Drawing {R : Rounding} (p : List (Call (Fl R))) : Prop where
  proper : Proper p
  poses : ∀ v x y h, .planView v x y h ∈ p → (x.isSome ∧ y.isSome ∧ h.isSome) ∨ (x = none ∧ y = none ∧ h = none)
  headings : ∀ pv g h, .addGeometry pv g h ∈ p → h = none
  nonempty : ∀ v x y h, .planView v x y h ∈ p → ∃ g, .addGeometry v g none ∈ p
  own : ∀ v i pv l t n ru v' i' l' t' n' ru', .road v i pv l t n ru ∈ p → .road v' i' pv l' t' n' ru' ∈ p → v = v'
  arcs : ∀ v a, .geometry v (.arc a) ∈ p → a.curvature.val ≠ 0
  marks : ∀ l m, .addRoadmark l m ∈ p → m.line.isSome → m.width.isSome
  signals : ∀ v g, .signal v g ∈ p → g.base.typ = .str g.type
  start : ∀ pv q, .setStartPoint pv q ∉ p
  once : ∀ o, .adjust o ∉ p

/-- Nothing strange in variables that were not assigned. -/
structure Blank {R : Rounding} (s : Session (Fl R)) : Prop where
  arcs : ArcsCurved s.geoms
  marks : ∀ l m, (s.laneObjs.cell l).roadmark = some m → m.line.isSome → m.width.isSome
  signals : ∀ i, (s.sigs.cell i).base.typ = .str (s.sigs.cell i).type

end Pyodrx.Spec
