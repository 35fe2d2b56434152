import Verif.Model.Session
import Verif.Model.SessionGeometries
import Verif.Spec.UserTexts
import Verif.Spec.XmlNames

/-! # Specification: the texts in a program of calls -/

namespace Pyodrx.Spec
open Pyodrx

variable {F : Type}

/-- The texts that the user gives in a call. -/
def callTexts : Call F → List String
  | .geometry _ g => geomTexts g
  | .addLaneLink _ _ id => [id]
  | .road _ id _ _ _ name rule => idTexts id ++ name.toList ++ rule.toList
  | .addSuccessor _ _ id _ _ => idTexts id
  | .addPredecessor _ _ id _ _ => idTexts id
  | .addNeighbor _ _ id _ => idTexts id
  | .object _ o => baseTexts o.base
  | .signal _ g => signalTexts g
  | .connection _ i c _ _ => idTexts i ++ idTexts c
  | .junction _ name id => name :: idTexts id
  | .openDrive _ name => [name]
  | _ => []

/-- The texts of a `Road` object itself, without those of the objects it refers to. -/
def ownTexts (r : Road F) : List String := r.name.toList ++ r.rule.toList ++ idTexts r.id ++ linkTexts r.links

/-- All texts in all objects satisfy `P`. -/
structure TextsAre (P : String → Prop) (s : Session F) : Prop where
  geoms : ∀ i, ∀ t ∈ geomTexts (s.geoms.cell i), P t
  lanes : ∀ i, ∀ t ∈ linkTexts (s.laneObjs.cell i).links, P t
  roads : ∀ i, ∀ t ∈ ownTexts (s.roads.cell i).attrs, P t
  objects : ∀ i, ∀ t ∈ baseTexts (s.objs.cell i).base, P t
  signals : ∀ i, ∀ t ∈ signalTexts (s.sigs.cell i), P t
  connections : ∀ i, ∀ t ∈ idTexts (s.connections.cell i).incomingRoad ++ idTexts (s.connections.cell i).connectingRoad, P t
  junctions : ∀ i, ∀ t ∈ (s.junctions.cell i).name :: idTexts (s.junctions.cell i).id, P t
  openDrives : ∀ i, P (s.openDrives.cell i).name

/-- The state in which a program starts: nothing was made yet, so that all texts are empty and no object is repeated. -/
structure NothingMade (s : Session F) : Prop where
  texts : TextsAre (· = "") s
  repeats : ∀ i, (s.objs.cell i).repeats = []

/-- A text that comes from a program: given in a call, or a number, or `None`; objects that were never made have empty texts. -/
def TextOf (p : List (Call F)) (t : String) : Prop :=
  (∃ c ∈ p, t ∈ callTexts c) ∨ (∃ i : Int, t = strInt i) ∨ t = "None" ∨ t = ""

/-- What the objects are after a call that raised or not. -/
def leaves {σ α : Type} (m : EStateM PyErr σ α) (s : σ) : σ :=
  match m s with
  | .ok _ s' => s'
  | .error _ s' => s'

/-- From the objects `s`, the calls `p` have led to the objects `s'`, with `add_object_roadside` and `planview.adjust_geometries` in between;
every exception was caught. -/
inductive CallHistory [PyFloat F] (s : Session F) : List (Call F) → Session F → Prop
  | start : CallHistory s [] s
  | call {p s'} (c : Call F) : CallHistory s p s' → CallHistory s (p ++ [c]) (leaves c.run s')
  | roadside {p s'} (names r proto : Nat) (dist so tof : F) (side : RoadSide) : CallHistory s p s' →
      CallHistory s p (leaves (Session.addObjectRoadside names r proto dist so tof side) s')
  | geometries {p s'} (pv : Nat) (fromEnd : Bool) : CallHistory s p s' → CallHistory s p (leaves (Session.adjustGeometries pv fromEnd) s')

end Pyodrx.Spec
