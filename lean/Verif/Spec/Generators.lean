import Verif.Model.Generators
import Verif.Spec.LaneLinks

/-! # Specification: roads built by the generators -/

namespace Pyodrx.Spec
open PyFloat

variable {F : Type} [PyFloat F]

/-- A plain road mark of type `t`: 20 cm wide from the start of the lane on, standard colour and weight, 2 cm
high, no lane change rule and no explicit line. -/
structure PlainMark (t : RoadMarkType) (m : RoadMark F) : Prop where
  type : m.markingType = t
  width : m.width = some (ofInt 2 /. ofInt 10)
  soffset : m.soffset = ofInt 0
  standard : m.color = .standard ∧ m.markingWeight = .standard ∧ m.height = ofInt 2 /. ofInt 100 ∧
    m.laneChange = none
  line : m.line = none

/-- A driving lane of constant width `w` with number `id`, one road mark of type `t` over its whole
length, and no links. -/
structure StdLane (w : F) (t : RoadMarkType) (id : Int) (l : Lane F) : Prop where
  number : l.laneId = some id
  type : l.laneType = .driving
  width : l.a = w ∧ l.b = ofInt 0 ∧ l.c = ofInt 0 ∧ l.d = ofInt 0 ∧ l.soffset = ofInt 0
  mark : ∃ m, l.roadmark = some m ∧ PlainMark t m
  links : l.links = []

/-- A lane section created between the lane heaps `before` and `after`: it starts at s = 0, has `nl`
a centre lane with number 0 and a road mark as `cmark` says, `nl` lanes on the left and `nr` on the right,
numbered outwards from the centre, of width `w` and with the road mark types given from the centre outwards; all its lanes are new objects, pairwise
different, and no older lane has changed. -/
structure BuiltSection (before after : Store (Lane F)) (sec : LaneSection F) (w : F)
    (nl nr : Nat) (cmark : RoadMark F → Prop) (lmark rmark : Nat → RoadMarkType) : Prop where
  start : sec.s = ofInt 0
  countL : sec.left.length = nl
  countR : sec.right.length = nr
  distinct : (sec.center :: (sec.left ++ sec.right)).Nodup
  new : ∀ x ∈ sec.center :: (sec.left ++ sec.right), before.next ≤ x ∧ x < after.next
  grows : before.next ≤ after.next
  old : ∀ x, x < before.next → after.cell x = before.cell x
  center : (after.cell sec.center).laneId = some 0 ∧ (after.cell sec.center).links = [] ∧
    (after.cell sec.center).laneType = .driving ∧ ∃ m, (after.cell sec.center).roadmark = some m ∧ cmark m
  left : ∀ (i x : Nat), sec.left[i]? = some x → StdLane w (lmark i) ((i : Int) + 1) (after.cell x)
  right : ∀ (i x : Nat), sec.right[i]? = some x → StdLane w (rmark i) (-((i : Int) + 1)) (after.cell x)

/-- A planview with the given geometries, in this order, to be adjusted from the origin. -/
structure FreshPlan (pv : PlanView F) (geoms : List Nat) : Prop where
  raw : pv.raw = geoms
  pose : pv.present = ⟨ofInt 0, ofInt 0, ofInt 0⟩
  free : pv.fixed = false
  headings : pv.overridden = []
  unadjusted : pv.adjusted = false ∧ pv.adjGeoms = [] ∧ pv.presentS = ofInt 0

/-- A road that is linked to nothing and has no objects, signals or name. -/
structure Unlinked (r : Road F) : Prop where
  succ : r.successor = none
  pred : r.predecessor = none
  links : r.links = []
  neighbors : r.neighborAdded = 0
  offsets : r.laneOffsetPred = 0 ∧ r.laneOffsetSuc = 0
  empty : r.objects = [] ∧ r.signals = [] ∧ r.name = none ∧ r.rule = none

/-- Between the two states objects were created, but no existing object was changed. -/
structure OnlyNew {F : Type} (before after : GenState F) : Prop where
  geoms : before.geoms.next ≤ after.geoms.next
  lanes : before.lanes.next ≤ after.lanes.next
  oldGeoms : ∀ x, x < before.geoms.next → after.geoms.cell x = before.geoms.cell x
  oldLanes : ∀ x, x < before.lanes.next → after.lanes.cell x = before.lanes.cell x

end Pyodrx.Spec
