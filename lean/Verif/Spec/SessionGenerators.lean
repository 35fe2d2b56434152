import Verif.Spec.SessionContents
import Verif.Spec.SessionNumbers
import Verif.Spec.SessionRoads
import Verif.Spec.SessionIds
import Verif.Model.Generators

/-! # Specification: roads that a program makes by hand -/

namespace Pyodrx.Spec
open Pyodrx PyFloat

variable {F : Type} [PyFloat F]

/-- The program makes the driving lane `x` of constant width `w`; the last road mark it adds is `m`; it adds no links and puts the
lane into one place. -/
structure HandLane (p : List (Call F)) (x : Nat) (w : F) (m : RoadMark F) : Prop where
  made : .lane x .driving w (ofInt 0) (ofInt 0) (ofInt 0) (ofInt 0) ∈ p
  mark : (markCalls x p).getLast? = some m
  links : laneAddLinkCalls x p = []
  once : (puts x p).length = 1

/-- The program makes the lane section `sec` at s = 0: a centre lane of width `cw` with the mark `cm`, and `nl` lanes on the left
and `nr` on the right of width `w` with the marks `lm` and `rm`, from the centre outwards. -/
structure HandSection (p : List (Call F)) (sec : Nat) (cw : F) (cm : RoadMark F) (w : F) (nl nr : Nat)
    (lm rm : Nat → RoadMark F) : Prop where
  center : ∃ c, .laneSection sec (ofInt 0) c ∈ p ∧ HandLane p c cw cm
  countL : (leftCalls sec p).length = nl
  countR : (rightCalls sec p).length = nr
  left : ∀ i x, (leftCalls sec p)[i]? = some x → HandLane p x w (lm i)
  right : ∀ i x, (rightCalls sec p)[i]? = some x → HandLane p x w (rm i)

/-- The program makes the road `v`, in whatever order: with a planview without start pose and with the geometries `gs`, with one lane
section, without name, links, objects and signals. -/
structure HandRoad (p : List (Call F)) (v : Nat) (id : PyId) (t : Int) (gs : List Nat) (cw : F) (cm : RoadMark F) (w : F)
    (nl nr : Nat) (lm rm : Nat → RoadMark F) : Prop where
  made : ∃ pv l sec, .road v id pv l t none none ∈ p ∧ .planView pv none none none ∈ p ∧
    geometryCalls pv p = gs.map (·, none) ∧ startCalls pv p = [] ∧ .lanes l ∈ p ∧ sectionCalls l p = [sec] ∧
    HandSection p sec cw cm w nl nr lm rm
  unlinked : linkCalls v p = []
  bare : objectCalls v p = [] ∧ signalCalls v p = []

/-- The two lane sections differ only in which lane objects they are made of: the objects are equal one by one. -/
structure SectionAlike (lanes lanes' : Store (Lane F)) (a b : LaneSection F) : Prop where
  same : { a with center := 0, left := [], right := [] } = { b with center := 0, left := [], right := [] }
  center : lanes.cell a.center = lanes'.cell b.center
  left : a.left.map lanes.cell = b.left.map lanes'.cell
  right : a.right.map lanes.cell = b.right.map lanes'.cell

/-- The two roads differ only in which geometry and lane objects they are made of: the objects are equal one by one. -/
structure RoadAlike (geoms geoms' : Store (Geom F)) (lanes lanes' : Store (Lane F)) (a b : Road F) : Prop where
  same : { a with planview := { a.planview with raw := [] }, lanesections := [] } =
    { b with planview := { b.planview with raw := [] }, lanesections := [] }
  geometries : a.planview.raw.map geoms.cell = b.planview.raw.map geoms'.cell
  sections : List.Forall₂ (SectionAlike lanes lanes') a.lanesections b.lanesections

end Pyodrx.Spec
