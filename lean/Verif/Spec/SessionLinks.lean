import Verif.Spec.SessionAdjust
import Verif.Spec.NetworkLinks

/-! # Specification: lane links after `adjust_roads_and_lanes`, in programs of calls -/

namespace Pyodrx.Spec
open Pyodrx

variable {R : Rounding}

/-- The calls of the program that add the lane section `sec` to a `Lanes` object. -/
def sectionPuts (sec : Nat) (p : List (Call (Fl R))) : List (Call (Fl R)) :=
  p.filter fun c => match c with | .addLanesection _ x _ => x = sec | _ => false

/-- Nothing is shared between the added roads: each has its own `Lanes` object, and each lane section is added once. (That
each lane is put into one place is required by `FittingLanes`.) -/
structure OwnLanes (p : List (Call (Fl R))) (o : Nat) : Prop where
  lanes : ∀ v i l t w j u, AddsLanes p o v i l t → AddsLanes p o w j l u → v = w
  sections : ∀ v i l t sec, AddsLanes p o v i l t → sec ∈ sectionCalls l p →
    (sectionPuts sec p).length = 1

/-- A program that draws the roads of the document `o` so that `adjust_roads_and_lanes` returns (C92), with lanes of their own. -/
structure LaidOut (p : List (Call (Fl R))) (o : Nat) : Prop where
  drawing : Drawing p
  document : ∃ name, .openDrive o name ∈ p
  linked : LinkedProgram p o
  fitting : FittingLanes p o
  reached : ∀ v, .addRoad o v ∈ p → ReachedRoad p o v
  own : OwnLanes p o

/-- The road `v` with the id `i` declares the one with the id `j` as successor, and that one, `w`, declares the first as predecessor. -/
def Consecutive (p : List (Call (Fl R))) (v : Nat) (i : PyId) (w : Nat) (j : PyId) : Prop :=
  (∃ a, linkCall v p .end = some a ∧ a.elementType = some .road ∧ a.elementId = j) ∧
    ∃ b, linkCall w p .start = some b ∧ b.elementType = some .road ∧ b.elementId = i

/-- The lane offset given with the link at an end of the road `v`. -/
def offsetCall (v : Nat) (p : List (Call (Fl R))) : ContactPoint → Int
  | .start => ((predecessorCalls v p).head?.map (·.2)).getD 0
  | .end => ((successorCalls v p).head?.map (·.2)).getD 0

end Pyodrx.Spec
