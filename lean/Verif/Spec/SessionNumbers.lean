import Verif.Spec.SessionProgram

/-! # Specification: the numbers of lanes and connections in programs of calls -/

namespace Pyodrx.Spec
open Pyodrx

variable {F : Type}

/-- The lanes that the program adds to the left of the section `v`, in this order. -/
def leftCalls (v : Nat) (p : List (Call F)) : List Nat :=
  p.filterMap fun c => match c with
    | .addLeftLane sec l => if sec = v then some l else none
    | _ => none

/-- The lanes that the program adds to the right of the section `v`. -/
def rightCalls (v : Nat) (p : List (Call F)) : List Nat :=
  p.filterMap fun c => match c with
    | .addRightLane sec l => if sec = v then some l else none
    | _ => none

/-- The connections that the program adds to the junction `v`. -/
def connectionCalls (v : Nat) (p : List (Call F)) : List Nat :=
  p.filterMap fun c => match c with
    | .addConnection j x => if j = v then some x else none
    | _ => none

/-- The sections that the program adds to the `Lanes` object `v`. -/
def sectionCalls (v : Nat) (p : List (Call F)) : List Nat :=
  p.filterMap fun c => match c with
    | .addLanesection x sec _ => if x = v then some sec else none
    | _ => none

/-- The call puts the lane `l` somewhere and thereby gives it a number: 0 in the middle, 1, 2, … on the left, -1, -2, …
on the right, in the order of the calls. -/
def Numbers (before : List (Call F)) : Call F → Nat → Int → Prop
  | .laneSection _ _ center, l, n => l = center ∧ n = 0
  | .addLeftLane sec x, l, n => l = x ∧ n = (leftCalls sec before).length + 1
  | .addRightLane sec x, l, n => l = x ∧ n = -((rightCalls sec before).length + 1)
  | _, _, _ => False

/-- The calls of the program that put the lane `l` somewhere. -/
def puts (l : Nat) (p : List (Call F)) : List (Call F) :=
  p.filter fun c => match c with
    | .laneSection _ _ center => center = l
    | .addLeftLane _ x => x = l
    | .addRightLane _ x => x = l
    | _ => false

/-- The pairs of lanes that the program links in the connection `v`. -/
def laneLinkCalls (v : Nat) (p : List (Call F)) : List (Int × Int) :=
  p.filterMap fun c => match c with
    | .addLanelink x a b => if x = v then some (a, b) else none
    | _ => none

end Pyodrx.Spec
