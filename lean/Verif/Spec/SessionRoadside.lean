import Verif.Spec.SessionDocument
import Verif.Model.SessionRoadside

/-! # Specification: `add_object_roadside` in a program of calls -/

namespace Pyodrx.Spec
open Pyodrx PyFloat

section
variable {F : Type}

/-- The sides of the lane sections of the Lanes object `l` at which objects are wanted, in the order of the sections: 1 is the left side,
-1 the right side. -/
def roadsidePlaces (p : List (Call F)) (l : Nat) (side : RoadSide) : List (Nat × Int) :=
  (sectionCalls l p).flatMap fun sec =>
    match side with
    | .both => [(sec, 1), (sec, -1)]
    | .left => [(sec, 1)]
    | .right => [(sec, -1)]

/-- The lanes at a place, from the reference line outwards. -/
def placeLanes (p : List (Call F)) (place : Nat × Int) : List Nat :=
  if place.2 = 1 then leftCalls place.1 p else rightCalls place.1 p

/-- The parameters `a` with which the lanes were made (the width at the start of the lane section). -/
def MadeWidths (p : List (Call F)) (xs : List Nat) (ws : List F) : Prop :=
  List.Forall₂ (fun x w => ∃ t b c d so, .lane x t w b c d so ∈ p) xs ws

variable [PyFloat F]

/-- The object `P`, set up at a place on the side `dir` of a lane section that starts at `start`, where the widths of the lanes are `ws`:
outside of the lanes, facing the road. -/
def setBeside (sOffset tOffset start : F) (ws : List F) (dir : Int) (P : Obj F) : Obj F :=
  { P with
    base := { P.base with t := (ws.foldl (· +. ·) (ofInt 0) +. tOffset) *. ofInt dir, s := sOffset +. start }
    hdg := pi *. ofInt (1 + dir) /. ofInt 2 }

/-- `P` is the object `x` as it was made, but for its id, and repeated as the calls say. -/
def ObjectNow (p : List (Call F)) (x : Nat) (P : Obj F) : Prop :=
  ∃ ob id, .object x ob ∈ p ∧ P = (repeatCalls x p).foldl (fun ob c => ob.repeat c.1 c.2.1 c.2.2) { ob with base := { ob.base with id := id } }

/-- `P`, set up at a place: the section starts at `start`. -/
def Beside (p : List (Call F)) (P : Obj F) (sOffset tOffset : F) (place : Nat × Int) (start : F) (ob : Obj F) : Prop :=
  ∃ c ws, .laneSection place.1 start c ∈ p ∧ MadeWidths p (placeLanes p place) ws ∧ ob = setBeside sOffset tOffset start ws place.2 P

/-- The calls by which one puts objects beside a road of the length `total` by hand: `obs` are the objects and the starts of the lane
sections, the variables are `names`, `names + 1`, …; every object is repeated up to the end of the road. -/
def makeBeside (total repeatDistance sOffset : F) : Nat → List (Obj F × F) → List (Call F)
  | _, [] => []
  | x, (ob, start) :: obs =>
    .object x ob :: .repeatObject x (total -. sOffset -. start) repeatDistance {} :: makeBeside total repeatDistance sOffset (x + 1) obs

/-- What is shown of the copy of the object `proto` at a place beside a road of the given length. -/
def BesideShown (p : List (Call F)) (proto : Nat) (length repeatDistance sOffset tOffset : F) (place : Nat × Int) (O : RObject F) : Prop :=
  ∃ P start ob id, ObjectNow p proto P ∧ Beside p P sOffset tOffset place start ob ∧
    O = shownObject (({ ob with base := { ob.base with id := id } } : Obj F).repeat (length -. sOffset -. start) repeatDistance {})

/-- The document without the objects of the road with the id `id` from the `n`-th on. -/
def RDocument.withoutObjects (doc : RDocument F) (id : String) (n : Nat) : RDocument F :=
  { doc with roads := doc.roads.map fun rd => if rd.id = id then { rd with objects := rd.objects.take n } else rd }

end

end Pyodrx.Spec
