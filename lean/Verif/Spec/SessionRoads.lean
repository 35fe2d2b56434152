import Verif.Spec.SessionProgram
import Verif.Spec.Shown

/-! # Specification: roads and their links in programs of calls -/

namespace Pyodrx.Spec
open Pyodrx

variable {F : Type}

/-- The predecessors that the program declares for the road `v`, with their lane offsets. -/
def predecessorCalls (v : Nat) (p : List (Call F)) : List (Link × Int) :=
  p.filterMap fun c => match c with
    | .addPredecessor r et id cp off => if r = v then some (⟨.predecessor, id, some et, cp, none⟩, off) else none
    | _ => none

/-- The successors that the program declares for the road `v`, with their lane offsets. -/
def successorCalls (v : Nat) (p : List (Call F)) : List (Link × Int) :=
  p.filterMap fun c => match c with
    | .addSuccessor r et id cp off => if r = v then some (⟨.successor, id, some et, cp, none⟩, off) else none
    | _ => none

/-- The neighbors that the program declares for the road `v` with a direction. -/
def neighborCalls (v : Nat) (p : List (Call F)) : List Link :=
  p.filterMap fun c => match c with
    | .addNeighbor r et id (some dir) => if r = v then some ⟨.neighbor, id, some et, none, some dir⟩ else none
    | _ => none

/-- All of them in the order of the calls. -/
def linkCalls (v : Nat) (p : List (Call F)) : List Link :=
  p.flatMap fun c => (predecessorCalls v [c]).map (·.1) ++ (successorCalls v [c]).map (·.1) ++ neighborCalls v [c]

/-- The roads that the program adds to the `OpenDrive` object `o`. -/
def roadCalls (o : Nat) (p : List (Call F)) : List Nat :=
  p.filterMap fun c => match c with
    | .addRoad o' r => if o' = o then some r else none
    | _ => none

/-- The junctions that the program adds to the `OpenDrive` object `o`. -/
def junctionCalls (o : Nat) (p : List (Call F)) : List Nat :=
  p.filterMap fun c => match c with
    | .addJunction o' r => if o' = o then some r else none
    | _ => none

/-- The id that the program gives to the road `v`. -/
def roadIdCall (v : Nat) (p : List (Call F)) : Option String :=
  p.findSome? fun c => match c with
    | .road v' id _ _ _ _ _ => if v' = v then some id.toStr else none
    | _ => none

/-- The members of a list in the order of their first occurrences. -/
def keepFirst {α : Type} [DecidableEq α] : List α → List α
  | [] => []
  | a :: l => a :: (keepFirst l).filter (· ≠ a)

end Pyodrx.Spec
