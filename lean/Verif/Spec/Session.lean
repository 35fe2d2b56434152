import Verif.Model.Session

/-! # Specification: which objects a call of the API has to do with, and when two programs differ in the order only -/

namespace Pyodrx.Spec
open Pyodrx

variable {F : Type}

/-- The objects of a program. `roadId` is the id of a road, given when it is constructed; `usedIds` are the ids in use
for signals and objects. -/
inductive Part where
  | geometry (v : Nat)
  | planView (v : Nat)
  | lane (v : Nat)
  | laneSection (v : Nat)
  | linker (v : Nat)
  | lanes (v : Nat)
  | roadId (v : Nat)
  | road (v : Nat)
  | connection (v : Nat)
  | junction (v : Nat)
  | openDrive (v : Nat)
  | object (v : Nat)
  | signal (v : Nat)
  | usedIds

/-- The call makes the object, is a method of it, or gives it an id or links. An object that is only put into another
one (a road into an `OpenDrive`, a planview into a road, …) is not touched: the other one then refers to it.
`adjust_roads_and_lanes` touches everything. -/
def Touches : Call F → Part → Prop
  | .geometry v _, x => x = .geometry v
  | .planView v _ _ _, x => x = .planView v
  | .addGeometry pv _ _, x => x = .planView pv
  | .setStartPoint pv _, x => x = .planView pv
  | .lane v _ _ _ _ _ _, x => x = .lane v
  | .addRoadmark l _, x => x = .lane l
  | .addLaneLink l _ _, x => x = .lane l
  | .laneSection v _ center, x => x = .laneSection v ∨ x = .lane center
  | .addLeftLane sec l, x => x = .laneSection sec ∨ x = .lane l
  | .addRightLane sec l, x => x = .laneSection sec ∨ x = .lane l
  | .laneLinker v, x => x = .linker v
  | .linkLanes v _ _, x => x = .linker v
  | .lanes v, x => x = .lanes v
  | .addLanesection v _ linkers, x =>
    x = .lanes v ∨ (∃ l ∈ linkers, x = .linker l) ∨ (linkers ≠ [] ∧ ∃ l, x = .lane l)
  | .road v _ _ _ _ _ _, x => x = .road v ∨ x = .roadId v
  | .addSuccessor r _ _ _ _, x => x = .road r
  | .addPredecessor r _ _ _ _, x => x = .road r
  | .addNeighbor r _ _ _, x => x = .road r
  | .object v _, x => x = .object v
  | .repeatObject o _ _ _, x => x = .object o
  | .addObject r os, x => x = .road r ∨ (∃ o ∈ os, x = .object o) ∨ x = .usedIds
  | .signal v _, x => x = .signal v
  | .addSignal r os, x => x = .road r ∨ (∃ o ∈ os, x = .signal o) ∨ x = .usedIds
  | .connection v _ _ _ _, x => x = .connection v
  | .addLanelink c _ _, x => x = .connection c
  | .junction v _ _, x => x = .junction v
  | .addConnection j c, x => x = .junction j ∨ x = .connection c
  | .openDrive v _, x => x = .openDrive v
  | .addRoad o r, x => x = .openDrive o ∨ x = .roadId r
  | .addJunction o _, x => x = .openDrive o
  | .adjust _, _ => True

open Classical in
/-- The programs consist of the same calls, and for every object the calls that touch it come in the same order. -/
def SameUpToOrder (p q : List (Call F)) : Prop :=
  p.Perm q ∧ ∀ x : Part, p.filter (fun c => Touches c x) = q.filter (fun c => Touches c x)

end Pyodrx.Spec
