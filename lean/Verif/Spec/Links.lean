import Verif.Model.Road

/-! # Specification: histories of link calls -/

namespace Pyodrx.Spec

/-- A user's call on a Road. -/
inductive RoadOp where
  | successor (et : ElementType) (id : PyId) (cp : Option ContactPoint) (offset : Int)
  | predecessor (et : ElementType) (id : PyId) (cp : Option ContactPoint) (offset : Int)
  | neighbor (et : ElementType) (id : PyId) (dir : Option Direction)

/-- The link the call asks for. -/
def RoadOp.link : RoadOp → Link
  | .successor et id cp _ => ⟨.successor, id, some et, cp, none⟩
  | .predecessor et id cp _ => ⟨.predecessor, id, some et, cp, none⟩
  | .neighbor et id dir => ⟨.neighbor, id, some et, none, dir⟩

/-- A call is acceptable after the links `prev`: a first successor, a first predecessor, a first or
second neighbour with a direction. -/
def RoadOp.acceptable (prev : List Link) (op : RoadOp) : Bool :=
  match op with
  | .successor .. => prev.all (·.kind ≠ .successor)
  | .predecessor .. => prev.all (·.kind ≠ .predecessor)
  | .neighbor _ _ dir => (prev.filter (·.kind = .neighbor)).length < 2 && dir.isSome

/-- The accepted links of a history, given the links accepted before. -/
def acceptedFrom (prev : List Link) : List RoadOp → List Link
  | [] => prev
  | op :: ops => acceptedFrom (if op.acceptable prev then prev ++ [op.link] else prev) ops

end Pyodrx.Spec

namespace Pyodrx

variable {F : Type}

/-- Execute the call. -/
def Spec.RoadOp.run : Spec.RoadOp → EStateM PyErr (Road F) Unit
  | .successor et id cp off => Road.addSuccessor et id cp off
  | .predecessor et id cp off => Road.addPredecessor et id cp off
  | .neighbor et id dir => Road.addNeighbor et id dir

/-- The state after a call, whether or not it raised (the user catches the exception). -/
def stateAfter {σ α : Type} : EStateM.Result PyErr σ α → σ
  | .ok _ s => s
  | .error _ s => s

/-- Execute a history of calls. -/
def runOps (ops : List Spec.RoadOp) (r : Road F) : Road F :=
  ops.foldl (fun r op => stateAfter (op.run r)) r

end Pyodrx
