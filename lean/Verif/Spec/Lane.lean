import Verif.Model.Lane

/-! # Specification: building lane sections and applying lane linkers -/

namespace Pyodrx.Spec

/-- A user's call on a LaneSection. The number is the lane object. -/
inductive LaneOp where
  | left (lane : Nat)
  | right (lane : Nat)

/-- the lanes put on the left, in order of the calls -/
def lefts : List LaneOp → List Nat
  | [] => []
  | .left r :: ops => r :: lefts ops
  | .right _ :: ops => lefts ops

/-- the lanes put on the right, in order of the calls -/
def rights : List LaneOp → List Nat
  | [] => []
  | .left _ :: ops => rights ops
  | .right r :: ops => r :: rights ops

/-- all lanes added, in order of the calls -/
def added : List LaneOp → List Nat
  | [] => []
  | .left r :: ops => r :: added ops
  | .right r :: ops => r :: added ops

/-- Calls around `LaneLinker`: `linker.add_link(predlane, succlane)`, or
`lanes.add_lanesection(section, [linkers])` (the section itself does not matter here). -/
inductive LinkerOp where
  | addLink (linker pred succ : Nat)
  | addSection (linkers : List Nat)

/-- a lane link that waits in a linker until a section is added with that linker -/
structure Pending where
  linker : Nat
  pred : Nat
  succ : Nat
  deriving DecidableEq

/-- The pending links that `addSection linkers` applies, linker by linker. -/
def flushed : List Nat → List Pending → List Pending
  | [], _ => []
  | l :: ls, pend => pend.filter (·.linker = l) ++ flushed ls (pend.filter (·.linker ≠ l))

/-- The links applied by a history, in order, given the links pending before it. -/
def applied (pend : List Pending) : List LinkerOp → List Pending
  | [] => []
  | .addLink l p s :: ops => applied (pend ++ [⟨l, p, s⟩]) ops
  | .addSection ls :: ops => flushed ls pend ++ applied (pend.filter (·.linker ∉ ls)) ops

/-- How a lane id is written in a link; a lane that was never added to a section has none. -/
def shownId : Option Int → String
  | some i => toString i
  | none => "None"

/-- What one applied lane link adds to the links of lane `r`: if `r` is its predecessor lane, a
successor link to the id of the successor lane; if `r` is its successor lane, a predecessor link to
the id of the predecessor lane. -/
def addedTo (ids : Nat → Option Int) (r : Nat) (p : Pending) : List Link :=
  (if p.pred = r then [⟨.successor, .str (shownId (ids p.succ)), none, none, none⟩] else []) ++
  (if p.succ = r then [⟨.predecessor, .str (shownId (ids p.pred)), none, none, none⟩] else [])

/-- A section is added with this linker somewhere in the history. -/
def mentions (l : Nat) : List LinkerOp → Bool
  | [] => false
  | .addLink .. :: ops => mentions l ops
  | .addSection ls :: ops => l ∈ ls || mentions l ops

/-- The links that a history has to apply: one for each `add_link` whose linker is used later. -/
def required : List LinkerOp → List Pending
  | [] => []
  | .addLink l p s :: ops => (if mentions l ops then [⟨l, p, s⟩] else []) ++ required ops
  | .addSection _ :: ops => required ops

end Pyodrx.Spec

namespace Pyodrx
variable {F : Type}

/-- Build a lane section by a history of calls. -/
def buildSection (s : F) (center : Nat) (ops : List Spec.LaneOp) (lanes : Store (Lane F)) :
    LaneSection F × Store (Lane F) :=
  ops.foldl (fun st op => match op with
    | .left r => st.1.addLeftLane r st.2
    | .right r => st.1.addRightLane r st.2) (LaneSection.new s center lanes)

/-- Execute a history of linker calls. The lane sections themselves are dropped. -/
def runLinkerOps (sec : LaneSection F) (ops : List Spec.LinkerOp)
    (st : Store (List LaneLink) × Store (Lane F)) : Store (List LaneLink) × Store (Lane F) :=
  ops.foldl (fun st op => match op with
    | .addLink l p s => (st.1.modify l (LaneLinker.addLink · p s), st.2)
    | .addSection ls => (Lanes.addLanesection [] sec ls st.1 st.2).2) st

end Pyodrx
