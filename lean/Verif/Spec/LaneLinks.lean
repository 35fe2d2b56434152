import Verif.Model.LaneLinks

/-! # Specification: lane links between roads -/

namespace Pyodrx.Spec

variable {F : Type}

/-- Road `b` follows road `a`: `a` names `b` as its successor and `b` names `a` as its predecessor,
both as roads. Ids are equal as Python values. -/
structure Follows (a b : Road F) : Prop where
  succ : ∃ l, a.successor = some l ∧ l.elementType = some .road ∧ l.elementId = b.id
  pred : ∃ l, b.predecessor = some l ∧ l.elementType = some .road ∧ l.elementId = a.id

/-- The lanes of a section are numbered outwards from the centre: 1, 2, ... on the left and
-1, -2, ... on the right (C32: every section built by `add_left_lane`, `add_right_lane`). -/
def Numbered (lanes : Store (Lane F)) (sec : LaneSection F) : Prop :=
  (∀ (i r : Nat), sec.left[i]? = some r → (lanes.cell r).laneId = some ((i : Int) + 1)) ∧
  (∀ (i r : Nat), sec.right[i]? = some r → (lanes.cell r).laneId = some (-((i : Int) + 1)))

/-- The lane link `<successor id="id"/>` or `<predecessor id="id"/>`. -/
def laneLink (k : LinkKind) (id : Int) : Link := ⟨k, .str (strInt id), none, none, none⟩

/-- Between `before` and `after`, the i-th lane of `side` got exactly one new link, of kind `k`, to
the lane number `id i`; nothing else about it changed. -/
def Gains (before after : Store (Lane F)) (k : LinkKind) (side : List Nat) (id : Nat → Int) : Prop :=
  ∀ i r, side[i]? = some r →
    after.cell r = { before.cell r with links := (before.cell r).links ++ [laneLink k (id i)] }

/-- Between `before` and `after`, the i-th lane of `side` got exactly one new link, of kind `k`, to
the number of the i-th lane of `other`; nothing else about it changed. -/
def GainsTo (before after : Store (Lane F)) (k : LinkKind) (side other : List Nat) : Prop :=
  side.length = other.length ∧ ∀ (i r q : Nat), side[i]? = some r → other[i]? = some q →
    ∃ id, (before.cell q).laneId = some id ∧
      after.cell r = { before.cell r with links := (before.cell r).links ++ [laneLink k id] }

/-- The lanes outside `touched` did not change. -/
def Untouched (before after : Store (Lane F)) (touched : List Nat) : Prop :=
  after.next = before.next ∧ ∀ r, r ∉ touched → after.cell r = before.cell r

/-- The two sections have the same number of lanes on each side. -/
def SameCounts (s t : LaneSection F) : Prop :=
  s.left.length = t.left.length ∧ s.right.length = t.right.length

/-- The section of a road at its start or at its end. -/
def sectionAt (r : Road F) : ContactPoint → Option (LaneSection F)
  | .start => r.lanesections.head?
  | .end => r.lanesections.getLast?

/-- The road has a link (predecessor or successor) to `b`. -/
def LinksTo (a b : Road F) : Prop :=
  ∃ l, (a.predecessor = some l ∨ a.successor = some l) ∧ l.elementId = b.id

/-- Driving through a joint keeps the direction of the lanes: the road's end meets a start or its
start meets an end. -/
def directionSign (own : ContactPoint) (other : Option ContactPoint) : Int :=
  match own, other with
  | .end, some .start => 1
  | .end, _ => -1
  | .start, some .start => -1
  | .start, _ => 1

/-- A joint of two normal roads: `b` follows `a`, the successor link of `a` names the start of `b`,
and `b` is not also the road before `a`. `sa` is the last section of `a`, `sb` the first section of
`b` (the two that touch) and `last` the last section of `b`; the lanes of `sa` are numbered. -/
structure Joint (a b : Road F) (sa sb last : LaneSection F) (lanes : Store (Lane F)) : Prop where
  typeA : a.roadType = -1
  typeB : b.roadType = -1
  follows : Follows a b
  contact : ∀ l, a.successor = some l → l.contactPoint = some .start
  ring : ∀ l, b.successor = some l → l.elementId ≠ a.id
  secA : sectionAt a .end = some sa
  secB : sectionAt b .start = some sb
  lastB : sectionAt b .end = some last
  numA : Numbered lanes sa

/-- The link of a road at its start (predecessor) or end (successor). -/
def linkAt (r : Road F) : ContactPoint → Option Link
  | .start => r.predecessor
  | .end => r.successor

/-- The kind of that link. -/
def kindAt : ContactPoint → LinkKind
  | .start => .predecessor
  | .end => .successor

/-- The other end. -/
def otherEnd : ContactPoint → ContactPoint
  | .start => .end
  | .end => .start

/-- The lane offset given with that link. -/
def laneOffsetAt (r : Road F) : ContactPoint → Int
  | .start => r.laneOffsetPred
  | .end => r.laneOffsetSuc

/-- The connecting road `c` is attached with its end `e` to the normal road `r` by the link `l`; its
other end is linked to some other road. -/
structure Attached (c r : Road F) (e : ContactPoint) (l : Link) : Prop where
  connecting : c.roadType ≠ -1
  normal : r.roadType = -1
  link : linkAt c e = some l
  names : l.elementId = r.id
  other : ∃ m, linkAt c (otherEnd e) = some m ∧ m.elementId ≠ r.id

end Pyodrx.Spec
