import Verif.Spec.LaneLinks
import Verif.Spec.Network

/-! # Specification: the lane links of a whole network -/

namespace Pyodrx.Spec

variable {F : Type}

/-- The number of a lane (0 if it has none yet). -/
def numberOf (lanes : Store (Lane F)) (r : Nat) : Int := ((lanes.cell r).laneId).getD 0

/-- One link of kind `k` for each lane of `side`, to the number of the lane at the same place in
`other`, multiplied by `s` and shifted by `off`. -/
def toward (lanes : Store (Lane F)) (k : LinkKind) (s off : Int) (side other : List Nat) :
    List (Nat × Link) :=
  (side.zip other).map fun x => (x.1, laneLink k (numberOf lanes x.2 * s + off))

/-- The lane links at the joint of the end of `a` with the start of `b`. -/
def jointLinks (lanes : Store (Lane F)) (a b : Road F) : List (Nat × Link) :=
  match sectionAt a .end, sectionAt b .start with
  | some sa, some sb =>
    toward lanes .successor 1 0 sa.left sb.left ++ toward lanes .successor 1 0 sa.right sb.right ++
    (toward lanes .predecessor 1 0 sb.left sa.left ++
     toward lanes .predecessor 1 0 sb.right sa.right)
  | _, _ => []

/-- The lane links of the connecting road `c` at its end `e` if that end is linked to `r`: to the
lanes of the section of `r` at the contact point. -/
def connectionLinks (lanes : Store (Lane F)) (c r : Road F) (e : ContactPoint) : List (Nat × Link) :=
  match linkAt c e, sectionAt c e with
  | some l, some csec =>
    if l.elementId = r.id then
      match sectionAt r (l.contactPoint.getD .end) with
      | some t =>
        toward lanes (kindAt e) (directionSign e l.contactPoint) (laneOffsetAt c e) csec.left t.left ++
        toward lanes (kindAt e) (directionSign e l.contactPoint) (laneOffsetAt c e) csec.right t.right
      | none => []
    else []
  | _, _ => []

open Classical in
/-- All lane links that a network must get on account of road `a` and road `b`, in this order: those
of the joint if both are normal roads and `b` follows `a`; those of the connecting road `a` if `b`
is a normal road. The number `x.1` of an entry `x` is the lane, `x.2` its link. -/
noncomputable def dueLinks (lanes : Store (Lane F)) (a b : Road F) : List (Nat × Link) :=
  (if a.roadType = -1 ∧ b.roadType = -1 ∧ Follows a b then jointLinks lanes a b else []) ++
  (if a.roadType ≠ -1 ∧ b.roadType = -1 then
    connectionLinks lanes a b .start ++ connectionLinks lanes a b .end else [])

/-- All ordered pairs of different keys. -/
def orderedPairs (keys : List String) : List (String × String) :=
  keys.flatMap fun a => (keys.filter (· ≠ a)).map fun b => (a, b)

/-- The links due for lane `x` in the whole network. -/
noncomputable def dueAt (roads : Dict (Road F)) (lanes : Store (Lane F)) (x : Nat) : List Link :=
  (orderedPairs roads.keys).flatMap fun k =>
    match roads.get? k.1, roads.get? k.2 with
    | some a, some b => ((dueLinks lanes a b).filter (·.1 = x)).map (·.2)
    | _, _ => []

/-- The lane counts and links of a network fit together. -/
structure Linkable (roads : Dict (Road F)) (lanes : Store (Lane F)) : Prop where
  /-- consecutive normal roads: the sections that touch are numbered and have the same number of
  lanes; so has the last section of the second road, which is the one compared by the code -/
  joints : ∀ k1 k2 a b, k1 ≠ k2 → roads.get? k1 = some a → roads.get? k2 = some b →
    a.roadType = -1 → b.roadType = -1 → Follows a b → ∃ sa sb last, Joint a b sa sb last lanes ∧
      Numbered lanes sb ∧ SameCounts sa sb ∧ SameCounts sa last
  /-- connecting roads lead from one road to another -/
  ends : ∀ k c, roads.get? k = some c → c.roadType ≠ -1 →
    ∃ p s, c.predecessor = some p ∧ c.successor = some s ∧ p.elementId ≠ s.elementId
  /-- namely to normal roads -/
  normal : ∀ k1 k2 c r, roads.get? k1 = some c → roads.get? k2 = some r → c.roadType ≠ -1 →
    LinksTo c r → r.roadType = -1
  /-- which have enough numbered lanes for it at the contact point; so has their first (last)
  section for a connecting road that starts (ends) there, which is the one used by the code -/
  lanes : ∀ k1 k2 c r e l, roads.get? k1 = some c → roads.get? k2 = some r → c.roadType ≠ -1 →
    linkAt c e = some l → l.elementId = r.id → ∃ csec used touching,
      sectionAt c e = some csec ∧ sectionAt r e = some used ∧
      sectionAt r (l.contactPoint.getD .end) = some touching ∧
      Numbered lanes used ∧ Numbered lanes touching ∧
      csec.left.length ≤ used.left.length ∧ csec.right.length ≤ used.right.length ∧
      csec.left.length ≤ touching.left.length ∧ csec.right.length ≤ touching.right.length

/-- No lane object is used twice: the lanes of a section are different, and no lane is in two
sections of the network. -/
structure Unshared (roads : Dict (Road F)) : Prop where
  within : ∀ k r s, roads.get? k = some r → s ∈ r.lanesections → (s.left ++ s.right).Nodup
  between : ∀ k k' r r' (i j : Nat) s s' x, roads.get? k = some r → roads.get? k' = some r' →
    r.lanesections[i]? = some s → r'.lanesections[j]? = some s' →
    x ∈ s.left ++ s.right → x ∈ s'.left ++ s'.right → k = k' ∧ i = j

/-- Every road is stored under its id, as `add_road` does (C24). -/
def ById (roads : Dict (Road F)) : Prop := ∀ k r, roads.get? k = some r → r.id.toStr = k

/-- The links of kind `k` that lane `x` has in `after` but not in `before`. -/
def newLinks (before after : Store (Lane F)) (x : Nat) (k : LinkKind) : List Link :=
  ((after.cell x).links.drop (before.cell x).links.length).filter (·.kind = k)

end Pyodrx.Spec
