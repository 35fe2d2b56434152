import Verif.Spec.ReadNetwork
import Verif.Spec.NetworkLinks

/-! # Specification: linked lanes of a document touch -/

namespace Pyodrx.Spec

/-- The width of a lane, `u` metres after the start of its lane section: a cubic polynomial in the distance from
the start of the width record. -/
noncomputable def RLane.widthAt (l : RLane ℝ) (u : ℝ) : ℝ :=
  l.a + l.b * (u - l.sOffset) + l.c * (u - l.sOffset) ^ 2 + l.d * (u - l.sOffset) ^ 3

/-- What a lane adds to the distance, to the left, of the outer edge of lane `i` from the reference line. Left lanes
have the numbers 1, 2, ... from the reference line outwards, right lanes -1, -2, .... -/
noncomputable def RLane.share (i : Int) (u : ℝ) (l : RLane ℝ) : ℝ :=
  if 0 < l.id ∧ l.id ≤ i then l.widthAt u else if i ≤ l.id ∧ l.id < 0 then -l.widthAt u else 0

/-- The distance of the outer edge of lane `i` from the reference line (to the left; negative to the right). The
outer edge of "lane" 0 is the reference line. -/
noncomputable def RSection.outer (s : RSection ℝ) (u : ℝ) (i : Int) : ℝ :=
  ((s.left ++ s.right).map (RLane.share i u)).sum

/-- The next lane towards the reference line: its outer edge is the inner edge of lane `i`. -/
def inwards (i : Int) : Int := if 0 < i then i - 1 else i + 1

/-- The lane section at an end of a road. -/
def RRoad.sectionAt (r : RRoad ℝ) : ContactPoint → Option (RSection ℝ)
  | .start => r.sections.head?
  | .end => r.sections.getLast?

/-- The distance of an end from the start of the road. -/
def RRoad.stationAt (r : RRoad ℝ) : ContactPoint → ℝ
  | .start => 0
  | .end => r.length

/-- The point, at an end of the road, at the outer edge of lane `i`. -/
noncomputable def RRoad.edge (r : RRoad ℝ) (e : ContactPoint) (i : Int) : Option (ℝ × ℝ) :=
  match r.sectionAt e, r.poseAt e with
  | some s, some p =>
    let t := s.outer (r.stationAt e - s.s) i
    some (p.x - t * Real.sin p.h, p.y + t * Real.cos p.h)
  | _, _ => none

/-- At that end, the road has a lane with the number `i`, and it is `w` wide there. -/
def RRoad.HasLane (r : RRoad ℝ) (e : ContactPoint) (i : Int) (w : ℝ) : Prop :=
  ∃ s, r.sectionAt e = some s ∧ ∃ l ∈ s.left ++ s.right, l.id = i ∧ l.widthAt (r.stationAt e - s.s) = w

/-- Lane `i` of road `a` leads into lane `j` of road `b`: where the end `e` of `a` is, the end `e'` of `b` has a lane
with that number, and the two lanes have the same inner and the same outer edge. -/
structure Touch (a : RRoad ℝ) (e : ContactPoint) (i : Int) (b : RRoad ℝ) (e' : ContactPoint) (j : Int) : Prop where
  lane : (∃ w, a.HasLane e i w) ∧ ∃ w, b.HasLane e' j w
  outer : ∃ P, a.edge e i = some P ∧ b.edge e' j = some P
  inner : ∃ P, a.edge e (inwards i) = some P ∧ b.edge e' (inwards j) = some P

/-- Road `a` has, for its end `e`, a link to the end `e'` of road `b`. -/
def RRoad.Names (a : RRoad ℝ) (e : ContactPoint) (b : RRoad ℝ) (e' : ContactPoint) : Prop :=
  ∃ l ∈ a.links, l.tag = linkTag e ∧ l.elementType ≠ some .junction ∧ l.id = b.id ∧ l.contactPoint = some e'

/-- Whether the left side of one road continues on the left side (1) or on the right side (-1) of the other: it does
so on the left if an end meets a start. -/
def turnSign (e e' : ContactPoint) : Int := if e = e' then -1 else 1

/-- Every lane of `a` at its end `e` has a counterpart of the same width on the same side of `b`. -/
def CrossSectionsAgree (a : RRoad ℝ) (e : ContactPoint) (b : RRoad ℝ) (e' : ContactPoint) : Prop :=
  ∀ i w, a.HasLane e i w → b.HasLane e' (turnSign e e' * i) w

/-- The lanes at that end are numbered without gaps, each number once. -/
def RRoad.Counted (r : RRoad ℝ) (e : ContactPoint) : Prop :=
  ∀ s, r.sectionAt e = some s → ((s.left ++ s.right).map (·.id)).Nodup ∧
    ∀ l ∈ s.left ++ s.right, l.id ≠ 0 ∧
      ∀ i : Int, (0 < i ∧ i < l.id ∨ l.id < i ∧ i < 0) → ∃ m ∈ s.left ++ s.right, m.id = i

/-- Every lane at that end is `w` wide. -/
def RRoad.AllWide (r : RRoad ℝ) (e : ContactPoint) (w : ℝ) : Prop := ∀ i v, r.HasLane e i v → v = w

/-- The links say which ends meet: a link that is not to a junction is to a road of the network; connecting roads are
linked to roads, with a contact point, and a road that follows another one starts at its end. -/
structure Directed {F : Type} (roads : Dict (Road F)) : Prop where
  named : ∀ k r e l, roads.get? k = some r → linkAt r e = some l → l.elementType ≠ some .junction →
    l.elementType = some .road ∧ ∃ k' r', roads.get? k' = some r' ∧ l.elementId = r'.id
  connecting : ∀ k c e l, roads.get? k = some c → c.roadType ≠ -1 → linkAt c e = some l →
    l.elementType ≠ some .junction ∧ ∃ e', l.contactPoint = some e'
  follows : ∀ k1 k2 a b, roads.get? k1 = some a → roads.get? k2 = some b → a.roadType = -1 → b.roadType = -1 →
    Follows a b → ∀ l, b.predecessor = some l → l.contactPoint = some .end

end Pyodrx.Spec
