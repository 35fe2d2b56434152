import Verif.Spec.Program

/-! # Specification: the lanes of a road with several lane sections -/

namespace Pyodrx.Spec

/-- The distance, to the left, of the outer edge of lane `i` of an ordered section from the reference line, `u` metres after
the start of the section; the outer edge of "lane" 0 is the reference line. -/
noncomputable def _root_.Pyodrx.SectionCall.outer (c : SectionCall ℝ) (u : ℝ) (i : Int) : ℝ :=
  if 0 < i then ((c.left.take i.toNat).map (·.widthAt u)).sum else -((c.right.take (-i).toNat).map (·.widthAt u)).sum

/-- The lane `p` of an ordered road continues in the lane `s`: this is a lane of the next section, and where that starts,
the two have the same inner and the same outer edge. -/
def _root_.Pyodrx.RoadCall.Continues (c : RoadCall ℝ) (p s : LaneName) : Prop :=
  s.1 = p.1 + 1 ∧ ∃ x y, c.sections[p.1]? = some x ∧ c.sections[s.1]? = some y ∧ (x.lane p.2).isSome ∧ (y.lane s.2).isSome ∧
    x.outer (y.s - x.s) p.2 = y.outer 0 s.2 ∧ x.outer (y.s - x.s) (inwards p.2) = y.outer 0 (inwards s.2)

/-- What a link between the lanes `p` and `s` of a road has to fulfil. A reader takes the successor of a lane to be in the next
section and the predecessor in the section before. For a link to the next section this is `c.Continues p s`. -/
def _root_.Pyodrx.RoadCall.LinkFits (c : RoadCall ℝ) (p s : LaneName) : Prop :=
  c.Continues p (p.1 + 1, s.2) ∧ c.Continues (s.1 - 1, p.2) s

/-- In a document: lane `i` of section `j` of the road continues in lane `k` of the next section. -/
def RRoad.Continues (a : RRoad ℝ) (j : Nat) (i k : Int) : Prop :=
  ∃ x y, a.sections[j]? = some x ∧ a.sections[j + 1]? = some y ∧ (∃ l ∈ x.left ++ x.right, l.id = i) ∧
    (∃ l ∈ y.left ++ y.right, l.id = k) ∧
    x.outer (y.s - x.s) i = y.outer 0 k ∧ x.outer (y.s - x.s) (inwards i) = y.outer 0 (inwards k)

/-- Where a link of lane `i` of section `j` of road `a` leads, if it has that tag and names lane `k`: a successor is in the
next section, or in the road that follows the last one; a predecessor in the section before, or in the road before the
first one. It is right if the lane is there and has the same edges. -/
def RDocument.LeadsRight (doc : RDocument ℝ) (a : RRoad ℝ) (j : Nat) (i : Int) (e : ContactPoint) (k : Int) : Prop :=
  match e, j with
  | .end, j => if j + 1 < a.sections.length then a.Continues j i k else
      ∃ b ∈ doc.roads, ∃ e', a.Names .end b e' ∧ Touch a .end i b e' k
  | .start, 0 => ∃ b ∈ doc.roads, ∃ e', a.Names .start b e' ∧ Touch a .start i b e' k
  | .start, j + 1 => a.Continues j k i

/-- Every lane link of the document is right. -/
def RDocument.LaneLinksRight (doc : RDocument ℝ) : Prop :=
  ∀ a ∈ doc.roads, ∀ (j : Nat) s, a.sections[j]? = some s → ∀ x ∈ s.left ++ s.right, ∀ l ∈ x.links,
    ∃ e k, l = readLaneLinkTo (linkTag e) k ∧ doc.LeadsRight a j x.id e k

end Pyodrx.Spec
