import Verif.Spec.ReadNetwork
import Verif.Spec.JunctionProgram

/-! # Specification: what a reader finds of a junction in a document -/

namespace Pyodrx.Spec

/-- The end at which the i-th of the given roads is joined to the junction: the first road leads to it,
the others lead away from it. -/
def junctionEnd (i : Nat) : ContactPoint := if i = 0 then .end else .start

/-- The links of a lane with the given tag. -/
def RLane.linksTo {F : Type} (l : RLane F) (tag : String) : List RLink := l.links.filter (·.tag = tag)

/-- A lane link, as it is read. -/
def readLaneLinkTo (tag : String) (lane : Int) : RLink := ⟨tag, strInt lane, none, none, none⟩

/-- The numbers of `nl` lanes on each side: the right ones outwards, then the left ones outwards. -/
def bothSides (nl : Nat) : List Int :=
  ((List.range nl).map fun i : Nat => -((i : Int) + 1)) ++ ((List.range nl).map fun i : Nat => (i : Int) + 1)

/-- The connecting road `c` from the i-th road `a` to the road `b`, with `nl` lanes on each side: it is linked to both,
begins at `a`, and each of its lanes is linked to the lane it continues. -/
structure RRoad.ConnectsAt (junction : Int) (nl i : Nat) (c a b : RRoad ℝ) : Prop where
  junction : c.junction = junction
  links : c.links = [⟨"predecessor", a.id, some .road, some (junctionEnd i), none⟩,
    ⟨"successor", b.id, some .road, some .start, none⟩]
  begins : ∃ p q, c.poseAt .start = some p ∧ a.poseAt (junctionEnd i) = some q ∧ Meets 0 .start p (junctionEnd i) q
  /-- the roads from the first road also end at the road they lead to -/
  ends : i = 0 → ∃ p q, c.poseAt .end = some p ∧ b.poseAt .start = some q ∧ Meets 0 .end p .start q
  lanes : ∃ sec, c.sections = [sec] ∧
    sec.left.map RLane.id = (List.range nl).map (fun m : Nat => (m : Int) + 1) ∧
    sec.right.map RLane.id = (List.range nl).map (fun m : Nat => -((m : Int) + 1)) ∧
    ∀ l ∈ sec.left ++ sec.right,
      l.linksTo "predecessor" = [readLaneLinkTo "predecessor" (if i = 0 then l.id else -l.id)] ∧
      l.linksTo "successor" = [readLaneLinkTo "successor" l.id] ∧
      ∀ k ∈ l.links, k.tag = "predecessor" ∨ k.tag = "successor"

/-- The document shows a junction with the id `junction` of the roads with the ids `ids`. The connecting roads,
one per pair of roads, have the ids from `startnum` on and `nl` lanes on each side. -/
structure RDocument.ShowsJunction (doc : RDocument ℝ) (ids : List String) (junction startnum : Int) (nl : Nat) : Prop where
  roads : doc.roads.map RRoad.id =
    ids ++ (List.range (pairs ids.length).length).map fun idx : Nat => strInt (startnum + idx)
  oneLine : ∀ rd ∈ doc.roads, rd.OneLine
  given : ∀ (i : Nat) (id : String), ids[i]? = some id → ∃ a ∈ doc.roads, a.id = id ∧ a.junction = -1 ∧
    (⟨linkTag (junctionEnd i), strInt junction, some .junction, none, none⟩ : RLink) ∈ a.links
  connecting : ∀ (idx i j : Nat) (a b : RRoad ℝ), (pairs ids.length)[idx]? = some (i, j) → a ∈ doc.roads →
    ids[i]? = some a.id → b ∈ doc.roads → ids[j]? = some b.id → ∃ c ∈ doc.roads, c.id = strInt (startnum + idx) ∧
      c.ConnectsAt junction nl i a b
  /-- the junction lists both ends of every connecting road -/
  junction : ∃ jn, doc.junctions = [jn] ∧ jn.name = "my junction" ∧ jn.id = strInt junction ∧
    jn.connections.length = 2 * (pairs ids.length).length ∧
    ∀ (idx i j : Nat) (a b : String), (pairs ids.length)[idx]? = some (i, j) → ids[i]? = some a → ids[j]? = some b →
      jn.connections[2 * idx]? = some ⟨strInt (2 * idx), b, strInt (startnum + idx), .end,
        (bothSides nl).map fun m => (m, m)⟩ ∧
      jn.connections[2 * idx + 1]? = some ⟨strInt (2 * idx + 1), a, strInt (startnum + idx), .start,
        (bothSides nl).map fun m => (m, if i = 0 then m else -m)⟩

/-- Where a connecting road of the document has a successor, the gap between them is at most `d` in x and y and
`e` in the heading. -/
def RDocument.Closes (doc : RDocument ℝ) (d e : ℝ) : Prop :=
  ∀ c ∈ doc.roads, ∀ b ∈ doc.roads, c.junction ≠ -1 →
    (∃ l ∈ c.links, l.tag = "successor" ∧ l.id = b.id) →
    ∃ p q, c.poseAt .end = some p ∧ b.poseAt .start = some q ∧ Near d e p q

/-- The parts of a road are complete, so that it can be emitted and read: its lanes have numbers, its marks and signals
come from the constructors, and it has geometries, whose pRange is one of the two that OpenDRIVE knows. -/
structure Complete (st : GenState ℝ) (so : SOState ℝ) (pcs : List Piece) (r : Road ℝ) : Prop where
  geometry : pcs ≠ []
  range : ∀ pc ∈ pcs, ∀ g, st.geoms.cell pc.ref = .poly g → g.prange = "normalized" ∨ g.prange = "arcLength"
  lanes : ∀ sec ∈ r.lanesections, ∀ x ∈ sec.left ++ [sec.center] ++ sec.right, x < st.lanes.next ∧
    (st.lanes.cell x).laneId ≠ none ∧
    ∀ m, (st.lanes.cell x).roadmark = some m → m.line.isSome → m.width.isSome
  signals : ∀ i ∈ r.signals, (so.sigs.cell i).base.typ = .str (so.sigs.cell i).type

end Pyodrx.Spec
