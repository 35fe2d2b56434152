import Verif.Spec.Junction
import Verif.Spec.NetworkLinks
import Verif.Model.Examples

/-! # Specification: a junction built from any number of roads -/

namespace Pyodrx.Spec

/-- A normal road that is not linked to anything yet, with one lane section of `nl` left and `nr`
right lanes, laid out as the pieces `pcs`. -/
structure Arm (st : GenState ℝ) (nl nr : Nat) (pcs : List Piece) (r : Road ℝ) : Prop where
  normal : r.roadType = -1
  unlinked : r.predecessor = none ∧ r.successor = none
  offsets : r.laneOffsetPred = 0 ∧ r.laneOffsetSuc = 0
  plan : FreshPlan r.planview (pcs.map (·.ref))
  shapes : Describes st.geoms pcs
  headings : ∀ pc ∈ pcs, pc.heading = none
  /-- the objects exist -/
  geoms : ∀ pc ∈ pcs, pc.ref < st.geoms.next
  section' : ∃ sec, r.lanesections = [sec] ∧ sec.left.length = nl ∧ sec.right.length = nr ∧
    Numbered st.lanes sec ∧ ∀ x ∈ sec.left ++ sec.right, x < st.lanes.next

/-- At least two such roads, to be joined by a junction; the numbers `startnum`, `startnum + 1`, ...
of the connecting roads are not the ids of roads. -/
structure Arms (st : GenState ℝ) (nl nr : Nat) (pcs : Nat → List Piece) (startnum : Int)
    (roads : List (Road ℝ)) : Prop where
  two : 2 ≤ roads.length
  arm : ∀ (i : Nat) (r : Road ℝ), roads[i]? = some r → Arm st nl nr (pcs i) r
  ids : (roads.map fun r => r.id.toStr).Nodup
  free : ∀ (i idx : Nat) (r : Road ℝ), roads[i]? = some r → idx < (pairs roads.length).length →
    r.id.toStr ≠ strInt (startnum + idx)

/-- The ids of all roads of the document: the given ones, then the connecting ones. -/
def allIds (roads : List (Road ℝ)) (startnum : Int) : List String :=
  (roads.map fun r => r.id.toStr) ++
    (List.range (pairs roads.length).length).map fun idx : Nat => strInt (startnum + idx)

/-- The angle by which the connecting road from road `i` to road `j` is asked to turn. -/
noncomputable def nominal (angles : List ℝ) (i j : Nat) : ℝ :=
  (angles[j]?).getD 0 - (angles[i]?).getD 0 - Real.pi

/-- In the network, the road with this id has been laid out from `p` to `q`. -/
def Stands (net : Net ℝ) (id : String) (p q : Pose ℝ) : Prop :=
  ∃ r, net.roads.get? id = some r ∧ r.planview.adjusted = true ∧
    r.planview.start = some p ∧ r.planview.stop = some q

/-- How much of the nominal angle a connecting road turns: its arc and its two clothoids, with the
tiny start curvature of the clothoids. -/
noncomputable def turnFactor (r sp ap : ℝ) : ℝ := ap + 2 * sp * (1 + r / 1000000000)

/-- Drive `t` straight on, turn by `τ` on the spot, drive `t` straight on. -/
noncomputable def corner (t τ : ℝ) (p : Pose ℝ) : Pose ℝ :=
  ⟨p.x + t * Real.cos p.h + t * Real.cos (p.h + τ), p.y + t * Real.sin p.h + t * Real.sin (p.h + τ),
   p.h + τ⟩

/-- Clothoid, arc of radius `r`, clothoid to the left, for the nominal angle `a > 0`. -/
noncomputable def leftTurn (r sp ap a : ℝ) : List Piece :=
  let L := 2 * (a * sp) * r
  [⟨0, .ofHeading (fun s => startCurvature * s + (1 / r - startCurvature) / L * (s ^ 2 / 2)) L, none⟩,
   ⟨0, .ofHeading (fun s => 1 / r * s) (a * ap * r), none⟩,
   ⟨0, .ofHeading (fun s => 1 / r * s + (startCurvature - 1 / r) / L * (s ^ 2 / 2)) L, none⟩]

/-- The distance from the ends of a connecting road with nominal angle `a` or `-a` to the corner where
its tangents meet. -/
noncomputable def tangent (r sp ap a : ℝ) : ℝ :=
  if a = 0 then straightLength r sp / 2
  else (finish ⟨0, 0, 0⟩ (leftTurn r sp ap a)).x / (1 + Real.cos (a * turnFactor r sp ap))

/-- The junction program has placed all roads: the first road at the origin; a connecting road from
the first road begins at its end, and the road it leads to begins at its end; every other connecting
road begins at the start of a road. The poses `start i` are those of the starts of the given roads. -/
structure Placed (roads : List (Road ℝ)) (pcs : Nat → List Piece) (angles : List ℝ) (r sp ap : ℝ)
    (startnum : Int) (net : Net ℝ) (start : Nat → Pose ℝ) : Prop where
  origin : start 0 = ⟨0, 0, 0⟩
  arms : ∀ (i : Nat) (a : Road ℝ), roads[i]? = some a →
    Stands net a.id.toStr (start i) (finish (start i) (pcs i))
  connecting : ∀ (idx i j : Nat), (pairs roads.length)[idx]? = some (i, j) → ∃ p q,
    Stands net (strInt (startnum + idx)) p q ∧
    p = (if i = 0 then finish (start 0) (pcs 0) else turned (start i)) ∧
    (i = 0 → q = start j) ∧
    q.h = p.h + nominal angles i j * turnFactor r sp ap ∧
    (1 + Real.cos (nominal angles i j * turnFactor r sp ap) ≠ 0 →
      q = corner (tangent r sp ap |nominal angles i j|) (nominal angles i j * turnFactor r sp ap) p)

/-- The lanes of the connecting road from road `i` to road `j` continue the lanes of both: lane `m`
has as predecessor lane `m` of the first road (or lane `-m` of another road, which is entered at its
start), and as successor lane `m` of road `j`. -/
structure LaneLinked (lanes : Store (Lane ℝ)) (i : Nat) (m : Int) (x : Nat) : Prop where
  number : (lanes.cell x).laneId = some m
  pred : (lanes.cell x).links.filter (·.kind = .predecessor) =
    [laneLink .predecessor (if i = 0 then m else -m)]
  succ : (lanes.cell x).links.filter (·.kind = .successor) = [laneLink .successor m]
  only : ∀ l ∈ (lanes.cell x).links, l.kind = .predecessor ∨ l.kind = .successor

/-- The tangent of the connecting road from road `i` to road `j`. -/
noncomputable def tangentOf (angles : List ℝ) (r sp ap : ℝ) (i j : Nat) : ℝ :=
  tangent r sp ap |nominal angles i j|

/-- The two poses are at most `d` apart in x and in y, and differ in heading by at most `e`. -/
def Near (d e : ℝ) (p q : Pose ℝ) : Prop := |p.x - q.x| ≤ d ∧ |p.y - q.y| ≤ d ∧ |p.h - q.h| ≤ e

/-- Every two roads meet at a right angle or are opposite to each other. -/
def RightAngled (n : Nat) (angles : List ℝ) : Prop :=
  ∀ i j, i < j → j < n → |nominal angles i j| = Real.pi / 2 ∨ nominal angles i j = 0

end Pyodrx.Spec
