import Verif.Spec.Generators
import Verif.Spec.Shape

/-! # Specification: the connecting roads of a junction -/

namespace Pyodrx.Spec

/-- `[(i, j) for i in range(n) for j in range(i + 1, n)]` -/
def pairs (n : Nat) : List (Nat × Nat) :=
  (List.range n).flatMap fun i => (List.range' (i + 1) (n - (i + 1))).map fun j => (i, j)

/-- A road that got a link to the junction at its end (successor) or start (predecessor). -/
def joinJunction {F : Type} (junction : Int) (e : ContactPoint) (r : Road F) : Road F :=
  match e with
  | .end =>
    let l : Link := ⟨.successor, .int junction, some .junction, none, none⟩
    { r with successor := some l, links := r.links ++ [l], laneOffsetSuc := 0 }
  | .start =>
    let l : Link := ⟨.predecessor, .int junction, some .junction, none, none⟩
    { r with predecessor := some l, links := r.links ++ [l], laneOffsetPred := 0 }

/-- All lanes of a road. -/
def lanesOf {F : Type} (r : Road F) : List Nat :=
  r.lanesections.flatMap fun s => s.center :: (s.left ++ s.right)

/-- The lane section of road number `i` at the end that is away from the junction: the first road ends
at the junction, all others begin there. -/
def farSection {F : Type} (i : Nat) (r : Road F) : Option (LaneSection F) :=
  if i = 0 then r.lanesections.head? else r.lanesections.getLast?

/-- Roads `create_junction_roads` can handle: the first section of each of them, and the last section
of all but the first road, have `nl` left and `nr` right lanes (any other sections are arbitrary); the
first road has no successor yet (unless it is the only one), the others no predecessor. -/
structure JunctionInput {F : Type} (roads : List (Road F)) (lanes : Store (Lane F)) (nl nr : Nat) :
    Prop where
  first : ∀ (i : Nat) (r : Road F), roads[i]? = some r → ∃ sec, r.lanesections.head? = some sec ∧
    sec.left.length = nl ∧ sec.right.length = nr
  far : ∀ (i : Nat) (r : Road F), roads[i]? = some r → ∃ sec, farSection i r = some sec ∧
    sec.left.length = nl ∧ sec.right.length = nr ∧ ∀ x ∈ sec.left, x < lanes.next
  links : ∀ (i : Nat) (r : Road F), roads[i]? = some r →
    if i = 0 ∧ 2 ≤ roads.length then r.successor = none else r.predecessor = none

/-- The start curvature of the clothoids, one over a million kilometres. -/
noncomputable def startCurvature : ℝ := 1 / 1000000000

/-- The length of the straight connecting roads: twice the distance from the corner of a quarter turn
to its start, where the turn begins with a clothoid up to curvature `1/r` for the part `part` of the
turn. -/
noncomputable def straightLength (r part : ℝ) : ℝ :=
  let θ := Real.pi / 2 * part
  let L := 2 * |θ * r|
  let c := Shape.ofHeading
    (fun s => startCurvature * s + (1 / r - startCurvature) / L * (s ^ 2 / 2)) L
  2 * ((c.dx - r * Real.sin θ) + r + (c.dy - r * (1 - Real.cos θ)))

/-- The geometry of a road that turns by `α`: a straight line if `α = 0`, otherwise a clothoid that
turns by the part `sp` of it, an arc of radius `r` that turns by the part `ap`, and a clothoid. -/
def JunctionPlan (geoms : Store (Geom ℝ)) (pv : PlanView ℝ) (r sp ap α : ℝ) : Prop :=
  (α = 0 ∧ ∃ g, FreshPlan pv [g] ∧ geoms.cell g = .line ⟨straightLength r sp⟩) ∨
  (α ≠ 0 ∧ ∃ g1 g2 g3 σ, FreshPlan pv [g1, g2, g3] ∧
    σ = (if α * sp < 0 ∧ 0 < 1 / r then -1 else 1 : ℝ) ∧
    geoms.cell g1 = .spiral ⟨σ * startCurvature, σ * (1 / r), some (2 * |α * sp| / |1 / r|)⟩ ∧
    geoms.cell g2 = .arc ⟨σ * (1 / r), none, some (σ * (α * ap))⟩ ∧
    geoms.cell g3 = .spiral ⟨σ * (1 / r), σ * startCurvature, some (2 * |α * sp| / |1 / r|)⟩)

/-- The connecting road from road `i` to road `j`, created between the two states. -/
structure ConnectingRoad (roads : List (Road ℝ)) (angles : List ℝ) (r sp ap : ℝ)
    (junction : Int) (nl : Nat) (before after : GenState ℝ) (i j : Nat) (num : Int) (jr : Road ℝ) :
    Prop where
  id : jr.id = .int num
  type : jr.roadType = junction
  links : ∃ ri rj p s, roads[i]? = some ri ∧ roads[j]? = some rj ∧
    p = (⟨.predecessor, ri.id, some .road, some (if i = 0 then .end else .start), none⟩ : Link) ∧
    s = (⟨.successor, rj.id, some .road, some .start, none⟩ : Link) ∧
    jr.predecessor = some p ∧ jr.successor = some s ∧ jr.links = [p, s]
  offsets : jr.laneOffsetPred = 0 ∧ jr.laneOffsetSuc = 0
  empty : jr.objects = [] ∧ jr.signals = [] ∧ jr.name = none ∧ jr.rule = none
  /-- as many lanes on both sides as road `i` has on the left, as wide as its innermost left lane - but
  taken from the end of road `i` that is away from the junction -/
  lanes : ∃ ri risec x sec, roads[i]? = some ri ∧ farSection i ri = some risec ∧
    risec.left.head? = some x ∧ jr.lanesections = [sec] ∧
    BuiltSection before.lanes after.lanes sec (before.lanes.cell x).a nl nl (PlainMark .broken)
      (fun _ => .broken) (fun _ => .broken)
  plan : ∃ ai aj, angles[i]? = some ai ∧ angles[j]? = some aj ∧
    JunctionPlan after.geoms jr.planview r sp ap (aj - ai - Real.pi)
  /-- the geometry objects are new -/
  newGeoms : ∀ g ∈ jr.planview.raw, before.geoms.next ≤ g ∧ g < after.geoms.next

/-- The numbers of the lanes of a section: the right ones outwards, then the left ones outwards. -/
def laneNumbers {F : Type} (sec : LaneSection F) : List Int :=
  ((List.range sec.right.length).map fun i : Nat => -((i : Int) + 1)) ++
  ((List.range sec.left.length).map fun i : Nat => (i : Int) + 1)

/-- The connection of a junction for the end `e` of the connecting road `c`. One lane link per lane of
`c` at that end; the direction is kept or reversed as at every joint; the lane offset given with the
link of `c` shifts the lane of the incoming road at a start, but the lane of `c` at an end. -/
structure ConnectionAt {F : Type} (c : Road F) (e : ContactPoint) (id : Int) (conn : Connection) :
    Prop where
  id : conn.id = some id
  connecting : conn.connectingRoad = c.id
  contact : conn.contactPoint = e
  incoming : ∃ l sec, linkAt c e = some l ∧ sectionAt c e = some sec ∧
    conn.incomingRoad = l.elementId ∧
    conn.links = (laneNumbers sec).map fun m =>
      if e = .end then (m, directionSign e l.contactPoint * m + laneOffsetAt c e)
      else (m + laneOffsetAt c e, directionSign e l.contactPoint * m)

/-- A connecting road between two different normal roads of the list. -/
structure Connects {F : Type} (roads : List (Road F)) (c : Road F) : Prop where
  ends : ∃ p s, c.predecessor = some p ∧ c.successor = some s ∧ p.elementId ≠ s.elementId ∧
    (∃ r ∈ roads, r.id = p.elementId) ∧ (∃ r ∈ roads, r.id = s.elementId)
  lanes : c.lanesections ≠ []

end Pyodrx.Spec
