import Verif.Model.Program
import Verif.Spec.Touch
import Verif.Spec.Tree
import Verif.Spec.ReadJunction
import Verif.Spec.Shown

/-! # Specification: programs that describe a network which fits together -/

namespace Pyodrx.Spec

variable {F : Type}

/-- The link given at an end of a road. -/
def _root_.Pyodrx.RoadCall.link (c : RoadCall F) : ContactPoint → Option LinkCall
  | .start => c.pred
  | .end => c.succ

/-- The end `e` of the road `c` is linked to the end `e'` of the road number `k`, with a lane offset of `n`. -/
def _root_.Pyodrx.RoadCall.Joins (c : RoadCall F) (e : ContactPoint) (k : Int) (e' : ContactPoint) (n : Int) : Prop :=
  c.link e = some ⟨.road, k, some e', n⟩

section
variable [PyFloat F]
open PyFloat

/-- The lanes that `create_road` makes on one side: driving lanes of constant width; the outermost has a solid line, the
others have a broken one. -/
def madeLanes (n : Nat) (w : F) : List (LaneCall F) :=
  (List.range n).map fun i => ⟨.driving, w, ofInt 0, ofInt 0, ofInt 0, ofInt 0,
    some (stdRoadmark (if i + 1 = n then .solid else .broken))⟩

/-- The lane sections of the road. -/
def _root_.Pyodrx.RoadCall.sections (c : RoadCall F) : List (SectionCall F) :=
  match c.lanes with
  | .made l r w => [⟨ofInt 0, madeLanes l w, madeLanes r w⟩]
  | .drawn _ _ ss _ => ss

/-- The centre lane of the road. -/
def _root_.Pyodrx.RoadCall.center (c : RoadCall F) : LaneCall F :=
  match c.lanes with
  | .made _ _ _ => ⟨.driving, ofInt 0, ofInt 0, ofInt 0, ofInt 0, ofInt 0, some stdSolid⟩
  | .drawn _ l _ _ => l

end

/-- The links between lanes of the road. -/
def _root_.Pyodrx.RoadCall.laneLinks (c : RoadCall F) : List (LaneName × LaneName) :=
  match c.lanes with
  | .made _ _ _ => []
  | .drawn _ _ _ ls => ls

/-- The road is made by `create_road`. -/
def _root_.Pyodrx.RoadCall.Made (c : RoadCall F) : Prop := ∃ l r w, c.lanes = .made l r w

/-- The place where the road starts, if the program says so. -/
def _root_.Pyodrx.RoadCall.start (c : RoadCall F) : Option (Pose F) :=
  match c.lanes with
  | .made _ _ _ => none
  | .drawn p _ _ _ => p

/-- The road number `k` is not put at another one: the program says where it starts, or the program says this of no road
and it is the first one. -/
def Begins (calls : List (RoadCall F)) (k : Int) : Prop :=
  (∃ c ∈ calls, c.id = k ∧ c.start.isSome) ∨ (∀ c ∈ calls, c.start = none) ∧ (calls.map (·.id)).head? = some k

/-- Lane number `i` of a section: left lanes have the numbers 1, 2, ..., right lanes -1, -2, ..., outwards. -/
def _root_.Pyodrx.SectionCall.lane (c : SectionCall F) (i : Int) : Option (LaneCall F) :=
  if 0 < i then c.left[(i - 1).toNat]? else if i < 0 then c.right[(-i - 1).toNat]? else none

/-- The lane of that name. -/
def _root_.Pyodrx.RoadCall.lane [PyFloat F] (c : RoadCall F) (n : LaneName) : Option (LaneCall F) :=
  match c.sections[n.1]? with
  | none => none
  | some s => s.lane n.2

/-- The width of a lane, `u` metres after the start of its section. -/
noncomputable def _root_.Pyodrx.LaneCall.widthAt (c : LaneCall ℝ) (u : ℝ) : ℝ :=
  c.a + c.b * (u - c.soffset) + c.c * (u - c.soffset) ^ 2 + c.d * (u - c.soffset) ^ 3

/-- The lane section at an end of the road. -/
noncomputable def _root_.Pyodrx.RoadCall.sectionAt (c : RoadCall ℝ) : ContactPoint → Option (SectionCall ℝ)
  | .start => c.sections.head?
  | .end => c.sections.getLast?

/-- The length of the road. -/
noncomputable def _root_.Pyodrx.RoadCall.length (c : RoadCall ℝ) : ℝ :=
  (c.geometry.map fun g => ((shapeOf g).map Shape.len).getD 0).sum

/-- The distance of an end from the start of the road. -/
noncomputable def _root_.Pyodrx.RoadCall.stationAt (c : RoadCall ℝ) : ContactPoint → ℝ
  | .start => 0
  | .end => c.length

/-- At that end, the road has a lane number `i`, and it is `w` wide there. -/
def _root_.Pyodrx.RoadCall.HasLane (c : RoadCall ℝ) (e : ContactPoint) (i : Int) (w : ℝ) : Prop :=
  ∃ s l, c.sectionAt e = some s ∧ s.lane i = some l ∧ l.widthAt (c.stationAt e - s.s) = w

/-- An end of the road with that number. -/
abbrev CallEnd := Int × ContactPoint

/-- The calls describe a network that fits together. `L` lists its joints from the roads that begin outwards: an entry
`((k, e), (nb, e'))` says that the end `e` of road `k` is to be put at the end `e'` of road `nb`. -/
structure Sound (calls : List (RoadCall ℝ)) (L : List (CallEnd × CallEnd)) : Prop where
  /-- the ids are different -/
  ids : (calls.map (·.id)).Nodup
  /-- there are roads, and those that begin are normal ones -/
  first : calls ≠ [] ∧ ∀ c ∈ calls, Begins calls c.id → c.roadType = -1
  /-- every road has geometries that can be evaluated; those given to `create_road` have a length (C45) -/
  geometry : ∀ c ∈ calls, c.geometry ≠ [] ∧ ∀ g ∈ c.geometry, (c.Made → g.length.isSome) ∧ (shapeOf g).isSome ∧
    ∀ p, g = .poly p → p.prange = "normalized" ∨ p.prange = "arcLength"
  /-- and lanes -/
  sections : ∀ c ∈ calls, c.sections ≠ []
  /-- road marks with a line have a width (as `RoadMark(...)` guarantees) -/
  marks : ∀ c ∈ calls, ∀ l, l = c.center ∨ (∃ n, c.lane n = some l) → ∀ m, l.mark = some m → m.line.isSome → m.width.isSome
  /-- links between lanes of a road lead from a lane to a lane of a later section -/
  inner : ∀ c ∈ calls, ∀ p s, (p, s) ∈ c.laneLinks → p.1 < s.1 ∧ (c.lane p).isSome ∧ (c.lane s).isSome
  /-- every id named in a link is the id of a road (the code looks up the ids of junctions among the roads, C23) -/
  named : ∀ c ∈ calls, ∀ e l, c.link e = some l → l.id ∈ calls.map (·.id)
  /-- links to roads say at which end -/
  contact : ∀ c ∈ calls, ∀ e l, c.link e = some l → l.elementType = .road → l.contact ≠ none
  /-- normal roads have no lane offsets, and are linked to normal roads (or to junctions) -/
  normal : ∀ c ∈ calls, c.roadType = -1 → ∀ e l, c.link e = some l → l.offset = 0 ∧
    (l.elementType = .road → ∀ d ∈ calls, d.id = l.id → d.roadType = -1)
  /-- two normal roads that name each other, the second as successor of the first: end meets start, and there they have
  the same lanes; the second road has the same number of lanes at its other end (which is compared by the code, C30), and
  does not lead back to the first -/
  joint : ∀ a ∈ calls, ∀ b ∈ calls, ∀ e e' n n', a.roadType = -1 → b.roadType = -1 →
    a.Joins .end b.id e n → b.Joins .start a.id e' n' → e = .start ∧ e' = .end ∧
      (∀ i w, a.HasLane .end i w ↔ b.HasLane .start i w) ∧
      (∀ i, (∃ w, b.HasLane .start i w) ↔ ∃ w, b.HasLane .end i w) ∧ ∀ l, b.succ = some l → l.id ≠ a.id
  /-- connecting roads lead from one road to another -/
  connecting : ∀ c ∈ calls, c.roadType ≠ -1 → ∃ k e n k' e' n',
    c.Joins .start k e n ∧ c.Joins .end k' e' n' ∧ k ≠ k'
  /-- namely to normal roads with enough lanes (at both ends, C30): the lane to which each lane leads exists, and has the same width
  if there is no lane offset -/
  lanes : ∀ c ∈ calls, c.roadType ≠ -1 → ∀ e k e' n, c.Joins e k e' n → ∀ d ∈ calls, d.id = k →
    d.roadType = -1 ∧ ∀ i w, c.HasLane e i w → (∀ f, ∃ w', d.HasLane f i w') ∧
      ∃ w', d.HasLane e' (turnSign e e' * i + n) w' ∧ (n = 0 → w' = w)
  /-- a lane offset does not reverse or cross the reference line, is given to the road that is put somewhere, and lanes
  are 3 wide (C74) -/
  offset : ∀ c ∈ calls, c.roadType ≠ -1 → ∀ e k e' n, c.Joins e k e' n → n ≠ 0 →
    e ≠ e' ∧ (∀ i w, c.HasLane e i w → w = 3 ∧ (0 < i ↔ 0 < i + n)) ∧
      (∀ d ∈ calls, d.id = k → ∀ i w, d.HasLane e' i w → w = 3) ∧ ((c.id, e), (k, e')) ∈ L
  /-- every joint is listed, in one of its directions -/
  complete : ∀ c ∈ calls, ∀ e k e' n, c.Joins e k e' n →
    ((c.id, e), (k, e')) ∈ L ∨ ((k, e'), (c.id, e)) ∈ L
  /-- every road is put somewhere once, except those that begin -/
  once : (L.map (·.1.1)).Nodup
  all : ∀ k, k ∈ L.map (·.1.1) ↔ k ∈ calls.map (·.id) ∧ ¬ Begins calls k
  /-- by a link of its own or of a connecting road -/
  declared : ∀ k e k' e', ((k, e), (k', e')) ∈ L →
    (∃ c ∈ calls, c.id = k ∧ ∃ n, c.Joins e k' e' n) ∨
      ∃ c ∈ calls, c.id = k' ∧ c.roadType ≠ -1 ∧ ∃ n, c.Joins e' k e n
  /-- at a road that begins or at a road that was put before -/
  outwards : ∀ (i : Nat) k nb, L[i]? = some (k, nb) →
    Begins calls nb.1 ∨ ∃ j, j < i ∧ ∃ y, L[j]? = some y ∧ y.1.1 = nb.1
  /-- a road of several geometries begins or is put by its start (C54) -/
  several : ∀ c ∈ calls, Begins calls c.id ∨ c.geometry.length = 1 ∨ ∃ nb, ((c.id, ContactPoint.start), nb) ∈ L
  /-- only a road that begins may consist of one ParamPoly3 (C12) -/
  poly : ∀ c ∈ calls, Begins calls c.id ∨ ∀ p, c.geometry ≠ [.poly p]

/-- The lane offset given at an end of a road. -/
def _root_.Pyodrx.RoadCall.offsetAt (c : RoadCall F) (e : ContactPoint) : Int := ((c.link e).map (·.offset)).getD 0

/-- The link given at an end, as it is read. -/
def _root_.Pyodrx.LinkCall.shown (e : ContactPoint) (l : LinkCall) : RLink :=
  ⟨linkTag e, strInt l.id, some l.elementType, l.contact, none⟩

/-- The lane `l` of a document is the one that was ordered. -/
structure ShowsLane (c : LaneCall ℝ) (l : RLane ℝ) : Prop where
  type : l.type = c.type
  width : l.a = c.a ∧ l.b = c.b ∧ l.c = c.c ∧ l.d = c.d ∧ l.sOffset = c.soffset
  mark : l.mark = c.mark.map shownMark

/-- The section `x` of a document is the one that was ordered: the lanes are numbered outwards. -/
structure ShowsSection (center : LaneCall ℝ) (c : SectionCall ℝ) (x : RSection ℝ) : Prop where
  s : x.s = c.s
  left : List.Forall₂ ShowsLane c.left x.left
  right : List.Forall₂ ShowsLane c.right x.right
  leftIds : x.left.map RLane.id = (List.range c.left.length).map (fun m : Nat => (m : Int) + 1)
  rightIds : x.right.map RLane.id = (List.range c.right.length).map (fun m : Nat => -((m : Int) + 1))
  center : ∃ l, x.center = [l] ∧ l.id = 0 ∧ l.links = [] ∧ ShowsLane center l

/-- The links of a lane to other lanes of its road, as they are read: a successor for each link that leads away from it, a
predecessor for each link that leads to it. -/
def _root_.Pyodrx.RoadCall.innerLinks (c : RoadCall F) (n : LaneName) : List RLink :=
  c.laneLinks.flatMap fun l => (if l.1 = n then [readLaneLinkTo (linkTag .end) l.2.2] else []) ++
    (if l.2 = n then [readLaneLinkTo (linkTag .start) l.1.2] else [])

/-- The road `a` of a document is the one that was ordered. -/
structure ShowsRoad (c : RoadCall ℝ) (a : RRoad ℝ) : Prop where
  id : a.id = strInt c.id
  junction : a.junction = c.roadType
  /-- it has the ordered curves, in this order, ... -/
  curves : (a.planView.map fun g => some (g.curve.shape g.length)) = c.geometry.map shapeOf
  /-- ... one after the other without gaps and kinks, from s = 0 to the length of the road -/
  oneLine : a.OneLine
  links : a.links = (c.pred.map (LinkCall.shown .start)).toList ++ (c.succ.map (LinkCall.shown .end)).toList
  /-- it has the ordered lane sections -/
  sections : List.Forall₂ (ShowsSection c.center) c.sections a.sections

/-- The end `e` of `c` is linked to the end `e'` of `d` so that the lanes are linked too: `c` is a connecting road, or two
normal roads name each other and an end meets a start. -/
def LanesJoin (c : RoadCall ℝ) (e : ContactPoint) (d : RoadCall ℝ) (e' : ContactPoint) (n : Int) : Prop :=
  c.Joins e d.id e' n ∧ (c.roadType ≠ -1 ∨ d.roadType = -1 ∧ e ≠ e' ∧ ∃ m, d.Joins e' c.id e m)

/-- The document shows the network that the calls describe. -/
structure Shows (calls : List (RoadCall ℝ)) (L : List (CallEnd × CallEnd)) (doc : RDocument ℝ) : Prop where
  /-- the ordered roads, in this order -/
  roads : List.Forall₂ ShowsRoad calls doc.roads
  /-- roads start where the program says; if it says nothing, the first one starts at the origin -/
  origin : ∀ c ∈ calls, ∀ a ∈ doc.roads, a.id = strInt c.id → Begins calls c.id →
    a.poseAt .start = some (c.start.getD ⟨0, 0, 0⟩)
  /-- linked ends meet; a lane offset shifts the road for which it was given -/
  joints : ∀ c ∈ calls, ∀ d ∈ calls, ∀ a ∈ doc.roads, ∀ b ∈ doc.roads, a.id = strInt c.id → b.id = strInt d.id →
    ∀ e e' n, c.Joins e d.id e' n → ∃ p q, a.poseAt e = some p ∧ b.poseAt e' = some q ∧ Meets n e p e' q
  /-- where lanes are to be linked, each lane has exactly one link, to a lane that has the same edges -/
  lanes : ∀ c ∈ calls, ∀ d ∈ calls, ∀ a ∈ doc.roads, ∀ b ∈ doc.roads, a.id = strInt c.id → b.id = strInt d.id →
    ∀ e e' n, LanesJoin c e d e' n → ∀ s, a.sectionAt e = some s → ∀ x ∈ s.left ++ s.right,
      x.linksTo (linkTag e) = [readLaneLinkTo (linkTag e) (turnSign e e' * x.id + n)] ∧
      Touch a e x.id b e' (turnSign e e' * x.id + n)
  /-- apart from these, which are in the first section (predecessors) and the last one (successors), the lanes have the
  links to other lanes of their road which were ordered, and no others -/
  onlyLanes : ∀ c ∈ calls, ∀ a ∈ doc.roads, a.id = strInt c.id → ∀ (j : Nat) s, a.sections[j]? = some s →
    ∀ x ∈ s.left ++ s.right, ∃ new, x.links = c.innerLinks (j, x.id) ++ new ∧
      ∀ l ∈ new, ∃ d ∈ calls, ∃ e e' n, (j = if e = .start then 0 else a.sections.length - 1) ∧ LanesJoin c e d e' n ∧
        l.tag = linkTag e

/-- The arguments of `create_junction` fit together: connecting roads, and the normal roads to which they lead. -/
structure JunctionSound (calls : List (RoadCall ℝ)) (j : JunctionCall) : Prop where
  roads : ∀ i ∈ j.roads, ∃ d, calls[i]? = some d ∧ d.roadType = -1
  connecting : ∀ i ∈ j.connecting, ∃ c, calls[i]? = some c ∧ c.roadType ≠ -1 ∧
    ∀ e l, c.link e = some l → ∃ i' ∈ j.roads, ∃ d, calls[i']? = some d ∧ d.id = l.id

/-- The connection `x` of a junction of the document is the one for the end `e` of the connecting road `c`, which is
linked to the end `e'` of road `k` with the lane offset `n`. -/
structure ShowsConnection (doc : RDocument ℝ) (c : RoadCall ℝ) (e : ContactPoint) (k : Int) (e' : ContactPoint) (n : Int)
    (x : RConnection) : Prop where
  incoming : x.incomingRoad = strInt k
  connecting : x.connectingRoad = strInt c.id
  contact : x.contactPoint = e
  /-- each lane of the connecting road is named once, together with the lane that has the same edges: if there is no lane
  offset at the end, and the driving directions agree or the connecting road has as many lanes on both sides there -/
  lanes : (e = .end → n = 0) → (e ≠ e' ∨ ∀ i, (∃ w, c.HasLane e i w) → ∃ w, c.HasLane e (-i) w) →
    (x.laneLinks.map (·.2)).Nodup ∧ (∀ i, i ∈ x.laneLinks.map (·.2) ↔ ∃ w, c.HasLane e i w) ∧
    ∀ a ∈ doc.roads, ∀ b ∈ doc.roads, a.id = strInt c.id → b.id = strInt k → ∀ y ∈ x.laneLinks, Touch a e y.2 b e' y.1
  /-- with a lane offset at the end, all the lanes are wrong (the offset is added on the wrong side, C50) -/
  wrong : e = .end → n ≠ 0 → ∀ a ∈ doc.roads, ∀ b ∈ doc.roads, a.id = strInt c.id → b.id = strInt k →
    ∀ y ∈ x.laneLinks, ¬ Touch a e y.2 b e' y.1

/-- The junction `x` of the document is the one that was ordered: two connections for every connecting road, first for its
end, then for its start. -/
structure ShowsJunctionCall (calls : List (RoadCall ℝ)) (doc : RDocument ℝ) (j : JunctionCall) (x : RJunction) : Prop where
  name : x.name = "my junction"
  id : x.id = strInt j.id
  count : x.connections.length = 2 * j.connecting.length
  connections : ∀ (m i : Nat) (c : RoadCall ℝ), j.connecting[m]? = some i → calls[i]? = some c →
    ∀ e k e' n, c.Joins e k e' n → ∃ y, x.connections[2 * m + if e = .end then 0 else 1]? = some y ∧
      y.id = strInt (2 * m + if e = .end then 0 else 1) ∧ ShowsConnection doc c e k e' n y

/-- A connection made by hand, as it is read: if it was given no id, its id is its place. -/
def _root_.Pyodrx.ConnectionCall.shown (c : ConnectionCall) (place : Nat) : RConnection :=
  ⟨strInt (c.id.getD place), strInt c.incoming, strInt c.connecting, c.contact, c.laneLinks⟩

/-- The junction `x` of the document is the one that was made by hand. -/
structure ShowsDrawn (calls : List (RoadCall ℝ)) (doc : RDocument ℝ) (j : DrawnJunction) (x : RJunction) : Prop where
  name : x.name = j.name
  id : x.id = strInt j.id
  connections : x.connections = j.connections.mapIdx fun i c => c.shown i
  /-- a lane link is right if it names the lane to which the lane of the connecting road is linked -/
  lanes : ∀ y ∈ j.connections, ∀ c ∈ calls, c.roadType ≠ -1 → c.id = y.connecting → ∀ e' n,
    c.Joins y.contact y.incoming e' n → ∀ a ∈ doc.roads, ∀ b ∈ doc.roads, a.id = strInt y.connecting →
    b.id = strInt y.incoming → ∀ i w, c.HasLane y.contact i w → (turnSign y.contact e' * i + n, i) ∈ y.laneLinks →
    Touch a y.contact i b e' (turnSign y.contact e' * i + n)

/-- The arguments of `create_junction` fit together; a junction made by hand may be any. -/
def AnySound (calls : List (RoadCall ℝ)) : AnyJunction → Prop
  | .create j => JunctionSound calls j
  | .drawn _ => True

/-- The junction `x` of the document is the one that was ordered. -/
def ShowsAny (calls : List (RoadCall ℝ)) (doc : RDocument ℝ) : AnyJunction → RJunction → Prop
  | .create j, x => ShowsJunctionCall calls doc j x
  | .drawn j, x => ShowsDrawn calls doc j x

/-- The texts given for a junction. -/
def _root_.Pyodrx.AnyJunction.texts : AnyJunction → List String
  | .create _ => []
  | .drawn j => [j.name]

end Pyodrx.Spec
