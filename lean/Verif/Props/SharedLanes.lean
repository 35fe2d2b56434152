import Verif.Props.Touch

/-! # C81: roads that share lanes

Two roads may be given the same `Lane` (or `LaneSection`, or `Lanes`) object. In the model they then contain the same
references into the store of lanes. -/

namespace Pyodrx.Props
open Pyodrx Spec

variable {F : Type}

/-- Lane `x` is in the section at the end `e` of the road `r`. -/
def UsedAt (r : Road F) (e : ContactPoint) (x : Nat) : Prop :=
  ∃ s, sectionAt r e = some s ∧ x ∈ s.left ++ s.right

/-- The joints of the network: pairs of (keys of) normal roads of which the second follows the first, such that the lane
`x` is used by the first road at its end (`e = .end`), or by the second at its start (`e = .start`). -/
def JointWith (roads : Dict (Road F)) (e : ContactPoint) (x : Nat) (p : String × String) : Prop :=
  ∃ a b, roads.get? p.1 = some a ∧ roads.get? p.2 = some b ∧ a.roadType = -1 ∧ b.roadType = -1 ∧ Follows a b ∧
    (match e with | .start => UsedAt b .start x | .end => UsedAt a .end x)

open Classical in
/-- Their number. -/
noncomputable def jointsWith (roads : Dict (Road F)) (e : ContactPoint) (x : Nat) : Nat :=
  ((orderedPairs roads.keys).filter fun p => JointWith roads e x p).length

/-- The hypotheses of C30 except that lanes may be shared by roads (but not occur twice in a section). -/
structure LinkedLanes [PyFloat F] (net net' : Net F) (lanes lanes' : Store (Lane F)) : Prop where
  nodup : net.roads.keys.Nodup
  fresh : Fresh net.roads
  fit : Linkable net.roads lanes
  within : ∀ k r s, net.roads.get? k = some r → s ∈ r.lanesections → (s.left ++ s.right).Nodup
  run : World.adjustRoadsAndLanes ⟨net, lanes⟩ = .ok () ⟨net', lanes'⟩

theorem flatMap_replicate {α β : Type} (l : List α) (f : α → List β) (c : β) (P : α → Prop) [DecidablePred P]
    (h1 : ∀ p ∈ l, P p → f p = [c]) (h0 : ∀ p ∈ l, ¬ P p → f p = []) :
    l.flatMap f = List.replicate (l.filter fun p => P p).length c := by
  induction l with
  | nil => rfl
  | cons a l ih =>
    rw [List.flatMap_cons, ih (fun p hp => h1 p (by simp [hp])) (fun p hp => h0 p (by simp [hp]))]
    by_cases hp : P a
    · rw [h1 a (by simp) hp, List.filter_cons_of_pos (by simpa using hp), List.length_cons, List.replicate_succ]; rfl
    · rw [h0 a (by simp) hp, List.filter_cons_of_neg (by simpa using hp)]; rfl

theorem toward_kind_filter {lanes : Store (Lane F)} {k K : LinkKind} {s off : Int} {side other : List Nat} {x : Nat}
    (h : k ≠ K) : (logAt (toward lanes k s off side other) x).filter (·.kind = K) = [] := by
  rw [List.filter_eq_nil_iff]
  intro l hl
  simp only [logAt, List.mem_map, List.mem_filter] at hl
  obtain ⟨y, ⟨hy, _⟩, rfl⟩ := hl
  simpa [(mem_toward hy).2] using h

/-- C81: a lane that is used by several normal roads gets the links of all of them: for each joint at the end of a road
that uses it there, a successor link (to its own number, as in C30), and for each joint at the start of a road that
uses it there, a predecessor link. -/
theorem C81_links [PyFloat F] (net net' : Net F) (lanes lanes' : Store (Lane F)) (h : LinkedLanes net net' lanes lanes')
    (x : Nat) (id : Int) (hid : (lanes.cell x).laneId = some id)
    (hx : ∀ k r e, net.roads.get? k = some r → r.roadType ≠ -1 → ¬ UsedAt r e x) (e : ContactPoint) :
    newLinks lanes lanes' x (kindAt e) = List.replicate (jointsWith net.roads e x) (laneLink (kindAt e) id) := by
  classical
  have hp := newLinks_single h.nodup h.fresh h.fit h.run x (kindAt e)
  have key : (orderedPairs net.roads.keys).flatMap (kindDue net.roads lanes x (kindAt e)) =
      List.replicate (jointsWith net.roads e x) (laneLink (kindAt e) id) := by
    unfold jointsWith
    convert flatMap_replicate (orderedPairs net.roads.keys) _ _ (JointWith net.roads e x) ?_ ?_ using 2
    · rintro ⟨k1, k2⟩ hk ⟨a, b, ha, hb, ta, tb, hf, hu⟩
      dsimp only at ha hb
      have hne := (mem_orderedPairs.mp hk).2.2
      obtain ⟨sa, sb, last, hj, hnb, hc, _⟩ := h.fit.joints k1 k2 a b hne ha hb ta tb hf
      rw [kindDue_pair ha hb]
      have : dueLinks lanes a b = jointLinks lanes a b := by simp [dueLinks, ta, tb, hf]
      rw [this]
      simp only [jointLinks, hj.secA, hj.secB]
      cases e with
      | «end» =>
        obtain ⟨s, hs, hxs⟩ := hu
        rw [hj.secA] at hs; cases hs
        obtain ⟨q, ⟨i, hi⟩, hq⟩ := toward_sides (lanes := lanes) .successor 1 0
          (h.within k1 a sa ha (sectionAt_index hj.secA).1) (Nat.le_of_eq hc.1) (Nat.le_of_eq hc.2) hxs
        rw [logAt_append, hq, logAt_append, List.filter_append, List.filter_append, toward_kind_filter (by decide),
          toward_kind_filter (by decide)]
        have hs := same_number hj.numA hnb hi
        rw [hid] at hs
        rw [laneNo_eq hs.symm, Int.mul_one, Int.add_zero]
        rfl
      | start =>
        obtain ⟨s, hs, hxs⟩ := hu
        rw [hj.secB] at hs; cases hs
        obtain ⟨q, ⟨i, hi⟩, hq⟩ := toward_sides (lanes := lanes) .predecessor 1 0
          (h.within k2 b sb hb (sectionAt_index hj.secB).1) (Nat.le_of_eq hc.1.symm) (Nat.le_of_eq hc.2.symm) hxs
        rw [logAt_append, hq, logAt_append, List.filter_append, List.filter_append, toward_kind_filter (by decide),
          toward_kind_filter (by decide)]
        have hs := same_number hnb hj.numA hi
        rw [hid] at hs
        rw [laneNo_eq hs.symm, Int.mul_one, Int.add_zero]
        rfl
    · rintro ⟨k1, k2⟩ hk hnj
      by_contra hcon
      obtain ⟨a, b, l, g1, g2, g3, g4⟩ := kindDue_ne_nil hcon
      rcases mem_dueLinks g3 with ⟨q1, q2, q3, ⟨q4, q5⟩ | ⟨q4, q5⟩⟩ | ⟨q1, q2, e', lk, s, q3, q4, q5, q6, q7⟩
      · rw [g4] at q4
        cases e with
        | start => cases q4
        | «end» => exact hnj ⟨a, b, g1, g2, q1, q2, q3, q5⟩
      · rw [g4] at q4
        cases e with
        | start => exact hnj ⟨a, b, g1, g2, q1, q2, q3, q5⟩
        | «end» => cases q4
      · exact hx _ a e' g1 q1 ⟨s, q6, q7⟩
  rw [key] at hp
  exact List.perm_replicate.mp hp

open Classical in
/-- The number of joints: of pairs of roads of which the second follows the first. -/
noncomputable def numberOfJoints (roads : Dict (Road F)) : Nat :=
  ((orderedPairs roads.keys).filter fun p =>
    ∃ a b, roads.get? p.1 = some a ∧ roads.get? p.2 = some b ∧ Follows a b).length

/-- C81 for the document: if all roads of a network of normal roads have the same Lanes object (with one lane section),
every lane of every road, also of those that have no predecessor or no successor, is shown with as many predecessors and
as many successors as there are joints in the whole network. -/
theorem C81_document [PyFloat F] (w w' : World F) (h : LinkedLanes w.net w'.net w.lanes w'.lanes)
    (hnormal : ∀ k r, w.net.roads.get? k = some r → r.roadType = -1) (s : LaneSection F) (hnum : Numbered w.lanes s)
    (hs : ∀ k r, w.net.roads.get? k = some r → r.lanesections = [s])
    (hun : ∀ x ∈ s.left ++ s.right, (w.lanes.cell x).links = [])
    (o : OpenDrive F) (hp : Heap F) (hroads : o.roads = w'.net.roads) (hlanes : hp.lanes = w'.lanes)
    (hgood : ∀ kv ∈ o.roads, GoodRoad hp kv.2) (date : String) (element : Xml F) (he : o.getElement hp date = .ok element)
    (doc : RDocument F) (hdoc : readDocument element = some doc) :
    ∀ a ∈ doc.roads, ∃ sec, a.sections = [sec] ∧ sec.left.length = s.left.length ∧ sec.right.length = s.right.length ∧
      ∀ y ∈ sec.left ++ sec.right, ∀ e, y.links.filter (·.tag = linkTag e) =
        List.replicate (numberOfJoints w.net.roads) ⟨linkTag e, strInt y.id, none, none, none⟩ := by
  classical
  intro ra hra
  have hadj := adjustRoadsAndLanes_net (w := w) (w' := w') h.run
  obtain ⟨gs, hgs, rfl⟩ := document_read he hgood hdoc
  obtain ⟨⟨k, a⟩, hk, rfl⟩ := List.mem_map.mp hra
  obtain ⟨m, hh, _⟩ := startpoints_history h.nodup h.fresh hadj
  have hsame := hh.same
  have hnd : w'.net.roads.keys.Nodup := by rw [hsame.1]; exact h.nodup
  rw [hroads] at hk
  have ha : w'.net.roads.get? k = some a := Dict.mem_get? hnd hk
  obtain ⟨a0, ha0, ea⟩ := hsame.2 k a ha
  have hsecs : a.lanesections = [s] := by rw [ea.1]; exact hs k a0 ha0
  refine ⟨shownSection hp.lanes s, by simp [shownRoad, hsecs], by simp [shownSection, shownLanes],
    by simp [shownSection, shownLanes], fun y hy e => ?_⟩
  obtain ⟨x, hx, rfl⟩ := mem_shownSection.mp hy
  obtain ⟨lanes', hrun, _, hcell⟩ := C30_all_links w.net w'.net w.lanes h.nodup h.fresh hadj h.fit
  rw [show (⟨w.net, w.lanes⟩ : World F) = w from rfl] at hrun
  have hw' : lanes' = w'.lanes := by
    have := h.run
    rw [show (⟨w.net, w.lanes⟩ : World F) = w from rfl, hrun] at this
    injection this with _ this
    injection this
  obtain ⟨new, hc, hperm⟩ := hcell x
  rw [hw', hun x hx, List.nil_append] at hc
  obtain ⟨id, hid⟩ : ∃ id, (w.lanes.cell x).laneId = some id := by
    rcases List.mem_append.mp hx with hx | hx
    · obtain ⟨i, hi⟩ := List.getElem?_of_mem hx
      exact ⟨_, hnum.1 i x hi⟩
    · obtain ⟨i, hi⟩ := List.getElem?_of_mem hx
      exact ⟨_, hnum.2 i x hi⟩
  have hnew := C81_links w.net w'.net w.lanes w'.lanes h x id hid (fun k r _ hr ht => absurd (hnormal k r hr) ht) e
  have hcount : jointsWith w.net.roads e x = numberOfJoints w.net.roads := by
    unfold jointsWith numberOfJoints
    congr 1
    apply List.filter_congr
    intro p _
    rw [decide_eq_decide]
    constructor
    · rintro ⟨a, b, h1, h2, -, -, h3, -⟩
      exact ⟨a, b, h1, h2, h3⟩
    · rintro ⟨a, b, h1, h2, h3⟩
      refine ⟨a, b, h1, h2, hnormal _ _ h1, hnormal _ _ h2, h3, ?_⟩
      cases e
      · exact ⟨s, by simp [sectionAt, hs _ _ h2], hx⟩
      · exact ⟨s, by simp [sectionAt, hs _ _ h1], hx⟩
  rw [hcount] at hnew
  have hnew' : new.filter (·.kind = kindAt e) = List.replicate (numberOfJoints w.net.roads) (laneLink (kindAt e) id) := by
    rw [← hnew]
    simp [newLinks, hun x hx, hc]
  have hlid : (hp.lanes.cell x).laneId.getD 0 = id := by rw [hlanes, hc]; simp [hid]
  have hlinks : (hp.lanes.cell x).links = new := by rw [hlanes, hc]
  show (shownLinks (hp.lanes.cell x).links).filter _ = List.replicate _ ⟨linkTag e, strInt ((hp.lanes.cell x).laneId.getD 0), none, none, none⟩
  rw [hlid, hlinks, shownLinks, List.filter_map, List.filter_filter]
  have : (new.filter fun l => ((fun r : RLink => decide (r.tag = linkTag e)) ∘ shownLink) l && decide (l.kind ≠ .pyNone)) =
      new.filter (·.kind = kindAt e) := by
    apply List.filter_congr
    intro l _
    cases e <;> cases hk : l.kind <;> simp [shownLink, hk, linkTag, kindAt, LinkKind.text]
  rw [this, hnew', List.map_replicate]
  cases e <;> rfl

/-! ### Three roads in a row with one Lanes object -/

noncomputable def exRow1 : Road ℝ := exLaneRoad 1 (-1) 0 none
  (some ⟨.successor, .int 2, some .road, some .start, none⟩) [11, 13] [12]
noncomputable def exRow2 : Road ℝ := exLaneRoad 2 (-1) 1
  (some ⟨.predecessor, .int 1, some .road, some .end, none⟩)
  (some ⟨.successor, .int 3, some .road, some .start, none⟩) [11, 13] [12]
noncomputable def exRow3 : Road ℝ := exLaneRoad 3 (-1) 2
  (some ⟨.predecessor, .int 2, some .road, some .end, none⟩) none [11, 13] [12]

noncomputable def exRow : Net ℝ :=
  { roads := [("1", exRow1), ("2", exRow2), ("3", exRow3)]
    geoms := ⟨fun i => .line ⟨i + 1⟩, 3⟩ }

theorem exRow_get {k : String} {r : Road ℝ} (h : exRow.roads.get? k = some r) :
    (k = "1" ∧ r = exRow1) ∨ (k = "2" ∧ r = exRow2) ∨ (k = "3" ∧ r = exRow3) := by
  simp only [exRow, Dict.get?] at h
  repeat' split at h
  all_goals first | (cases h; done) | skip
  all_goals (cases h; subst_vars; simp)

theorem exRow_fresh : Fresh exRow.roads := by
  intro k r h
  rcases exRow_get h with ⟨_, rfl⟩ | ⟨_, rfl⟩ | ⟨_, rfl⟩ <;> exact ⟨rfl, rfl⟩

theorem exRow_linkable : Linkable exRow.roads exLanes := by
  refine ⟨?_, ?_, ?_, ?_⟩
  · intro k1 k2 a b hne ha hb ta tb ⟨⟨l, f1, f2, f3⟩, hp⟩
    rcases exRow_get ha with ⟨rfl, rfl⟩ | ⟨rfl, rfl⟩ | ⟨rfl, rfl⟩ <;> cases f1 <;>
      rcases exRow_get hb with ⟨rfl, rfl⟩ | ⟨rfl, rfl⟩ | ⟨rfl, rfl⟩ <;> cases f3
    · exact ⟨_, _, _, ⟨rfl, rfl, ⟨⟨_, rfl, rfl, rfl⟩, hp⟩, fun l h => by cases h; rfl, fun l h => by cases h; decide, rfl, rfl, rfl,
        exNum1⟩, exNum1, ⟨rfl, rfl⟩, ⟨rfl, rfl⟩⟩
    · exact ⟨_, _, _, ⟨rfl, rfl, ⟨⟨_, rfl, rfl, rfl⟩, hp⟩, fun l h => by cases h; rfl, fun l h => (by cases h), rfl, rfl, rfl,
        exNum1⟩, exNum1, ⟨rfl, rfl⟩, ⟨rfl, rfl⟩⟩
  · intro k c hc tc
    rcases exRow_get hc with ⟨rfl, rfl⟩ | ⟨rfl, rfl⟩ | ⟨rfl, rfl⟩ <;> exact absurd rfl tc
  · intro k1 k2 c r hc hr tc
    rcases exRow_get hc with ⟨rfl, rfl⟩ | ⟨rfl, rfl⟩ | ⟨rfl, rfl⟩ <;> exact absurd rfl tc
  · intro k1 k2 c r e l hc hr tc
    rcases exRow_get hc with ⟨rfl, rfl⟩ | ⟨rfl, rfl⟩ | ⟨rfl, rfl⟩ <;> exact absurd rfl tc

theorem exRow_wellFormed : WellFormed exRow := by
  have e1 : strInt 1 = "1" := by decide
  have e2 : strInt 2 = "2" := by decide
  have e3 : strInt 3 = "3" := by decide
  have hk : exRow.roads.keys = ["1", "2", "3"] := rfl
  refine ⟨by simp [exRow], by rw [hk]; decide, exRow_fresh, ?_, ?_, ?_, ?_, ?_⟩
  · intro k r l h hl
    rw [hk]
    rcases exRow_get h with ⟨_, rfl⟩ | ⟨_, rfl⟩ | ⟨_, rfl⟩ <;>
      rcases hl with hl | hl <;> cases hl <;> simp [PyId.toStr, e1, e2, e3]
  · intro k r l h hl ht
    rcases exRow_get h with ⟨_, rfl⟩ | ⟨_, rfl⟩ | ⟨_, rfl⟩ <;>
      rcases hl with hl | hl <;> cases hl <;> first | (exact absurd rfl ht) | simp
  · intro k r h
    rcases exRow_get h with ⟨_, rfl⟩ | ⟨_, rfl⟩ | ⟨_, rfl⟩ <;>
      exact ⟨fun g _ => by simp [exRow, shapeOf], .inl rfl⟩
  · intro k r l h ht hl
    rcases exRow_get h with ⟨_, rfl⟩ | ⟨_, rfl⟩ | ⟨_, rfl⟩ <;> exact absurd rfl ht
  · intro k r h ha
    rcases ha with ⟨r', h', hf⟩ | ⟨_, h'⟩
    · rcases exRow_get h' with ⟨_, rfl⟩ | ⟨_, rfl⟩ | ⟨_, rfl⟩ <;> cases hf
    · rw [hk] at h'
      rcases exRow_get h with ⟨rfl, rfl⟩ | ⟨rfl, rfl⟩ | ⟨rfl, rfl⟩ <;>
        first | rfl | exact absurd h' (by decide)

theorem exRow_reachable : ∀ k ∈ exRow.roads.keys, Reachable exRow.roads k := by
  have e1 : strInt 1 = "1" := by decide
  have e2 : strInt 2 = "2" := by decide
  have h1 : Reachable exRow.roads "1" := by
    refine .anchor (.inr ⟨fun k r h => ?_, rfl⟩)
    rcases exRow_get h with ⟨_, rfl⟩ | ⟨_, rfl⟩ | ⟨_, rfl⟩ <;> rfl
  have h2 : Reachable exRow.roads "2" := by
    refine .step (nb := "1") (e := .start) (e' := .end) ?_ h1
    have := PlacedBy.pred (roads := exRow.roads) (k := "2") (cp := .end)
      (l := ⟨.predecessor, .int 1, some .road, some .end, none⟩) rfl rfl (by simp) rfl
    simpa only [PyId.toStr, e1] using this
  have h3 : Reachable exRow.roads "3" := by
    refine .step (nb := "2") (e := .start) (e' := .end) ?_ h2
    have := PlacedBy.pred (roads := exRow.roads) (k := "3") (cp := .end)
      (l := ⟨.predecessor, .int 2, some .road, some .end, none⟩) rfl rfl (by simp) rfl
    simpa only [PyId.toStr, e2] using this
  intro k hk
  have : exRow.roads.keys = ["1", "2", "3"] := rfl
  rw [this] at hk
  simp only [List.mem_cons, List.not_mem_nil, or_false] at hk
  rcases hk with rfl | rfl | rfl <;> assumption

theorem exRow_joints : numberOfJoints exRow.roads = 2 := by
  classical
  unfold numberOfJoints
  have f12 : Follows exRow1 exRow2 := ⟨⟨_, rfl, rfl, rfl⟩, ⟨_, rfl, rfl, rfl⟩⟩
  have f23 : Follows exRow2 exRow3 := ⟨⟨_, rfl, rfl, rfl⟩, ⟨_, rfl, rfl, rfl⟩⟩
  have f13 : ¬ Follows exRow1 exRow3 := by rintro ⟨⟨l, h, _, h'⟩, _⟩; cases h; cases h'
  have f21 : ¬ Follows exRow2 exRow1 := by rintro ⟨⟨l, h, _, h'⟩, _⟩; cases h; cases h'
  have f31 : ¬ Follows exRow3 exRow1 := by rintro ⟨⟨l, h, _, h'⟩, _⟩; cases h
  have f32 : ¬ Follows exRow3 exRow2 := by rintro ⟨⟨l, h, _, h'⟩, _⟩; cases h
  have hk : orderedPairs exRow.roads.keys =
      [("1", "2"), ("1", "3"), ("2", "1"), ("2", "3"), ("3", "1"), ("3", "2")] := by
    rw [show exRow.roads.keys = ["1", "2", "3"] from rfl]; decide
  have g1 : exRow.roads.get? "1" = some exRow1 := rfl
  have g2 : exRow.roads.get? "2" = some exRow2 := rfl
  have g3 : exRow.roads.get? "3" = some exRow3 := rfl
  rw [hk]
  simp [g1, g2, g3, f12, f23, f13, f21, f31, f32]

/-- C81 on three roads in a row with one Lanes object: in the document, lane -1 of the first road (which has no
predecessor) has two predecessors. -/
example (so : SOState ℝ) (date : String) : ∃ w' : World ℝ, LinkedLanes exRow w'.net exLanes w'.lanes ∧
    ∀ element doc, OpenDrive.getElement ⟨w'.net.geoms, w'.lanes, so⟩ date ⟨"row", w'.net.roads, []⟩ = .ok element →
      readDocument element = some doc → ∀ a ∈ doc.roads, ∃ sec, a.sections = [sec] ∧ sec.left.length = 2 ∧
        sec.right.length = 1 ∧ ∀ y ∈ sec.left ++ sec.right, ∀ e, y.links.filter (·.tag = linkTag e) =
          [⟨linkTag e, strInt y.id, none, none, none⟩, ⟨linkTag e, strInt y.id, none, none, none⟩] := by
  obtain ⟨net', hp⟩ := (C20_succeeds_iff exRow exRow_wellFormed).mpr exRow_reachable
  obtain ⟨lanes', h, _, hcell⟩ := C30_all_links exRow net' exLanes exRow_wellFormed.nodup exRow_fresh hp exRow_linkable
  have hl : LinkedLanes exRow net' exLanes lanes' := by
    refine ⟨exRow_wellFormed.nodup, exRow_fresh, exRow_linkable, ?_, h⟩
    intro k r s hr hs
    rcases exRow_get hr with ⟨_, rfl⟩ | ⟨_, rfl⟩ | ⟨_, rfl⟩ <;>
      simp only [exRow1, exRow2, exRow3, exLaneRoad, Road.new, List.mem_singleton] at hs <;> subst hs <;> simp [exSec]
  refine ⟨⟨net', lanes'⟩, hl, fun element doc he hd a ha => ?_⟩
  have := C81_document ⟨exRow, exLanes⟩ ⟨net', lanes'⟩ hl
    (fun k r hr => by rcases exRow_get hr with ⟨_, rfl⟩ | ⟨_, rfl⟩ | ⟨_, rfl⟩ <;> rfl) (exSec [11, 13] [12]) exNum1
    (fun k r hr => by rcases exRow_get hr with ⟨_, rfl⟩ | ⟨_, rfl⟩ | ⟨_, rfl⟩ <;> rfl)
    (fun x _ => rfl) ⟨"row", net'.roads, []⟩ ⟨net'.geoms, lanes', so⟩ rfl rfl ?_ date element he doc hd a ha
  · rw [exRow_joints] at this
    exact this
  · rintro ⟨k, r⟩ hkr
    obtain ⟨m, hh, _⟩ := startpoints_history exRow_wellFormed.nodup exRow_fresh hp
    have hnd : net'.roads.keys.Nodup := by rw [hh.same.1]; exact exRow_wellFormed.nodup
    obtain ⟨r0, hr0, er⟩ := hh.same.2 k r (Dict.mem_get? hnd hkr)
    have hmark : ∀ x, GoodMark (lanes'.cell x) := by
      intro x
      obtain ⟨new, hc, _⟩ := hcell x
      rw [hc]
      intro m hm
      cases hm
    refine ⟨fun _ _ l _ => hmark l, fun i hi => ?_⟩
    rw [er.1] at hi
    rcases exRow_get hr0 with ⟨_, rfl⟩ | ⟨_, rfl⟩ | ⟨_, rfl⟩ <;> cases hi

end Pyodrx.Props
