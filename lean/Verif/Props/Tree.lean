import Verif.Proofs.Tree
import Verif.Props.Touch

/-! # C75: which way the roads of a tree are placed -/

namespace Pyodrx.Props
open Pyodrx Spec

/-- C75: if the declared joints form a tree then all roads can be placed. -/
theorem C75_succeeds (net : Net ℝ) (hw : WellFormed net) (L : List (RoadEnd × RoadEnd)) (ht : Tree net.roads L) :
    ∃ net', Net.adjustStartpoints net = .ok () net' :=
  (C20_succeeds_iff net hw).mpr ht.reachable

/-- C75: after a normal return on a network whose joints form a tree, every road was put where the tree says: its end
meets the end of the road that is nearer to the anchor, shifted by its *own* lane offset (C71: by the one of either
road). The anchors stay where they are (C21). So the order in which the roads were added has no influence, and of the
two lane offsets at a joint the one given to the road nearer to the anchor has none. -/
theorem C75_placed (net net' : Net ℝ) (hn : net.roads.keys.Nodup) (hf : Fresh net.roads)
    (L : List (RoadEnd × RoadEnd)) (ht : Tree net.roads L) (h : Net.adjustStartpoints net = .ok () net')
    (k nb : String) (e e' : ContactPoint) (hl : ((k, e), (nb, e')) ∈ L) :
    ∃ r n p q, net'.roads.get? k = some r ∧ net'.roads.get? nb = some n ∧
      endPose r e = some p ∧ endPose n e' = some q ∧ Meets (offsetAt r e) e p e' q :=
  (startpoints_tree hn hf ht h hl).meets

/-- C75 in floating point arithmetic: up to the rounding errors of C69. -/
theorem C75_float {R : Rounding} (net net' : Net (Fl R)) (hn : net.roads.keys.Nodup) (hf : Fresh net.roads)
    (L : List (RoadEnd × RoadEnd)) (ht : Tree net.roads L) (h : Net.adjustStartpoints net = .ok () net')
    (k nb : String) (e e' : ContactPoint) (hl : ((k, e), (nb, e')) ∈ L) :
    ∃ r n p q, net'.roads.get? k = some r ∧ net'.roads.get? nb = some n ∧
      endPose r e = some p ∧ endPose n e' = some q ∧ MeetsNearly R.u (offsetAt r e) e (real p) e' (real q) := by
  obtain ⟨r, n, p, _, h2, h3, _, _, h4, h5⟩ := startpoints_tree hn hf ht h hl
  obtain ⟨q, hq, rfl⟩ := neighbourPose_fl h4
  exact ⟨r, n, _, q, h2, h3, h5, hq, attach_meets_nearly e e' _ q⟩

/-- What a reader sees of a placed road of a tree. -/
theorem DrawnNet.read_tree {net net' : Net ℝ} {pcs : String → List Piece} (h : DrawnNet net pcs)
    {L : List (RoadEnd × RoadEnd)} (ht : Tree net.roads L)
    (hadj : Net.adjustStartpoints net = .ok () net') {k : String} {r : Road ℝ} (hr : net'.roads.get? k = some r)
    (hk : Anchor net.roads k ∨ (pcs k).length = 1 ∨ ∃ nb, ((k, .start), nb) ∈ L) :
    ∃ gs, readPlanView (r.planview.getElement net'.geoms) = some gs := by
  have hf := h.fresh
  obtain ⟨hs, ho⟩ := startpoints_once_tree h.nodup hf ht (fun k r hr => (h.drawn k r hr).plan.evaluable) hadj
  obtain ⟨r0, h0, h1⟩ := ho k r hr
  have ha := startpoints_all h.nodup hf hadj hr
  rcases h1 with ⟨_, h1⟩ | ⟨_, b, p, g, st, hb, hg, e1, e2⟩
  · rw [ha] at h1; simp at h1
  · have hpl := (h.drawn k r0 h0).plan
    obtain ⟨a1, _⟩ := hpl.read hg hs e1 (fun hb' pc hpc => h.poly k pc (fun hA => hb hb' (.inl hA)) hpc)
    have hpv : r.planview = st.pv := by rw [e2]
    rw [hpv]
    refine a1 ?_
    by_cases hl : (pcs k).length = 1
    · exact .inr hl
    · left
      cases b
      · rfl
      · refine absurd ?_ (hb rfl)
        rcases hk with hk | hk | hk
        · exact .inl hk
        · exact absurd hk hl
        · exact .inr hk

/-- C75: the document can be read if every road of several geometries is an anchor or is put by its start. (C65 allows
several geometries only for anchors; placed by its end such a road cannot be read, C54.) -/
theorem C75_readable (w w' : World ℝ) (pcs : String → List Piece) (hw : DrawnNet w.net pcs)
    (L : List (RoadEnd × RoadEnd)) (ht : Tree w.net.roads L)
    (h : World.adjustRoadsAndLanes w = .ok () w') (o : OpenDrive ℝ) (hp : Heap ℝ) (date : String)
    (ho : o.roads = w'.net.roads) (hgeoms : hp.geoms = w'.net.geoms)
    (hgood : ∀ kv ∈ o.roads, GoodRoad hp kv.2) (element : Xml ℝ) (he : o.getElement hp date = .ok element)
    (hone : ∀ k ∈ w.net.roads.keys,
      Anchor w.net.roads k ∨ (pcs k).length = 1 ∨ ∃ nb, ((k, ContactPoint.start), nb) ∈ L) :
    ∃ doc, readDocument element = some doc := by
  have hadj := adjustRoadsAndLanes_net h
  have hkeys : w'.net.roads.keys = w.net.roads.keys := (C18_placed_once w.net w'.net hw.nodup hw.fresh hadj).1
  have hnd : w'.net.roads.keys.Nodup := by rw [hkeys]; exact hw.nodup
  refine ⟨_, C59_document hp date o element he
    (fun r => (readPlanView (r.planview.getElement hp.geoms)).getD []) (fun kv hkv => ?_)⟩
  refine ⟨hgood kv hkv, ?_⟩
  rw [ho] at hkv
  have hr : w'.net.roads.get? kv.1 = some kv.2 := Dict.mem_get? hnd hkv
  obtain ⟨gs, hgs⟩ := hw.read_tree ht hadj hr (hone kv.1 (by rw [← hkeys]; exact Dict.mem_keys_of_get? hr))
  rw [hgeoms, hgs]; rfl

/-- C75: the same in the document: a reader finds every road joined to the one nearer to the anchor, shifted by its own
lane offset. -/
theorem C75_document (w w' : World ℝ) (pcs : String → List Piece) (hw : DrawnNet w.net pcs)
    (L : List (RoadEnd × RoadEnd)) (ht : Tree w.net.roads L)
    (h : World.adjustRoadsAndLanes w = .ok () w') (o : OpenDrive ℝ) (hp : Heap ℝ) (date : String)
    (ho : o.roads = w'.net.roads) (hgeoms : hp.geoms = w'.net.geoms)
    (hgood : ∀ kv ∈ o.roads, GoodRoad hp kv.2) (element : Xml ℝ) (he : o.getElement hp date = .ok element)
    (doc : RDocument ℝ) (hdoc : readDocument element = some doc) (a : RRoad ℝ) (ha : a ∈ doc.roads) (b : RRoad ℝ)
    (hb : b ∈ doc.roads) (e e' : ContactPoint) (hl : ((a.id, e), (b.id, e')) ∈ L) :
    a.LinkedTo e b e' ∧ ∃ p q, a.poseAt e = some p ∧ b.poseAt e' = some q ∧
      Meets (declaredOffset w.net.roads a.id e) e p e' q := by
  have hadj := adjustRoadsAndLanes_net h
  obtain ⟨gs, hgs, rfl⟩ := document_read he hgood hdoc
  rw [ho] at hgs
  have hkeys : w'.net.roads.keys = w.net.roads.keys := (C18_placed_once w.net w'.net hw.nodup hw.fresh hadj).1
  have hnd : w'.net.roads.keys.Nodup := by rw [hkeys]; exact hw.nodup
  obtain ⟨⟨ka, ra⟩, hka, rfl⟩ := List.mem_map.mp ha
  obtain ⟨⟨kb, rb⟩, hkb, rfl⟩ := List.mem_map.mp hb
  rw [ho] at hka hkb
  have hra : w'.net.roads.get? ka = some ra := Dict.mem_get? hnd hka
  have hrb : w'.net.roads.get? kb = some rb := Dict.mem_get? hnd hkb
  obtain ⟨a0, ha0, ea, _⟩ := hw.read hadj hra
  obtain ⟨b0, hb0, eb, _⟩ := hw.read hadj hrb
  have ida : ra.id.toStr = ka := by rw [ea]; exact (hw.drawn _ _ ha0).id
  have idb : rb.id.toStr = kb := by rw [eb]; exact (hw.drawn _ _ hb0).id
  rw [show (shownRoad hp ra (gs ra)).id = ra.id.toStr from rfl, show (shownRoad hp rb (gs rb)).id = rb.id.toStr from rfl,
    ida, idb] at hl
  obtain ⟨r, n, p, q, h1, h2, h3, h4, h5⟩ := C75_placed w.net w'.net hw.nodup hw.fresh L ht hadj _ _ _ _ hl
  rw [hra] at h1; cases h1
  rw [hrb] at h2; cases h2
  refine ⟨hw.linked hadj (ht.declared _ _ _ _ hl) hra hrb, p, q, (hw.pose hadj hgeoms hgs hra e).trans h3,
    (hw.pose hadj hgeoms hgs hrb e').trans h4, ?_⟩
  have oa : declaredOffset w.net.roads ra.id.toStr e = offsetAt ra e := by
    rw [declaredOffset, ida, ha0, ea]; cases e <;> rfl
  rw [show (shownRoad hp ra (gs ra)).id = ra.id.toStr from rfl, oa]
  exact h5

/-! ## Non-vacuity: the network of four roads of `Props/NetworkLinks.lean` -/

theorem exLaneNet_tree : Tree exLaneNet.roads
    [(("2", .start), ("1", .end)), (("3", .start), ("2", .end)), (("4", .start), ("3", .end))] := by
  have e1 : strInt 1 = "1" := by decide
  have e2 : strInt 2 = "2" := by decide
  have e4 : strInt 4 = "4" := by decide
  have hk : exLaneNet.roads.keys = ["1", "2", "3", "4"] := rfl
  have hfree : ∀ k r, exLaneNet.roads.get? k = some r → r.planview.fixed = false := by
    intro k r h
    rcases exLaneNet_get h with ⟨_, rfl⟩ | ⟨_, rfl⟩ | ⟨_, rfl⟩ | ⟨_, rfl⟩ <;> rfl
  have hanc : ∀ k, Anchor exLaneNet.roads k ↔ k = "1" := by
    intro k
    constructor
    · rintro (⟨r, h, hf⟩ | ⟨_, h⟩)
      · rw [hfree k r h] at hf; cases hf
      · rw [hk] at h
        cases h
        rfl
    · rintro rfl
      exact .inr ⟨hfree, rfl⟩
  refine ⟨?_, by decide, ?_, ?_, ?_⟩
  · intro k e nb e' hp
    cases hp with
    | pred hr hl ht hc =>
      rcases exLaneNet_get hr with ⟨rfl, rfl⟩ | ⟨rfl, rfl⟩ | ⟨rfl, rfl⟩ | ⟨rfl, rfl⟩ <;> cases hl <;> cases hc <;>
        simp [PyId.toStr, e1, e2]
    | succ hr hl ht hc =>
      rcases exLaneNet_get hr with ⟨rfl, rfl⟩ | ⟨rfl, rfl⟩ | ⟨rfl, rfl⟩ | ⟨rfl, rfl⟩ <;> cases hl <;> cases hc <;>
        simp [PyId.toStr, e2, e4]
    | connPred hr ht hl =>
      rcases exLaneNet_get hr with ⟨rfl, rfl⟩ | ⟨rfl, rfl⟩ | ⟨rfl, rfl⟩ | ⟨rfl, rfl⟩ <;> cases hl <;>
        first | exact absurd rfl ht | simp [PyId.toStr, e2]
    | connSucc hr ht hl =>
      rcases exLaneNet_get hr with ⟨rfl, rfl⟩ | ⟨rfl, rfl⟩ | ⟨rfl, rfl⟩ | ⟨rfl, rfl⟩ <;> cases hl <;>
        first | exact absurd rfl ht | simp [PyId.toStr, e4]
  · intro k
    rw [hanc, hk]
    simp only [List.map_cons, List.map_nil, List.mem_cons, List.not_mem_nil, or_false]
    constructor
    · rintro (rfl | rfl | rfl) <;> exact ⟨by decide, by decide⟩
    · rintro ⟨rfl | h, h'⟩
      · exact absurd rfl h'
      · exact h
  · intro k e nb e' hm
    simp only [List.mem_cons, Prod.mk.injEq, List.not_mem_nil, or_false] at hm
    rcases hm with ⟨⟨rfl, rfl⟩, rfl, rfl⟩ | ⟨⟨rfl, rfl⟩, rfl, rfl⟩ | ⟨⟨rfl, rfl⟩, rfl, rfl⟩
    · have := PlacedBy.pred (roads := exLaneNet.roads) (k := "2") (r := exLR2) rfl rfl (by decide) rfl
      rwa [show PyId.toStr (.int 1) = "1" from e1] at this
    · have := PlacedBy.pred (roads := exLaneNet.roads) (k := "3") (r := exLR3) rfl rfl (by decide) rfl
      rwa [show PyId.toStr (.int 2) = "2" from e2] at this
    · have := PlacedBy.connSucc (roads := exLaneNet.roads) (c := "3") (r := exLR3) rfl (by decide) rfl
      rwa [show PyId.toStr (.int 4) = "4" from e4] at this
  · intro i k nb hi
    match i, hi with
    | 0, hi => cases hi; exact .inl ((hanc _).mpr rfl)
    | 1, hi => cases hi; exact .inr ⟨0, by omega, _, rfl, rfl⟩
    | 2, hi => cases hi; exact .inr ⟨1, by omega, _, rfl, rfl⟩
    | i + 3, hi => cases hi

end Pyodrx.Props
