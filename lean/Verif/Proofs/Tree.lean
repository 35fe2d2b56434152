import Verif.Spec.Tree
import Verif.Proofs.NoLoops
import Verif.Proofs.ReadNetwork

/-! # Networks that form trees: every road is placed by its joint -/

namespace Pyodrx
open Spec Props

variable {F : Type}

theorem _root_.Pyodrx.Spec.Tree.unique {roads : Dict (Road F)} {L : List (RoadEnd × RoadEnd)} (h : Tree roads L) {k : String}
    {e e1 : ContactPoint} {nb nb1 : RoadEnd} (h1 : ((k, e), nb) ∈ L) (h2 : ((k, e1), nb1) ∈ L) : e = e1 ∧ nb = nb1 := by
  have := List.inj_on_of_nodup_map h.once h1 h2 rfl
  simp only [Prod.mk.injEq, true_and] at this
  exact this

theorem _root_.Pyodrx.Spec.Tree.notAnchor {roads : Dict (Road F)} {L : List (RoadEnd × RoadEnd)} (h : Tree roads L)
    {x : RoadEnd × RoadEnd} (hx : x ∈ L) : ¬ Anchor roads x.1.1 :=
  ((h.all x.1.1).mp (List.mem_map_of_mem hx)).2

theorem _root_.Pyodrx.Spec.Tree.reachable {roads : Dict (Road F)} {L : List (RoadEnd × RoadEnd)} (h : Tree roads L) :
    ∀ k ∈ roads.keys, Reachable roads k := by
  have key : ∀ (i : Nat) k nb, L[i]? = some (k, nb) → Reachable roads k.1 := by
    intro i
    induction i using Nat.strong_induction_on with
    | _ i ih =>
      intro k nb hi
      refine .step (h.declared k.1 k.2 nb.1 nb.2 (List.mem_of_getElem? hi)) ?_
      rcases h.outwards i k nb hi with ha | ⟨j, hj, y, hy, hy'⟩
      · exact .anchor ha
      · rw [← hy']
        exact ih j hj y.1 y.2 hy
  intro k hk
  by_cases ha : Anchor roads k
  · exact .anchor ha
  · obtain ⟨x, hx, rfl⟩ := List.mem_map.mp ((h.all k).mpr ⟨hk, ha⟩)
    obtain ⟨i, hi⟩ := List.getElem?_of_mem hx
    exact key i x.1 x.2 hi

theorem _root_.Pyodrx.Spec.Tree.noLoops {roads : Dict (Road F)} {L : List (RoadEnd × RoadEnd)} (h : Tree roads L) :
    NoLoops roads :=
  ⟨L, L.map (·.1.1), h.complete, h.once, fun k hk => (h.all k).mp hk, by simp⟩

variable [PyFloat F]

/-- During a run a road that was placed was placed by its joint. -/
theorem History.tree {roads0 : Dict (Road F)} {L : List (RoadEnd × RoadEnd)} (ht : Tree roads0 L) {net0 net : Net F}
    {m : Nat} (h : History roads0 net0 m net) (he : roads0 = net0.roads) (hf : Fresh net0.roads) :
    ∀ k r, net.roads.get? k = some r → r.planview.adjusted = true → ¬ Anchor roads0 k →
      ∃ e nb e', ((k, e), (nb, e')) ∈ L ∧ AttachedAt roads0 net.roads k e nb e' := by
  have keep : ∀ {net1 net2 : Net F} {k0 : String} {p : Pose F → Pose F} {b : Bool}, Put net1 k0 p b net2 →
      ∀ {k e nb e'}, AttachedAt roads0 net1.roads k e nb e' → AttachedAt roads0 net2.roads k e nb e' := by
    rintro net1 net2 k0 p b hp k e nb e' ⟨r, n, q, h1, h2, h3, h4, h5, h6, h7⟩
    exact ⟨r, n, q, h1, hp.keep h2 h4, hp.keep h3 h5, h4, h5, h6, h7⟩
  induction h with
  | refl =>
    intro k r hr ha
    rw [(hf k r hr).1] at ha
    cases ha
  | @anchor net1 net2 m k0 hh hk hp ih =>
    intro k r hr ha hna
    by_cases hkk : k = k0
    · subst hkk; exact absurd hk hna
    · rw [hp.other hkk] at hr
      obtain ⟨e, nb, e', h1, h2⟩ := ih k r hr ha hna
      exact ⟨e, nb, e', h1, keep hp h2⟩
  | @place net1 net2 m k0 nb0 e0 e0' hh hk hp ih =>
    intro k r hr ha hna
    obtain ⟨r0, _, _, hr0, _⟩ := id hp
    obtain ⟨r', n, p, a1, a2, a3, a4, a5, a6, a7, a8⟩ := hp.attach hr0
    have hpb : PlacedBy roads0 k0 e0 nb0 e0' := PlacedBy.mono (he ▸ hh.same) hk
    obtain ⟨_, _, _, _, _, _, _, hput⟩ := hp
    by_cases hkk : k = k0
    · subst hkk
      refine ⟨e0, nb0, e0', ?_, r', n, p, hpb, a1, a6, a3, a5, a7, a8⟩
      rcases ht.complete _ _ _ _ hpb with h1 | h1
      · exact h1
      · -- the neighbour would have been placed at this road before
        obtain ⟨e1, nb1, e1', h2, r1, n1, p1, h3, h4, h5, h6, h7, _⟩ := ih nb0 n a4 a5 (ht.notAnchor h1)
        obtain ⟨_, h8⟩ := ht.unique h1 h2
        cases h8
        obtain ⟨r2, st, q1, q2, _⟩ := hput
        rw [h5] at q1
        cases q1
        rw [h7] at q2
        cases q2
    · rw [hput.other hkk] at hr
      obtain ⟨e, nb, e', h1, h2⟩ := ih k r hr ha hna
      exact ⟨e, nb, e', h1, keep hput h2⟩

theorem startpoints_tree {L : List (RoadEnd × RoadEnd)} {net net' : Net F} (hn : net.roads.keys.Nodup)
    (hf : Fresh net.roads) (ht : Tree net.roads L) (h : Net.adjustStartpoints net = .ok () net') {k nb : String}
    {e e' : ContactPoint} (hl : ((k, e), (nb, e')) ∈ L) : AttachedAt net.roads net'.roads k e nb e' := by
  obtain ⟨m, hh, _⟩ := startpoints_history hn hf h
  have hk := ((ht.all k).mp (List.mem_map_of_mem (f := (·.1.1)) hl)).1
  rw [← hh.same.1, ← Dict.get?_isSome, Option.isSome_iff_exists] at hk
  obtain ⟨r, hr⟩ := hk
  obtain ⟨e1, nb1, e1', h1, h2⟩ := hh.tree ht rfl hf k r hr (startpoints_all hn hf h hr) (ht.notAnchor hl)
  obtain ⟨rfl, h3⟩ := ht.unique hl h1
  cases h3
  exact h2

/-- After a normal return every road was adjusted once: forward if it is an anchor or is placed by its start. -/
theorem startpoints_once_tree {L : List (RoadEnd × RoadEnd)} {net net' : Net ℝ} (hn : net.roads.keys.Nodup)
    (hf : Fresh net.roads) (ht : Tree net.roads L)
    (hev : ∀ k r, net.roads.get? k = some r → Evaluable net.geoms r.planview)
    (h : Net.adjustStartpoints net = .ok () net') :
    OnceAll (fun k => Anchor net.roads k ∨ ∃ nb, ((k, .start), nb) ∈ L) net net' := by
  have h0 : ∀ A, OnceAll A net net := fun A => ⟨.refl _, fun k r hr => ⟨r, hr, .inl ⟨rfl, (hf k r hr).1⟩⟩⟩
  rw [adjustStartpoints_eq] at h
  obtain ⟨c, s1, h1, h⟩ := bind_ok.mp h
  obtain ⟨i1, _, i3, _⟩ := anchors_history hn hf h1
  obtain ⟨m, hm, hh⟩ := passes_history (roads0 := net.roads) _ _ _ _ rfl h
  clear h
  have main : ∀ {n : Nat} {b : Net ℝ}, History net.roads s1 n b →
      OnceAll (fun k => Anchor net.roads k ∨ ∃ nb, ((k, .start), nb) ∈ L) net b := by
    intro n b hb
    induction hb with
    | refl => exact (h0 _).anchors hev i1
    | anchor _ _ hp ih => exact ih.put hev hp (by simp)
    | @place net1 net2 m k nb e e' hh1 hk hp ih =>
      have hfull : History net.roads net _ net2 := i1.history.trans (.place hh1 hk hp)
      have hold : History net.roads net _ net1 := i1.history.trans hh1
      obtain ⟨r0, _, _, hr0, _⟩ := id hp
      obtain ⟨r', n', p', a1, a2, a3, _⟩ := hp.attach hr0
      have hpb : PlacedBy net.roads k e nb e' := PlacedBy.mono hold.same hk
      obtain ⟨_, _, _, _, hnb, hnba, _, hput⟩ := hp
      refine ih.put hev hput fun hb => ?_
      have he : e = .end := by cases e <;> simp at hb ⊢
      subst he
      rintro (hA | ⟨nb', hs⟩)
      · obtain ⟨r, _, q1, q2, _⟩ := hput
        obtain ⟨rr, hrr, _⟩ := hh1.same.2 _ _ q1
        have h1 := (i3 _ _ hrr).mpr hA
        have h2 := hh1.keep hrr h1
        rw [q1] at h2; cases h2
        rw [q2] at h1; simp at h1
      · rcases ht.complete _ _ _ _ hpb with h1 | h1
        · have := (ht.unique hs h1).1
          cases this
        · obtain ⟨e1, nb1, e1', h2, r1, n1, p1, h3, h4, h5, h6, h7, _⟩ :=
            hold.tree ht rfl hf nb _ hnb hnba (ht.notAnchor h1)
          obtain ⟨_, h8⟩ := ht.unique h1 h2
          cases h8
          obtain ⟨r2, st, q1, q2, _⟩ := hput
          rw [h5] at q1
          cases q1
          rw [h7] at q2
          cases q2
  exact main hh

end Pyodrx
