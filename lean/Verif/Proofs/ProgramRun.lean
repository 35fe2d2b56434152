import Verif.Proofs.ProgramNet

/-! # The run of a program that fits together -/

namespace Pyodrx
open Spec Props

section
variable {calls : List (RoadCall ℝ)} {L : List (CallEnd × CallEnd)} {st st' : GenState ℝ} {roads : List (Road ℝ)}

theorem isSome_get_iff {α : Type} (l : List α) (i : Nat) : l[i]?.isSome ↔ i < l.length := by simp

theorem _root_.Pyodrx.SectionCall.lane_isSome {F : Type} (s : SectionCall F) (i : Int) :
    (s.lane i).isSome ↔ 0 < i ∧ i ≤ s.left.length ∨ i < 0 ∧ -i ≤ s.right.length := by
  unfold SectionCall.lane
  split
  · rw [isSome_get_iff]; omega
  · split
    · rw [isSome_get_iff]; omega
    · simp; omega

theorem _root_.Pyodrx.RoadCall.hasLane_iff {c : RoadCall ℝ} {e : ContactPoint} {s : SectionCall ℝ} (h : c.sectionAt e = some s)
    {i : Int} : (∃ w, c.HasLane e i w) ↔ 0 < i ∧ i ≤ s.left.length ∨ i < 0 ∧ -i ≤ s.right.length := by
  rw [← s.lane_isSome, Option.isSome_iff_exists]
  constructor
  · rintro ⟨w, s', l, h1, h2, -⟩
    rw [h] at h1; cases h1
    exact ⟨l, h2⟩
  · rintro ⟨l, hl⟩
    exact ⟨_, s, l, h, hl, rfl⟩

/-- Fewer lane numbers, fewer lanes. -/
theorem counts_le {c d : RoadCall ℝ} {e f : ContactPoint} {s t : SectionCall ℝ} (hs : c.sectionAt e = some s)
    (ht : d.sectionAt f = some t) (h : ∀ i, (∃ w, c.HasLane e i w) → ∃ w, d.HasLane f i w) :
    s.left.length ≤ t.left.length ∧ s.right.length ≤ t.right.length := by
  have h1 := fun i hi => (RoadCall.hasLane_iff ht).mp (h i ((RoadCall.hasLane_iff hs).mpr hi))
  constructor
  · by_contra hlt
    have := h1 s.left.length (.inl (by omega))
    omega
  · by_contra hlt
    have := h1 (-(s.right.length : Int)) (.inr (by omega))
    omega

theorem _root_.Pyodrx.Spec.Sound.sectionAt (hs : Sound calls L) {c : RoadCall ℝ} (hc : c ∈ calls) (e : ContactPoint) :
    ∃ s, c.sectionAt e = some s := by
  rw [← Option.isSome_iff_exists]
  cases e
  · show c.sections.head?.isSome
    simpa using hs.sections c hc
  · show c.sections.getLast?.isSome
    simpa using hs.sections c hc

theorem Built.numbered {a b : GenState ℝ} {c : RoadCall ℝ} {r : Road ℝ} (h : Built a b c r) {sec : LaneSection ℝ}
    (hsec : sec ∈ r.lanesections) : Numbered b.lanes sec := by
  obtain ⟨j, hj⟩ := List.mem_iff_getElem?.mp hsec
  have key : ∀ i x, sectionLane sec i = some x → (b.lanes.cell x).laneId = some i := by
    intro i x hx
    obtain ⟨l, -, e⟩ := h.lane (j, i) x (by rw [laneOf_eq, hj]; exact hx)
    rw [e]; rfl
  constructor
  · intro i x hx
    refine key _ x ?_
    rw [sectionLane, if_pos (by omega), ← hx]
    congr 1
    omega
  · intro i x hx
    refine key _ x ?_
    rw [sectionLane, if_neg (by omega), if_pos (by omega), ← hx]
    congr 1
    omega

theorem Built.sectionAt {a b : GenState ℝ} {c : RoadCall ℝ} {r : Road ℝ} (h : Built a b c r) {e : ContactPoint}
    {s : SectionCall ℝ} (hs : c.sectionAt e = some s) : ∃ sec, Spec.sectionAt r e = some sec ∧ sec ∈ r.lanesections ∧
      sec.left.length = s.left.length ∧ sec.right.length = s.right.length ∧ Numbered b.lanes sec ∧
      ∃ j, c.sections[j]? = some s ∧ r.lanesections[j]? = some sec ∧ (e = .start → j = 0) ∧
        (e = .end → j + 1 = c.sections.length) := by
  have hlen := h.shape.length_eq
  have key : ∃ j, c.sections[j]? = some s ∧ Spec.sectionAt r e = r.lanesections[j]? ∧ (e = .start → j = 0) ∧
      (e = .end → j + 1 = c.sections.length) := by
    cases e
    · refine ⟨0, ?_, ?_, fun _ => rfl, fun h => by cases h⟩
      · rw [← List.head?_eq_getElem?]; exact hs
      · rw [← List.head?_eq_getElem?]; rfl
    · have hs : c.sections.getLast? = some s := hs
      have hne : c.sections ≠ [] := by rintro h0; rw [h0] at hs; cases hs
      have := List.length_pos_iff.mpr hne
      refine ⟨c.sections.length - 1, ?_, ?_, (fun h => by cases h), fun _ => by omega⟩
      · rw [← List.getLast?_eq_getElem?]; exact hs
      · rw [hlen, ← List.getLast?_eq_getElem?]; rfl
  obtain ⟨j, h1, h2, h3, h4⟩ := key
  obtain ⟨hlt, rfl⟩ := List.getElem?_eq_some_iff.mp h1
  have hlt' : j < r.lanesections.length := by omega
  have := h.shape.get hlt hlt'
  rw [List.getElem?_eq_getElem hlt'] at h2
  exact ⟨_, h2, List.getElem_mem hlt', this.2.1, this.2.2, h.numbered (List.getElem_mem hlt'), j, h1,
    List.getElem?_eq_getElem hlt', h3, h4⟩

theorem Built.nodup {a b : GenState ℝ} {c : RoadCall ℝ} {r : Road ℝ} (h : Built a b c r) {sec : LaneSection ℝ}
    (hsec : sec ∈ r.lanesections) : (sec.left ++ sec.right).Nodup := by
  obtain ⟨j, hj⟩ := List.mem_iff_getElem?.mp hsec
  obtain ⟨n1, n2⟩ := h.numbered hsec
  rw [List.nodup_append]
  refine ⟨?_, ?_, ?_⟩
  · rw [List.nodup_iff_getElem?_ne_getElem?]
    intro i k hik hk he
    have e1 := n1 i _ (he ▸ List.getElem?_eq_getElem hk)
    have e2 := n1 k _ (List.getElem?_eq_getElem hk)
    rw [e1] at e2
    simp only [Option.some.injEq] at e2
    omega
  · rw [List.nodup_iff_getElem?_ne_getElem?]
    intro i k hik hk he
    have e1 := n2 i _ (he ▸ List.getElem?_eq_getElem hk)
    have e2 := n2 k _ (List.getElem?_eq_getElem hk)
    rw [e1] at e2
    simp only [Option.some.injEq] at e2
    omega
  · intro x hx y hy hxy
    subst hxy
    obtain ⟨i, hi⟩ := List.getElem?_of_mem hx
    obtain ⟨k, hk⟩ := List.getElem?_of_mem hy
    have e1 := n1 i x hi
    have e2 := n2 k x hk
    rw [e1] at e2
    simp only [Option.some.injEq] at e2
    omega

theorem link_ne_junction (hs : Sound calls L) {c : RoadCall ℝ} (hc : c ∈ calls) {r : Road ℝ} (hb : Ready st st' c r)
    (ht : c.roadType ≠ -1) {e : ContactPoint} {l : Link} (hl : linkAt r e = some l) : l.elementType ≠ some .junction := by
  obtain ⟨k, e1, n, k', e2, n', j1, j2, -⟩ := hs.connecting c hc ht
  cases e
  · rw [Joins.toLink hb j1] at hl; cases hl; simp
  · rw [Joins.toLink hb j2] at hl; cases hl; simp

theorem Prepared.wellFormed (h : Prepared calls st st' roads) (hs : Sound calls L) : WellFormed (netOf roads st') := by
  have hd := h.drawn hs
  refine ⟨?_, hd.nodup, hd.fresh, ?_, ?_, fun k r hr => (hd.drawn k r hr).plan.evaluable, ?_, ?_⟩
  · intro hnil
    have := h.keys hs
    rw [hnil] at this
    have h0 := hs.first.1
    cases calls with
    | nil => exact h0 rfl
    | cons => simp [Dict.keys] at this
  · intro k r l hk hl
    obtain ⟨c, hc, rfl, hb⟩ := h.get hs hk
    obtain ⟨e, hl⟩ := linkAt_cases hl
    obtain ⟨x, hx, rfl⟩ := hb.joins hl
    rw [h.keys hs]
    exact List.mem_map_of_mem (hs.named c hc e x hx)
  · intro k r l hk hl ht
    obtain ⟨c, hc, rfl, hb⟩ := h.get hs hk
    obtain ⟨e, hl⟩ := linkAt_cases hl
    obtain ⟨d, hd, e', n, q1, rfl, -⟩ := h.join hs hc hb hl ht
    simp
  · intro k r l hk ht hl
    obtain ⟨c, hc, rfl, hb⟩ := h.get hs hk
    obtain ⟨e, hl⟩ := linkAt_cases hl
    rw [hb.type] at ht
    have hj := link_ne_junction hs hc hb ht hl
    refine ⟨hj, fun t htk => ?_⟩
    obtain ⟨d, hd, e', n, q1, rfl, -⟩ := h.join hs hc hb hl hj
    obtain ⟨f, hf, e1, hb'⟩ := h.get hs htk
    rw [hb'.type]
    exact (hs.lanes c hc ht e d.id e' n q1 f hf (strInt_injective e1).symm).1
  · intro k r hk hA
    obtain ⟨c, hc, rfl, hb⟩ := h.get hs hk
    rw [h.anchor hs] at hA
    rw [hb.type]
    exact hs.first.2 c hc hA

theorem toStr_inj {a b : Int} (h : (PyId.int a).toStr = (PyId.int b).toStr) : a = b := strInt_injective h

/-- A road that follows another one, in terms of the calls. -/
theorem Prepared.follows (h : Prepared calls st st' roads) (hs : Sound calls L) {a b : RoadCall ℝ} {r s : Road ℝ}
    (ha : a ∈ calls) (hra : Ready st st' a r) (hb : b ∈ calls) (hrb : Ready st st' b s) (hf : Follows r s) :
    ∃ e e' n n', a.Joins .end b.id e n ∧ b.Joins .start a.id e' n' := by
  obtain ⟨l, l1, l2, l3⟩ := hf.succ
  obtain ⟨m, m1, m2, m3⟩ := hf.pred
  obtain ⟨d, hd, e, n, q1, rfl, -⟩ := h.join hs ha hra (e := .end) l1 (by rw [l2]; simp)
  obtain ⟨f, hf, e', n', p1, rfl, -⟩ := h.join hs hb hrb (e := .start) m1 (by rw [m2]; simp)
  rw [hrb.id] at l3; rw [hra.id] at m3
  rw [PyId.int.inj l3] at q1; rw [PyId.int.inj m3] at p1
  exact ⟨e, e', n, n', q1, p1⟩

theorem Prepared.linkable (h : Prepared calls st st' roads) (hs : Sound calls L) :
    Linkable (netOf roads st').roads st'.lanes := by
  refine ⟨?_, ?_, ?_, ?_⟩
  · intro k1 k2 r s hne hr hs' tr ts hf
    obtain ⟨a, ha, rfl, hra⟩ := h.get hs hr
    obtain ⟨b, hb, rfl, hrb⟩ := h.get hs hs'
    obtain ⟨e, e', n, n', j1, j2⟩ := h.follows hs ha hra hb hrb hf
    rw [hra.type] at tr; rw [hrb.type] at ts
    obtain ⟨rfl, rfl, c1, c2, c4⟩ := hs.joint a ha b hb e e' n n' tr ts j1 j2
    obtain ⟨ca, ha'⟩ := hs.sectionAt ha .end
    obtain ⟨cb, hb'⟩ := hs.sectionAt hb .start
    obtain ⟨cl, hl'⟩ := hs.sectionAt hb .end
    obtain ⟨sa, a2, -, a4, a5, a3, -⟩ := hra.sectionAt ha'
    obtain ⟨sb, b2, -, b4, b5, b3, -⟩ := hrb.sectionAt hb'
    obtain ⟨sl, l2, -, l4, l5, -, -⟩ := hrb.sectionAt hl'
    have k1 := counts_le ha' hb' fun i ⟨w, hw⟩ => ⟨w, (c1 i w).mp hw⟩
    have k2 := counts_le hb' ha' fun i ⟨w, hw⟩ => ⟨w, (c1 i w).mpr hw⟩
    have k3 := counts_le hb' hl' fun i hi => (c2 i).mp hi
    have k4 := counts_le hl' hb' fun i hi => (c2 i).mpr hi
    refine ⟨sa, sb, sl, ⟨by rw [hra.type]; exact tr, by rw [hrb.type]; exact ts, hf, ?_, ?_, a2, b2, l2, a3⟩, b3,
      ⟨by omega, by omega⟩, ⟨by omega, by omega⟩⟩
    · intro l hl
      have hl : linkAt r .end = some l := hl
      rw [Joins.toLink hra j1] at hl; cases hl; rfl
    · intro l hl
      obtain ⟨x, hx, rfl⟩ := hrb.joins (e := .end) hl
      rw [hra.id]
      exact fun he => c4 x hx (PyId.int.inj he)
  · intro k r hr ht
    obtain ⟨c, hc, rfl, hb⟩ := h.get hs hr
    rw [hb.type] at ht
    obtain ⟨k, e1, n, k', e2, n', j1, j2, hne⟩ := hs.connecting c hc ht
    exact ⟨_, _, Joins.toLink hb j1, Joins.toLink hb j2, fun he => hne (by cases he; rfl)⟩
  · intro k1 k2 r s hr hs' ht ⟨l, hl, hid⟩
    obtain ⟨c, hc, rfl, hb⟩ := h.get hs hr
    obtain ⟨d, hd, rfl, hbd⟩ := h.get hs hs'
    obtain ⟨e, hl⟩ := linkAt_cases hl
    rw [hb.type] at ht
    obtain ⟨f, hf, e', n, q1, rfl, -⟩ := h.join hs hc hb hl (link_ne_junction hs hc hb ht hl)
    rw [hbd.id] at hid
    rw [hbd.type]
    exact (hs.lanes c hc ht e f.id e' n q1 d hd (PyId.int.inj hid).symm).1
  · intro k1 k2 r s e l hr hs' ht hl hid
    obtain ⟨c, hc, rfl, hb⟩ := h.get hs hr
    obtain ⟨d, hd, rfl, hbd⟩ := h.get hs hs'
    rw [hb.type] at ht
    obtain ⟨f, hf, e', n, q1, rfl, -⟩ := h.join hs hc hb hl (link_ne_junction hs hc hb ht hl)
    rw [hbd.id] at hid
    obtain ⟨-, c1⟩ := hs.lanes c hc ht e f.id e' n q1 d hd (PyId.int.inj hid).symm
    obtain ⟨ca, ha'⟩ := hs.sectionAt hc e
    obtain ⟨cb, hb'⟩ := hs.sectionAt hd e
    obtain ⟨cl, hl'⟩ := hs.sectionAt hd e'
    obtain ⟨sa, a2, -, a4, a5, a3, -⟩ := hb.sectionAt ha'
    obtain ⟨sb, b2, -, b4, b5, b3, -⟩ := hbd.sectionAt hb'
    obtain ⟨sl, l2, -, l4, l5, l3, -⟩ := hbd.sectionAt hl'
    have k1 := counts_le ha' hb' fun i ⟨w, hw⟩ => (c1 i w hw).1 e
    have k2 := counts_le ha' hl' fun i ⟨w, hw⟩ => (c1 i w hw).1 e'
    exact ⟨sa, sb, sl, a2, b2, l2, b3, l3, by omega, by omega, by omega, by omega⟩

theorem Prepared.unshared (h : Prepared calls st st' roads) (hs : Sound calls L) : Unshared (netOf roads st').roads := by
  refine ⟨?_, ?_⟩
  · intro k r s hk hsec
    obtain ⟨c, hc, rfl, hb⟩ := h.get hs hk
    exact hb.nodup hsec
  · intro k k' r r' i j s s' x hk hk' hi hj hx hx'
    obtain ⟨hr, rfl⟩ := ((foldl_addRoad_distinct roads (h.nodup hs)).2 k r).mp hk
    obtain ⟨hr', rfl⟩ := ((foldl_addRoad_distinct roads (h.nodup hs)).2 k' r').mp hk'
    have hid : r.id.toStr = r'.id.toStr := by
      by_contra hne
      have m1 : x ∈ lanesOf r := List.mem_flatMap.mpr ⟨s, List.mem_of_getElem? hi, List.mem_cons_of_mem _ hx⟩
      have m2 : x ∈ lanesOf r' := List.mem_flatMap.mpr ⟨s', List.mem_of_getElem? hj, List.mem_cons_of_mem _ hx'⟩
      have : Std.Symm fun p q : Road ℝ => p.id.toStr ≠ q.id.toStr → ∀ x ∈ lanesOf p, x ∉ lanesOf q :=
        ⟨fun p q hpq hne x hq hp => hpq (Ne.symm hne) x hp hq⟩
      have := List.Pairwise.forall_of_forall (l := roads) (R := fun p q => p.id.toStr ≠ q.id.toStr → ∀ x ∈ lanesOf p, x ∉ lanesOf q)
        (fun p _ hne => absurd rfl hne)
        (h.disjoint.imp (S := fun p q => p.id.toStr ≠ q.id.toStr → ∀ x ∈ lanesOf p, x ∉ lanesOf q) fun hpq _ => hpq)
      exact this hr hr' hne x m1 m2
    refine ⟨hid, ?_⟩
    have e : r = r' := by
      rw [hid] at hk
      exact Option.some.inj (hk.symm.trans hk')
    subst e
    obtain ⟨c, hc, hb⟩ := h.call hr
    obtain ⟨n, hn⟩ := laneOf_of_mem hi hx
    obtain ⟨m, hm⟩ := laneOf_of_mem hj hx'
    have := hb.distinct _ _ x hn hm
    exact congrArg Prod.fst this

theorem Prepared.directed (h : Prepared calls st st' roads) (hs : Sound calls L) : Directed (netOf roads st').roads := by
  refine ⟨?_, ?_, ?_⟩
  · intro k r e l hk hl ht
    obtain ⟨c, hc, rfl, hb⟩ := h.get hs hk
    obtain ⟨d, hd, e', n, -, rfl, -⟩ := h.join hs hc hb hl ht
    obtain ⟨r', hr', hb'⟩ := h.find hs hd
    exact ⟨rfl, _, r', hr', hb'.id.symm⟩
  · intro k r e l hk ht hl
    obtain ⟨c, hc, rfl, hb⟩ := h.get hs hk
    rw [hb.type] at ht
    have hj := link_ne_junction hs hc hb ht hl
    obtain ⟨d, hd, e', n, -, rfl, -⟩ := h.join hs hc hb hl hj
    exact ⟨by simp, e', rfl⟩
  · intro k1 k2 r s hr hs' tr ts hf l hl
    obtain ⟨a, ha, rfl, hra⟩ := h.get hs hr
    obtain ⟨b, hb, rfl, hrb⟩ := h.get hs hs'
    obtain ⟨e, e', n, n', j1, j2⟩ := h.follows hs ha hra hb hrb hf
    rw [hra.type] at tr; rw [hrb.type] at ts
    obtain ⟨rfl, rfl, -⟩ := hs.joint a ha b hb e e' n n' tr ts j1 j2
    have hl : linkAt s .start = some l := hl
    rw [Joins.toLink hrb j2] at hl; cases hl; rfl

/-- Everything the program does up to `adjust_roads_and_lanes`. -/
theorem program_prepared (hs : Sound calls L) (st : GenState ℝ) : ∃ r0 st' roads, makeRoads calls st = .ok r0 st' ∧
    connectRoads calls r0 = .ok roads ∧ Prepared calls st st' roads := by
  obtain ⟨r0, st', h1, h2, h3, h4, -⟩ := makeRoads_ok calls st (fun c hc =>
    ⟨fun g hg => ((hs.geometry c hc).2 g hg).1, hs.sections c hc, fun p s hp => (hs.inner c hc p s hp).2⟩)
  obtain ⟨roads, k1, k2, -, k4⟩ := connectRoads_ok h2 h3 h4
  exact ⟨r0, st', roads, h1, k1, k2, k4⟩

/-- The run of `adjust_roads_and_lanes`. -/
theorem Prepared.run (h : Prepared calls st st' roads) (hs : Sound calls L) : ∃ w' : World ℝ,
    World.adjustRoadsAndLanes ⟨netOf roads st', st'.lanes⟩ = .ok () w' ∧
    ∀ x, ∃ new, w'.lanes.cell x = { st'.lanes.cell x with links := (st'.lanes.cell x).links ++ new } := by
  obtain ⟨net', hadj⟩ := C75_succeeds (netOf roads st') (h.wellFormed hs) (keyed L) (h.tree hs)
  obtain ⟨lanes', h1, -, h3⟩ := C30_all_links (netOf roads st') net' st'.lanes (h.drawn hs).nodup (h.drawn hs).fresh hadj
    (h.linkable hs)
  refine ⟨_, h1, fun x => ?_⟩
  obtain ⟨new, hc, -⟩ := h3 x
  exact ⟨new, hc⟩

/-- The document is readable and belongs to the run. -/
theorem Prepared.written (h : Prepared calls st st' roads) (hs : Sound calls L) {w' : World ℝ}
    (hrun : World.adjustRoadsAndLanes ⟨netOf roads st', st'.lanes⟩ = .ok () w')
    (hcell : ∀ x, ∃ new, w'.lanes.cell x = { st'.lanes.cell x with links := (st'.lanes.cell x).links ++ new })
    (name date : String) (so : SOState ℝ) (js : List Junction) : ∃ element doc,
      OpenDrive.getElement ⟨w'.net.geoms, w'.lanes, so⟩ date ⟨name, w'.net.roads, js⟩ = .ok element ∧
      readDocument element = some doc ∧
      Written ⟨netOf roads st', st'.lanes⟩ w' (piecesOf (netOf roads st')) ⟨name, w'.net.roads, js⟩
        ⟨w'.net.geoms, w'.lanes, so⟩ date doc := by
  have hd := h.drawn hs
  have hadj := adjustRoadsAndLanes_net hrun
  have hkeys : w'.net.roads.keys = (netOf roads st').roads.keys := (C18_placed_once _ w'.net hd.nodup hd.fresh hadj).1
  have hnd : w'.net.roads.keys.Nodup := by rw [hkeys]; exact hd.nodup
  have origin : ∀ kv ∈ w'.net.roads, ∃ c ∈ calls, ∃ r0, Ready st st' c r0 ∧ kv.2 = { r0 with planview := kv.2.planview } := by
    intro kv hkv
    obtain ⟨r0, h0, e, -⟩ := hd.read hadj (Dict.mem_get? hnd hkv)
    obtain ⟨c, hc, -, hb⟩ := h.get hs h0
    exact ⟨c, hc, r0, hb, e⟩
  have hlane : ∀ kv ∈ w'.net.roads, ∀ sec ∈ kv.2.lanesections, ∀ x ∈ sec.left ++ [sec.center] ++ sec.right,
      (w'.lanes.cell x).laneId ≠ none ∧ GoodMark (w'.lanes.cell x) := by
    intro kv hkv sec hsec x hx
    obtain ⟨c, hc, r0, hb, e⟩ := origin kv hkv
    rw [e] at hsec
    change sec ∈ r0.lanesections at hsec
    obtain ⟨new, hnew⟩ := hcell x
    rw [hnew]
    have key : ∃ l i, (l = c.center ∨ ∃ n, c.lane n = some l) ∧ (st'.lanes.cell x).laneId = some i ∧
        (st'.lanes.cell x).roadmark = l.mark := by
      have hm : ∀ l : LaneCall ℝ, l.lane.roadmark = l.mark := by
        intro l
        unfold LaneCall.lane
        split <;> simp_all [Lane.new, Lane.addRoadmark]
      rw [List.mem_append, List.mem_append, List.mem_singleton, or_right_comm, ← List.mem_append] at hx
      rcases hx with hx | rfl
      · obtain ⟨j, hj⟩ := List.mem_iff_getElem?.mp hsec
        obtain ⟨i, hi⟩ := laneOf_of_mem hj hx
        obtain ⟨l, l1, l2⟩ := hb.lane _ x hi
        exact ⟨l, i, .inr ⟨_, l1⟩, by rw [l2]; rfl, by rw [l2]; exact hm l⟩
      · exact ⟨c.center, 0, .inl rfl, by rw [hb.center _ hsec]; rfl, by rw [hb.center _ hsec]; exact hm _⟩
    obtain ⟨l, i, k1, k2, k3⟩ := key
    refine ⟨by simp [k2], fun m hm hline => ?_⟩
    exact hs.marks c hc l k1 m (k3.symm.trans hm) hline
  have hgood : ∀ kv ∈ w'.net.roads, GoodRoad ⟨w'.net.geoms, w'.lanes, so⟩ kv.2 := by
    intro kv hkv
    refine ⟨fun sec hsec x hx => (hlane kv hkv sec hsec x hx).2, fun i hi => ?_⟩
    obtain ⟨c, hc, r0, hb, e⟩ := origin kv hkv
    rw [e] at hi
    change i ∈ r0.signals at hi
    rw [hb.empty.2.1] at hi
    cases hi
  obtain ⟨element, he⟩ := (C43_error ⟨w'.net.geoms, w'.lanes, so⟩ date ⟨name, w'.net.roads, js⟩).1.mpr
    (fun kv hkv sec hsec x hx => (hlane kv hkv sec hsec x hx).1)
  obtain ⟨doc, hdoc⟩ := C75_readable ⟨netOf roads st', st'.lanes⟩ w' _ hd (keyed L) (h.tree hs) hrun
    ⟨name, w'.net.roads, js⟩ ⟨w'.net.geoms, w'.lanes, so⟩ date rfl rfl hgood element he (by
      intro k hk
      change k ∈ (netOf roads st').roads.keys at hk
      rw [← Dict.get?_isSome, Option.isSome_iff_exists] at hk
      obtain ⟨r, hr⟩ := hk
      obtain ⟨c, hc, rfl, hb⟩ := h.get hs hr
      rcases hs.several c hc with hA | h1 | ⟨nb, h1⟩
      · exact .inl ((h.anchor hs _).mpr hA)
      · refine .inr (.inl ?_)
        obtain ⟨refs, e1, e2, -⟩ := hb.plan
        rw [piecesOf]
        change (match (netOf roads st').roads.get? (strInt c.id) with
          | some r => _
          | none => _ : List Piece).length = 1
        rw [hr]
        simp only [List.length_map, e1]
        rw [← e2, List.length_map] at h1
        exact h1
      · exact .inr (.inr ⟨_, mem_keyed.mpr h1⟩))
  refine ⟨element, doc, he, hdoc, hd, (h.tree hs).noLoops, ?_, h.linkable hs, h.unshared hs, h.directed hs, ?_, ?_, hrun,
    rfl, rfl, rfl, hgood, element, he, hdoc⟩
  · intro k r l hk hl
    obtain ⟨c, hc, rfl, hb⟩ := h.get hs hk
    rw [hb.links] at hl
    have hkind : ∀ e, linkAt r e = some l → l.kind = kindAt e := by
      intro e hl
      obtain ⟨x, -, rfl⟩ := hb.joins hl; rfl
    rcases List.mem_append.mp hl with hl | hl <;> rw [Option.mem_toList] at hl
    · exact ⟨fun _ => hl, fun hk => (by rw [hkind .start hl] at hk; cases hk)⟩
    · exact ⟨fun hk => (by rw [hkind .end hl] at hk; cases hk), fun _ => hl⟩
  · intro k r s hk hsec
    obtain ⟨c, hc, rfl, hb⟩ := h.get hs hk
    exact hb.numbered hsec
  · intro k r e s hk hsec x hx l hl
    obtain ⟨c, hc, rfl, hb⟩ := h.get hs hk
    obtain ⟨sc, hsc⟩ := hs.sectionAt hc e
    obtain ⟨sec, q1, -, -, -, -, j, -, q2, q3, q4⟩ := hb.sectionAt hsc
    rw [hsec] at q1
    cases q1
    obtain ⟨i, hi⟩ := laneOf_of_mem q2 hx
    obtain ⟨lc, -, hcell⟩ := hb.lane _ x hi
    change l ∈ (st'.lanes.cell x).links at hl
    rw [hcell] at hl
    simp only [withLinks, LaneCall.placed, Lane.setLaneId, LaneCall.lane_links, List.nil_append] at hl
    obtain ⟨p, hp, hl⟩ := List.mem_flatMap.mp hl
    obtain ⟨i1, i2, i3⟩ := hs.inner c hc p.1 p.2 hp
    have bound : ∀ n, (c.lane n).isSome → n.1 < c.sections.length := by
      intro n hn
      unfold RoadCall.lane at hn
      split at hn
      · cases hn
      · rename_i s' hs'
        exact (List.getElem?_eq_some_iff.mp hs').1
    have b1 := bound _ i2
    have b2 := bound _ i3
    rw [List.mem_append] at hl
    intro hkind
    rcases hl with hl | hl
    · split at hl
      · rename_i hp1
        rw [List.mem_singleton] at hl
        subst hl
        cases e
        · cases hkind
        · have := q4 rfl
          have : p.1.1 = j := by rw [hp1]
          omega
      · cases hl
    · split at hl
      · rename_i hp1
        rw [List.mem_singleton] at hl
        subst hl
        cases e
        · have := q3 rfl
          have : p.2.1 = j := by rw [hp1]
          omega
        · cases hkind
      · cases hl

end

end Pyodrx
