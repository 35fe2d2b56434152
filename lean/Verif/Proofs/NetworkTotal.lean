import Verif.Proofs.Network

/-! # Placement never fails on a well-formed network unless a road is unreachable -/

namespace Pyodrx
open Spec PyFloat

variable {F : Type} [PyFloat F]

/-- A condition on planviews under which they can be adjusted. -/
structure Eval (F : Type) [PyFloat F] where
  Ok : Store (Geom F) → PlanView F → Prop
  frame : ∀ {g : Store (Geom F)} {pv pv' : PlanView F}, Ok g pv → pv.frame pv' → Ok g pv'
  adjust : ∀ {g : Store (Geom F)} {pv : PlanView F}, Ok g pv → ∀ b, ∃ st,
    PlanView.adjustGeometries b ⟨pv, g⟩ = .ok () st ∧ ∀ pv', Ok g pv' → Ok st.geoms pv'

structure Placeable (E : Eval F) (net : Net F) : Prop extends WellLinked net where
  ok : ∀ k r, net.roads.get? k = some r → E.Ok net.geoms r.planview

variable {E : Eval F}

/-- What holds at every moment of placing a well-formed network `net0`. -/
structure Good (E : Eval F) (net0 net : Net F) : Prop where
  same : SameNet net0.roads net.roads
  kept : ∀ pv, E.Ok net0.geoms pv → E.Ok net.geoms pv
  ends : ∀ k r, net.roads.get? k = some r → r.planview.adjusted = true →
    (∃ p, r.planview.start = some p) ∧ (∃ p, r.planview.stop = some p)

theorem Good.evaluable {net0 net : Net F} (hw : Placeable E net0) (h : Good E net0 net) {k : String}
    {r : Road F} (hr : net.roads.get? k = some r) : E.Ok net.geoms r.planview := by
  obtain ⟨r0, h0, hs⟩ := h.same.2 k r hr
  exact E.frame (h.kept _ (hw.ok k r0 h0)) hs.2

theorem Good.put {net0 net : Net F} (hw : Placeable E net0) (h : Good E net0 net) {k : String}
    {r : Road F} (hr : net.roads.get? k = some r) (p : Pose F) (b : Bool) :
    ∃ st, PlanView.adjustGeometries b ⟨r.planview.setStartPoint p, net.geoms⟩ = .ok () st ∧
      Good E net0 ⟨net.roads.set k { r with planview := st.pv }, st.geoms⟩ := by
  obtain ⟨st, h1, h2⟩ := E.adjust (E.frame (h.evaluable hw hr) (pv' := r.planview.setStartPoint p) ⟨rfl, rfl, rfl⟩) b
  have ha := adjustGeometries_gen h1
  refine ⟨st, h1, ?_, fun pv hpv => h2 pv (h.kept pv hpv), ?_⟩
  · refine h.same.trans ⟨Dict.keys_set_of_mem _ _ _ (Dict.mem_keys_of_get? hr), ?_⟩
    intro k' r' hr'
    simp only [Dict.get?_set] at hr'
    split at hr'
    · rename_i hk; subst hk; cases hr'
      exact ⟨r, hr, rfl, ha.frame⟩
    · exact ⟨r', hr', .refl _⟩
  · intro k' r' hr' had
    simp only [Dict.get?_set] at hr'
    split at hr'
    · cases hr'; exact ⟨⟨_, ha.start⟩, ⟨_, ha.stop⟩⟩
    · exact h.ends k' r' hr' had

theorem Good.adjustPlanview {net0 net : Net F} (hw : Placeable E net0) (h : Good E net0 net)
    {k : String} (hk : k ∈ net0.roads.keys) (b : Bool) :
    ∃ net', Net.adjustPlanview k b net = .ok () net' ∧ Good E net0 net' := by
  rw [← h.same.1, ← Dict.get?_isSome, Option.isSome_iff_exists] at hk
  obtain ⟨r, hr⟩ := hk
  obtain ⟨st, h1, h2⟩ := h.put hw hr r.planview.present b
  refine ⟨_, ?_, h2⟩
  unfold Net.adjustPlanview
  rw [hr]
  dsimp only
  rw [show r.planview.setStartPoint r.planview.present = r.planview from rfl] at h1
  rw [h1]

theorem Good.adjustWrt {net0 net : Net F} (hw : Placeable E net0) (h : Good E net0 net)
    {road nb : PyId} (hk : road.toStr ∈ net0.roads.keys) {n : Road F}
    (hn : net.roads.get? nb.toStr = some n) (hna : n.planview.adjusted = true)
    (e' : ContactPoint) (b : Bool) :
    ∃ net', Net.adjustRoadWrtNeighbour road nb (some e') b net = .ok () net' ∧ Good E net0 net' := by
  rw [← h.same.1, ← Dict.get?_isSome, Option.isSome_iff_exists] at hk
  obtain ⟨r, hr⟩ := hk
  obtain ⟨p, hp⟩ : ∃ p, neighbourPose n e' = .ok p := by
    obtain ⟨⟨p1, h1⟩, ⟨p2, h2⟩⟩ := h.ends _ n hn hna
    cases e'
    · exact ⟨_, by simp only [neighbourPose, h1]; rfl⟩
    · exact ⟨_, by simp only [neighbourPose, h2]; rfl⟩
  obtain ⟨st, h1, h2⟩ := h.put hw hr
    (offsetPose b (if b then r.laneOffsetPred else r.laneOffsetSuc) p) (!b)
  refine ⟨_, ?_, h2⟩
  unfold Net.adjustRoadWrtNeighbour
  rw [bind_of_ok (road_ok.mpr ⟨hr, rfl⟩), bind_of_ok (orRaise_some _),
    bind_of_ok (road_ok.mpr ⟨hn, rfl⟩)]
  rw [hp, bind_of_ok (liftExcept_of_ok _)]
  have hset : Net.setStartPoint road.toStr
      (offsetPose b (if b = true then r.laneOffsetPred else r.laneOffsetSuc) p) net =
      .ok () ⟨net.roads.set road.toStr { r with planview := (r.planview.setStartPoint
          (offsetPose b (if b = true then r.laneOffsetPred else r.laneOffsetSuc) p)) },
        net.geoms⟩ := by
    simp [Net.setStartPoint, hr]
  rw [bind_of_ok hset]
  unfold Net.adjustPlanview
  simp only [Dict.get?_set, if_true]
  rw [h1]
  simp only [EStateM.Result.ok.injEq, Net.mk.injEq, and_true, true_and]
  exact Dict.set_set _ _ _ _

theorem Good.road {net0 net : Net F} (h : Good E net0 net) {k : String} (hk : k ∈ net0.roads.keys) :
    ∃ r0 r, net0.roads.get? k = some r0 ∧ net.roads.get? k = some r ∧ r0.same r := by
  rw [← h.same.1, ← Dict.get?_isSome, Option.isSome_iff_exists] at hk
  obtain ⟨r, hr⟩ := hk
  obtain ⟨r0, h0, hs⟩ := h.same.2 k r hr
  exact ⟨r0, r, h0, hr, hs⟩

theorem Good.resolve {net0 net : Net F} (hw : Placeable E net0) (h : Good E net0 net) {k : String}
    {r : Road F} (hr : net.roads.get? k = some r) {l : Link}
    (hl : r.predecessor = some l ∨ r.successor = some l) :
    ∃ n, net.roads.get? l.elementId.toStr = some n ∧ l.elementId.toStr ∈ net0.roads.keys := by
  obtain ⟨r0, h0, hs⟩ := h.same.2 k r hr
  rw [hs.1] at hl
  have := hw.resolvable k r0 l h0 hl
  obtain ⟨_, n, _, hn, _⟩ := h.road this
  exact ⟨n, hn, this⟩

theorem Good.usable {net0 net : Net F} (hw : Placeable E net0) (h : Good E net0 net) {k : String}
    {r : Road F} (hr : net.roads.get? k = some r) {link : Option Link}
    (hl : link = r.predecessor ∨ link = r.successor) : ∃ b, Net.usable link net = .ok b net := by
  cases hlink : link with
  | none => exact ⟨false, rfl⟩
  | some l =>
    obtain ⟨n, hn, _⟩ := h.resolve hw hr (l := l) (by rw [← hlink]; tauto)
    exact ⟨_, usable_ok.mpr ⟨rfl, .inr ⟨l, n, rfl, hn, rfl⟩⟩⟩

theorem Good.dangling {net0 net : Net F} (hw : Placeable E net0) (h : Good E net0 net) {k : String}
    {r : Road F} (hr : net.roads.get? k = some r) {link : Option Link} (rt : Int)
    (hl : link = r.predecessor ∨ link = r.successor) :
    ∃ b, Net.danglingOther rt link net = .ok b net := by
  by_cases hrt : rt = -1
  · exact ⟨false, dangling_ok.mpr ⟨rfl, .inl ⟨.inl hrt, rfl⟩⟩⟩
  cases hlink : link with
  | none => exact ⟨false, dangling_ok.mpr ⟨rfl, .inl ⟨.inr rfl, rfl⟩⟩⟩
  | some l =>
    obtain ⟨n, hn, _⟩ := h.resolve hw hr (l := l) (by rw [← hlink]; tauto)
    exact ⟨_, dangling_ok.mpr ⟨rfl, .inr ⟨l, n, hrt, rfl, hn, rfl⟩⟩⟩

/-- the road `k` right after it has been attached -/
theorem adjustWrt_self {road nb : PyId} {e' : ContactPoint} {b : Bool} {net net' : Net F}
    {r : Road F} (hr : net.roads.get? road.toStr = some r)
    (h : Net.adjustRoadWrtNeighbour road nb (some e') b net = .ok () net') :
    ∃ r', net'.roads.get? road.toStr = some r' ∧ r.same r' ∧ r'.planview.adjusted = true := by
  unfold Net.adjustRoadWrtNeighbour at h
  replace h := bind_ok.mp h; obtain ⟨r', s1, h1, h⟩ := h
  replace h1 := road_ok.mp h1; obtain ⟨h1, rfl⟩ := h1
  replace h := bind_ok.mp h; obtain ⟨e', s2, h2, h⟩ := h
  replace h2 := orRaise_ok.mp h2; obtain ⟨h2, rfl⟩ := h2
  replace h := bind_ok.mp h; obtain ⟨n, s3, h3, h⟩ := h
  replace h3 := road_ok.mp h3; obtain ⟨h3, rfl⟩ := h3
  replace h := bind_ok.mp h; obtain ⟨p, s4, h4, h⟩ := h
  replace h4 := liftExcept_ok.mp h4; obtain ⟨h4, rfl⟩ := h4
  rw [hr] at h1; cases h1
  replace h := bind_ok.mp h; obtain ⟨_, s5, h5, h⟩ := h
  unfold Net.setStartPoint at h5
  rw [hr] at h5
  dsimp only at h5
  cases h5
  unfold Net.adjustPlanview at h
  simp only [Dict.get?_set, if_true] at h
  split at h
  · rename_i st hst
    cases h
    have hadj := adjustGeometries_gen hst
    exact ⟨{ r with planview := st.pv }, by simp [Dict.get?_set], ⟨rfl, hadj.frame⟩, hadj.adjusted⟩
  · exact absurd h (by simp)

theorem Good.contact {net0 net : Net F} (hw : Placeable E net0) (h : Good E net0 net) {k : String}
    {r : Road F} (hr : net.roads.get? k = some r) {l : Link}
    (hl : r.predecessor = some l ∨ r.successor = some l) (ht : l.elementType ≠ some .junction) :
    ∃ e', l.contactPoint = some e' := by
  obtain ⟨r0, h0, hs⟩ := h.same.2 k r hr
  rw [hs.1] at hl
  exact Option.ne_none_iff_exists'.mp (hw.contacts k r0 l h0 hl ht)

theorem Good.visit {net0 net : Net F} (hw : Placeable E net0) (h : Good E net0 net) {k : String}
    (hk : k ∈ net0.roads.keys) : ∃ c net', Net.visit k net = .ok c net' ∧ Good E net0 net' := by
  obtain ⟨r0, r, h0, hr, hs⟩ := h.road hk
  unfold Net.visit
  rw [bind_of_ok (road_ok.mpr ⟨hr, rfl⟩)]
  split
  · exact ⟨0, net, rfl, h⟩
  rename_i hu
  replace hu : r.planview.adjusted = false := by simpa using hu
  obtain ⟨b, hb⟩ := h.usable hw hr (.inl rfl)
  rw [bind_of_ok hb]
  rcases (usable_cases hb).2 with ⟨rfl, l, n, hl, hn, hna, ht⟩ | ⟨rfl, _⟩
  · rw [hl]
    dsimp only
    obtain ⟨e', he'⟩ := h.contact hw hr (.inl hl) ht
    obtain ⟨s1, h1, g1⟩ := h.adjustWrt hw (road := .str k) (b := true) hk hn hna e'
    rw [he', bind_of_ok h1]
    obtain ⟨r', hr', hs', ha'⟩ := adjustWrt_self (road := .str k) hr h1
    obtain ⟨b2, hb2⟩ := g1.dangling hw hr' (link := r.successor) r.roadType
      (.inr (by rw [hs'.1]))
    rw [bind_of_ok hb2]
    rcases (dangling_cases hb2).2 with ⟨rfl, l2, n2, hD⟩ | ⟨rfl, _⟩
    · obtain ⟨_, hl2, hn2, _⟩ := hD
      rw [hl2]
      dsimp only
      obtain ⟨_, _, hk2⟩ := g1.resolve hw hr' (l := l2) (.inr (by rw [hs'.1]; exact hl2))
      obtain ⟨s2, h2, g2⟩ := g1.adjustWrt hw (road := l2.elementId) (nb := .str k) hk2 hr' ha' .end
        (decide (l2.contactPoint = some .start))
      rw [bind_of_ok h2]
      exact ⟨2, s2, rfl, g2⟩
    · exact ⟨1, s1, rfl, g1⟩
  · dsimp only
    obtain ⟨b', hb'⟩ := h.usable hw hr (link := r.successor) (.inr rfl)
    rw [bind_of_ok hb']
    rcases (usable_cases hb').2 with ⟨rfl, l, n, hl, hn, hna, ht⟩ | ⟨rfl, _⟩
    · rw [hl]
      dsimp only
      obtain ⟨e', he'⟩ := h.contact hw hr (.inr hl) ht
      obtain ⟨s1, h1, g1⟩ := h.adjustWrt hw (road := .str k) (b := false) hk hn hna e'
      rw [he', bind_of_ok h1]
      obtain ⟨r', hr', hs', ha'⟩ := adjustWrt_self (road := .str k) hr h1
      obtain ⟨b2, hb2⟩ := g1.dangling hw hr' (link := r.predecessor) r.roadType
        (.inl (by rw [hs'.1]))
      rw [bind_of_ok hb2]
      rcases (dangling_cases hb2).2 with ⟨rfl, l2, n2, hD⟩ | ⟨rfl, _⟩
      · obtain ⟨_, hl2, hn2, _⟩ := hD
        rw [hl2]
        dsimp only
        obtain ⟨_, _, hk2⟩ := g1.resolve hw hr' (l := l2) (.inl (by rw [hs'.1]; exact hl2))
        obtain ⟨s2, h2, g2⟩ := g1.adjustWrt hw (road := l2.elementId) (nb := .str k) hk2 hr' ha'
          .start (decide (l2.contactPoint = some .start))
        rw [bind_of_ok h2]
        exact ⟨2, s2, rfl, g2⟩
      · exact ⟨1, s1, rfl, g1⟩
    · exact ⟨0, net, rfl, h⟩

/-! ### Closure -/

/-- The roads to which an adjusted connecting road is linked are adjusted. -/
def ConnClosed (net : Net F) : Prop :=
  ∀ k r l t, net.roads.get? k = some r → r.roadType ≠ -1 → r.planview.adjusted = true →
    r.predecessor = some l ∨ r.successor = some l →
    net.roads.get? l.elementId.toStr = some t → t.planview.adjusted = true

/-- Adjusted roads stay adjusted. -/
theorem Placement.adjusted_mono {net net' : Net F} {k nb : String} {e e' : ContactPoint}
    (h : Placement net k e nb e' net') {k' : String} {t t' : Road F}
    (ht : net.roads.get? k' = some t) (ha : t.planview.adjusted = true)
    (ht' : net'.roads.get? k' = some t') : t'.planview.adjusted = true := by
  obtain ⟨_, _, _, _, _, _, _, hput⟩ := h
  rw [hput.keep ht ha] at ht'
  cases ht'; exact ha

theorem Placement.split {net net' : Net F} {k nb : String} {e e' : ContactPoint}
    (h : Placement net k e nb e' net') {k' : String} {t' : Road F}
    (ht' : net'.roads.get? k' = some t') :
    (k' = k ∧ t'.planview.adjusted = true) ∨ net.roads.get? k' = some t' := by
  obtain ⟨_, _, _, _, _, _, _, hput⟩ := h
  by_cases hk : k' = k
  · subst hk
    obtain ⟨r1, st, q1, q2, q3, _, q4⟩ := hput.self
    rw [q3] at ht'; cases ht'
    exact .inl ⟨rfl, q4.adjusted⟩
  · rw [hput.other hk] at ht'; exact .inr ht'

theorem Placement.same {net net' : Net F} {k nb : String} {e e' : ContactPoint}
    (h : Placement net k e nb e' net') : SameNet net.roads net'.roads := by
  obtain ⟨_, _, _, _, _, _, _, hput⟩ := h
  exact hput.same

theorem Placement.back {net net' : Net F} {k nb : String} {e e' : ContactPoint}
    (h : Placement net k e nb e' net') {k' : String} {t' : Road F}
    (ht' : net'.roads.get? k' = some t') : ∃ t, net.roads.get? k' = some t ∧ t.same t' :=
  h.same.2 k' t' ht'

/-- After one placement everything is closed except for the placed road. -/
theorem ConnClosed.place {net net' : Net F} {k nb : String} {e e' : ContactPoint}
    (hc : ConnClosed net) (h : Placement net k e nb e' net') :
    ∀ k' r l t, k' ≠ k → net'.roads.get? k' = some r → r.roadType ≠ -1 →
      r.planview.adjusted = true → r.predecessor = some l ∨ r.successor = some l →
      net'.roads.get? l.elementId.toStr = some t → t.planview.adjusted = true := by
  intro k' r l t hk hr hrt ha hl ht
  rcases h.split hr with ⟨h1, _⟩ | h1
  · exact absurd h1 hk
  · obtain ⟨t0, q1, q2⟩ := h.back ht
    exact h.adjusted_mono q1 (hc k' r l t0 h1 hrt ha hl q1) ht

theorem ConnClosed.visit {net0 net net' : Net F} (hw : Placeable E net0) (hg : Good E net0 net)
    (hc : ConnClosed net) {k : String} {c : Nat} (h : Net.visit k net = .ok c net') :
    ConnClosed net' := by
  -- the two directions are the same argument
  have main : ∀ (r : Road F) (own other : Option Link) (l n : _) (e e' : ContactPoint) (s : Net F),
      net.roads.get? k = some r →
      ((own = r.predecessor ∧ other = r.successor) ∨ (own = r.successor ∧ other = r.predecessor)) →
      Usable net own l n → Placement net k e l.elementId.toStr e' s →
      ((c = 1 ∧ net' = s ∧ NotDangling s r.roadType other) ∨
        (∃ l2 n2 eo, c = 2 ∧ Dangling s r.roadType other l2 n2 ∧
          Placement s l2.elementId.toStr (l2.contactPoint.getD .end) k eo net')) →
      ConnClosed net' := by
    intro r own other l n e e' s hr hoo hU hp hrest
    obtain ⟨hl, hn, hna, ht⟩ := hU
    obtain ⟨r', hr', hs', ha'⟩ := hp.road hr
    -- links of `k` in `s`
    have hlinks : ∀ (rk : Road F) l', (rk.predecessor = some l' ∨ rk.successor = some l') →
        r.same rk → own = some l' ∨ other = some l' := by
      intro rk l' hl' hsk
      rw [hsk.1] at hl'
      rcases hoo with ⟨h1, h2⟩ | ⟨h1, h2⟩ <;> rw [h1, h2] <;> tauto
    rcases hrest with ⟨rfl, rfl, hD⟩ | ⟨l2, n2, eo, rfl, hD, hp2⟩
    · intro k' rk l' t hrk hrt ha hl' htt
      by_cases hkk : k' = k
      · subst hkk
        rw [hr'] at hrk; cases hrk
        rcases hlinks r' l' hl' hs' with hown | hoth
        · rw [hl] at hown; cases hown
          exact hp.adjusted_mono hn hna htt
        · rcases hD with hD | hD | ⟨l3, n3, q1, q2, q3⟩
          · rw [hs'.1] at hrt; exact absurd hD hrt
          · rw [hD] at hoth; simp at hoth
          · rw [q1] at hoth; cases hoth
            rw [q2] at htt; cases htt; exact q3
      · exact hc.place hp k' rk l' t hkk hrk hrt ha hl' htt
    · obtain ⟨hrt0, hl2, hn2, hna2⟩ := hD
      intro k' rk l' t hrk hrt ha hl' htt
      by_cases hk2 : k' = l2.elementId.toStr
      · -- the other road is a normal road
        exfalso
        obtain ⟨r0, i1, i2⟩ := hg.same.2 k r hr
        have hlk0 : r0.predecessor = some l2 ∨ r0.successor = some l2 := by
          rw [i2.1] at hoo
          rcases hoo with ⟨_, h2⟩ | ⟨_, h2⟩ <;> rw [h2] at hl2
          · exact .inr hl2
          · exact .inl hl2
        obtain ⟨t1, j1, j2⟩ := hp2.back hrk
        obtain ⟨t2, j3, j4⟩ := hp.back j1
        obtain ⟨t3, j5, j6⟩ := hg.same.2 _ _ j3
        have := (hw.connecting k r0 l2 i1 (by rw [i2.1] at hrt0; exact hrt0) hlk0).2 t3 (hk2 ▸ j5)
        rw [j2.1] at hrt
        simp only at hrt
        rw [j4.1] at hrt
        simp only at hrt
        rw [j6.1] at hrt
        exact hrt this
      · have hrk' : s.roads.get? k' = some rk := by
          rcases hp2.split hrk with ⟨h1, _⟩ | h1
          · exact absurd h1 hk2
          · exact h1
        by_cases hkk : k' = k
        · subst hkk
          rw [hr'] at hrk'; cases hrk'
          rcases hlinks r' l' hl' hs' with hown | hoth
          · rw [hl] at hown; cases hown
            obtain ⟨t0, q1, q2⟩ := hp2.back htt
            exact hp2.adjusted_mono q1 (hp.adjusted_mono hn hna q1) htt
          · rw [hl2] at hoth; cases hoth
            rcases hp2.split htt with ⟨_, h1⟩ | h1
            · exact h1
            · obtain ⟨r2, q1, _, q3⟩ := hp2.road hn2
              rw [q1] at htt; cases htt; exact q3
        · obtain ⟨t0, q1, q2⟩ := hp2.back htt
          exact hp2.adjusted_mono q1 (hc.place hp k' rk l' t0 hkk hrk' hrt ha hl' q1) htt
  obtain ⟨r, hr, ⟨_, rfl, rfl⟩ | ⟨hu, ⟨rfl, rfl, _⟩ |
    ⟨l, n, e', s, hU, hcp, hp, hrest⟩ | ⟨l, n, e', s, _, hU, hcp, hp, hrest⟩⟩⟩ := visit_cases h
  · exact hc
  · exact hc
  · refine main r _ _ l n .start e' s hr (.inl ⟨rfl, rfl⟩) hU hp ?_
    rcases hrest with h1 | ⟨l2, n2, h1, h2, h3⟩
    · exact .inl h1
    · exact .inr ⟨l2, n2, _, h1, h2, h3⟩
  · refine main r _ _ l n .end e' s hr (.inr ⟨rfl, rfl⟩) hU hp ?_
    rcases hrest with h1 | ⟨l2, n2, h1, h2, h3⟩
    · exact .inl h1
    · exact .inr ⟨l2, n2, _, h1, h2, h3⟩

/-! ### Whole passes -/

theorem Good.pass {net0 : Net F} (hw : Placeable E net0) (ks : List String) : ∀ {net : Net F},
    Good E net0 net → ConnClosed net → (∀ k ∈ ks, k ∈ net0.roads.keys) →
    ∃ c net', Net.pass ks net = .ok c net' ∧ Good E net0 net' ∧ ConnClosed net' := by
  induction ks with
  | nil => intro net hg hc _; exact ⟨0, net, rfl, hg, hc⟩
  | cons k ks ih =>
    intro net hg hc hks
    obtain ⟨c1, s1, h1, g1⟩ := hg.visit hw (hks k (by simp))
    obtain ⟨c2, s2, h2, g2, cc2⟩ := ih g1 (hc.visit hw hg h1) (fun k' hk' => hks k' (by simp [hk']))
    refine ⟨c1 + c2, s2, ?_, g2, cc2⟩
    unfold Net.pass
    rw [bind_of_ok h1, bind_of_ok h2]
    rfl

theorem visit_zero {net net' : Net F} {k : String} (h : Net.visit k net = .ok 0 net') :
    net' = net ∧ ∃ r, net.roads.get? k = some r ∧ (r.planview.adjusted = true ∨
      (Unusable net r.predecessor ∧ Unusable net r.successor)) := by
  obtain ⟨r, hr, ⟨h1, _, rfl⟩ | ⟨hu, ⟨_, rfl, h1⟩ |
    ⟨l, n, e', s, hU, hcp, hp, hrest⟩ | ⟨l, n, e', s, _, hU, hcp, hp, hrest⟩⟩⟩ := visit_cases h
  · exact ⟨rfl, r, hr, .inl h1⟩
  · exact ⟨rfl, r, hr, .inr h1⟩
  · rcases hrest with ⟨h1, _⟩ | ⟨_, _, h1, _⟩ <;> simp at h1
  · rcases hrest with ⟨h1, _⟩ | ⟨_, _, h1, _⟩ <;> simp at h1

theorem pass_zero (ks : List String) : ∀ {net net' : Net F}, Net.pass ks net = .ok 0 net' →
    net' = net ∧ ∀ k ∈ ks, ∃ r, net.roads.get? k = some r ∧ (r.planview.adjusted = true ∨
      (Unusable net r.predecessor ∧ Unusable net r.successor)) := by
  induction ks with
  | nil => intro net net' h; obtain ⟨_, rfl⟩ := pure_ok.mp h; simp
  | cons k ks ih =>
    intro net net' h
    unfold Net.pass at h
    replace h := bind_ok.mp h; obtain ⟨c1, s1, h1, h⟩ := h
    replace h := bind_ok.mp h; obtain ⟨c2, s2, h2, h⟩ := h
    obtain ⟨h3, rfl⟩ := pure_ok.mp h
    obtain ⟨rfl, rfl⟩ : c1 = 0 ∧ c2 = 0 := by omega
    replace h1 := visit_zero h1
    obtain ⟨rfl, h1⟩ := h1
    replace h2 := ih h2
    obtain ⟨rfl, h2⟩ := h2
    refine ⟨rfl, fun k' hk' => ?_⟩
    rcases List.mem_cons.mp hk' with rfl | hk'
    · exact h1
    · exact h2 k' hk'

/-- When a pass places nothing, every reachable road is adjusted. -/
theorem stuck_closed {net0 net : Net F} (hw : Placeable E net0) (hg : Good E net0 net)
    (hc : ConnClosed net)
    (hanch : ∀ k r, net.roads.get? k = some r → Anchor net0.roads k → r.planview.adjusted = true)
    {net' : Net F} (h : Net.pass net0.roads.keys net = .ok 0 net') {k : String}
    (hk : Reachable net0.roads k) :
    ∀ r, net.roads.get? k = some r → r.planview.adjusted = true := by
  obtain ⟨rfl, hstuck⟩ := pass_zero _ h
  induction hk with
  | anchor ha => exact fun r hr => hanch _ r hr ha
  | @step k nb e e' hp _ ih =>
    intro r hr
    have own : ∀ (l : Link) (r0 : Road F), net0.roads.get? k = some r0 →
        (r0.predecessor = some l ∨ r0.successor = some l) → l.elementType ≠ some .junction →
        nb = l.elementId.toStr → r.planview.adjusted = true := by
      intro l r0 h0 hl ht hnb
      obtain ⟨r1, h1, hs⟩ := hg.same.2 k r hr
      rw [h0] at h1; cases h1
      obtain ⟨r', q1, q2⟩ := hstuck k (Dict.mem_keys_of_get? h0)
      rw [hr] at q1; cases q1
      rcases q2 with q2 | ⟨q2, q3⟩
      · exact q2
      · exfalso
        have key : ∀ link, link = some l → Unusable net' link → False := by
          rintro link rfl (h1 | ⟨l', n, h1, h2, h3⟩)
          · simp at h1
          · cases h1
            rcases h3 with h3 | h3
            · rw [ih n (hnb ▸ h2)] at h3; simp at h3
            · exact ht h3
        rcases hl with hl | hl
        · exact key _ (by rw [hs.1]; exact hl) q2
        · exact key _ (by rw [hs.1]; exact hl) q3
    have conn : ∀ (l : Link) (c : Road F), net0.roads.get? nb = some c → c.roadType ≠ -1 →
        (c.predecessor = some l ∨ c.successor = some l) → k = l.elementId.toStr →
        r.planview.adjusted = true := by
      intro l c h0 hrt hl hkk
      obtain ⟨c', q1, q2⟩ := hg.same.fwd h0
      refine hc nb c' l r q1 (by rw [q2.1]; exact hrt) (ih c' q1) (by rw [q2.1]; exact hl) (hkk ▸ hr)
    cases hp with
    | pred h1 h2 h3 h4 => exact own _ _ h1 (.inl h2) h3 rfl
    | succ h1 h2 h3 h4 => exact own _ _ h1 (.inr h2) h3 rfl
    | connPred h1 h2 h3 => exact conn _ _ h1 h2 (.inl h3) rfl
    | connSucc h1 h2 h3 => exact conn _ _ h1 h2 (.inr h3) rfl

theorem passes_total {net0 : Net F} (hw : Placeable E net0) : ∀ (j total : Nat) (net : Net F),
    net0.roads.keys.length - total = j → Good E net0 net → ConnClosed net →
    (∀ k r, net.roads.get? k = some r → Anchor net0.roads k → r.planview.adjusted = true) →
    countAdj net.roads = total →
    (∃ net', Net.passes net0.roads.keys.length total net0.roads.keys net = .ok () net' ∧
      Good E net0 net') ∨
    (∃ net', Net.passes net0.roads.keys.length total net0.roads.keys net =
        .error .undefinedRoadNetwork net' ∧ SameNet net0.roads net'.roads ∧
      countAdj net'.roads < net0.roads.keys.length ∧
      ∀ k r, Reachable net0.roads k → net'.roads.get? k = some r → r.planview.adjusted = true) := by
  intro j
  induction j using Nat.strong_induction_on with
  | _ j ih =>
    intro total net hj hg hc ha hcnt
    rw [Net.passes]
    split
    · rename_i hlt
      obtain ⟨c, s1, h1, g1, cc1⟩ := hg.pass hw net0.roads.keys hc (fun k hk => hk)
      rw [bind_of_ok h1]
      have hist := pass_history (roads0 := net0.roads) _ h1
      split
      · rename_i hcc
        obtain ⟨_, rfl⟩ := hcc
        right
        obtain ⟨rfl, _⟩ := pass_zero _ h1
        exact ⟨s1, rfl, g1.same, by omega, fun k r hk hr => stuck_closed hw hg hc ha h1 hk r hr⟩
      · rename_i hcc
        refine ih (net0.roads.keys.length - (total + c)) (by omega) (total + c) s1 rfl g1 cc1 ?_ ?_
        · intro k r hr hk
          obtain ⟨r0, q1, q2⟩ := hist.same.2 k r hr
          have := hist.keep q1 (ha k r0 q1 hk)
          rw [hr] at this; cases this
          exact ha k r q1 hk
        · rw [hist.count, hcnt]
    · left; exact ⟨net, rfl, hg⟩

end Pyodrx
