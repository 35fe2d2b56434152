import Verif.Proofs.Network

/-! # Which exceptions placement can raise, on any network whatsoever -/

namespace Pyodrx
open PyFloat Spec

variable {F : Type} [PyFloat F]

/-- Some link names an id that is not the id of a road. -/
def MissingRef (roads : Dict (Road F)) : Prop :=
  ∃ k r l, roads.get? k = some r ∧ (r.predecessor = some l ∨ r.successor = some l) ∧
    l.elementId.toStr ∉ roads.keys

/-- Some link that is not a link to a junction has no contact point. -/
def MissingContact (roads : Dict (Road F)) : Prop :=
  ∃ k r l, roads.get? k = some r ∧ (r.predecessor = some l ∨ r.successor = some l) ∧
    l.elementType ≠ some .junction ∧ l.contactPoint = none

/-- The exceptions that point at a malformed link. -/
def Blames (roads : Dict (Road F)) (e : PyErr) : Prop :=
  (e = .keyError → MissingRef roads) ∧ (e = .unboundLocalError → MissingContact roads) ∧
  e ≠ .roadsAndLanesNotAdjusted ∧ e ≠ .attributeError ∧ e ≠ .nameError ∧ e ≠ .valueError ∧
  e ≠ .notSameAmountOfLanesError

omit [PyFloat F] in
theorem Blames.geom {roads : Dict (Road F)} {e : PyErr} (h : GeomErr e) : Blames roads e := by
  rcases h with rfl | rfl | rfl <;> simp [Blames]

omit [PyFloat F] in
theorem MissingRef.intro {roads0 roads : Dict (Road F)} (hs : SameNet roads0 roads) {k : String}
    {r : Road F} (hr : roads.get? k = some r) {l : Link}
    (hl : r.predecessor = some l ∨ r.successor = some l)
    (hm : roads.get? l.elementId.toStr = none) : MissingRef roads0 := by
  obtain ⟨r0, h0, h1⟩ := hs.2 k r hr
  refine ⟨k, r0, l, h0, by rw [h1.1] at hl; exact hl, ?_⟩
  rw [← hs.1]
  exact (Dict.get?_eq_none _ _).mp hm

omit [PyFloat F] in
theorem MissingContact.intro {roads0 roads : Dict (Road F)} (hs : SameNet roads0 roads) {k : String}
    {r : Road F} (hr : roads.get? k = some r) {l : Link}
    (hl : r.predecessor = some l ∨ r.successor = some l)
    (ht : l.elementType ≠ some .junction) (hm : l.contactPoint = none) : MissingContact roads0 := by
  obtain ⟨r0, h0, h1⟩ := hs.2 k r hr
  exact ⟨k, r0, l, h0, by rw [h1.1] at hl; exact hl, ht, hm⟩

omit [PyFloat F] in
theorem SameNet.set {roads : Dict (Road F)} {k : String} {r r' : Road F}
    (hr : roads.get? k = some r) (h : r.same r') : SameNet roads (roads.set k r') := by
  refine ⟨Dict.keys_set_of_mem _ _ _ (Dict.mem_keys_of_get? hr), fun k' r2 hr2 => ?_⟩
  rw [Dict.get?_set] at hr2
  split at hr2
  · rename_i e; subst e; cases hr2; exact ⟨r, hr, h⟩
  · exact ⟨r2, hr2, .refl _⟩

theorem adjustPlanview_same {key : String} {b : Bool} {net net' : Net F} {u : Unit}
    (h : Net.adjustPlanview key b net = .ok u net') : SameNet net.roads net'.roads := by
  unfold Net.adjustPlanview at h
  split at h
  · simp at h
  · rename_i r hr
    split at h
    · rename_i st hst
      cases h
      exact SameNet.set hr ⟨rfl, (adjustGeometries_gen hst).frame⟩
    · simp at h

theorem adjustPlanview_err {key : String} {b : Bool} {net net' : Net F} {e : PyErr}
    (h : Net.adjustPlanview key b net = .error e net') :
    (net.roads.get? key = none ∧ e = .keyError) ∨ GeomErr e := by
  unfold Net.adjustPlanview at h
  split at h
  · rename_i hr; cases h; exact .inl ⟨hr, rfl⟩
  · split at h
    · simp at h
    · rename_i hst
      cases h
      exact .inr (adjustGeometries_err hst)

theorem setStartPoint_ok {key : String} {p : Pose F} {net net' : Net F} {u : Unit}
    (h : Net.setStartPoint key p net = .ok u net') : SameNet net.roads net'.roads := by
  unfold Net.setStartPoint at h
  split at h
  · simp at h
  · rename_i r hr
    cases h
    exact SameNet.set hr ⟨rfl, rfl, rfl, rfl⟩

theorem setStartPoint_err {key : String} {p : Pose F} {net net' : Net F} {e : PyErr}
    (h : Net.setStartPoint key p net = .error e net') :
    net.roads.get? key = none ∧ e = .keyError := by
  unfold Net.setStartPoint at h
  split at h
  · rename_i hr; cases h; exact ⟨hr, rfl⟩
  · simp at h

theorem adjustWrt_same {road nb : PyId} {cp : Option ContactPoint} {b : Bool}
    {net net' : Net F} {u : Unit}
    (h : Net.adjustRoadWrtNeighbour road nb cp b net = .ok u net') :
    SameNet net.roads net'.roads := by
  unfold Net.adjustRoadWrtNeighbour at h
  replace h := bind_ok.mp h; obtain ⟨r', s1, h1, h⟩ := h
  replace h1 := road_ok.mp h1; obtain ⟨h1, rfl⟩ := h1
  replace h := bind_ok.mp h; obtain ⟨e', s2, h2, h⟩ := h
  replace h2 := orRaise_ok.mp h2; obtain ⟨h2, rfl⟩ := h2
  replace h := bind_ok.mp h; obtain ⟨n', s3, h3, h⟩ := h
  replace h3 := road_ok.mp h3; obtain ⟨h3, rfl⟩ := h3
  replace h := bind_ok.mp h; obtain ⟨p, s4, h4, h⟩ := h
  replace h4 := liftExcept_ok.mp h4; obtain ⟨h4, rfl⟩ := h4
  replace h := bind_ok.mp h; obtain ⟨_, s5, h5, h⟩ := h
  exact (setStartPoint_ok h5).trans (adjustPlanview_same h)

theorem adjustWrt_err {road nb : PyId} {cp : Option ContactPoint} {b : Bool}
    {net net' : Net F} {e : PyErr} {r n : Road F}
    (hr : net.roads.get? road.toStr = some r) (hn : net.roads.get? nb.toStr = some n)
    (h : Net.adjustRoadWrtNeighbour road nb cp b net = .error e net') :
    (cp = none ∧ e = .unboundLocalError) ∨ GeomErr e := by
  unfold Net.adjustRoadWrtNeighbour at h
  rw [bind_of_ok (road_ok.mpr ⟨hr, rfl⟩)] at h
  cases hcp : cp with
  | none =>
    subst hcp
    rcases bind_error.mp h with h | ⟨_, _, h1, _⟩
    · obtain ⟨_, rfl, _⟩ := orRaise_error.mp h
      exact .inl ⟨rfl, rfl⟩
    · have := (orRaise_ok.mp h1).1
      simp at this
  | some cp' =>
    subst hcp
    right
    rw [bind_of_ok (orRaise_some _), bind_of_ok (road_ok.mpr ⟨hn, rfl⟩)] at h
    replace h := bind_error.mp h
    rcases h with h | ⟨p, s1, h1, h⟩
    · obtain ⟨h, _⟩ := liftExcept_error.mp h
      unfold neighbourPose at h
      split at h <;> split at h <;> simp at h <;> exact .inl h.symm
    · replace h1 := liftExcept_ok.mp h1; obtain ⟨h1, rfl⟩ := h1
      replace h := bind_error.mp h
      rcases h with h | ⟨_, s2, h2, h⟩
      · have := (setStartPoint_err h).1
        rw [hr] at this; simp at this
      · rcases adjustPlanview_err h with ⟨h3, _⟩ | h3
        · obtain ⟨r', h4, _⟩ := (setStartPoint_ok h2).fwd hr
          rw [h4] at h3; simp at h3
        · exact h3

theorem adjustWrt_self' {road nb : PyId} {cp : Option ContactPoint} {b : Bool} {net net' : Net F}
    {u : Unit} {r : Road F} (hr : net.roads.get? road.toStr = some r)
    (h : Net.adjustRoadWrtNeighbour road nb cp b net = .ok u net') :
    ∃ r', net'.roads.get? road.toStr = some r' ∧ r.same r' :=
  (adjustWrt_same h).fwd hr

/-- Every iteration of the loop body, on any network. -/
theorem visit_any {roads0 : Dict (Road F)} {k : String} {net : Net F}
    (hs : SameNet roads0 net.roads) (hk : k ∈ roads0.keys) :
    (∃ c net', Net.visit k net = .ok c net' ∧ SameNet roads0 net'.roads) ∨
    (∃ e net', Net.visit k net = .error e net' ∧ Blames roads0 e) := by
  obtain ⟨r, hr⟩ : ∃ r, net.roads.get? k = some r := by
    rw [← Option.isSome_iff_exists, Dict.get?_isSome, hs.1]; exact hk
  cases h : Net.visit k net with
  | ok c net' =>
    left
    exact ⟨c, net', rfl, hs.trans (visit_history (roads0 := roads0) h).same⟩
  | error e net' =>
    right
    refine ⟨e, net', rfl, ?_⟩
    have miss : ∀ {net1 : Net F}, SameNet roads0 net1.roads → ∀ {k1 : String} {r1 : Road F},
        net1.roads.get? k1 = some r1 → ∀ {l : Link}, (r1.predecessor = some l ∨ r1.successor = some l) →
        net1.roads.get? l.elementId.toStr = none → Blames roads0 .keyError :=
      fun h1 _ _ h2 _ h3 h4 => ⟨fun _ => MissingRef.intro h1 h2 h3 h4, by simp⟩
    have wrt : ∀ {o : Option ContactPoint} {e : PyErr}, (o = none → MissingContact roads0) →
        ((o = none ∧ e = .unboundLocalError) ∨ GeomErr e) → Blames roads0 e := by
      rintro o e h1 (⟨h2, rfl⟩ | h2)
      · exact ⟨by simp, fun _ => h1 h2, by simp⟩
      · exact .geom h2
    unfold Net.visit at h
    rw [bind_of_ok (road_ok.mpr ⟨hr, rfl⟩)] at h
    split at h
    · exact absurd h (by simp [pure_eq])
    replace h := bind_error.mp h
    rcases h with h | ⟨b, s1, h1, h⟩
    · obtain ⟨l, h1, rfl, h2⟩ := usable_error h
      exact miss hs hr (.inl h1) h2
    replace h1 := usable_cases h1
    obtain ⟨rfl, h1⟩ := h1
    rcases h1 with ⟨rfl, l, n, hl, hn, hna, ht⟩ | ⟨rfl, _⟩
    · rw [hl] at h
      dsimp only at h
      replace h := bind_error.mp h
      rcases h with h | ⟨_, s2, h2, h⟩
      · refine wrt (fun hc => ?_) (adjustWrt_err (road := .str k) hr hn h)
        exact MissingContact.intro hs hr (.inl hl) ht hc
      have hs2 := hs.trans (adjustWrt_same h2)
      obtain ⟨r', hr', hsr⟩ := adjustWrt_self' (road := .str k) hr h2
      replace h := bind_error.mp h
      rcases h with h | ⟨b, s3, h3, h⟩
      · obtain ⟨l2, h3, rfl, h4⟩ := dangling_error h
        exact miss hs2 hr' (.inr (by rw [hsr.1]; exact h3)) h4
      replace h3 := dangling_cases h3
      obtain ⟨rfl, h3⟩ := h3
      rcases h3 with ⟨rfl, l2, n2, hrt, hl2, hn2, _⟩ | ⟨rfl, _⟩
      · rw [hl2] at h
        dsimp only at h
        replace h := bind_error.mp h
        rcases h with h | ⟨_, _, _, h⟩
        · exact wrt (by simp) (adjustWrt_err (nb := .str k) hn2 hr' h)
        · exact absurd h (by simp [pure_eq])
      · exact absurd h (by simp [pure_eq])
    · dsimp only at h
      replace h := bind_error.mp h
      rcases h with h | ⟨b, s2, h2, h⟩
      · obtain ⟨l, h1, rfl, h2⟩ := usable_error h
        exact miss hs hr (.inr h1) h2
      replace h2 := usable_cases h2
      obtain ⟨rfl, h2⟩ := h2
      rcases h2 with ⟨rfl, l, n, hl, hn, hna, ht⟩ | ⟨rfl, _⟩
      · rw [hl] at h
        dsimp only at h
        replace h := bind_error.mp h
        rcases h with h | ⟨_, s2, h2, h⟩
        · refine wrt (fun hc => ?_) (adjustWrt_err (road := .str k) hr hn h)
          exact MissingContact.intro hs hr (.inr hl) ht hc
        have hs2 := hs.trans (adjustWrt_same h2)
        obtain ⟨r', hr', hsr⟩ := adjustWrt_self' (road := .str k) hr h2
        replace h := bind_error.mp h
        rcases h with h | ⟨b, s3, h3, h⟩
        · obtain ⟨l2, h3, rfl, h4⟩ := dangling_error h
          exact miss hs2 hr' (.inl (by rw [hsr.1]; exact h3)) h4
        replace h3 := dangling_cases h3
        obtain ⟨rfl, h3⟩ := h3
        rcases h3 with ⟨rfl, l2, n2, hrt, hl2, hn2, _⟩ | ⟨rfl, _⟩
        · rw [hl2] at h
          dsimp only at h
          replace h := bind_error.mp h
          rcases h with h | ⟨_, _, _, h⟩
          · exact wrt (by simp) (adjustWrt_err (nb := .str k) hn2 hr' h)
          · exact absurd h (by simp [pure_eq])
        · exact absurd h (by simp [pure_eq])
      · exact absurd h (by simp [pure_eq])

theorem pass_any {roads0 : Dict (Road F)} (ks : List String) : ∀ {net : Net F},
    SameNet roads0 net.roads → (∀ k ∈ ks, k ∈ roads0.keys) →
    (∃ c net', Net.pass ks net = .ok c net' ∧ SameNet roads0 net'.roads) ∨
    (∃ e net', Net.pass ks net = .error e net' ∧ Blames roads0 e) := by
  induction ks with
  | nil => intro net hs _; exact .inl ⟨0, net, rfl, hs⟩
  | cons k ks ih =>
    intro net hs hk
    unfold Net.pass
    rcases visit_any hs (hk k (by simp)) with ⟨c, s1, h1, hs1⟩ | ⟨e, s1, h1, hb⟩
    · rw [bind_of_ok h1]
      rcases ih hs1 (fun k' hk' => hk k' (by simp [hk'])) with ⟨c2, s2, h2, hs2⟩ | ⟨e, s2, h2, hb⟩
      · rw [bind_of_ok h2]; exact .inl ⟨_, s2, rfl, hs2⟩
      · rw [bind_of_error h2]; exact .inr ⟨e, s2, rfl, hb⟩
    · rw [bind_of_error h1]; exact .inr ⟨e, s1, rfl, hb⟩

theorem passes_err {roads0 : Dict (Road F)} (n : Nat) (keys : List String)
    (hk : ∀ k ∈ keys, k ∈ roads0.keys) : ∀ (j total : Nat) {net net' : Net F} {e : PyErr},
    n - total = j → SameNet roads0 net.roads → Net.passes n total keys net = .error e net' →
    Blames roads0 e := by
  intro j
  induction j using Nat.strong_induction_on with
  | _ j ih =>
    intro total net net' e hj hs h
    unfold Net.passes at h
    split at h
    · rename_i hlt
      rcases pass_any keys hs hk with ⟨c, s1, h1, hs1⟩ | ⟨e, s1, h1, hb⟩
      · rw [bind_of_ok h1] at h
        split at h
        · have : e = .undefinedRoadNetwork := by
            rw [raise_eq] at h; cases h; rfl
          subst this; simp [Blames]
        · exact ih (n - (total + c)) (by omega) (total + c) rfl hs1 h
      · rw [bind_of_error h1] at h
        cases h; exact hb
    · exact absurd h (by simp [pure_eq])

theorem adjustFixed_any {roads0 : Dict (Road F)} (ks : List String) : ∀ {net : Net F},
    SameNet roads0 net.roads → (∀ k ∈ ks, k ∈ roads0.keys) →
    (∃ c net', Net.adjustFixed ks net = .ok c net' ∧ SameNet roads0 net'.roads) ∨
    (∃ e net', Net.adjustFixed ks net = .error e net' ∧ Blames roads0 e) := by
  induction ks with
  | nil => intro net hs _; exact .inl ⟨0, net, rfl, hs⟩
  | cons k ks ih =>
    intro net hs hk
    obtain ⟨r, hr⟩ : ∃ r, net.roads.get? k = some r := by
      rw [← Option.isSome_iff_exists, Dict.get?_isSome, hs.1]; exact hk k (by simp)
    unfold Net.adjustFixed
    rw [bind_of_ok (road_ok.mpr ⟨hr, rfl⟩)]
    split
    · cases h : Net.adjustPlanview k false net with
      | error e s1 =>
        rw [bind_of_error h]
        refine .inr ⟨e, s1, rfl, ?_⟩
        rcases adjustPlanview_err h with ⟨h1, _⟩ | h1
        · rw [hr] at h1; simp at h1
        · exact .geom h1
      | ok u s1 =>
        rw [bind_of_ok h]
        rcases ih (hs.trans (adjustPlanview_same h)) (fun k' hk' => hk k' (by simp [hk'])) with
          ⟨c2, s2, h2, hs2⟩ | ⟨e, s2, h2, hb⟩
        · rw [bind_of_ok h2]; exact .inl ⟨_, s2, rfl, hs2⟩
        · rw [bind_of_error h2]; exact .inr ⟨e, s2, rfl, hb⟩
    · exact ih hs (fun k' hk' => hk k' (by simp [hk']))

/-- Whatever `adjust_startpoints` raises. -/
theorem startpoints_err {net net' : Net F} {e : PyErr}
    (h : Net.adjustStartpoints net = .error e net') : Blames net.roads e := by
  rw [adjustStartpoints_eq] at h
  have hk : ∀ k ∈ net.roads.keys, k ∈ net.roads.keys := fun _ h => h
  replace h := bind_error.mp h
  rcases h with h | ⟨c, s1, h1, h⟩
  · replace h := bind_error.mp h
    rcases adjustFixed_any _ (SameNet.refl net.roads) hk with ⟨c, s1, h1, hs1⟩ | ⟨e', s1, h1, hb⟩
    · rcases h with h | ⟨c', s2, h2, h⟩
      · rw [h1] at h; simp at h
      · rw [h1] at h2; cases h2
        split at h
        · replace h := bind_error.mp h
          rcases h with h | ⟨k, s2, h2, h⟩
          · obtain ⟨_, rfl, _⟩ := orRaise_error.mp h
            simp [Blames]
          · replace h2 := orRaise_ok.mp h2; obtain ⟨h2, rfl⟩ := h2
            replace h := bind_error.mp h
            rcases h with h | ⟨_, _, _, h⟩
            · rcases adjustPlanview_err h with ⟨h3, _⟩ | h3
              · exfalso
                have : k ∈ s2.roads.keys := by rw [hs1.1]; exact List.mem_of_head? h2
                exact ((Dict.get?_eq_none _ _).mp h3) this
              · exact .geom h3
            · exact absurd h (by simp [pure_eq])
        · exact absurd h (by simp [pure_eq])
    · rcases h with h | ⟨c', s2, h2, h⟩
      · rw [h1] at h; cases h; exact hb
      · rw [h1] at h2; simp at h2
  · refine passes_err _ _ hk _ _ rfl ?_ h
    obtain ⟨c1, s2, h2, h1⟩ := bind_ok.mp h1
    rcases adjustFixed_any _ (SameNet.refl net.roads) hk with ⟨c, s3, h3, hs3⟩ | ⟨e', s3, h3, hb⟩
    · rw [h3] at h2; cases h2
      split at h1
      · replace h1 := bind_ok.mp h1
        obtain ⟨k, s4, h4, h1⟩ := h1
        replace h4 := orRaise_ok.mp h4; obtain ⟨_, rfl⟩ := h4
        replace h1 := bind_ok.mp h1
        obtain ⟨_, s5, h5, h1⟩ := h1
        obtain ⟨_, rfl⟩ := pure_ok.mp h1
        exact hs3.trans (adjustPlanview_same h5)
      · obtain ⟨_, rfl⟩ := pure_ok.mp h1
        exact hs3
    · rw [h3] at h2; simp at h2

end Pyodrx
