import Verif.Spec.Touch
import Mathlib.Analysis.SpecialFunctions.Trigonometric.Basic

/-! # Lane edges at a joint -/

namespace Pyodrx
open Spec

theorem sin_cos_same {a b : ℝ} (h : SameHeading a b) : Real.sin a = Real.sin b ∧ Real.cos a = Real.cos b := by
  obtain ⟨n, rfl⟩ := h
  rw [show b + 2 * Real.pi * n = b + n * (2 * Real.pi) by ring]
  exact ⟨Real.sin_add_int_mul_two_pi b n, Real.cos_add_int_mul_two_pi b n⟩

/-- The driving directions of two road ends that meet. -/
theorem meets_direction {n : Int} {e e' : ContactPoint} {p q : Pose ℝ} (h : Meets n e p e' q) :
    Real.sin p.h = turnSign e e' * Real.sin q.h ∧ Real.cos p.h = turnSign e e' * Real.cos q.h := by
  have := sin_cos_same h.2.2
  cases e <;> cases e' <;> simp only [outgoing, Real.sin_add_pi, Real.cos_add_pi, turnSign] at this ⊢ <;>
    simp <;> constructor <;> linarith [this.1, this.2]

/-- The point at distance `t` from one road is at distance `turnSign (t + 3 n)` from the other. -/
theorem meets_lateral {n : Int} {e e' : ContactPoint} {p q : Pose ℝ} (h : Meets n e p e' q) (t : ℝ) :
    p.x - t * Real.sin p.h = q.x - turnSign e e' * (t + 3 * n) * Real.sin q.h ∧
    p.y + t * Real.cos p.h = q.y + turnSign e e' * (t + 3 * n) * Real.cos q.h := by
  obtain ⟨h1, h2⟩ := meets_direction h
  rw [h.1, h.2.1, h1, h2]
  constructor <;> ring

/-- The position along the perpendicular of a road determines the distance. -/
theorem lateral_injective {q : Pose ℝ} {t t' : ℝ} (h1 : q.x - t * Real.sin q.h = q.x - t' * Real.sin q.h)
    (h2 : q.y + t * Real.cos q.h = q.y + t' * Real.cos q.h) : t = t' := by
  have hs := Real.sin_sq_add_cos_sq q.h
  have a : (t - t') * Real.sin q.h = 0 := by linarith
  have b : (t - t') * Real.cos q.h = 0 := by linarith
  have : (t - t') * (Real.sin q.h ^ 2 + Real.cos q.h ^ 2) = 0 := by linear_combination Real.sin q.h * a + Real.cos q.h * b
  rw [hs] at this
  linarith

theorem RRoad.edge_eq {r : RRoad ℝ} {e : ContactPoint} {s : RSection ℝ} {p : Pose ℝ} (hs : r.sectionAt e = some s)
    (hp : r.poseAt e = some p) (i : Int) :
    r.edge e i = some (p.x - s.outer (r.stationAt e - s.s) i * Real.sin p.h,
      p.y + s.outer (r.stationAt e - s.s) i * Real.cos p.h) := by
  unfold RRoad.edge
  rw [hs, hp]

/-- Two edges are the same point iff the distances correspond. -/
theorem edge_same {a b : RRoad ℝ} {e e' : ContactPoint} {s t : RSection ℝ} {p q : Pose ℝ} {n : Int}
    (hs : a.sectionAt e = some s) (hp : a.poseAt e = some p) (ht : b.sectionAt e' = some t)
    (hq : b.poseAt e' = some q) (h : Meets n e p e' q) (i j : Int) :
    (∃ P, a.edge e i = some P ∧ b.edge e' j = some P) ↔
      t.outer (b.stationAt e' - t.s) j = turnSign e e' * (s.outer (a.stationAt e - s.s) i + 3 * n) := by
  rw [RRoad.edge_eq hs hp, RRoad.edge_eq ht hq]
  obtain ⟨m1, m2⟩ := meets_lateral h (s.outer (a.stationAt e - s.s) i)
  constructor
  · rintro ⟨P, h1, h2⟩
    rw [← h2, Option.some.injEq, Prod.mk.injEq, m1, m2] at h1
    exact (lateral_injective h1.1 h1.2).symm
  · intro h
    refine ⟨_, rfl, ?_⟩
    rw [m1, m2, h]

/-! ## Distances of the edges -/

theorem sum_single {α : Type} {l : List α} {f : α → ℝ} {key : α → Int} (hn : (l.map key).Nodup) {x : α} (hx : x ∈ l)
    (hf : ∀ y ∈ l, key y ≠ key x → f y = 0) : (l.map f).sum = f x := by
  induction l with
  | nil => cases hx
  | cons y ys ih =>
    rw [List.map_cons, List.nodup_cons] at hn
    rw [List.map_cons, List.sum_cons]
    rcases List.mem_cons.mp hx with rfl | hx
    · have : (ys.map f).sum = 0 := by
        apply List.sum_eq_zero
        intro z hz
        obtain ⟨y', hy', rfl⟩ := List.mem_map.mp hz
        refine hf _ (List.mem_cons_of_mem _ hy') (fun h => hn.1 ?_)
        rw [← h]
        exact List.mem_map_of_mem hy'
      rw [this, add_zero]
    · rw [ih hn.2 hx (fun z hz => hf z (List.mem_cons_of_mem _ hz)),
        hf y List.mem_cons_self (fun h => hn.1 (by rw [h]; exact List.mem_map_of_mem hx)), zero_add]

theorem share_step {i : Int} (hi : i ≠ 0) (u : ℝ) (l : RLane ℝ) :
    l.share i u - l.share (inwards i) u = if l.id = i then Int.sign i * l.widthAt u else 0 := by
  unfold RLane.share inwards
  rcases lt_trichotomy i 0 with h | h | h
  · have hs : Int.sign i = -1 := Int.sign_eq_neg_one_of_neg h
    rw [if_neg (show ¬ 0 < i by omega), if_neg (show ¬ (0 < l.id ∧ l.id ≤ i) by omega),
      if_neg (show ¬ (0 < l.id ∧ l.id ≤ i + 1) by omega), hs]
    by_cases h1 : l.id = i
    · rw [if_pos (show i ≤ l.id ∧ l.id < 0 by omega), if_neg (show ¬ (i + 1 ≤ l.id ∧ l.id < 0) by omega), if_pos h1]
      push_cast; ring
    · rw [if_neg h1]
      by_cases h2 : i ≤ l.id ∧ l.id < 0
      · rw [if_pos h2, if_pos (by omega)]; ring
      · rw [if_neg h2, if_neg (by omega)]; ring
  · exact absurd h hi
  · have hs : Int.sign i = 1 := Int.sign_eq_one_of_pos h
    rw [if_pos h, if_neg (show ¬ (i ≤ l.id ∧ l.id < 0) by omega),
      if_neg (show ¬ (i - 1 ≤ l.id ∧ l.id < 0) by omega), hs]
    by_cases h1 : l.id = i
    · rw [if_pos (show 0 < l.id ∧ l.id ≤ i by omega), if_neg (show ¬ (0 < l.id ∧ l.id ≤ i - 1) by omega), if_pos h1]
      push_cast; ring
    · rw [if_neg h1]
      by_cases h2 : 0 < l.id ∧ l.id ≤ i
      · rw [if_pos h2, if_pos (by omega)]; ring
      · rw [if_neg h2, if_neg (by omega)]; ring

theorem sum_map_sub' {α : Type} (l : List α) (f g : α → ℝ) :
    (l.map f).sum - (l.map g).sum = (l.map fun x => f x - g x).sum := by
  induction l with
  | nil => simp
  | cons x xs ih => simp only [List.map_cons, List.sum_cons, ← ih]; ring

/-- The outer edge of a lane is farther out than its inner edge by the width of the lane. -/
theorem outer_step {s : RSection ℝ} (hn : ((s.left ++ s.right).map (·.id)).Nodup) {l : RLane ℝ}
    (hl : l ∈ s.left ++ s.right) (h0 : l.id ≠ 0) (u : ℝ) :
    s.outer u l.id = s.outer u (inwards l.id) + Int.sign l.id * l.widthAt u := by
  have : s.outer u l.id - s.outer u (inwards l.id) = Int.sign l.id * l.widthAt u := by
    unfold RSection.outer
    rw [sum_map_sub', sum_single (f := fun x => x.share l.id u - x.share (inwards l.id) u) hn hl]
    · rw [share_step h0, if_pos rfl]
    · intro y _ hy
      rw [share_step h0, if_neg hy]
  linarith

theorem outer_zero (s : RSection ℝ) (u : ℝ) : s.outer u 0 = 0 := by
  apply List.sum_eq_zero
  intro x hx
  obtain ⟨l, _, rfl⟩ := List.mem_map.mp hx
  unfold RLane.share
  rw [if_neg (by omega), if_neg (by omega)]

theorem inwards_natAbs {i : Int} (h : i ≠ 0) : (inwards i).natAbs + 1 = i.natAbs := by
  unfold inwards
  split <;> omega

theorem inwards_mul {σ : Int} (hσ : σ = 1 ∨ σ = -1) {i : Int} (h : i ≠ 0) : inwards (σ * i) = σ * inwards i := by
  unfold inwards
  rcases hσ with rfl | rfl <;> split <;> split <;> omega

theorem turnSign_cases (e e' : ContactPoint) : turnSign e e' = 1 ∨ turnSign e e' = -1 := by
  unfold turnSign; split <;> simp

theorem hasLane_inwards {r : RRoad ℝ} {e : ContactPoint} {s : RSection ℝ} (hs : r.sectionAt e = some s)
    (hc : r.Counted e) {l : RLane ℝ} (hl : l ∈ s.left ++ s.right) {i : Int} (hid : l.id = i) :
    inwards i = 0 ∨ ∃ w, r.HasLane e (inwards i) w := by
  have h0 : i ≠ 0 := hid ▸ ((hc s hs).2 l hl).1
  by_cases hz : inwards i = 0
  · exact .inl hz
  · right
    have : ∃ m ∈ s.left ++ s.right, m.id = inwards i := by
      refine ((hc s hs).2 l hl).2 _ ?_
      rw [hid]
      rcases lt_trichotomy i 0 with h1 | h1 | h1
      · rw [inwards, if_neg (by omega)] at hz ⊢; omega
      · exact absurd h1 h0
      · rw [inwards, if_pos h1] at hz ⊢; omega
    obtain ⟨m, hm, he⟩ := this
    exact ⟨_, s, hs, m, hm, he, rfl⟩

/-- In counted sections that agree, corresponding lanes have corresponding outer edges. -/
theorem outer_agree {a b : RRoad ℝ} {e e' : ContactPoint} {s t : RSection ℝ} (hs : a.sectionAt e = some s)
    (ht : b.sectionAt e' = some t) (ca : a.Counted e) (cb : b.Counted e') (h : CrossSectionsAgree a e b e')
    (n : Nat) : ∀ i : Int, i.natAbs = n → (i = 0 ∨ ∃ w, a.HasLane e i w) →
      t.outer (b.stationAt e' - t.s) (turnSign e e' * i) =
        turnSign e e' * s.outer (a.stationAt e - s.s) i := by
  induction n with
  | zero =>
    intro i hi _
    rw [Int.natAbs_eq_zero.mp hi, mul_zero, outer_zero, outer_zero, mul_zero]
  | succ n ih =>
    intro i hi hl
    have h0 : i ≠ 0 := by rintro rfl; simp at hi
    obtain ⟨w, s', hs', l, hl, hid, hw⟩ := hl.resolve_left h0
    rw [hs] at hs'; cases hs'
    obtain ⟨t', ht', m, hm, hmid, hmw⟩ := h i w ⟨s, hs, l, hl, hid, hw⟩
    rw [ht] at ht'; cases ht'
    obtain ⟨na, ka⟩ := ca s hs
    obtain ⟨nb, kb⟩ := cb t ht
    have hσ := turnSign_cases e e'
    have hm0 : m.id ≠ 0 := (kb m hm).1
    have hl0 : l.id ≠ 0 := (ka l hl).1
    have e1 := outer_step na hl hl0 (a.stationAt e - s.s)
    have e2 := outer_step nb hm hm0 (b.stationAt e' - t.s)
    rw [hid, hw] at e1
    rw [hmid, hmw, inwards_mul hσ h0] at e2
    have hin : (inwards i).natAbs = n := by have := inwards_natAbs h0; omega
    have := ih (inwards i) hin (hasLane_inwards hs ca hl hid)
    rw [e2, e1, this]
    rcases hσ with h' | h' <;> rw [h'] <;> simp [Int.sign_neg] <;> ring

/-- Where two road ends meet without an offset, corresponding lanes touch. -/
theorem touch_of_meets {a b : RRoad ℝ} {e e' : ContactPoint} {p q : Pose ℝ} (hp : a.poseAt e = some p)
    (hq : b.poseAt e' = some q) (hm : Meets 0 e p e' q) (ca : a.Counted e) (cb : b.Counted e')
    (h : CrossSectionsAgree a e b e') {i : Int} {w : ℝ} (hi : a.HasLane e i w) :
    Touch a e i b e' (turnSign e e' * i) := by
  have hi' := h i w hi
  obtain ⟨s, hs, l, hl, hid, hw⟩ := hi
  obtain ⟨t, ht, m, hm', hmid, hmw⟩ := hi'
  have h0 : i ≠ 0 := hid ▸ ((ca s hs).2 l hl).1
  have hin := hasLane_inwards hs ca hl hid
  refine ⟨⟨⟨w, s, hs, l, hl, hid, hw⟩, ⟨w, t, ht, m, hm', hmid, hmw⟩⟩, ?_, ?_⟩
  · rw [edge_same hs hp ht hq hm, outer_agree hs ht ca cb h _ i rfl (.inr ⟨w, s, hs, l, hl, hid, hw⟩)]
    simp
  · rw [inwards_mul (turnSign_cases e e') h0, edge_same hs hp ht hq hm, outer_agree hs ht ca cb h _ _ rfl hin]
    simp

/-! ## Lanes of one width -/

theorem outer_wide {r : RRoad ℝ} {e : ContactPoint} {s : RSection ℝ} (hs : r.sectionAt e = some s) (hc : r.Counted e)
    {w : ℝ} (hw : r.AllWide e w) (n : Nat) : ∀ i : Int, i.natAbs = n → (i = 0 ∨ ∃ v, r.HasLane e i v) →
      s.outer (r.stationAt e - s.s) i = w * i := by
  induction n with
  | zero =>
    intro i hi _
    rw [Int.natAbs_eq_zero.mp hi, outer_zero]
    simp
  | succ n ih =>
    intro i hi hl
    have h0 : i ≠ 0 := by rintro rfl; simp at hi
    obtain ⟨v, hv⟩ := hl.resolve_left h0
    obtain rfl := hw i v hv
    obtain ⟨s', hs', l, hl, hid, hwd⟩ := hv
    rw [hs] at hs'; cases hs'
    obtain ⟨na, ka⟩ := hc s hs
    have e1 := outer_step na hl (ka l hl).1 (r.stationAt e - s.s)
    rw [hid, hwd] at e1
    have hin : (inwards i).natAbs = n := by have := inwards_natAbs h0; omega
    rw [e1, ih (inwards i) hin (hasLane_inwards hs hc hl hid)]
    have : ((inwards i : Int) : ℝ) + ((Int.sign i : Int) : ℝ) = i := by
      rw [← Int.cast_add]
      congr 1
      rcases lt_trichotomy i 0 with h1 | h1 | h1
      · rw [inwards, if_neg (by omega), Int.sign_eq_neg_one_of_neg h1]; omega
      · exact absurd h1 h0
      · rw [inwards, if_pos h1, Int.sign_eq_one_of_pos h1]; omega
    linear_combination v * this

theorem inwards_shift {i n : Int} (hi : i ≠ 0) (hj : i + n ≠ 0) :
    inwards (i + n) = inwards i + n ↔ (0 < i ↔ 0 < i + n) := by
  unfold inwards
  split <;> split <;> omega

/-- Where two road ends with lanes of one width meet, shifted by `n` lanes of width 3, the lane with the number
`turnSign * i + n` is the one that touches lane `i` only in these cases. -/
theorem touch_offset {a b : RRoad ℝ} {e e' : ContactPoint} {p q : Pose ℝ} (hp : a.poseAt e = some p)
    (hq : b.poseAt e' = some q) {n : Int} (hm : Meets n e p e' q) (ca : a.Counted e) (cb : b.Counted e')
    {w : ℝ} (hw : 0 < w) (wa : a.AllWide e w) (wb : b.AllWide e' w) {i : Int} {v : ℝ} (hi : a.HasLane e i v) :
    Touch a e i b e' (turnSign e e' * i + n) ↔ (∃ v, b.HasLane e' (turnSign e e' * i + n) v) ∧
      (n = 0 ∨ w = 3 ∧ turnSign e e' = 1 ∧ (0 < i ↔ 0 < i + n)) := by
  have hi' := hi
  obtain ⟨s, hs, l, hl, hid, -⟩ := hi
  have h0 : i ≠ 0 := hid ▸ ((ca s hs).2 l hl).1
  have hσ := turnSign_cases e e'
  have key : (∃ v, b.HasLane e' (turnSign e e' * i + n) v) →
      (((∃ P, a.edge e i = some P ∧ b.edge e' (turnSign e e' * i + n) = some P) ∧
        (∃ P, a.edge e (inwards i) = some P ∧ b.edge e' (inwards (turnSign e e' * i + n)) = some P)) ↔
      (n = 0 ∨ w = 3 ∧ turnSign e e' = 1 ∧ (0 < i ↔ 0 < i + n))) := by
    rintro ⟨v', hv'⟩
    have hv := hv'
    obtain ⟨t, ht, m, hm', hmid, -⟩ := hv'
    have hj0 : turnSign e e' * i + n ≠ 0 := hmid ▸ ((cb t ht).2 m hm').1
    rw [edge_same hs hp ht hq hm, edge_same hs hp ht hq hm, outer_wide hs ca wa _ i rfl (.inr ⟨v, hi'⟩),
      outer_wide ht cb wb _ _ rfl (.inr ⟨v', hv⟩), outer_wide hs ca wa _ _ rfl (hasLane_inwards hs ca hl hid),
      outer_wide ht cb wb _ _ rfl (hasLane_inwards ht cb hm' hmid)]
    generalize turnSign e e' = σ at *
    constructor
    · rintro ⟨h1, h2⟩
      by_cases hn : n = 0
      · exact .inl hn
      · right
        have hn' : (n : ℝ) ≠ 0 := by exact_mod_cast hn
        rcases hσ with rfl | rfl
        · push_cast at h1
          have h3 : w = 3 := by
            have : (w - 3) * (n : ℝ) = 0 := by linear_combination h1
            rcases mul_eq_zero.mp this with h | h
            · linarith
            · exact absurd h hn'
          refine ⟨h3, rfl, ?_⟩
          rw [one_mul] at h2 hj0
          rw [← inwards_shift h0 hj0]
          subst h3
          have : ((inwards (i + n) : Int) : ℝ) = ((inwards i + n : Int) : ℝ) := by
            push_cast; push_cast at h2; linarith
          exact_mod_cast this
        · exfalso
          push_cast at h1
          have : (w + 3) * (n : ℝ) = 0 := by linear_combination h1
          rcases mul_eq_zero.mp this with h | h
          · linarith
          · exact hn' h
    · rintro (rfl | ⟨rfl, rfl, h⟩)
      · rw [add_zero, inwards_mul hσ h0]
        push_cast
        constructor <;> ring
      · rw [one_mul] at hj0 ⊢
        rw [(inwards_shift h0 hj0).mpr h]
        push_cast
        constructor <;> ring
  constructor
  · intro h
    exact ⟨h.lane.2, (key h.lane.2).mp ⟨h.outer, h.inner⟩⟩
  · rintro ⟨h1, h2⟩
    obtain ⟨h3, h4⟩ := (key h1).mpr h2
    exact ⟨⟨⟨v, hi'⟩, h1⟩, h3, h4⟩

/-- The same if the ends meet without a shift. -/
theorem touch_no_shift {a b : RRoad ℝ} {e e' : ContactPoint} {p q : Pose ℝ} (hp : a.poseAt e = some p)
    (hq : b.poseAt e' = some q) {n : Int} (hm : Meets 0 e p e' q) (ca : a.Counted e) (cb : b.Counted e')
    {w : ℝ} (hw : 0 < w) (wa : a.AllWide e w) (wb : b.AllWide e' w) {i : Int} {v : ℝ} (hi : a.HasLane e i v)
    (h : Touch a e i b e' (turnSign e e' * i + n)) : n = 0 := by
  obtain ⟨v', hv⟩ := h.lane.2
  have h1 := h.outer
  have hi' := hi
  have hv' := hv
  obtain ⟨s, hs, l, hl, hid, -⟩ := hi
  obtain ⟨t, ht, m, hm', hmid, -⟩ := hv
  rw [edge_same hs hp ht hq hm, outer_wide hs ca wa _ i rfl (.inr ⟨v, hi'⟩),
    outer_wide ht cb wb _ _ rfl (.inr ⟨v', hv'⟩)] at h1
  push_cast at h1
  have : w * (n : ℝ) = 0 := by linear_combination h1
  rcases mul_eq_zero.mp this with h | h
  · linarith
  · exact_mod_cast h

/-- Two lanes of one road do not have the same edges. -/
theorem touch_unique {a b : RRoad ℝ} {e e' : ContactPoint} {q : Pose ℝ} (hq : b.poseAt e' = some q) (cb : b.Counted e')
    {w : ℝ} (hw : 0 < w) (wb : b.AllWide e' w) {i j j' : Int} (h : Touch a e i b e' j) (h' : Touch a e i b e' j') : j = j' := by
  obtain ⟨v, hv⟩ := h.lane.2
  obtain ⟨v', hv'⟩ := h'.lane.2
  have k1 := hv
  obtain ⟨t, ht, -⟩ := k1
  obtain ⟨P, p1, p2⟩ := h.outer
  obtain ⟨P', p1', p2'⟩ := h'.outer
  rw [p1] at p1'
  cases p1'
  rw [← p2', RRoad.edge_eq ht hq, RRoad.edge_eq ht hq, outer_wide ht cb wb _ j rfl (.inr ⟨v, hv⟩),
    outer_wide ht cb wb _ j' rfl (.inr ⟨v', hv'⟩), Option.some.injEq, Prod.mk.injEq] at p2
  have := lateral_injective p2.1 p2.2
  have := mul_left_cancel₀ (ne_of_gt hw) this
  exact_mod_cast this

end Pyodrx
