import Verif.Proofs.Turn
import Mathlib.Analysis.Real.Pi.Bounds

/-! # How long the tangents of the connecting roads are -/

namespace Pyodrx
open Spec

/-- The clothoid at the start of a left turn. -/
noncomputable def firstClothoid (r sp a : ℝ) : Shape :=
  .ofHeading (fun s => startCurvature * s + (1 / r - startCurvature) / (2 * (a * sp) * r) * (s ^ 2 / 2))
    (2 * (a * sp) * r)

theorem arc_shape {r : ℝ} (hr : 0 < r) (b : ℝ) : Shape.ofHeading (fun s => 1 / r * s) (b * r) =
    ⟨r * Real.sin b, r * (1 - Real.cos b), b, b * r⟩ := by
  have hr' : (1 / r) ≠ 0 := by positivity
  unfold Shape.ofHeading
  rw [intervalIntegral.integral_comp_mul_left (fun x => Real.cos x) hr',
    intervalIntegral.integral_comp_mul_left (fun x => Real.sin x) hr', integral_cos, integral_sin]
  have e : 1 / r * (b * r) = b := by field_simp
  rw [e]
  simp only [one_div, inv_inv, smul_eq_mul, mul_zero, Real.sin_zero, sub_zero, Real.cos_zero] at e ⊢
  rw [e]

/-- The tangent of a turn: from its start to the foot of the centre of the arc, and from there to the
corner. -/
theorem tangent_eq {r sp ap a : ℝ} (hr : 0 < r) (hsp : 0 < sp) (ha : 0 < a)
    (hne : 1 + Real.cos (a * turnFactor r sp ap) ≠ 0) :
    tangent r sp ap a =
      (firstClothoid r sp a).dx - r * Real.sin (a * sp * (1 + r / 1000000000)) +
      ((firstClothoid r sp a).dy + r * Real.cos (a * sp * (1 + r / 1000000000))) *
        (Real.sin (a * turnFactor r sp ap) / (1 + Real.cos (a * turnFactor r sp ap))) := by
  have hL : 2 * (a * sp) * r ≠ 0 := by positivity
  have hr1 := ofHeading_rev
    (fun s => startCurvature * s + (1 / r - startCurvature) / (2 * (a * sp) * r) * (s ^ 2 / 2))
    (fun s => 1 / r * s + (startCurvature - 1 / r) / (2 * (a * sp) * r) * (s ^ 2 / 2))
    (2 * (a * sp) * r) (by fun_prop) (by intro s; field_simp; ring)
  have e1 : (startCurvature * (2 * (a * sp) * r) + (1 / r - startCurvature) / (2 * (a * sp) * r) *
      ((2 * (a * sp) * r) ^ 2 / 2)) = a * sp * (1 + r / 1000000000) := by
    simp only [startCurvature]; field_simp; ring
  rw [e1] at hr1
  obtain ⟨φ, hφ⟩ : ∃ φ, φ = a * sp * (1 + r / 1000000000) := ⟨_, rfl⟩
  have hτ : a * turnFactor r sp ap = φ + (φ + a * ap) := by rw [hφ]; simp only [turnFactor]; ring
  rw [tangent, if_neg ha.ne', eq_comm, eq_div_iff hne]
  have hfin : (finish ⟨0, 0, 0⟩ (leftTurn r sp ap a)).x =
      (firstClothoid r sp a).dx + (r * Real.sin (a * ap) * Real.cos φ -
        r * (1 - Real.cos (a * ap)) * Real.sin φ) +
      ((Real.cos φ * (firstClothoid r sp a).dx + Real.sin φ * (firstClothoid r sp a).dy) *
        Real.cos (φ + a * ap) -
       (Real.sin φ * (firstClothoid r sp a).dx - Real.cos φ * (firstClothoid r sp a).dy) *
        Real.sin (φ + a * ap)) := by
    have hdh : (firstClothoid r sp a).dh = φ := by
      rw [hφ, ← e1]; rfl
    simp only [leftTurn, finish, Piece.start, Shape.place, hr1.1, hr1.2]
    rw [show a * ap * r = (a * ap) * r from rfl, arc_shape hr (a * ap)]
    simp only [Real.cos_zero, Real.sin_zero, zero_add, ← hφ]
    rw [show (Shape.ofHeading (fun s => startCurvature * s + (1 / r - startCurvature) /
      (2 * (a * sp) * r) * (s ^ 2 / 2)) (2 * (a * sp) * r)) = firstClothoid r sp a from rfl, hdh]
    ring
  rw [hτ] at hne ⊢
  rw [hfin, ← hφ]
  have hP := Real.sin_sq_add_cos_sq φ
  have hT : Real.sin (φ + (φ + a * ap)) / (1 + Real.cos (φ + (φ + a * ap))) *
      (1 + Real.cos (φ + (φ + a * ap))) = Real.sin (φ + (φ + a * ap)) := by
    field_simp
  rw [add_mul, mul_assoc _ (_ / _), hT]
  rw [Real.cos_add φ (φ + a * ap), Real.sin_add φ (φ + a * ap), Real.cos_add φ (a * ap),
    Real.sin_add φ (a * ap)]
  linear_combination (r * Real.sin (a * ap) * Real.cos φ + r * Real.sin φ * Real.cos (a * ap)) * hP

theorem ofHeading_dx_le (θ : ℝ → ℝ) {L : ℝ} (hL : 0 ≤ L) : |(Shape.ofHeading θ L).dx| ≤ L := by
  have := intervalIntegral.norm_integral_le_of_norm_le_const (a := 0) (b := L) (C := 1)
    (f := fun s => Real.cos (θ s)) (fun s _ => by simpa using Real.abs_cos_le_one (θ s))
  simpa [Shape.ofHeading, abs_of_nonneg hL] using this

theorem ofHeading_dy_le (θ : ℝ → ℝ) {L : ℝ} (hL : 0 ≤ L) : |(Shape.ofHeading θ L).dy| ≤ L := by
  have := intervalIntegral.norm_integral_le_of_norm_le_const (a := 0) (b := L) (C := 1)
    (f := fun s => Real.sin (θ s)) (fun s _ => by simpa using Real.abs_sin_le_one (θ s))
  simpa [Shape.ofHeading, abs_of_nonneg hL] using this

/-- For a quarter turn the tangent is nearly half the length of the straight connecting roads, and
not longer than nine times the radius. -/
theorem tangent_quarter {r sp ap : ℝ} (hr : 0 < r) (hsmall : r ≤ 100000000) (hsp : 0 < sp)
    (hap : 0 < ap) (hsum : ap + 2 * sp = 1) :
    1 + Real.cos (Real.pi / 2 * turnFactor r sp ap) ≠ 0 ∧
    |tangent r sp ap (Real.pi / 2) - straightLength r sp / 2| ≤ 16 * r ^ 2 / 1000000000 ∧
    |tangent r sp ap (Real.pi / 2)| ≤ 10 * r := by
  have hpi := Real.pi_pos
  have hpi4 := Real.pi_lt_d2
  obtain ⟨ε, hε⟩ : ∃ ε, ε = r / 1000000000 := ⟨_, rfl⟩
  have hε0 : 0 < ε := by rw [hε]; positivity
  have hε1 : ε ≤ 1 / 10 := by rw [hε]; rw [div_le_iff₀ (by norm_num)]; linarith
  obtain ⟨θ, hθ⟩ : ∃ θ, θ = Real.pi / 2 * sp := ⟨_, rfl⟩
  have hθ0 : 0 < θ := by rw [hθ]; positivity
  have hθ1 : θ ≤ 4 / 5 := by rw [hθ]; nlinarith
  obtain ⟨δ, hδ⟩ : ∃ δ, δ = θ * ε := ⟨_, rfl⟩
  have hδ0 : 0 < δ := by rw [hδ]; positivity
  have hδ1 : δ ≤ 1 / 10 := by rw [hδ]; nlinarith
  have hτ : Real.pi / 2 * turnFactor r sp ap = 2 * δ + Real.pi / 2 := by
    rw [hδ, hθ, hε]; simp only [turnFactor]
    rw [show ap = 1 - 2 * sp by linarith]; ring
  have hcos : Real.cos (Real.pi / 2 * turnFactor r sp ap) = -Real.sin (2 * δ) := by
    rw [hτ, Real.cos_add_pi_div_two]
  have hsin : Real.sin (Real.pi / 2 * turnFactor r sp ap) = Real.cos (2 * δ) := by
    rw [hτ, Real.sin_add_pi_div_two]
  have hs2 : Real.sin (2 * δ) ≤ 2 * δ := Real.sin_le (by positivity)
  have hs0 : 0 ≤ Real.sin (2 * δ) := Real.sin_nonneg_of_nonneg_of_le_pi (by positivity) (by linarith [Real.pi_gt_three])
  have hc1 : Real.cos (2 * δ) ≤ 1 := Real.cos_le_one _
  have hc2 : 1 - (2 * δ) ^ 2 / 2 ≤ Real.cos (2 * δ) := Real.one_sub_sq_div_two_le_cos
  have hne : 1 + Real.cos (Real.pi / 2 * turnFactor r sp ap) ≠ 0 := by
    rw [hcos]; intro h; linarith
  refine ⟨hne, ?_⟩
  have hT := tangent_eq (ap := ap) hr hsp (by positivity : 0 < Real.pi / 2) hne
  rw [hcos, hsin] at hT
  obtain ⟨t, ht⟩ : ∃ t, t = Real.cos (2 * δ) / (1 + -Real.sin (2 * δ)) := ⟨_, rfl⟩
  rw [← ht] at hT
  have hden : 0 < 1 + -Real.sin (2 * δ) := by linarith
  have htd : t * (1 + -Real.sin (2 * δ)) = Real.cos (2 * δ) := by rw [ht]; field_simp
  have ht1 : t - 1 ≤ 3 * δ := by
    by_contra h
    push Not at h
    nlinarith
  have ht2 : -(3 * δ) ≤ t - 1 := by
    by_contra h
    push Not at h
    nlinarith
  obtain ⟨c, hc⟩ : ∃ c, c = firstClothoid r sp (Real.pi / 2) := ⟨_, rfl⟩
  have hL0 : 0 ≤ 2 * (Real.pi / 2 * sp) * r := by positivity
  have hcx : |c.dx| ≤ 2 * θ * r := by rw [hc, hθ]; exact ofHeading_dx_le _ hL0
  have hcy : |c.dy| ≤ 2 * θ * r := by rw [hc, hθ]; exact ofHeading_dy_le _ hL0
  have hS : straightLength r sp / 2 = c.dx - r * Real.sin θ + (c.dy + r * Real.cos θ) := by
    simp only [straightLength]
    rw [← hθ, abs_of_pos (mul_pos hθ0 hr), hc, firstClothoid, ← hθ]
    rw [show 2 * (θ * r) = 2 * θ * r by ring]
    ring
  obtain ⟨φ, hφ⟩ : ∃ φ, φ = Real.pi / 2 * sp * (1 + r / 1000000000) := ⟨_, rfl⟩
  rw [← hφ, ← hc] at hT
  have hφθ : φ - θ = δ := by rw [hφ, hδ, hθ, hε]; ring
  have d1 : |Real.sin φ - Real.sin θ| ≤ δ := by
    have := Real.abs_sin_sub_sin_le φ θ
    rwa [hφθ, abs_of_pos hδ0] at this
  have d2 : |Real.cos φ - Real.cos θ| ≤ δ := by
    have := Real.abs_cos_sub_cos_le φ θ
    rwa [hφθ, abs_of_pos hδ0] at this
  have hY : |c.dy + r * Real.cos φ| ≤ (2 * θ + 1) * r := by
    have : |r * Real.cos φ| ≤ r := by
      rw [abs_mul, abs_of_pos hr]
      exact mul_le_of_le_one_right hr.le (Real.abs_cos_le_one φ)
    calc _ ≤ |c.dy| + |r * Real.cos φ| := abs_add_le _ _
      _ ≤ _ := by linarith
  have ht3 : |t - 1| ≤ 3 * δ := abs_le.mpr ⟨ht2, ht1⟩
  have hδr : δ ≤ 4 / 5 * ε := by rw [hδ]; nlinarith
  constructor
  · rw [hT, hS]
    have e : c.dx - r * Real.sin φ + (c.dy + r * Real.cos φ) * t -
        (c.dx - r * Real.sin θ + (c.dy + r * Real.cos θ)) =
        -(r * (Real.sin φ - Real.sin θ)) + r * (Real.cos φ - Real.cos θ) +
          (c.dy + r * Real.cos φ) * (t - 1) := by ring
    rw [e]
    have b1 : |-(r * (Real.sin φ - Real.sin θ))| ≤ r * δ := by
      rw [abs_neg, abs_mul, abs_of_pos hr]; exact mul_le_mul_of_nonneg_left d1 hr.le
    have b2 : |r * (Real.cos φ - Real.cos θ)| ≤ r * δ := by
      rw [abs_mul, abs_of_pos hr]; exact mul_le_mul_of_nonneg_left d2 hr.le
    have b3 : |(c.dy + r * Real.cos φ) * (t - 1)| ≤ (2 * θ + 1) * r * (3 * δ) := by
      rw [abs_mul]
      exact mul_le_mul hY ht3 (abs_nonneg _) (by positivity)
    have b4 : (2 * θ + 1) * r * (3 * δ) ≤ 8 * (r * δ) := by
      have h0 : 0 < r * δ := by positivity
      have := mul_le_mul_of_nonneg_right hθ1 h0.le
      linarith
    have b5 : r * δ ≤ 4 / 5 * (r * ε) := by
      have := mul_le_mul_of_nonneg_left hδr hr.le
      linarith
    have b6 : r * ε = r ^ 2 / 1000000000 := by rw [hε]; ring
    have b7 : 0 < r * ε := by positivity
    calc _ ≤ |-(r * (Real.sin φ - Real.sin θ))| + |r * (Real.cos φ - Real.cos θ)| +
          |(c.dy + r * Real.cos φ) * (t - 1)| :=
          (abs_add_le _ _).trans (add_le_add (abs_add_le _ _) le_rfl)
      _ ≤ 16 * (r * ε) := by linarith
      _ = _ := by rw [b6]; ring
  · rw [hT]
    have b1 : |r * Real.sin φ| ≤ r := by
      rw [abs_mul, abs_of_pos hr]
      exact mul_le_of_le_one_right hr.le (Real.abs_sin_le_one φ)
    have b2 : |t| ≤ 13 / 10 := by
      rw [abs_le]; constructor <;> linarith
    have b3 : |(c.dy + r * Real.cos φ) * t| ≤ (2 * θ + 1) * r * (13 / 10) := by
      rw [abs_mul]
      exact mul_le_mul hY b2 (abs_nonneg _) (by positivity)
    calc _ ≤ |c.dx - r * Real.sin φ| + |(c.dy + r * Real.cos φ) * t| := abs_add_le _ _
      _ ≤ (|c.dx| + |r * Real.sin φ|) + |(c.dy + r * Real.cos φ) * t| :=
        add_le_add (abs_sub _ _) le_rfl
      _ ≤ _ := by
        have := mul_le_mul_of_nonneg_right hθ1 hr.le
        linarith

end Pyodrx
