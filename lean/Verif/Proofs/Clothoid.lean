import Verif.Spec.Curve

/-! # `EulerSpiral.calc` is the integral of the unit tangent -/

namespace Pyodrx
open PyFloat Spec

theorem integral_cos_affine (h k L : ℝ) (hk : k ≠ 0) :
    ∫ s in (0:ℝ)..L, Real.cos (h + k * s) = (Real.sin (h + k * L) - Real.sin h) / k := by
  rw [intervalIntegral.integral_comp_add_mul (fun x => Real.cos x) hk h, integral_cos]
  simp; ring

theorem integral_sin_affine (h k L : ℝ) (hk : k ≠ 0) :
    ∫ s in (0:ℝ)..L, Real.sin (h + k * s) = (Real.cos h - Real.cos (h + k * L)) / k := by
  rw [intervalIntegral.integral_comp_add_mul (fun x => Real.sin x) hk h, integral_sin]
  simp; ring

/-- heading along a clothoid -/
noncomputable def clothHeading (h k γ s : ℝ) : ℝ := h + k * s + γ * s ^ 2 / 2

theorem sqrt_pi_mul_abs_pos {γ : ℝ} (hγ : γ ≠ 0) : 0 < Real.sqrt (Real.pi * |γ|) :=
  Real.sqrt_pos.mpr (mul_pos Real.pi_pos (abs_pos.mpr hγ))

theorem real_sign_mul_abs (γ : ℝ) : Real.sign γ * |γ| = γ := by
  rcases lt_trichotomy γ 0 with h | h | h
  · rw [Real.sign_of_neg h, abs_of_neg h]; ring
  · simp [h]
  · rw [Real.sign_of_pos h, abs_of_pos h]; ring

theorem cloth_square (h k γ s : ℝ) (hγ : γ ≠ 0) :
    clothHeading h k γ s = (h - k ^ 2 / 2 / γ) + Real.sign γ *
      (Real.pi / 2 * ((k + γ * s) / Real.sqrt (Real.pi * |γ|)) ^ 2) := by
  have hp := Real.pi_pos
  have ha : (0:ℝ) < |γ| := abs_pos.mpr hγ
  rw [div_pow, Real.sq_sqrt (by positivity)]
  have h1 : Real.sign γ * (Real.pi / 2 * ((k + γ * s) ^ 2 / (Real.pi * |γ|)))
      = (k + γ * s) ^ 2 / (2 * γ) := by
    rcases lt_or_gt_of_ne hγ with hn | hn
    · rw [Real.sign_of_neg hn, abs_of_neg hn]; field_simp
    · rw [Real.sign_of_pos hn, abs_of_pos hn]; field_simp
  rw [h1]; unfold clothHeading; field_simp; ring

theorem intervalIntegrable_fresnel_cos (a b : ℝ) :
    IntervalIntegrable (fun t : ℝ => Real.cos (Real.pi / 2 * t ^ 2)) MeasureTheory.volume a b :=
  Continuous.intervalIntegrable (by fun_prop) _ _

theorem intervalIntegrable_fresnel_sin (a b : ℝ) :
    IntervalIntegrable (fun t : ℝ => Real.sin (Real.pi / 2 * t ^ 2)) MeasureTheory.volume a b :=
  Continuous.intervalIntegrable (by fun_prop) _ _

theorem fresnelC_sub (a b : ℝ) :
    (fresnelC a : ℝ) - fresnelC b = ∫ t in b..a, Real.cos (Real.pi / 2 * t ^ 2) := by
  simp only [real_fresnelC]
  rw [intervalIntegral.integral_interval_sub_left (intervalIntegrable_fresnel_cos _ _)
    (intervalIntegrable_fresnel_cos _ _)]

theorem fresnelS_sub (a b : ℝ) :
    (fresnelS a : ℝ) - fresnelS b = ∫ t in b..a, Real.sin (Real.pi / 2 * t ^ 2) := by
  simp only [real_fresnelS]
  rw [intervalIntegral.integral_interval_sub_left (intervalIntegrable_fresnel_sin _ _)
    (intervalIntegrable_fresnel_sin _ _)]

/-- change of variables `z = (k + γ s)/√(π|γ|)` -/
theorem cloth_subst (f : ℝ → ℝ) (k γ L : ℝ) (hγ : γ ≠ 0) :
    ∫ s in (0:ℝ)..L, f ((k + γ * s) / Real.sqrt (Real.pi * |γ|)) =
      Real.sign γ * Real.sqrt (Real.pi / |γ|) *
        ∫ z in (k / Real.sqrt (Real.pi * |γ|))..((k + γ * L) / Real.sqrt (Real.pi * |γ|)), f z := by
  set q := Real.sqrt (Real.pi * |γ|) with hq
  have hqp : 0 < q := sqrt_pi_mul_abs_pos hγ
  have hc : γ / q ≠ 0 := div_ne_zero hγ hqp.ne'
  have e : ∀ s : ℝ, f ((k + γ * s) / q) = f (k / q + γ / q * s) := by
    intro s; congr 1; field_simp
  simp only [e]
  rw [intervalIntegral.integral_comp_add_mul f hc]
  have e1 : k / q + γ / q * 0 = k / q := by ring
  have e2 : k / q + γ / q * L = (k + γ * L) / q := by field_simp
  rw [e1, e2, smul_eq_mul]
  congr 1
  have ha : (0:ℝ) < |γ| := abs_pos.mpr hγ
  have hr : Real.sqrt (Real.pi / |γ|) = q / |γ| := by
    rw [hq, ← Real.sqrt_sq ha.le, ← Real.sqrt_div' _ (sq_nonneg _)]
    congr 1
    rw [Real.sqrt_sq ha.le]; field_simp
  rw [hr, inv_div]
  rcases lt_or_gt_of_ne hγ with hn | hn
  · rw [Real.sign_of_neg hn, abs_of_neg hn]; field_simp
  · rw [Real.sign_of_pos hn, abs_of_pos hn]; field_simp

theorem sign_sq {γ : ℝ} (hγ : γ ≠ 0) : Real.sign γ * Real.sign γ = 1 := by
  rcases lt_or_gt_of_ne hγ with hn | hn
  · rw [Real.sign_of_neg hn]; norm_num
  · rw [Real.sign_of_pos hn]; norm_num

theorem cos_sign_mul {γ : ℝ} (hγ : γ ≠ 0) (x : ℝ) : Real.cos (Real.sign γ * x) = Real.cos x := by
  rcases lt_or_gt_of_ne hγ with hn | hn
  · rw [Real.sign_of_neg hn]; simp
  · rw [Real.sign_of_pos hn]; simp

theorem sin_sign_mul {γ : ℝ} (hγ : γ ≠ 0) (x : ℝ) :
    Real.sin (Real.sign γ * x) = Real.sign γ * Real.sin x := by
  rcases lt_or_gt_of_ne hγ with hn | hn
  · rw [Real.sign_of_neg hn]; simp
  · rw [Real.sign_of_pos hn]; simp

theorem cloth_integral_cos (h k γ L : ℝ) (hγ : γ ≠ 0) :
    ∫ s in (0:ℝ)..L, Real.cos (clothHeading h k γ s) =
      Real.sqrt (Real.pi / |γ|) *
        (Real.cos (h - k ^ 2 / 2 / γ) * (Real.sign γ *
            ((fresnelC ((k + γ * L) / Real.sqrt (Real.pi * |γ|)) : ℝ) -
              fresnelC (k / Real.sqrt (Real.pi * |γ|)))) -
         Real.sin (h - k ^ 2 / 2 / γ) *
            ((fresnelS ((k + γ * L) / Real.sqrt (Real.pi * |γ|)) : ℝ) -
              fresnelS (k / Real.sqrt (Real.pi * |γ|)))) := by
  simp only [cloth_square h k γ _ hγ]
  rw [cloth_subst (fun z => Real.cos ((h - k ^ 2 / 2 / γ) + Real.sign γ * (Real.pi / 2 * z ^ 2)))
    k γ L hγ]
  simp only [Real.cos_add, cos_sign_mul hγ, sin_sign_mul hγ]
  rw [intervalIntegral.integral_sub
    ((intervalIntegrable_fresnel_cos _ _).const_mul _)
    (((intervalIntegrable_fresnel_sin _ _).const_mul _).const_mul _),
    intervalIntegral.integral_const_mul, intervalIntegral.integral_const_mul,
    intervalIntegral.integral_const_mul, fresnelC_sub, fresnelS_sub]
  have := sign_sq hγ
  linear_combination (-Real.sqrt (Real.pi / |γ|) * Real.sin (h - k ^ 2 / 2 / γ) *
    (∫ z in (k / Real.sqrt (Real.pi * |γ|))..((k + γ * L) / Real.sqrt (Real.pi * |γ|)),
      Real.sin (Real.pi / 2 * z ^ 2))) * this

theorem cloth_integral_sin (h k γ L : ℝ) (hγ : γ ≠ 0) :
    ∫ s in (0:ℝ)..L, Real.sin (clothHeading h k γ s) =
      Real.sqrt (Real.pi / |γ|) *
        (Real.sin (h - k ^ 2 / 2 / γ) * (Real.sign γ *
            ((fresnelC ((k + γ * L) / Real.sqrt (Real.pi * |γ|)) : ℝ) -
              fresnelC (k / Real.sqrt (Real.pi * |γ|)))) +
         Real.cos (h - k ^ 2 / 2 / γ) *
            ((fresnelS ((k + γ * L) / Real.sqrt (Real.pi * |γ|)) : ℝ) -
              fresnelS (k / Real.sqrt (Real.pi * |γ|)))) := by
  simp only [cloth_square h k γ _ hγ]
  rw [cloth_subst (fun z => Real.sin ((h - k ^ 2 / 2 / γ) + Real.sign γ * (Real.pi / 2 * z ^ 2)))
    k γ L hγ]
  simp only [Real.sin_add, cos_sign_mul hγ, sin_sign_mul hγ]
  rw [intervalIntegral.integral_add
    ((intervalIntegrable_fresnel_cos _ _).const_mul _)
    (((intervalIntegrable_fresnel_sin _ _).const_mul _).const_mul _),
    intervalIntegral.integral_const_mul, intervalIntegral.integral_const_mul,
    intervalIntegral.integral_const_mul, fresnelC_sub, fresnelS_sub]
  have := sign_sq hγ
  linear_combination (Real.sqrt (Real.pi / |γ|) * Real.cos (h - k ^ 2 / 2 / γ) *
    (∫ z in (k / Real.sqrt (Real.pi * |γ|))..((k + γ * L) / Real.sqrt (Real.pi * |γ|)),
      Real.sin (Real.pi / 2 * z ^ 2))) * this

/-- All three branches of `EulerSpiral.calc` compute the clothoid. -/
theorem calc_eq_drive (γ s x y k h : ℝ) :
    EulerSpiral.calc γ s x y k h = drive (clothHeading h k γ) s ⟨x, y, h⟩ := by
  unfold EulerSpiral.calc drive
  by_cases hγ : γ = 0
  · subst hγ
    by_cases hk : k = 0
    · subst hk
      simp [clothHeading, real_isZero_eq, Cpx.add, Cpx.smul, Cpx.expI]
    · have h0 : (PyFloat.isZero k : Bool) = false := by simp [hk]
      have h1 : (PyFloat.isZero (0:ℝ) : Bool) = true := by simp
      have e : ∀ t : ℝ, clothHeading h k 0 t = h + k * t := by intro t; simp [clothHeading]
      simp only [h0, h1, Bool.and_false, Bool.not_false, Bool.and_true, if_true,
        Bool.false_eq_true, if_false, e, integral_cos_affine h k s hk,
        integral_sin_affine h k s hk]
      simp only [Cpx.add, Cpx.mul, Cpx.divr, Cpx.expI, real_add, real_sub, real_mul, real_div,
        real_cos, real_sin, real_ofInt, real_sq, Int.cast_one, Real.sin_add, Real.cos_add,
        Pose.mk.injEq]
      refine ⟨?_, ?_, ?_⟩ <;> field_simp <;> ring
  · have h1 : (PyFloat.isZero γ : Bool) = false := by simp [hγ]
    simp only [h1, Bool.false_and, Bool.false_eq_true, if_false, cloth_integral_cos h k γ s hγ,
      cloth_integral_sin h k γ s hγ]
    simp only [Cpx.add, Cpx.mul, Cpx.smul, Cpx.expI, real_add, real_sub, real_mul, real_div,
        real_cos, real_sin, real_ofInt, real_sq, real_sqrt, real_pi, real_abs, real_sign,
        Pose.mk.injEq]
    refine ⟨?_, ?_, ?_⟩
    · push_cast; ring
    · push_cast; ring
    · simp [clothHeading]; ring

end Pyodrx
