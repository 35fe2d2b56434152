import Verif.Proofs.FloatPlanView
import Verif.Proofs.Clothoid

/-! # Errors of spirals in floating point arithmetic -/

namespace Pyodrx
open PyFloat Spec

variable {R : Rounding}

theorem Rounding.small {c : ℝ} (R : Rounding) (hc : 0 ≤ c) : R.u * c ≤ 1 / 1000 * c :=
  mul_le_mul_of_nonneg_right R.u_small hc

theorem Rounding.up {e a b : ℝ} (h : e ≤ R.u * a) (hab : a ≤ b) : e ≤ R.u * b :=
  h.trans (mul_le_mul_of_nonneg_left hab R.u_nonneg)

/-- Rounding a number with a relative error. -/
theorem Rounding.rel {a b c : ℝ} (h : |a - b| ≤ R.u * (c * |b|)) (hc : 0 ≤ c) :
    |R.rnd a - b| ≤ R.u * ((1.001 * c + 1) * |b|) :=
  R.up (R.near h (by positivity) le_rfl) (by linarith)

/-- A product of two numbers with errors. -/
theorem Rounding.mul_near {a a' b b' ca cb Ma Mb : ℝ} (ha : |a - a'| ≤ R.u * ca) (hb : |b - b'| ≤ R.u * cb)
    (hMa : |a| ≤ Ma) (hMb : |b'| ≤ Mb) (hca : 0 ≤ ca) (hcb : 0 ≤ cb) :
    |a * b - a' * b'| ≤ R.u * (Ma * cb + Mb * ca) := by
  have h0 := R.u_nonneg
  have hM := (abs_nonneg a).trans hMa
  calc |a * b - a' * b'| = |a * (b - b') + b' * (a - a')| := by ring_nf
    _ ≤ |a| * |b - b'| + |b'| * |a - a'| := by rw [← abs_mul, ← abs_mul]; exact abs_add_le _ _
    _ ≤ Ma * (R.u * cb) + Mb * (R.u * ca) := by
        refine add_le_add (mul_le_mul hMa hb (abs_nonneg _) hM) ?_
        exact mul_le_mul hMb ha (abs_nonneg _) ((abs_nonneg _).trans hMb)
    _ = _ := by ring

/-- A quotient of two numbers with errors. -/
theorem Rounding.div_near {a b q q' ca d : ℝ} (ha : |a - b| ≤ R.u * ca) (hq : 0 < q) (hd : 0 ≤ d) (hd9 : d ≤ 9)
    (hqq : |q' - q| ≤ R.u * (d * q)) (hca : 0 ≤ ca) :
    |a / q' - b / q| ≤ R.u * ((1.01 * ca + 1.01 * d * |b|) / q) := by
  have h0 := R.u_nonneg
  have hs := R.small (c := d * q) (by positivity)
  have hlow : 0.991 * q ≤ q' := by
    have := (abs_le.mp hqq).1
    nlinarith
  have hq' : 0 < q' := by nlinarith
  have hinv : 1 / q' ≤ 1.01 / q := by
    rw [div_le_div_iff₀ hq' hq]; nlinarith
  have hi0 : 0 ≤ 1 / q' := by positivity
  have e : a / q' - b / q = (a - b) * (1 / q') + b * (q - q') * (1 / q') * (1 / q) := by field_simp; ring
  rw [e]
  have h1 : |(a - b) * (1 / q')| ≤ R.u * ca * (1.01 / q) := by
    rw [abs_mul, abs_of_nonneg hi0]
    exact mul_le_mul ha hinv hi0 (by positivity)
  have h2 : |b * (q - q') * (1 / q') * (1 / q)| ≤ |b| * (R.u * (d * q)) * (1.01 / q) * (1 / q) := by
    rw [abs_mul, abs_mul, abs_mul, abs_of_nonneg hi0, abs_of_pos (show 0 < 1 / q by positivity), abs_sub_comm q]
    refine mul_le_mul_of_nonneg_right ?_ (by positivity)
    refine mul_le_mul ?_ hinv hi0 (by positivity)
    exact mul_le_mul_of_nonneg_left hqq (abs_nonneg _)
  refine (abs_add_le _ _).trans ((add_le_add h1 h2).trans (le_of_eq ?_))
  field_simp

/-- The root of a number with a relative error. -/
theorem Rounding.sqrt_near {a b c : ℝ} (hb : 0 < b) (h : |a - b| ≤ R.u * (c * |b|)) :
    |Real.sqrt a - Real.sqrt b| ≤ R.u * (c * |Real.sqrt b|) := by
  have hs := Real.sqrt_pos.mpr hb
  rw [abs_of_pos hb] at h
  rw [abs_of_pos hs]
  rcases le_or_gt 0 a with ha | ha
  · have e : (Real.sqrt a - Real.sqrt b) * (Real.sqrt a + Real.sqrt b) = a - b := by
      have h1 := Real.mul_self_sqrt ha
      have h2 := Real.mul_self_sqrt hb.le
      linear_combination h1 - h2
    have hsum : Real.sqrt b ≤ Real.sqrt a + Real.sqrt b := by linarith [Real.sqrt_nonneg a]
    have h3 : |Real.sqrt a - Real.sqrt b| * Real.sqrt b ≤ R.u * (c * b) := by
      refine le_trans ?_ h
      rw [← e, abs_mul, abs_of_nonneg (a := Real.sqrt a + Real.sqrt b) (by linarith)]
      exact mul_le_mul_of_nonneg_left hsum (abs_nonneg _)
    have h4 : R.u * (c * b) = R.u * (c * Real.sqrt b) * Real.sqrt b := by
      have := Real.mul_self_sqrt hb.le
      linear_combination (-R.u * c) * this
    rw [h4] at h3
    exact le_of_mul_le_mul_right h3 hs
  · rw [Real.sqrt_eq_zero_of_nonpos ha.le, zero_sub, abs_neg, abs_of_pos hs]
    have h1 : b ≤ R.u * (c * b) := by
      rw [abs_of_neg (by linarith)] at h; linarith
    have h2 : 1 ≤ R.u * c := by
      by_contra hlt
      push Not at hlt
      nlinarith
    nlinarith

theorem abs_fresnelC_sub_le (a b : ℝ) : |(fresnelC a : ℝ) - fresnelC b| ≤ |a - b| := by
  rw [fresnelC_sub]
  have := intervalIntegral.norm_integral_le_of_norm_le_const (a := b) (b := a) (C := 1)
    (f := fun t : ℝ => Real.cos (Real.pi / 2 * t ^ 2)) (fun x _ => by simpa using Real.abs_cos_le_one _)
  simpa using this

theorem abs_fresnelS_sub_le (a b : ℝ) : |(fresnelS a : ℝ) - fresnelS b| ≤ |a - b| := by
  rw [fresnelS_sub]
  have := intervalIntegral.norm_integral_le_of_norm_le_const (a := b) (b := a) (C := 1)
    (f := fun t : ℝ => Real.sin (Real.pi / 2 * t ^ 2)) (fun x _ => by simpa using Real.abs_sin_le_one _)
  simpa using this

/-- `sqrt(pi * |γ|)` up to rounding. -/
theorem Rounding.root_mul (γ : ℝ) (hγ : γ ≠ 0) :
    |R.rnd (Real.sqrt (R.rnd (R.rnd Real.pi * |γ|))) - Real.sqrt (Real.pi * |γ|)| ≤
      R.u * (3.01 * Real.sqrt (Real.pi * |γ|)) := by
  have ha := abs_pos.mpr hγ
  have hp := Real.pi_pos
  have h1 : |R.rnd Real.pi * |γ| - (Real.pi * |γ|)| ≤ R.u * (1 * |(Real.pi * |γ|)|) := by
    rw [← sub_mul, abs_mul, abs_mul, one_mul, abs_abs]
    have := mul_le_mul_of_nonneg_right (R.err Real.pi) ha.le
    linarith
  have h2 := R.rel h1 (by norm_num)
  have h3 := R.rel (R.sqrt_near (by positivity) h2) (by norm_num)
  rw [abs_of_nonneg (Real.sqrt_nonneg _)] at h3
  exact R.up h3 (mul_le_mul_of_nonneg_right (by norm_num) (Real.sqrt_nonneg _))

/-- `sqrt(pi / |γ|)` up to rounding. -/
theorem Rounding.root_div (γ : ℝ) (hγ : γ ≠ 0) :
    |R.rnd (Real.sqrt (R.rnd (R.rnd Real.pi / |γ|))) - Real.sqrt (Real.pi / |γ|)| ≤
      R.u * (3.01 * Real.sqrt (Real.pi / |γ|)) := by
  have ha := abs_pos.mpr hγ
  have hp := Real.pi_pos
  have h1 : |R.rnd Real.pi / |γ| - (Real.pi / |γ|)| ≤ R.u * (1 * |(Real.pi / |γ|)|) := by
    rw [← sub_div, abs_div, abs_div, one_mul, abs_abs]
    have := div_le_div_of_nonneg_right (R.err Real.pi) ha.le
    linarith [mul_div_assoc R.u |Real.pi| |γ|]
  have h2 := R.rel h1 (by norm_num)
  have h3 := R.rel (R.sqrt_near (by positivity) h2) (by norm_num)
  rw [abs_of_nonneg (Real.sqrt_nonneg _)] at h3
  exact R.up h3 (mul_le_mul_of_nonneg_right (by norm_num) (Real.sqrt_nonneg _))

theorem sqrt_pi_div (γ : ℝ) (hγ : γ ≠ 0) : Real.sqrt (Real.pi / |γ|) = Real.sqrt (Real.pi * |γ|) / |γ| := by
  have ha : (0:ℝ) < |γ| := abs_pos.mpr hγ
  rw [← Real.sqrt_sq ha.le, ← Real.sqrt_div' _ (sq_nonneg _)]
  congr 1
  rw [Real.sqrt_sq ha.le]; field_simp

/-- The first argument of the Fresnel integrals. -/
theorem Rounding.za_near (γ k L q q' : ℝ) (hq : 0 < q) (hqq : |q' - q| ≤ R.u * (3.01 * q)) :
    |R.rnd (R.rnd (k + R.rnd (γ * L)) / q') - (k + γ * L) / q| ≤ R.u * ((6.3 * |γ * L| + 5.3 * |k|) / q) := by
  have h0 := R.u_nonneg
  have hg := abs_nonneg (γ * L)
  have hk := abs_nonneg k
  have h1 : |k + R.rnd (γ * L) - (k + γ * L)| ≤ R.u * |γ * L| := by
    rw [add_sub_add_left_eq_sub]; exact R.err _
  have h2 : |k + γ * L| ≤ |k| + |γ * L| := abs_add_le _ _
  have h3 := R.near h1 (by positivity) h2
  have h4 := R.div_near h3 hq (by norm_num) (by norm_num) hqq (by positivity)
  have h5 : |(k + γ * L) / q| ≤ (|k| + |γ * L|) / q := by
    rw [abs_div, abs_of_pos hq]; exact div_le_div_of_nonneg_right h2 hq.le
  refine R.up (R.near h4 (by positivity) h5) ?_
  rw [← mul_div_assoc, ← add_div]
  refine div_le_div_of_nonneg_right ?_ hq.le
  linarith

/-- The second argument of the Fresnel integrals. -/
theorem Rounding.zb_near (k q q' : ℝ) (hq : 0 < q) (hqq : |q' - q| ≤ R.u * (3.01 * q)) :
    |R.rnd (k / q') - k / q| ≤ R.u * (4.2 * |k| / q) := by
  have hk := abs_nonneg k
  have h1 : |k - k| ≤ R.u * 0 := by simp
  have h4 := R.div_near h1 hq (by norm_num) (by norm_num) hqq (by norm_num)
  have h5 : |k / q| ≤ |k| / q := by rw [abs_div, abs_of_pos hq]
  refine R.up (R.near h4 (by positivity) h5) ?_
  rw [← mul_div_assoc, ← add_div]
  refine div_le_div_of_nonneg_right ?_ hq.le
  linarith

/-- A difference of two values of a Fresnel integral. -/
theorem Rounding.fresnel_diff (F : ℝ → ℝ) (hF : ∀ a b, |F a - F b| ≤ |a - b|) (hF0 : F 0 = 0) {f : ℝ} (hf : 0 ≤ f)
    {γ k L q za zb Fa Fb : ℝ} (hq : 0 < q)
    (ha : |za - (k + γ * L) / q| ≤ R.u * ((6.3 * |γ * L| + 5.3 * |k|) / q)) (hb : |zb - k / q| ≤ R.u * (4.2 * |k| / q))
    (hFa : |Fa - F za| ≤ R.u * (f * |F za|)) (hFb : |Fb - F zb| ≤ R.u * (f * |F zb|)) :
    |R.rnd (Fa - Fb) - (F ((k + γ * L) / q) - F (k / q))| ≤
      R.u * (((7.4 + 1.02 * f) * |γ * L| + (9.6 + 2.04 * f) * |k|) / q) ∧
    |F ((k + γ * L) / q) - F (k / q)| ≤ |γ * L| / q := by
  have h0 := R.u_nonneg
  set G := |γ * L| / q with hG
  set K := |k| / q with hK
  have hG0 : 0 ≤ G := by positivity
  have hK0 : 0 ≤ K := by positivity
  have ha' : |za - (k + γ * L) / q| ≤ R.u * (6.3 * G + 5.3 * K) := by
    rw [hG, hK, ← mul_div_assoc, ← mul_div_assoc, ← add_div]; exact ha
  have hb' : |zb - k / q| ≤ R.u * (4.2 * K) := by rw [hK, ← mul_div_assoc]; exact hb
  have hFabs : ∀ z, |F z| ≤ |z| := fun z => by simpa [hF0] using hF z 0
  have e1 : |(k + γ * L) / q| ≤ K + G := by
    rw [abs_div, abs_of_pos hq, hK, hG, ← add_div]; exact div_le_div_of_nonneg_right (abs_add_le _ _) hq.le
  have e2 : |k / q| ≤ K := by rw [abs_div, abs_of_pos hq]
  have s1 := R.small (c := 6.3 * G + 5.3 * K) (by positivity)
  have s2 := R.small (c := 4.2 * K) (by positivity)
  have z1 : |za| ≤ 1.01 * (K + G) := by
    have := abs_add_le (za - (k + γ * L) / q) ((k + γ * L) / q)
    rw [sub_add_cancel] at this; linarith
  have z2 : |zb| ≤ 1.01 * K := by
    have := abs_add_le (zb - k / q) (k / q)
    rw [sub_add_cancel] at this; linarith
  have f1 : |Fa - F ((k + γ * L) / q)| ≤ R.u * (f * (1.01 * (K + G)) + (6.3 * G + 5.3 * K)) := by
    have a1 := abs_sub_le Fa (F za) (F ((k + γ * L) / q))
    have a2 := (hF za ((k + γ * L) / q)).trans ha'
    have a3 := R.up hFa (mul_le_mul_of_nonneg_left ((hFabs za).trans z1) hf)
    linarith
  have f2 : |Fb - F (k / q)| ≤ R.u * (f * (1.01 * K) + 4.2 * K) := by
    have a1 := abs_sub_le Fb (F zb) (F (k / q))
    have a2 := (hF zb (k / q)).trans hb'
    have a3 := R.up hFb (mul_le_mul_of_nonneg_left ((hFabs zb).trans z2) hf)
    linarith
  have d : |F ((k + γ * L) / q) - F (k / q)| ≤ G := by
    refine (hF _ _).trans (le_of_eq ?_)
    rw [← sub_div, add_sub_cancel_left, abs_div, abs_of_pos hq]
  refine ⟨?_, d⟩
  have g : |Fa - Fb - (F ((k + γ * L) / q) - F (k / q))| ≤
      R.u * (f * (1.01 * (K + G)) + (6.3 * G + 5.3 * K) + (f * (1.01 * K) + 4.2 * K)) := by
    have := abs_sub (Fa - F ((k + γ * L) / q)) (Fb - F (k / q))
    calc _ = |(Fa - F ((k + γ * L) / q)) - (Fb - F (k / q))| := by ring_nf
      _ ≤ _ := this
      _ ≤ _ := by linarith
  refine R.up (R.near g (by positivity) d) ?_
  have e : ((7.4 + 1.02 * f) * |γ * L| + (9.6 + 2.04 * f) * |k|) / q = (7.4 + 1.02 * f) * G + (9.6 + 2.04 * f) * K := by
    rw [hG, hK]; ring
  rw [e]
  have n1 : 0 ≤ f * G := by positivity
  have n2 : 0 ≤ f * K := by positivity
  nlinarith

/-- The argument of the exponential. -/
theorem Rounding.phase_near (h k γ : ℝ) :
    |R.rnd (h - R.rnd (R.rnd (R.rnd (k * k) / R.rnd (2:ℤ)) / γ)) - (h - k ^ 2 / 2 / γ)| ≤
      R.u * (|h| + 4.1 * (k ^ 2 / 2 / |γ|)) := by
  have e : R.rnd ((2:ℤ):ℝ) = 2 := by rw [← R.two]; norm_num [R.two]
  rw [e]
  have h1 : |R.rnd (k * k) - k * k| ≤ R.u * (1 * |k * k|) := by rw [one_mul]; exact R.err _
  have h2 : |R.rnd (k * k) / 2 - k ^ 2 / 2| ≤ R.u * (1 * |k ^ 2 / 2|) := by
    rw [show k ^ 2 / 2 = k * k / 2 by ring, ← sub_div, abs_div, abs_div]
    have := div_le_div_of_nonneg_right h1 (abs_nonneg (2:ℝ))
    refine this.trans (le_of_eq (by ring))
  have h3 := R.rel h2 (by norm_num)
  have h4 : |R.rnd (R.rnd (k * k) / 2) / γ - k ^ 2 / 2 / γ| ≤ R.u * ((1.001 * 1 + 1) * |k ^ 2 / 2 / γ|) := by
    rw [← sub_div, abs_div, abs_div (k ^ 2 / 2)]
    have := div_le_div_of_nonneg_right h3 (abs_nonneg γ)
    refine this.trans (le_of_eq (by ring))
  have h5 := R.rel h4 (by norm_num)
  have e2 : |k ^ 2 / 2 / γ| = k ^ 2 / 2 / |γ| := by rw [abs_div, abs_of_nonneg (by positivity)]
  rw [e2] at h5
  set T := k ^ 2 / 2 / |γ| with hT
  have hT0 : 0 ≤ T := by positivity
  have h6 : |h - R.rnd (R.rnd (R.rnd (k * k) / 2) / γ) - (h - k ^ 2 / 2 / γ)| ≤ R.u * (3.01 * T) := by
    rw [← abs_neg]
    refine le_trans (le_of_eq ?_) (R.up h5 (mul_le_mul_of_nonneg_right (by norm_num) hT0))
    congr 1; ring
  have h7 : |h - k ^ 2 / 2 / γ| ≤ |h| + T := by
    refine (abs_sub _ _).trans (le_of_eq ?_)
    rw [e2]
  refine R.up (R.near h6 (by positivity) h7) ?_
  linarith [abs_nonneg h]

/-- `A * t` up to rounding, where `A` has a relative error and `t` is a cosine or a sine. -/
theorem Rounding.scaled {A A' t t' c : ℝ} (hA : 0 ≤ A) (hA' : |A' - A| ≤ R.u * (3.01 * A))
    (ht : |t - t'| ≤ R.u * (c + 3.1)) (ht' : |t'| ≤ 1) (hc : 0 ≤ c) (ht1 : |t| ≤ 1.004) :
    |R.rnd (A' * t) - A * t'| ≤ R.u * (A * (1.02 * c + 7.3)) ∧ |R.rnd (A' * t)| ≤ 1.02 * A := by
  have s := R.small (c := 3.01 * A) (by positivity)
  have b1 : |A'| ≤ 1.0031 * A := by
    have := abs_add_le (A' - A) A
    rw [sub_add_cancel, abs_of_nonneg hA] at this; linarith
  have h1 := R.mul_near hA' ht b1 ht' (by positivity) (by positivity)
  have h2 : |A * t'| ≤ A := by
    rw [abs_mul, abs_of_nonneg hA]; exact (mul_le_mul_of_nonneg_left ht' hA).trans (by simp)
  have n : 0 ≤ A * c := by positivity
  constructor
  · refine R.up (R.near h1 (by positivity) h2) ?_
    nlinarith
  · have h3 : |A' * t| ≤ 1.0031 * A * 1.004 := by
      rw [abs_mul]; exact mul_le_mul b1 ht1 (abs_nonneg _) (by positivity)
    have h4 := R.err (A' * t)
    have h5 := R.small (abs_nonneg (A' * t))
    have h6 := abs_add_le (R.rnd (A' * t) - A' * t) (A' * t)
    rw [sub_add_cancel] at h6
    linarith

theorem Rounding.abs_cos_le (a : ℝ) : |R.rnd (R.cos a)| ≤ 1.004 := by
  have h1 := R.cos_err a
  have h2 := Real.abs_cos_le_one a
  have h3 := R.err (R.cos a)
  have h4 := abs_add_le (R.cos a - Real.cos a) (Real.cos a)
  have h5 := R.small (abs_nonneg (R.cos a))
  have h6 := abs_add_le (R.rnd (R.cos a) - R.cos a) (R.cos a)
  rw [sub_add_cancel] at h4 h6
  linarith [R.u_small]

theorem Rounding.abs_sin_le (a : ℝ) : |R.rnd (R.sin a)| ≤ 1.004 := by
  have h1 := R.sin_err a
  have h2 := Real.abs_sin_le_one a
  have h3 := R.err (R.sin a)
  have h4 := abs_add_le (R.sin a - Real.sin a) (Real.sin a)
  have h5 := R.small (abs_nonneg (R.sin a))
  have h6 := abs_add_le (R.rnd (R.sin a) - R.sin a) (R.sin a)
  rw [sub_add_cancel] at h4 h6
  linarith [R.u_small]

/-- One coordinate of a complex product, added to `x`: `e` is `1` or `-1`. -/
theorem Rounding.coord {a a' b b' c c' d d' x M N M' N' : ℝ}
    (h1 : |R.rnd (a * b) - a' * b'| ≤ R.u * M) (h2 : |R.rnd (c * d) - c' * d'| ≤ R.u * N) (hM : 0 ≤ M) (hN : 0 ≤ N)
    (b1 : |a' * b'| ≤ M') (b2 : |c' * d'| ≤ N') :
    |R.rnd (x + R.rnd (R.rnd (a * b) - R.rnd (c * d))) - (x + (a' * b' - c' * d'))| ≤
      R.u * (|x| + 1.0021 * (M + N) + 2.001 * (M' + N')) ∧
    |R.rnd (x + R.rnd (R.rnd (a * b) + R.rnd (c * d))) - (x + (a' * b' + c' * d'))| ≤
      R.u * (|x| + 1.0021 * (M + N) + 2.001 * (M' + N')) := by
  have m0 := (abs_nonneg _).trans b1
  have n0 := (abs_nonneg _).trans b2
  constructor
  · have p1 : |R.rnd (a * b) - R.rnd (c * d) - (a' * b' - c' * d')| ≤ R.u * (M + N) := by
      have := abs_sub (R.rnd (a * b) - a' * b') (R.rnd (c * d) - c' * d')
      calc _ = |(R.rnd (a * b) - a' * b') - (R.rnd (c * d) - c' * d')| := by ring_nf
        _ ≤ _ := this
        _ ≤ _ := by linarith
    have p2 : |a' * b' - c' * d'| ≤ M' + N' := (abs_sub _ _).trans (add_le_add b1 b2)
    have p3 := R.near p1 (by positivity) p2
    have p4 : |x + R.rnd (R.rnd (a * b) - R.rnd (c * d)) - (x + (a' * b' - c' * d'))| ≤
        R.u * (1.001 * (M + N) + (M' + N')) := by rw [add_sub_add_left_eq_sub]; exact p3
    have p5 : |x + (a' * b' - c' * d')| ≤ |x| + (M' + N') := (abs_add_le _ _).trans (by linarith)
    refine R.up (R.near p4 (by positivity) p5) (by linarith)
  · have p1 : |R.rnd (a * b) + R.rnd (c * d) - (a' * b' + c' * d')| ≤ R.u * (M + N) := by
      have := abs_add_le (R.rnd (a * b) - a' * b') (R.rnd (c * d) - c' * d')
      calc _ = |(R.rnd (a * b) - a' * b') + (R.rnd (c * d) - c' * d')| := by ring_nf
        _ ≤ _ := this
        _ ≤ _ := by linarith
    have p2 : |a' * b' + c' * d'| ≤ M' + N' := (abs_add_le _ _).trans (add_le_add b1 b2)
    have p3 := R.near p1 (by positivity) p2
    have p4 : |x + R.rnd (R.rnd (a * b) + R.rnd (c * d)) - (x + (a' * b' + c' * d'))| ≤
        R.u * (1.001 * (M + N) + (M' + N')) := by rw [add_sub_add_left_eq_sub]; exact p3
    have p5 : |x + (a' * b' + c' * d')| ≤ |x| + (M' + N') := (abs_add_le _ _).trans (by linarith)
    refine R.up (R.near p4 (by positivity) p5) (by linarith)


theorem sign_rounded (R : Rounding) (γ x : ℝ) : R.rnd (Real.sign γ * R.rnd x) = Real.sign γ * R.rnd x := by
  rcases Real.sign_apply_eq γ with h | h | h <;> rw [h]
  · rw [neg_one_mul, R.neg, R.idem]
  · simp [R.zero]
  · rw [one_mul, R.idem]

theorem abs_sign {γ : ℝ} (hγ : γ ≠ 0) : |Real.sign γ| = 1 := by
  rcases lt_or_gt_of_ne hγ with h | h
  · rw [Real.sign_of_neg h]; norm_num
  · rw [Real.sign_of_pos h]; norm_num

/-- The position at the end of a proper spiral, for the rate of change `γ` that the program computed. -/
theorem calc_near {f : ℝ} (hf : FresnelAccurate R f) (γ L x y k h : Fl R) (hγ : γ.val ≠ 0) :
    let v := EulerSpiral.calc γ L x y k h
    let e := drive (clothHeading h.val k.val γ.val) L.val ⟨x.val, y.val, h.val⟩
    let B := |L.val| * (2.1 * |h.val| + 36 + 2.1 * f + 4.3 * (k.val ^ 2 / |γ.val|)) + (19.8 + 4.3 * f) * (|k.val| / |γ.val|)
    |v.x.val - e.x| ≤ R.u * (|x.val| + B) ∧ |v.y.val - e.y| ≤ R.u * (|y.val| + B) := by
  intro v e B
  obtain ⟨hf0, hf⟩ := hf
  have hz : (PyFloat.isZero γ) = false := (fl_isZero_false γ).mpr hγ
  have ha : 0 < |γ.val| := abs_pos.mpr hγ
  -- the parts
  set q := Real.sqrt (Real.pi * |γ.val|) with hq
  set A := Real.sqrt (Real.pi / |γ.val|) with hA
  have hq0 : 0 < q := sqrt_pi_mul_abs_pos hγ
  have hA0 : 0 ≤ A := Real.sqrt_nonneg _
  have hAq : A = q / |γ.val| := sqrt_pi_div γ.val hγ
  set Za : Fl R := (k +. γ *. L) /. PyFloat.sqrt (pi *. PyFloat.abs γ) with hZa
  set Zb : Fl R := k /. PyFloat.sqrt (pi *. PyFloat.abs γ) with hZb
  set Ph : Fl R := h -. sq k /. ofInt 2 /. γ with hPh
  set Ah : Fl R := PyFloat.sqrt (pi /. PyFloat.abs γ) with hAh
  have nq : |(PyFloat.sqrt (pi *. PyFloat.abs γ) : Fl R).val - q| ≤ R.u * (3.01 * q) := R.root_mul γ.val hγ
  have nA : |Ah.val - A| ≤ R.u * (3.01 * A) := R.root_div γ.val hγ
  have nza : |Za.val - (k.val + γ.val * L.val) / q| ≤ _ := R.za_near γ.val k.val L.val q _ hq0 nq
  have nzb : |Zb.val - k.val / q| ≤ _ := R.zb_near k.val q _ hq0 nq
  have nph : |Ph.val - (h.val - k.val ^ 2 / 2 / γ.val)| ≤ R.u * (|h.val| + 4.1 * (k.val ^ 2 / 2 / |γ.val|)) :=
    R.phase_near h.val k.val γ.val
  set c := |h.val| + 4.1 * (k.val ^ 2 / 2 / |γ.val|) with hc
  have hc0 : 0 ≤ c := by positivity
  obtain ⟨nC, bC⟩ := R.fresnel_diff (fun z => (fresnelC z : ℝ)) abs_fresnelC_sub_le (by simp) hf0 hq0 nza nzb
    (hf Za).2 (hf Zb).2
  obtain ⟨nS, bS⟩ := R.fresnel_diff (fun z => (fresnelS z : ℝ)) abs_fresnelS_sub_le (by simp) hf0 hq0 nza nzb
    (hf Za).1 (hf Zb).1
  set dC : ℝ := fresnelC ((k.val + γ.val * L.val) / q) - fresnelC (k.val / q) with hdC
  set dS : ℝ := fresnelS ((k.val + γ.val * L.val) / q) - fresnelS (k.val / q) with hdS
  set D := ((7.4 + 1.02 * f) * |γ.val * L.val| + (9.6 + 2.04 * f) * |k.val|) / q with hD
  have hD0 : 0 ≤ D := by positivity
  have ncos := R.near_cos nph
  have nsin := R.near_sin nph
  obtain ⟨nre, bre⟩ := R.scaled hA0 nA ncos (Real.abs_cos_le_one _) hc0 (R.abs_cos_le _)
  obtain ⟨nim, bim⟩ := R.scaled hA0 nA nsin (Real.abs_sin_le_one _) hc0 (R.abs_sin_le _)
  set ct := Real.cos (h.val - k.val ^ 2 / 2 / γ.val) with hct
  set st := Real.sin (h.val - k.val ^ 2 / 2 / γ.val) with hst
  set re := R.rnd (Ah.val * R.rnd (R.cos Ph.val)) with hre
  set im := R.rnd (Ah.val * R.rnd (R.sin Ph.val)) with him
  set Ch := R.rnd ((fresnelC Za : Fl R).val - (fresnelC Zb : Fl R).val) with hCh
  set Sh := R.rnd ((fresnelS Za : Fl R).val - (fresnelS Zb : Fl R).val) with hSh
  have hvx : v.x.val = R.rnd (x.val + R.rnd (R.rnd (re * R.rnd (Real.sign γ.val * Ch)) - R.rnd (im * Sh))) := by
    simp only [v, EulerSpiral.calc, hz, Bool.false_and, Bool.false_eq_true, if_false]; rfl
  have hvy : v.y.val = R.rnd (y.val + R.rnd (R.rnd (re * Sh) + R.rnd (im * R.rnd (Real.sign γ.val * Ch)))) := by
    simp only [v, EulerSpiral.calc, hz, Bool.false_and, Bool.false_eq_true, if_false]; rfl
  rw [hCh, sign_rounded, ← hCh] at hvx hvy
  have nC' : |Real.sign γ.val * Ch - Real.sign γ.val * dC| ≤ R.u * D := by
    rw [← mul_sub, abs_mul, abs_sign hγ, one_mul]; exact nC
  have bC' : |Real.sign γ.val * dC| ≤ |γ.val * L.val| / q := by
    rw [abs_mul, abs_sign hγ, one_mul]; exact bC
  have hct1 : |A * ct| ≤ A := by
    rw [abs_mul, abs_of_nonneg hA0]; exact (mul_le_mul_of_nonneg_left (Real.abs_cos_le_one _) hA0).trans (by simp)
  have hst1 : |A * st| ≤ A := by
    rw [abs_mul, abs_of_nonneg hA0]; exact (mul_le_mul_of_nonneg_left (Real.abs_sin_le_one _) hA0).trans (by simp)
  set G := |γ.val * L.val| / q with hG
  have hG0 : 0 ≤ G := by positivity
  have hAG : A * G = |L.val| := by
    rw [hAq, hG, abs_mul]; field_simp
  set ρ := |k.val| / |γ.val| with hρ
  have hρ0 : 0 ≤ ρ := by positivity
  have hAD : A * D = (7.4 + 1.02 * f) * |L.val| + (9.6 + 2.04 * f) * ρ := by
    rw [hAq, hD, hρ, abs_mul]; field_simp
  set E := A * (1.02 * c + 7.3) with hE
  have hE0 : 0 ≤ E := by positivity
  have hEG : G * E = |L.val| * (1.02 * c + 7.3) := by rw [hE, ← hAG]; ring
  have prod : ∀ {a a' b b' : ℝ}, |a - A * a'| ≤ R.u * E → |b - b'| ≤ R.u * D → |a| ≤ 1.02 * A → |A * a'| ≤ A → |b'| ≤ G →
      |R.rnd (a * b) - A * a' * b'| ≤ R.u * (1.001 * (1.02 * A * D + G * E) + |L.val|) ∧ |A * a' * b'| ≤ |L.val| := by
    intro a a' b b' h1 h2 h3 h4 h5
    have m : |A * a' * b'| ≤ |L.val| := by
      rw [abs_mul, ← hAG]; exact mul_le_mul h4 h5 (abs_nonneg _) hA0
    exact ⟨R.near (R.mul_near h1 h2 h3 h5 hE0 hD0) (by positivity) m, m⟩
  obtain ⟨p1, m1⟩ := prod nre nC' bre hct1 bC'
  obtain ⟨p2, m2⟩ := prod nim nS bim hst1 bS
  obtain ⟨p3, m3⟩ := prod nre nS bre hct1 bS
  obtain ⟨p4, m4⟩ := prod nim nC' bim hst1 bC'
  have hN0 : 0 ≤ 1.001 * (1.02 * A * D + G * E) + |L.val| := by positivity
  have key : ∀ z : ℝ, |z| + 1.0021 * (1.001 * (1.02 * A * D + G * E) + |L.val| + (1.001 * (1.02 * A * D + G * E) + |L.val|))
      + 2.001 * (|L.val| + |L.val|) ≤ |z| + B := by
    intro z
    have e1 : 1.02 * A * D = 1.02 * ((7.4 + 1.02 * f) * |L.val| + (9.6 + 2.04 * f) * ρ) := by rw [← hAD]; ring
    have e2 : k.val ^ 2 / 2 / |γ.val| = (k.val ^ 2 / |γ.val|) / 2 := by ring
    rw [e1, hEG, hc, e2]
    simp only [B]
    set T := k.val ^ 2 / |γ.val|
    have hT0 : 0 ≤ T := by positivity
    have n1 : 0 ≤ |L.val| * |h.val| := by positivity
    have n2 : 0 ≤ |L.val| * f := by positivity
    have n3 : 0 ≤ |L.val| * T := by positivity
    have n4 : 0 ≤ ρ * f := by positivity
    have n5 := abs_nonneg L.val
    linarith [hρ0]
  constructor
  · have := (R.coord (x := x.val) p1 p2 hN0 hN0 m1 m2).1
    refine le_trans (le_of_eq ?_) (R.up this (key _))
    rw [hvx]
    simp only [e, drive, cloth_integral_cos h.val k.val γ.val L.val hγ, ← hA, ← hq, ← hct, ← hst, ← hdC, ← hdS]
    congr 1
    ring
  · have := (R.coord (x := y.val) p3 p4 hN0 hN0 m3 m4).2
    refine le_trans (le_of_eq ?_) (R.up this (key _))
    rw [hvy]
    simp only [e, drive, cloth_integral_sin h.val k.val γ.val L.val hγ, ← hA, ← hq, ← hct, ← hst, ← hdC, ← hdS]
    congr 1
    ring


/-- The heading at the end, for the rate of change `γ` that the program computed. -/
theorem calc_heading_near (γ L x y k h : Fl R) :
    |(EulerSpiral.calc γ L x y k h).h.val - (h.val + k.val * L.val + γ.val * L.val ^ 2 / 2)| ≤
      R.u * (|h.val| + 3.1 * |k.val * L.val| + 2.6 * |γ.val * L.val ^ 2|) := by
  have e : R.rnd ((2:ℤ):ℝ) = 2 := by rw [← R.two]; norm_num [R.two]
  have hv : (EulerSpiral.calc γ L x y k h).h.val =
      R.rnd (R.rnd (R.rnd (R.rnd (γ.val * R.rnd (L.val * L.val)) / R.rnd (2:ℤ)) + R.rnd (k.val * L.val)) + h.val) := rfl
  rw [hv, e]
  set G := γ.val * L.val ^ 2 with hG
  set K := k.val * L.val with hK
  have h1 : |γ.val * R.rnd (L.val * L.val) - G| ≤ R.u * (1 * |G|) := by
    rw [hG, show γ.val * L.val ^ 2 = γ.val * (L.val * L.val) by ring, ← mul_sub, abs_mul, abs_mul γ.val]
    have := mul_le_mul_of_nonneg_left (R.err (L.val * L.val)) (abs_nonneg γ.val)
    linarith
  have h2 := R.rel h1 (by norm_num)
  have h3 : |R.rnd (γ.val * R.rnd (L.val * L.val)) / 2 - G / 2| ≤ R.u * (2.001 * |G / 2|) := by
    rw [← sub_div, abs_div, abs_div G]
    have := div_le_div_of_nonneg_right h2 (abs_nonneg (2:ℝ))
    refine this.trans (le_of_eq (by ring))
  have h4 := R.rel h3 (by norm_num)
  have h5 := R.err K
  have hg : |G / 2| = |G| / 2 := by rw [abs_div]; norm_num
  rw [hg] at h4
  have h6 : |R.rnd (R.rnd (γ.val * R.rnd (L.val * L.val)) / 2) + R.rnd K - (G / 2 + K)| ≤
      R.u * (3.0031 * (|G| / 2) + |K|) := by
    have := abs_add_le (R.rnd (R.rnd (γ.val * R.rnd (L.val * L.val)) / 2) - G / 2) (R.rnd K - K)
    calc _ = |R.rnd (R.rnd (γ.val * R.rnd (L.val * L.val)) / 2) - G / 2 + (R.rnd K - K)| := by ring_nf
      _ ≤ _ := this
      _ ≤ R.u * ((1.001 * 2.001 + 1) * (|G| / 2)) + R.u * |K| := add_le_add h4 h5
      _ ≤ _ := by
        rw [← mul_add]
        refine mul_le_mul_of_nonneg_left ?_ R.u_nonneg
        linarith [abs_nonneg G]
  have h7 : |G / 2 + K| ≤ |G| / 2 + |K| := by rw [← hg]; exact abs_add_le _ _
  have h8 := R.near h6 (by positivity) h7
  have h9 : |R.rnd (R.rnd (R.rnd (γ.val * R.rnd (L.val * L.val)) / 2) + R.rnd K) + h.val - (h.val + K + G / 2)| ≤
      R.u * (1.001 * (3.0031 * (|G| / 2) + |K|) + (|G| / 2 + |K|)) := by
    refine le_trans (le_of_eq ?_) h8
    congr 1; ring
  have h10 : |h.val + K + G / 2| ≤ |h.val| + |K| + |G| / 2 := by
    have a1 := abs_add_le (h.val + K) (G / 2)
    have a2 := abs_add_le h.val K
    linarith
  refine R.up (R.near h9 (by positivity) h10) ?_
  linarith [abs_nonneg G, abs_nonneg K]

/-- The position at the end of a spiral whose curvature does not change. -/
theorem calc_const_near (γ L x y k h : Fl R) (hγ : γ.val = 0) :
    let v := EulerSpiral.calc γ L x y k h
    let e := drive (clothHeading h.val k.val 0) L.val ⟨x.val, y.val, h.val⟩
    |v.x.val - e.x| ≤ R.u * (|x.val| + 6 * |L.val| + 31 * radius k.val) ∧
    |v.y.val - e.y| ≤ R.u * (|y.val| + 6 * |L.val| + 31 * radius k.val) := by
  intro v e
  have hz : (PyFloat.isZero γ) = true := (fl_isZero γ).mpr hγ
  have hh : ∀ s, clothHeading h.val k.val 0 s = h.val + k.val * s := by intro s; simp [clothHeading]
  have he : e = exactEnd k.val L.val ⟨x.val, y.val, h.val⟩ := by
    simp only [e, exactEnd, funext hh]
  rw [exactEnd_eq] at he
  have z : |h.val - h.val| ≤ R.u * 0 := by simp
  by_cases hk : k.val = 0
  · rw [if_pos hk] at he
    have hkz : (PyFloat.isZero k) = true := (fl_isZero k).mpr hk
    have hvx : v.x.val = R.rnd (x.val + R.rnd (L.val * R.rnd (R.cos h.val))) := by
      simp only [v, EulerSpiral.calc, hz, hkz, Bool.and_true, if_true]; rfl
    have hvy : v.y.val = R.rnd (y.val + R.rnd (L.val * R.rnd (R.sin h.val))) := by
      simp only [v, EulerSpiral.calc, hz, hkz, Bool.and_true, if_true]; rfl
    rw [he, hvx, hvy, radius, if_pos hk, mul_zero, add_zero, add_zero, add_comm x.val (R.rnd _), add_comm y.val (R.rnd _)]
    exact ⟨R.line_coord (t' := Real.cos h.val) (by simpa using R.near_cos z) (Real.abs_cos_le_one _),
      R.line_coord (t' := Real.sin h.val) (by simpa using R.near_sin z) (Real.abs_sin_le_one _)⟩
  · rw [if_neg hk] at he
    have hkz : (PyFloat.isZero k) = false := (fl_isZero_false k).mpr hk
    have hka := abs_pos.mpr hk
    set r := 1 / |k.val| with hr
    have hr0 : 0 < r := by positivity
    set re := R.rnd (R.rnd (R.cos h.val) / k.val) with hre
    set im := R.rnd (R.rnd (R.sin h.val) / k.val) with him
    set Sh := R.rnd (R.sin (R.rnd (k.val * L.val))) with hSh
    set Vh := R.rnd (R.rnd (1:ℤ) - R.rnd (R.cos (R.rnd (k.val * L.val)))) with hVh
    have hvx : v.x.val = R.rnd (x.val + R.rnd (R.rnd (re * Sh) - R.rnd (im * Vh))) := by
      simp only [v, EulerSpiral.calc, hz, hkz, Bool.and_false, Bool.false_eq_true, if_false, Bool.not_false, Bool.and_true,
        if_true]; rfl
    have hvy : v.y.val = R.rnd (y.val + R.rnd (R.rnd (re * Vh) + R.rnd (im * Sh))) := by
      simp only [v, EulerSpiral.calc, hz, hkz, Bool.and_false, Bool.false_eq_true, if_false, Bool.not_false, Bool.and_true,
        if_true]; rfl
    set a := |k.val * L.val| with ha
    have ha0 : 0 ≤ a := abs_nonneg _
    have nphi := R.err (k.val * L.val)
    have nS : |Sh - Real.sin (k.val * L.val)| ≤ R.u * (a + 3.1) := R.near_sin nphi
    have nV : |Vh - (1 - Real.cos (k.val * L.val))| ≤ R.u * (1.001 * (a + 3.1) + 2) := by
      have h1 : R.rnd ((1:ℤ):ℝ) = 1 := by rw [← R.one]; norm_num [R.one]
      rw [hVh, h1]
      refine R.near ?_ (by positivity) ?_
      · rw [sub_sub_sub_cancel_left, abs_sub_comm]; exact R.near_cos nphi
      · have := Real.abs_cos_le_one (k.val * L.val)
        refine (abs_sub _ _).trans ?_
        rw [abs_one]; linarith
    have bS := Real.abs_sin_le_one (k.val * L.val)
    have bV : |1 - Real.cos (k.val * L.val)| ≤ 2 := by
      have := Real.abs_cos_le_one (k.val * L.val)
      refine (abs_sub _ _).trans ?_
      rw [abs_one]; linarith
    have quot : ∀ {t t' : ℝ}, |t - t'| ≤ R.u * (0 + 3.1) → |t'| ≤ 1 → |t| ≤ 1.004 →
        |R.rnd (t / k.val) - t' / k.val| ≤ R.u * (4.11 * r) ∧ |t' / k.val| ≤ r ∧ |R.rnd (t / k.val)| ≤ 1.01 * r := by
      intro t t' h1 h2 h3
      have q1 : |t / k.val - t' / k.val| ≤ R.u * (3.1 * r) := by
        rw [← sub_div, abs_div, hr]
        have := div_le_div_of_nonneg_right h1 hka.le
        refine this.trans (le_of_eq (by ring))
      have q2 : |t' / k.val| ≤ r := by
        rw [abs_div, hr]; exact div_le_div_of_nonneg_right h2 hka.le
      refine ⟨R.up (R.near q1 (by positivity) q2) (by linarith), q2, ?_⟩
      have q3 : |t / k.val| ≤ 1.004 * r := by
        rw [abs_div, hr, ← mul_div_assoc, mul_one]; exact div_le_div_of_nonneg_right h3 hka.le
      have q4 := R.err (t / k.val)
      have q5 := R.small (abs_nonneg (t / k.val))
      have q6 := abs_add_le (R.rnd (t / k.val) - t / k.val) (t / k.val)
      rw [sub_add_cancel] at q6
      linarith
    obtain ⟨nre, bre', bre⟩ := quot (R.near_cos z) (Real.abs_cos_le_one _) (R.abs_cos_le _)
    obtain ⟨nim, bim', bim⟩ := quot (R.near_sin z) (Real.abs_sin_le_one _) (R.abs_sin_le _)
    have pS : ∀ {t t' : ℝ}, |t - t'| ≤ R.u * (4.11 * r) → |t'| ≤ r → |t| ≤ 1.01 * r →
        |R.rnd (t * Sh) - t' * Real.sin (k.val * L.val)| ≤ R.u * (r * (1.02 * a + 8.3)) ∧
        |t' * Real.sin (k.val * L.val)| ≤ r := by
      intro t t' h1 h2 h3
      have m : |t' * Real.sin (k.val * L.val)| ≤ r := by
        rw [abs_mul]; exact (mul_le_mul h2 bS (abs_nonneg _) hr0.le).trans (by simp)
      refine ⟨R.up (R.near (R.mul_near h1 nS h3 bS (by positivity) (by positivity)) (by positivity) m) ?_, m⟩
      have n : 0 ≤ r * a := by positivity
      linarith
    have pV : ∀ {t t' : ℝ}, |t - t'| ≤ R.u * (4.11 * r) → |t'| ≤ r → |t| ≤ 1.01 * r →
        |R.rnd (t * Vh) - t' * (1 - Real.cos (k.val * L.val))| ≤ R.u * (r * (1.02 * a + 15.5)) ∧
        |t' * (1 - Real.cos (k.val * L.val))| ≤ 2 * r := by
      intro t t' h1 h2 h3
      have m : |t' * (1 - Real.cos (k.val * L.val))| ≤ 2 * r := by
        rw [abs_mul]; exact (mul_le_mul h2 bV (abs_nonneg _) hr0.le).trans (by linarith)
      refine ⟨R.up (R.near (R.mul_near h1 nV h3 bV (by positivity) (by positivity)) (by positivity) m) ?_, m⟩
      have n : 0 ≤ r * a := by positivity
      linarith
    obtain ⟨p1, m1⟩ := pS nre bre' bre
    obtain ⟨p2, m2⟩ := pV nim bim' bim
    obtain ⟨p3, m3⟩ := pV nre bre' bre
    obtain ⟨p4, m4⟩ := pS nim bim' bim
    have hrL : r * a = |L.val| := by rw [hr, ha, abs_mul]; field_simp
    rw [radius, if_neg hk, ← hr, he, hvx, hvy]
    have key : ∀ w : ℝ, |w| + 1.0021 * (r * (1.02 * a + 8.3) + r * (1.02 * a + 15.5)) + 2.001 * (r + 2 * r) ≤
        |w| + 6 * |L.val| + 31 * r := by
      intro w
      rw [← hrL]
      have n : 0 ≤ r * a := by positivity
      linarith
    constructor
    · refine le_trans (le_of_eq ?_) (R.up (R.coord (x := x.val) p1 p2 (by positivity) (by positivity) m1 m2).1 (key _))
      congr 2
      simp only [Real.sin_add, Real.cos_add]
      field_simp
      ring
    · refine le_trans (le_of_eq ?_) (R.up (R.coord (x := y.val) p3 p4 (by positivity) (by positivity) m3 m4).2
        ((le_of_eq (by ring)).trans (key _)))
      congr 2
      simp only [Real.sin_add, Real.cos_add]
      field_simp
      ring


/-- The position depends on the rate of change. -/
theorem cloth_rate (h k γ γ' L : ℝ) :
    |(∫ s in (0:ℝ)..L, Real.cos (clothHeading h k γ' s)) - ∫ s in (0:ℝ)..L, Real.cos (clothHeading h k γ s)| ≤
      |γ' - γ| * L ^ 2 / 2 * |L| ∧
    |(∫ s in (0:ℝ)..L, Real.sin (clothHeading h k γ' s)) - ∫ s in (0:ℝ)..L, Real.sin (clothHeading h k γ s)| ≤
      |γ' - γ| * L ^ 2 / 2 * |L| := by
  have d : ∀ s ∈ Set.uIoc 0 L, |clothHeading h k γ' s - clothHeading h k γ s| ≤ |γ' - γ| * L ^ 2 / 2 := by
    intro s hs
    have e : clothHeading h k γ' s - clothHeading h k γ s = (γ' - γ) * s ^ 2 / 2 := by unfold clothHeading; ring
    rw [e, abs_div, abs_mul, abs_of_nonneg (sq_nonneg s), abs_of_pos (show (0:ℝ) < 2 by norm_num)]
    refine div_le_div_of_nonneg_right (mul_le_mul_of_nonneg_left ?_ (abs_nonneg _)) (by norm_num)
    rw [sq_le_sq]
    rcases Set.mem_uIoc.mp hs with ⟨h1, h2⟩ | ⟨h1, h2⟩
    · rw [abs_of_pos h1]; exact h2.trans (le_abs_self _)
    · rw [abs_of_nonpos h2, abs_of_neg (by linarith)]; linarith
  constructor
  · rw [← intervalIntegral.integral_sub (Continuous.intervalIntegrable (by unfold clothHeading; fun_prop) _ _)
      (Continuous.intervalIntegrable (by unfold clothHeading; fun_prop) _ _)]
    have := intervalIntegral.norm_integral_le_of_norm_le_const (a := 0) (b := L)
      (f := fun s => Real.cos (clothHeading h k γ' s) - Real.cos (clothHeading h k γ s))
      (fun s hs => (Real.abs_cos_sub_cos_le _ _).trans (d s hs))
    simpa using this
  · rw [← intervalIntegral.integral_sub (Continuous.intervalIntegrable (by unfold clothHeading; fun_prop) _ _)
      (Continuous.intervalIntegrable (by unfold clothHeading; fun_prop) _ _)]
    have := intervalIntegral.norm_integral_le_of_norm_le_const (a := 0) (b := L)
      (f := fun s => Real.sin (clothHeading h k γ' s) - Real.sin (clothHeading h k γ s))
      (fun s hs => (Real.abs_sin_sub_sin_le _ _).trans (d s hs))
    simpa using this

/-- The end of a spiral, for the rate of change that the program computes from length and curvatures. -/
theorem spiral_calc_near {f : ℝ} (hf : FresnelAccurate R f) (k0 k1 L x y h : Fl R) (hL : L.val ≠ 0) :
    let v := EulerSpiral.calc (ofInt 1 *. (k1 -. k0) /. L) L x y k0 h
    let e := spiralEnd k0.val k1.val L.val ⟨x.val, y.val, h.val⟩
    |v.x.val - e.x| ≤ R.u * spiralUnits f k0.val k1.val L.val x.val h.val ∧
    |v.y.val - e.y| ≤ R.u * spiralUnits f k0.val k1.val L.val y.val h.val ∧
    |v.h.val - e.h| ≤ R.u * (|h.val| + 3.1 * |k0.val * L.val| + 3.7 * |(k1.val - k0.val) * L.val|) := by
  intro v e
  have h0 := R.u_nonneg
  have hLa := abs_pos.mpr hL
  set g : Fl R := ofInt 1 *. (k1 -. k0) /. L with hg
  have hgv : g.val = R.rnd (R.rnd (k1.val - k0.val) / L.val) := by
    have h1 : R.rnd ((1:ℤ):ℝ) = 1 := by rw [← R.one]; norm_num [R.one]
    rw [hg, fl_div, fl_mul, fl_ofInt, h1, one_mul, fl_sub, R.idem]
  set γ := (k1.val - k0.val) / L.val with hγ
  have ng : |g.val - γ| ≤ R.u * (2.001 * |γ|) := by
    have a : |R.rnd (k1.val - k0.val) / L.val - γ| ≤ R.u * (1 * |γ|) := by
      rw [hγ, ← sub_div, abs_div, abs_div, one_mul, ← mul_div_assoc]
      exact div_le_div_of_nonneg_right (R.err _) hLa.le
    rw [hgv]
    exact R.up (R.rel a (by norm_num)) (mul_le_mul_of_nonneg_right (by norm_num) (abs_nonneg _))
  have hγL : |γ * L.val| = |k1.val - k0.val| := by rw [hγ, div_mul_cancel₀ _ hL]
  have hγL2 : |γ * L.val ^ 2| = |(k1.val - k0.val) * L.val| := by
    rw [hγ]; congr 1; field_simp
  have he : e = drive (clothHeading h.val k0.val γ) L.val ⟨x.val, y.val, h.val⟩ := rfl
  have hs := R.small (c := 2.001 * |γ|) (by positivity)
  have hup : |g.val| ≤ 1.0021 * |γ| := by
    have := abs_add_le (g.val - γ) γ
    rw [sub_add_cancel] at this; linarith [abs_nonneg γ]
  have hdn : 0.9979 * |γ| ≤ |g.val| := by
    have := abs_sub_abs_le_abs_sub γ g.val
    rw [abs_sub_comm] at this; linarith [abs_nonneg γ]
  refine ⟨?_, ?_, ?_⟩
  rotate_left 2
  · have a := calc_heading_near g L x y k0 h
    have b : |g.val * L.val ^ 2 / 2 - γ * L.val ^ 2 / 2| ≤ R.u * (1.001 * |(k1.val - k0.val) * L.val|) := by
      rw [← sub_div, ← sub_mul, abs_div, abs_mul, ← hγL2, abs_mul, abs_of_pos (show (0:ℝ) < 2 by norm_num)]
      have := mul_le_mul_of_nonneg_right ng (abs_nonneg (L.val ^ 2))
      nlinarith [mul_nonneg h0 (mul_nonneg (abs_nonneg γ) (abs_nonneg (L.val ^ 2)))]
    have c : |g.val * L.val ^ 2| ≤ 1.0021 * |(k1.val - k0.val) * L.val| := by
      rw [abs_mul, ← hγL2, abs_mul]
      have := mul_le_mul_of_nonneg_right hup (abs_nonneg (L.val ^ 2))
      linarith
    have eh : e.h = h.val + k0.val * L.val + γ * L.val ^ 2 / 2 := rfl
    rw [eh]
    have t := abs_sub_le v.h.val (h.val + k0.val * L.val + g.val * L.val ^ 2 / 2)
      (h.val + k0.val * L.val + γ * L.val ^ 2 / 2)
    rw [add_sub_add_left_eq_sub] at t
    have a' := R.up a (show |h.val| + 3.1 * |k0.val * L.val| + 2.6 * |g.val * L.val ^ 2| ≤
      |h.val| + 3.1 * |k0.val * L.val| + 2.6 * (1.0021 * |(k1.val - k0.val) * L.val|) by linarith)
    have n : 0 ≤ R.u * |(k1.val - k0.val) * L.val| := by positivity
    have : |v.h.val - (h.val + k0.val * L.val + γ * L.val ^ 2 / 2)| ≤
      R.u * (|h.val| + 3.1 * |k0.val * L.val| + 2.6 * (1.0021 * |(k1.val - k0.val) * L.val|)) +
      R.u * (1.001 * |(k1.val - k0.val) * L.val|) := by linarith
    linarith
  all_goals
    by_cases hk : k1.val = k0.val
    · have g0 : g.val = 0 := by rw [hgv, hk, sub_self, R.zero, zero_div, R.zero]
      have γ0 : γ = 0 := by rw [hγ, hk, sub_self, zero_div]
      have := calc_const_near g L x y k0 h g0
      rw [he, spiralUnits, if_pos hk, γ0]
      first
      | exact this.1
      | exact this.2
    · have hd : 0 < |k1.val - k0.val| := abs_pos.mpr (sub_ne_zero.mpr hk)
      have hγ0 : γ ≠ 0 := div_ne_zero (sub_ne_zero.mpr hk) hL
      have hγa := abs_pos.mpr hγ0
      have hga : 0 < |g.val| := by linarith
      have hg0 : g.val ≠ 0 := abs_pos.mp hga
      have hinv : 1 / |g.val| ≤ 1.003 * (|L.val| / |k1.val - k0.val|) := by
        have e1 : |L.val| / |k1.val - k0.val| = 1 / |γ| := by rw [hγ, abs_div]; field_simp
        rw [e1, ← mul_div_assoc, mul_one, div_le_div_iff₀ hga hγa]
        linarith
      set ρ := |k0.val| / |k1.val - k0.val| with hρ
      have hρ0 : 0 ≤ ρ := by positivity
      have i1 : |k0.val| / |g.val| ≤ 1.003 * (ρ * |L.val|) := by
        have := mul_le_mul_of_nonneg_left hinv (abs_nonneg k0.val)
        calc |k0.val| / |g.val| = |k0.val| * (1 / |g.val|) := by ring
          _ ≤ _ := this
          _ = _ := by rw [hρ]; ring
      have i2 : k0.val ^ 2 / |g.val| ≤ 1.003 * (|k0.val * L.val| * ρ) := by
        have := mul_le_mul_of_nonneg_left hinv (sq_nonneg k0.val)
        calc k0.val ^ 2 / |g.val| = k0.val ^ 2 * (1 / |g.val|) := by ring
          _ ≤ _ := this
          _ = _ := by rw [hρ, abs_mul, ← sq_abs k0.val]; ring
      have near := calc_near hf g L x y k0 h hg0
      have rate := cloth_rate h.val k0.val γ g.val L.val
      have hr : |g.val - γ| * L.val ^ 2 / 2 * |L.val| ≤ R.u * (1.001 * |(k1.val - k0.val) * L.val| * |L.val|) := by
        rw [← hγL2, abs_mul γ, abs_of_nonneg (sq_nonneg L.val)]
        have := mul_le_mul_of_nonneg_right ng (show 0 ≤ L.val ^ 2 / 2 * |L.val| by positivity)
        have n : 0 ≤ R.u * (|γ| * (L.val ^ 2 * |L.val|)) := by positivity
        nlinarith
      have hf0 := hf.1
      rw [he, spiralUnits, if_neg hk, ← hρ]
      have key : ∀ w : ℝ, |w| + (|L.val| * (2.1 * |h.val| + 36 + 2.1 * f + 4.3 * (k0.val ^ 2 / |g.val|)) +
            (19.8 + 4.3 * f) * (|k0.val| / |g.val|)) + 1.001 * |(k1.val - k0.val) * L.val| * |L.val| ≤
          |w| + |L.val| * (2.1 * |h.val| + 37 + 2.2 * f + 1.1 * |(k1.val - k0.val) * L.val| +
            (20 + 4.4 * f + 5 * |k0.val * L.val|) * ρ) := by
        intro w
        have j1 := mul_le_mul_of_nonneg_left i2 (show 0 ≤ |L.val| * 4.3 by positivity)
        have j2 := mul_le_mul_of_nonneg_left i1 (show 0 ≤ 19.8 + 4.3 * f by positivity)
        have n1 : 0 ≤ |L.val| * f := by positivity
        have n2 : 0 ≤ |L.val| * |(k1.val - k0.val) * L.val| := by positivity
        have n3 : 0 ≤ |L.val| * (|k0.val * L.val| * ρ) := by positivity
        have n4 : 0 ≤ |L.val| * ρ := by positivity
        have n5 : 0 ≤ f * (|L.val| * ρ) := by positivity
        linarith
      first
      | refine le_trans ?_ (mul_le_mul_of_nonneg_left (key x.val) h0)
        rw [mul_add R.u]
        have t := abs_sub_le v.x.val (drive (clothHeading h.val k0.val g.val) L.val ⟨x.val, y.val, h.val⟩).x
          (drive (clothHeading h.val k0.val γ) L.val ⟨x.val, y.val, h.val⟩).x
        refine t.trans (add_le_add near.1 ?_)
        refine le_trans (le_of_eq ?_) (rate.1.trans hr)
        simp only [drive, add_sub_add_left_eq_sub]
      | refine le_trans ?_ (mul_le_mul_of_nonneg_left (key y.val) h0)
        rw [mul_add R.u]
        have t := abs_sub_le v.y.val (drive (clothHeading h.val k0.val g.val) L.val ⟨x.val, y.val, h.val⟩).y
          (drive (clothHeading h.val k0.val γ) L.val ⟨x.val, y.val, h.val⟩).y
        refine t.trans (add_le_add near.2 ?_)
        refine le_trans (le_of_eq ?_) (rate.2.trans hr)
        simp only [drive, add_sub_add_left_eq_sub]

end Pyodrx
