import Verif.Proofs.FloatSpiral
import Mathlib.Analysis.SpecialFunctions.Complex.Arg

/-! # Errors of ParamPoly3 in floating point arithmetic -/

namespace Pyodrx
open PyFloat Spec

variable {R : Rounding}

/-- Rounding a product of numbers with relative errors. -/
theorem Rounding.rel_mul {a a' b b' ca cb : ℝ} (ha : |a - a'| ≤ R.u * (ca * |a'|)) (hb : |b - b'| ≤ R.u * (cb * |b'|))
    (hca : 0 ≤ ca) (hcb : 0 ≤ cb) :
    |a * b - a' * b'| ≤ R.u * ((ca + cb + 0.001 * (ca * cb)) * |a' * b'|) := by
  have s := R.small (c := ca * |a'|) (by positivity)
  have hMa : |a| ≤ (1 + 0.001 * ca) * |a'| := by
    have := abs_add_le (a - a') a'
    rw [sub_add_cancel] at this; linarith
  refine R.up (R.mul_near ha hb hMa le_rfl (by positivity) (by positivity)) (le_of_eq ?_)
  rw [abs_mul]; ring

theorem Rounding.rel_exact {a : ℝ} : |a - a| ≤ R.u * (0 * |a|) := by simp

/-- Evaluating a cubic polynomial. -/
theorem Rounding.cubic_near (a b c d t : ℝ) :
    |R.rnd (R.rnd (R.rnd (a + R.rnd (b * t)) + R.rnd (c * R.rnd (t * t))) + R.rnd (d * R.rnd (R.rnd (t * t) * t))) -
      (a + b * t + c * t ^ 2 + d * t ^ 3)| ≤ R.u * (4.1 * cubicSize a b c d t) := by
  have e2 : t ^ 2 = t * t := by ring
  have e3 : t ^ 3 = t * t * t := by ring
  have t2 : |R.rnd (t * t) - t * t| ≤ R.u * (1 * |t * t|) := by rw [one_mul]; exact R.err _
  have t3 := R.rel (R.rel_mul t2 (R.rel_exact (a := t)) (by norm_num) le_rfl) (by norm_num)
  have hb := R.err (b * t)
  have hc := R.rel (R.rel_mul (R.rel_exact (a := c)) t2 le_rfl (by norm_num)) (by norm_num)
  have hd := R.rel (R.rel_mul (R.rel_exact (a := d)) t3 le_rfl (by norm_num)) (by norm_num)
  rw [← e2] at hc hd
  rw [show t ^ 2 * t = t ^ 3 by ring] at hd
  have a0 := abs_nonneg a
  have b0 := abs_nonneg (b * t)
  have c0 := abs_nonneg (c * t ^ 2)
  have d0 := abs_nonneg (d * t ^ 3)
  unfold cubicSize
  have s1 : |a + R.rnd (b * t) - (a + b * t)| ≤ R.u * |b * t| := by rw [add_sub_add_left_eq_sub]; exact hb
  have r1 := R.near s1 b0 (abs_add_le a (b * t))
  have add : ∀ {x x' y y' cx cy : ℝ}, |x - x'| ≤ R.u * cx → |y - y'| ≤ R.u * cy → |x + y - (x' + y')| ≤ R.u * (cx + cy) := by
    intro x x' y y' cx cy h1 h2
    calc |x + y - (x' + y')| = |(x - x') + (y - y')| := by ring_nf
      _ ≤ _ := abs_add_le _ _
      _ ≤ _ := by linarith
  have m2 : |a + b * t + c * t ^ 2| ≤ |a| + |b * t| + |c * t ^ 2| :=
    (abs_add_le _ _).trans (by linarith [abs_add_le a (b * t)])
  have m3 : |a + b * t + c * t ^ 2 + d * t ^ 3| ≤ |a| + |b * t| + |c * t ^ 2| + |d * t ^ 3| :=
    (abs_add_le _ _).trans (by linarith)
  rw [← e2] at *
  have r2 := R.near (add r1 hc) (by positivity) m2
  have r3 := R.near (add r2 hd) (by positivity) m3
  exact R.up r3 (by linarith)

/-- Evaluating the derivative of a cubic polynomial. -/
theorem Rounding.slope_near (b c d t : ℝ) :
    |R.rnd (R.rnd (b + R.rnd (R.rnd (R.rnd (2:ℤ) * c) * t)) + R.rnd (R.rnd (R.rnd (3:ℤ) * d) * R.rnd (t * t))) -
      (b + 2 * c * t + 3 * d * t ^ 2)| ≤ R.u * (5.2 * slopeSize b c d t) := by
  have e2 : t ^ 2 = t * t := by ring
  have e : R.rnd ((2:ℤ):ℝ) = 2 := by rw [← R.two]; norm_num [R.two]
  have t2 : |R.rnd (t * t) - t * t| ≤ R.u * (1 * |t * t|) := by rw [one_mul]; exact R.err _
  have h3 : |R.rnd ((3:ℤ):ℝ) - 3| ≤ R.u * (1 * |(3:ℝ)|) := by
    rw [one_mul]; have := R.err ((3:ℤ):ℝ); push_cast at this ⊢; exact this
  have hc := R.rel (R.rel_mul (R.rel (R.rel_exact (a := 2 * c)) le_rfl) (R.rel_exact (a := t)) (by norm_num) le_rfl)
    (by norm_num)
  have hd := R.rel (R.rel_mul (R.rel (R.rel_mul h3 (R.rel_exact (a := d)) (by norm_num) le_rfl) (by norm_num)) t2
    (by norm_num) (by norm_num)) (by norm_num)
  rw [e]
  rw [← e2] at hd
  have b0 := abs_nonneg b
  have c0 := abs_nonneg (2 * c * t)
  have d0 := abs_nonneg (3 * d * t ^ 2)
  unfold slopeSize
  have hc' : |R.rnd (R.rnd (2 * c) * t) - 2 * c * t| ≤ R.u * (2.01 * |2 * c * t|) := R.up hc (by linarith)
  have hd' : |R.rnd (R.rnd (R.rnd ((3:ℤ):ℝ) * d) * R.rnd (t * t)) - 3 * d * t ^ 2| ≤ R.u * (4.1 * |3 * d * t ^ 2|) := by
    rw [e2] at *; exact R.up hd (by linarith)
  have add : ∀ {x x' y y' cx cy : ℝ}, |x - x'| ≤ R.u * cx → |y - y'| ≤ R.u * cy → |x + y - (x' + y')| ≤ R.u * (cx + cy) := by
    intro x x' y y' cx cy h1 h2
    calc |x + y - (x' + y')| = |(x - x') + (y - y')| := by ring_nf
      _ ≤ _ := abs_add_le _ _
      _ ≤ _ := by linarith
  have s1 : |b + R.rnd (R.rnd (2 * c) * t) - (b + 2 * c * t)| ≤ R.u * (2.01 * |2 * c * t|) := by
    rw [add_sub_add_left_eq_sub]; exact hc'
  have r1 := R.near s1 (by positivity) (abs_add_le b (2 * c * t))
  have m2 : |b + 2 * c * t + 3 * d * t ^ 2| ≤ |b| + |2 * c * t| + |3 * d * t ^ 2| :=
    (abs_add_le _ _).trans (by linarith [abs_add_le b (2 * c * t)])
  have r2 := R.near (add r1 hd') (by positivity) m2
  exact R.up r2 (by linarith)

/-- The direction of a vector with an error. -/
theorem direction_near {z z' : ℂ} (hz : z ≠ 0) :
    ‖Complex.exp (Complex.arg z' * Complex.I) - z / (‖z‖ : ℂ)‖ ≤ 2 * ‖z' - z‖ / ‖z‖ := by
  have hn : 0 < ‖z‖ := norm_pos_iff.mpr hz
  by_cases h0 : z' = 0
  · subst h0
    rw [zero_sub, norm_neg, mul_div_assoc, div_self hn.ne', mul_one]
    refine (norm_sub_le _ _).trans ?_
    rw [Complex.norm_exp_ofReal_mul_I, norm_div, Complex.norm_real, norm_norm, div_self hn.ne']
    norm_num
  · have hn' : 0 < ‖z'‖ := norm_pos_iff.mpr h0
    have e : Complex.exp (Complex.arg z' * Complex.I) = z' / (‖z'‖ : ℂ) := by
      have := Complex.norm_mul_exp_arg_mul_I z'
      rw [eq_div_iff (by exact_mod_cast hn'.ne'), mul_comm]; exact this
    have hc : (‖z‖ : ℂ) ≠ 0 := by exact_mod_cast hn.ne'
    have hc' : (‖z'‖ : ℂ) ≠ 0 := by exact_mod_cast hn'.ne'
    have e2 : z' / (‖z'‖ : ℂ) - z / (‖z‖ : ℂ) = (z' - z) / (‖z‖ : ℂ) + z' / (‖z'‖ : ℂ) * (((‖z‖ - ‖z'‖ : ℝ) : ℂ) / (‖z‖ : ℂ)) := by
      push_cast
      field_simp
      ring
    rw [e, e2]
    refine (norm_add_le _ _).trans ?_
    rw [norm_mul, norm_div, norm_div, norm_div, Complex.norm_real, Complex.norm_real, Complex.norm_real, norm_norm, norm_norm,
      div_self hn'.ne', one_mul, Real.norm_eq_abs]
    have := abs_norm_sub_norm_le z z'
    rw [norm_sub_rev] at this
    rw [← add_div]
    exact div_le_div_of_nonneg_right (by linarith) hn.le

/-- The position at the end of a ParamPoly3. -/
theorem poly_position_near (g : ParamPoly3 (Fl R)) (t : Fl R) (p : Pose (Fl R)) :
    let U := g.au.val + g.bu.val * t.val + g.cu.val * t.val ^ 2 + g.du.val * t.val ^ 3
    let V := g.av.val + g.bv.val * t.val + g.cv.val * t.val ^ 2 + g.dv.val * t.val ^ 3
    let S := cubicSize g.au.val g.bu.val g.cu.val g.du.val t.val + cubicSize g.av.val g.bv.val g.cv.val g.dv.val t.val
    |(p.x +. g.u t *. cos p.h -. sin p.h *. g.v t).val - (p.x.val + U * Real.cos p.h.val - Real.sin p.h.val * V)| ≤
      R.u * (2.1 * |p.x.val| + 11 * S) ∧
    |(p.y +. g.u t *. sin p.h +. cos p.h *. g.v t).val - (p.y.val + U * Real.sin p.h.val + Real.cos p.h.val * V)| ≤
      R.u * (2.1 * |p.y.val| + 11 * S) := by
  intro U V S
  have nU : |(g.u t).val - U| ≤ _ := R.cubic_near g.au.val g.bu.val g.cu.val g.du.val t.val
  have nV : |(g.v t).val - V| ≤ _ := R.cubic_near g.av.val g.bv.val g.cv.val g.dv.val t.val
  have size : ∀ a b c d s : ℝ, |a + b * s + c * s ^ 2 + d * s ^ 3| ≤ cubicSize a b c d s := by
    intro a b c d s
    unfold cubicSize
    have h1 := abs_add_le a (b * s)
    have h2 := abs_add_le (a + b * s) (c * s ^ 2)
    have h3 := abs_add_le (a + b * s + c * s ^ 2) (d * s ^ 3)
    linarith
  have bU : |U| ≤ _ := size g.au.val g.bu.val g.cu.val g.du.val t.val
  have bV : |V| ≤ _ := size g.av.val g.bv.val g.cv.val g.dv.val t.val
  set Us := cubicSize g.au.val g.bu.val g.cu.val g.du.val t.val with hUs
  set Vs := cubicSize g.av.val g.bv.val g.cv.val g.dv.val t.val with hVs
  have U0 : 0 ≤ Us := (abs_nonneg _).trans bU
  have V0 : 0 ≤ Vs := (abs_nonneg _).trans bV
  have z : |p.h.val - p.h.val| ≤ R.u * 0 := by simp
  have prod : ∀ {w w' W s s' : ℝ}, |w - w'| ≤ R.u * (4.1 * W) → |w'| ≤ W → 0 ≤ W → |s - s'| ≤ R.u * (0 + 3.1) → |s| ≤ 1.004 →
      |s'| ≤ 1 → |R.rnd (s * w) - s' * w'| ≤ R.u * (8.3 * W) ∧ |s' * w'| ≤ W := by
    intro w w' W s s' h1 h2 h3 h4 h5 h6
    have m : |s' * w'| ≤ W := by
      rw [abs_mul]
      have := mul_le_mul h6 h2 (abs_nonneg _) (by norm_num)
      linarith
    exact ⟨R.up (R.near (R.mul_near h4 h1 h5 h2 (by norm_num) (by positivity)) (by positivity) m) (by linarith), m⟩
  have coord : ∀ {x a a' b b' : ℝ}, |a - a'| ≤ R.u * (8.3 * Us) → |a'| ≤ Us → |b - b'| ≤ R.u * (8.3 * Vs) → |b'| ≤ Vs →
      |R.rnd (R.rnd (x + a) - b) - (x + a' - b')| ≤ R.u * (2.1 * |x| + 11 * S) ∧
      |R.rnd (R.rnd (x + a) + b) - (x + a' + b')| ≤ R.u * (2.1 * |x| + 11 * S) := by
    intro x a a' b b' h1 h2 h3 h4
    have p1 : |x + a - (x + a')| ≤ R.u * (8.3 * Us) := by rw [add_sub_add_left_eq_sub]; exact h1
    have p2 : |x + a'| ≤ |x| + Us := (abs_add_le _ _).trans (by linarith)
    have p3 := R.near p1 (by positivity) p2
    have x0 := abs_nonneg x
    constructor
    · have p4 : |R.rnd (x + a) - b - (x + a' - b')| ≤ R.u * (1.001 * (8.3 * Us) + (|x| + Us) + 8.3 * Vs) := by
        calc _ = |(R.rnd (x + a) - (x + a')) - (b - b')| := by ring_nf
          _ ≤ _ := abs_sub _ _
          _ ≤ _ := by linarith
      have p5 : |x + a' - b'| ≤ |x| + Us + Vs := (abs_sub _ _).trans (by linarith)
      exact R.up (R.near p4 (by positivity) p5) (by simp only [S]; linarith)
    · have p4 : |R.rnd (x + a) + b - (x + a' + b')| ≤ R.u * (1.001 * (8.3 * Us) + (|x| + Us) + 8.3 * Vs) := by
        calc _ = |(R.rnd (x + a) - (x + a')) + (b - b')| := by ring_nf
          _ ≤ _ := abs_add_le _ _
          _ ≤ _ := by linarith
      have p5 : |x + a' + b'| ≤ |x| + Us + Vs := (abs_add_le _ _).trans (by linarith)
      exact R.up (R.near p4 (by positivity) p5) (by simp only [S]; linarith)
  have cc := R.abs_cos_le p.h.val
  have cs := R.abs_sin_le p.h.val
  obtain ⟨q1, m1⟩ := prod nU bU U0 (R.near_cos z) cc (Real.abs_cos_le_one p.h.val)
  obtain ⟨q2, m2⟩ := prod nV bV V0 (R.near_sin z) cs (Real.abs_sin_le_one p.h.val)
  obtain ⟨q3, m3⟩ := prod nU bU U0 (R.near_sin z) cs (Real.abs_sin_le_one p.h.val)
  obtain ⟨q4, m4⟩ := prod nV bV V0 (R.near_cos z) cc (Real.abs_cos_le_one p.h.val)
  rw [mul_comm _ (g.u t).val, mul_comm _ U] at q1 q3
  rw [mul_comm _ U] at m1 m3
  exact ⟨(coord q1 m1 q2 m2).1, (coord q3 m3 q4 m4).2⟩

/-- The direction at the end of a ParamPoly3. -/
theorem poly_heading_near {a : ℝ} (ha : ArctanAccurate R a) (g : ParamPoly3 (Fl R)) (t h : Fl R) (w : ℂ)
    (hw : w = ⟨g.bu.val + 2 * g.cu.val * t.val + 3 * g.du.val * t.val ^ 2,
      g.bv.val + 2 * g.cv.val * t.val + 3 * g.dv.val * t.val ^ 2⟩) (hw0 : w ≠ 0) :
    let S := slopeSize g.bu.val g.cu.val g.du.val t.val + slopeSize g.bv.val g.cv.val g.dv.val t.val
    ‖Complex.exp ((h +. g.tangent t).val * Complex.I) - Complex.exp (h.val * Complex.I) * (w / (‖w‖ : ℂ))‖ ≤
      R.u * (|h.val| + 1.1 * a + 3.2 + 10.4 * S / ‖w‖) := by
  intro S
  have hn : 0 < ‖w‖ := norm_pos_iff.mpr hw0
  set Y : Fl R := g.bv +. ofInt 2 *. g.cv *. t +. ofInt 3 *. g.dv *. sq t with hY
  set X : Fl R := g.bu +. ofInt 2 *. g.cu *. t +. ofInt 3 *. g.du *. sq t with hX
  have nX : |X.val - _| ≤ _ := R.slope_near g.bu.val g.cu.val g.du.val t.val
  have nY : |Y.val - _| ≤ _ := R.slope_near g.bv.val g.cv.val g.dv.val t.val
  set w' : ℂ := ⟨X.val, Y.val⟩ with hw'
  have nw : ‖w' - w‖ ≤ R.u * (5.2 * S) := by
    refine (Complex.norm_le_abs_re_add_abs_im _).trans ?_
    rw [hw, hw']
    simp only [Complex.sub_re, Complex.sub_im]
    refine (add_le_add nX nY).trans (le_of_eq ?_)
    simp only [S]; ring
  have hT := ha.2 Y X
  have e : (h +. g.tangent t).val = R.rnd (h.val + (arctan2 Y X : Fl R).val) := rfl
  have harg : |Complex.arg w'| ≤ 3.15 := by
    refine (Complex.abs_arg_le_pi _).trans ?_
    linarith [Real.pi_lt_d2]
  have h1 : |h.val + (arctan2 Y X : Fl R).val - (h.val + Complex.arg w')| ≤ R.u * a := by
    rw [add_sub_add_left_eq_sub]; exact hT
  have h2 : |h.val + Complex.arg w'| ≤ |h.val| + 3.15 := (abs_add_le _ _).trans (by linarith)
  have h3 := R.near h1 ha.1 h2
  rw [← e] at h3
  set θ := (h +. g.tangent t).val with hθ
  have ht : ‖Complex.exp (θ * Complex.I) - Complex.exp ((h.val + Complex.arg w' : ℝ) * Complex.I)‖ ≤
      |θ - (h.val + Complex.arg w')| := by
    have e1 : Complex.exp (θ * Complex.I) - Complex.exp ((h.val + Complex.arg w' : ℝ) * Complex.I) =
        Complex.exp ((h.val + Complex.arg w' : ℝ) * Complex.I) *
          (Complex.exp (Complex.I * (θ - (h.val + Complex.arg w') : ℝ)) - 1) := by
      rw [mul_sub, mul_one, ← Complex.exp_add]
      congr 2
      push_cast; ring
    rw [e1, norm_mul, Complex.norm_exp_ofReal_mul_I, one_mul]
    exact Real.norm_exp_I_mul_ofReal_sub_one_le
  have hsplit : Complex.exp ((h.val + Complex.arg w' : ℝ) * Complex.I) =
      Complex.exp (h.val * Complex.I) * Complex.exp (Complex.arg w' * Complex.I) := by
    rw [← Complex.exp_add]; congr 1; push_cast; ring
  have hd := direction_near (z' := w') hw0
  have h4 : ‖Complex.exp ((h.val + Complex.arg w' : ℝ) * Complex.I) - Complex.exp (h.val * Complex.I) * (w / (‖w‖ : ℂ))‖ ≤
      2 * ‖w' - w‖ / ‖w‖ := by
    rw [hsplit, ← mul_sub, norm_mul, Complex.norm_exp_ofReal_mul_I, one_mul]; exact hd
  have h5 : 2 * ‖w' - w‖ / ‖w‖ ≤ R.u * (10.4 * S / ‖w‖) := by
    rw [← mul_div_assoc]
    exact div_le_div_of_nonneg_right (by linarith) hn.le
  have tri := norm_sub_le_norm_sub_add_norm_sub (Complex.exp (θ * Complex.I))
    (Complex.exp ((h.val + Complex.arg w' : ℝ) * Complex.I)) (Complex.exp (h.val * Complex.I) * (w / (‖w‖ : ℂ)))
  have h6 := R.up h3 (show 1.001 * a + (|h.val| + 3.15) ≤ |h.val| + 1.1 * a + 3.2 by linarith [ha.1])
  calc _ ≤ _ := tri
    _ ≤ R.u * (|h.val| + 1.1 * a + 3.2) + R.u * (10.4 * S / ‖w‖) := add_le_add (ht.trans h6) (h4.trans h5)
    _ = _ := by ring

end Pyodrx
