import Verif.Props.Geometry

/-! # The project's own tests of the geometries, on the model

Not proofs but a check of the model: each `example` is one line of parameters of a test of /repo/tests/test_geometry.py
with its expected values. The arithmetic is that of the real numbers, so the values are exact. Left out: the clothoid
values of lines 64-120 (decimal values of Fresnel integrals; C05 gives the integrals for all clothoids) and the round
trips of lines 203-293 (they are C01, C04 and C06). -/

namespace Pyodrx.Conformance
open Pyodrx

/-- `Line(length).get_end_data(x, y, h)` -/
noncomputable def lineEnd (length x y h : ℝ) : Pose ℝ × ℝ := (Line.mk length).getEndData ⟨x, y, h⟩

/-- tests/test_geometry.py:14-30 -/
example : lineEnd 1 0 0 0 = (⟨1, 0, 0⟩, 1) := by simp [lineEnd, Line.getEndData]
example : lineEnd 1 0 0 (Real.pi / 2) = (⟨0, 1, Real.pi / 2⟩, 1) := by simp [lineEnd, Line.getEndData]
example : lineEnd 1 1 1 0 = (⟨2, 1, 0⟩, 1) := by simp [lineEnd, Line.getEndData]; norm_num
example : lineEnd 1 1 1 (Real.pi / 4) = (⟨1 + √2 / 2, 1 + √2 / 2, Real.pi / 4⟩, 1) := by
  simp [lineEnd, Line.getEndData, add_comm]

/-- `Spiral(k0, k1, length).get_end_data(x, y, h)` -/
noncomputable def spiralEnd (k0 k1 length x y h : ℝ) : Except PyErr (Pose ℝ × ℝ) := do
  let s ← Spiral.new k0 k1 (some length) none none
  s.getEndData ⟨x, y, h⟩

/-- a clothoid without curvature is a line -/
theorem spiralEnd_zero (L x y h : ℝ) (hL : L ≠ 0) :
    spiralEnd 0 0 L x y h = .ok (⟨x + L * Real.cos h, y + L * Real.sin h, h⟩, L) := by
  simp [spiralEnd, Spiral.new, countGiven, Spiral.getEndData, EulerSpiral.create, EulerSpiral.calc, hL, bind,
    Except.bind, Cpx.add, Cpx.smul, Cpx.expI]

/-- tests/test_geometry.py:46-62 -/
example : spiralEnd 0 0 10 0 0 0 = .ok (⟨10, 0, 0⟩, 10) := by simp [spiralEnd_zero]
example : spiralEnd 0 0 10 10 0 0 = .ok (⟨20, 0, 0⟩, 10) := by simp [spiralEnd_zero]; norm_num
example : spiralEnd 0 0 10 0 10 0 = .ok (⟨10, 10, 0⟩, 10) := by simp [spiralEnd_zero]
example : spiralEnd 0 0 10 0 0 (Real.pi / 2) = .ok (⟨0, 10, Real.pi / 2⟩, 10) := by simp [spiralEnd_zero]
example : spiralEnd 0 0 10 0 0 (-(Real.pi / 2)) = .ok (⟨0, -10, -(Real.pi / 2)⟩, 10) := by simp [spiralEnd_zero]

/-- `Arc(k, length).get_end_data(x, y, h)`, or with `angle` -/
noncomputable def arcEnd (k : ℝ) (length angle : Option ℝ) (x y h : ℝ) : Except PyErr (Pose ℝ × Option ℝ) := do
  let a ← Arc.new k length angle
  match Arc.getEndData ⟨x, y, h⟩ a with
  | .ok r _ => .ok r
  | .error e _ => .error e

theorem arcEnd_length (k L x y h : ℝ) (hk : k ≠ 0) (hL : 0 < L) : arcEnd k (some L) none x y h =
    .ok (⟨x + (Real.sin (h + L * k) - Real.sin h) / k, y - (Real.cos (h + L * k) - Real.cos h) / k, h + L * k⟩,
      some L) := by
  rcases lt_or_gt_of_ne hk with hk' | hk'
  · have e : L * k + (h + Real.pi / 2) = h + L * k + Real.pi / 2 := by ring
    have ek : |k|⁻¹ * (L * k) = -L := by rw [abs_of_neg hk']; field_simp
    simp [arcEnd, Arc.new, hk, bind, Except.bind, Arc.getEndData, Arc.eval, hL.ne', hk', e, Real.cos_add_pi_div_two,
      Real.sin_add_pi_div_two, ek, abs_of_pos hL]
    rw [abs_of_neg hk']
    constructor <;> field_simp <;> ring
  · have e : L * k + (h - Real.pi / 2) = h + L * k - Real.pi / 2 := by ring
    have ek : |k|⁻¹ * (L * k) = L := by rw [abs_of_pos hk']; field_simp
    simp [arcEnd, Arc.new, hk, bind, Except.bind, Arc.getEndData, Arc.eval, hL.ne', not_lt.mpr hk'.le, e,
      Real.cos_sub_pi_div_two, Real.sin_sub_pi_div_two, ek, abs_of_pos hL]
    rw [abs_of_pos hk']
    constructor <;> field_simp <;> ring

theorem arcEnd_angle (k α x y h : ℝ) (hk : k ≠ 0) (hα : α ≠ 0) : arcEnd k none (some α) x y h =
    .ok (⟨x + (Real.sin (h + α) - Real.sin h) / k, y - (Real.cos (h + α) - Real.cos h) / k, h + α⟩,
      some |α / k|) := by
  rcases lt_or_gt_of_ne hk with hk' | hk'
  · have e : α + (h + Real.pi / 2) = h + α + Real.pi / 2 := by ring
    have ek : |k|⁻¹ * α = -(α / k) := by rw [abs_of_neg hk']; field_simp
    simp [arcEnd, Arc.new, hk, bind, Except.bind, Arc.getEndData, Arc.eval, hα, hk', e, Real.cos_add_pi_div_two,
      Real.sin_add_pi_div_two, ek]
    rw [abs_of_neg hk']
    constructor <;> field_simp <;> ring
  · have e : α + (h - Real.pi / 2) = h + α - Real.pi / 2 := by ring
    have ek : |k|⁻¹ * α = α / k := by rw [abs_of_pos hk']; field_simp
    simp [arcEnd, Arc.new, hk, bind, Except.bind, Arc.getEndData, Arc.eval, hα, not_lt.mpr hk'.le, e,
      Real.cos_sub_pi_div_two, Real.sin_sub_pi_div_two, ek]
    rw [abs_of_pos hk']
    constructor <;> field_simp <;> ring

/-- tests/test_geometry.py:132-152 -/
example : arcEnd 1 (some Real.pi) none 0 0 0 = .ok (⟨0, 2, Real.pi⟩, some Real.pi) := by
  rw [arcEnd_length _ _ _ _ _ (by norm_num) Real.pi_pos]; simp; norm_num
example : arcEnd (1 / 2) (some (2 * Real.pi)) none 0 0 0 = .ok (⟨0, 4, Real.pi⟩, some (2 * Real.pi)) := by
  rw [arcEnd_length _ _ _ _ _ (by norm_num) Real.two_pi_pos, show 0 + 2 * Real.pi * (1 / 2) = Real.pi by ring]
  simp; norm_num
example : arcEnd (-1) (some Real.pi) none 0 0 0 = .ok (⟨0, -2, -Real.pi⟩, some Real.pi) := by
  rw [arcEnd_length _ _ _ _ _ (by norm_num) Real.pi_pos]; simp; norm_num
example : arcEnd 1 (some (Real.pi / 2)) none 0 0 0 = .ok (⟨1, 1, Real.pi / 2⟩, some (Real.pi / 2)) := by
  rw [arcEnd_length _ _ _ _ _ (by norm_num) (half_pos Real.pi_pos)]; simp
example : arcEnd 1 (some (Real.pi / 2)) none 1 1 0 = .ok (⟨2, 2, Real.pi / 2⟩, some (Real.pi / 2)) := by
  rw [arcEnd_length _ _ _ _ _ (by norm_num) (half_pos Real.pi_pos)]; simp; norm_num
example : arcEnd 1 (some (Real.pi / 2)) none 0 0 (-(Real.pi / 2)) = .ok (⟨1, -1, 0⟩, some (Real.pi / 2)) := by
  rw [arcEnd_length _ _ _ _ _ (by norm_num) (half_pos Real.pi_pos)]; simp
example : arcEnd (-1) (some (Real.pi / 2)) none 0 0 (-(Real.pi / 2)) =
    .ok (⟨-1, -1, -Real.pi⟩, some (Real.pi / 2)) := by
  rw [arcEnd_length _ _ _ _ _ (by norm_num) (half_pos Real.pi_pos),
    show -(Real.pi / 2) + Real.pi / 2 * -1 = -Real.pi by ring]
  simp

/-- tests/test_geometry.py:155-174 -/
example : arcEnd 1 none (some Real.pi) 0 0 0 = .ok (⟨0, 2, Real.pi⟩, some Real.pi) := by
  rw [arcEnd_angle _ _ _ _ _ (by norm_num) Real.pi_ne_zero]; simp [abs_of_pos Real.pi_pos]; norm_num
example : arcEnd (1 / 2) none (some Real.pi) 0 0 0 = .ok (⟨0, 4, Real.pi⟩, some (Real.pi * 2)) := by
  rw [arcEnd_angle _ _ _ _ _ (by norm_num) Real.pi_ne_zero]; simp [abs_of_pos Real.pi_pos]; norm_num
example : arcEnd 1 none (some (Real.pi / 2)) 1 1 0 = .ok (⟨2, 2, Real.pi / 2⟩, some (Real.pi / 2)) := by
  rw [arcEnd_angle _ _ _ _ _ (by norm_num) (half_pos Real.pi_pos).ne']; simp [Real.pi_pos.le]; norm_num
  positivity
example : arcEnd (-1) none (some (-Real.pi)) 0 0 0 = .ok (⟨0, -2, -Real.pi⟩, some Real.pi) := by
  rw [arcEnd_angle _ _ _ _ _ (by norm_num) (neg_ne_zero.mpr Real.pi_ne_zero)]
  simp [abs_of_pos Real.pi_pos]; norm_num
example : arcEnd (-(1 / 2)) none (some (-Real.pi)) 0 0 0 = .ok (⟨0, -4, -Real.pi⟩, some (2 * Real.pi)) := by
  rw [arcEnd_angle _ _ _ _ _ (by norm_num) (neg_ne_zero.mpr Real.pi_ne_zero)]
  simp [abs_of_pos Real.pi_pos, mul_comm]; norm_num
example : arcEnd (-1) none (some (-(Real.pi / 2))) 0 0 0 = .ok (⟨1, -1, -(Real.pi / 2)⟩, some (Real.pi / 2)) := by
  rw [arcEnd_angle _ _ _ _ _ (by norm_num) (neg_ne_zero.mpr (half_pos Real.pi_pos).ne')]
  simp; positivity
example : arcEnd (-1) none (some (-Real.pi)) 1 0 0 = .ok (⟨1, -2, -Real.pi⟩, some Real.pi) := by
  rw [arcEnd_angle _ _ _ _ _ (by norm_num) (neg_ne_zero.mpr Real.pi_ne_zero)]
  simp [abs_of_pos Real.pi_pos]; norm_num
example : arcEnd (-1) none (some (-Real.pi)) 0 1 0 = .ok (⟨0, -1, -Real.pi⟩, some Real.pi) := by
  rw [arcEnd_angle _ _ _ _ _ (by norm_num) (neg_ne_zero.mpr Real.pi_ne_zero)]
  simp [abs_of_pos Real.pi_pos]; norm_num
example : arcEnd (-1) none (some (-Real.pi)) 0 0 Real.pi = .ok (⟨0, 2, 0⟩, some Real.pi) := by
  rw [arcEnd_angle _ _ _ _ _ (by norm_num) (neg_ne_zero.mpr Real.pi_ne_zero)]
  simp [abs_of_pos Real.pi_pos]; norm_num

/-- tests/test_geometry.py:182-195 -/
example : ∃ g r, ParamPoly3.new (0 : ℝ) 1 0 0 0 1 0 0 "arcLength" (some 1) = .ok g ∧
    ParamPoly3.getEndData ⟨0, 0, 0⟩ g = .ok r g ∧ r = (⟨1, 1, Real.pi / 4⟩, some 1) := by
  refine ⟨_, _, rfl, rfl, ?_⟩
  have h : PyFloat.arctan2 (1 : ℝ) 1 = Real.pi / 4 := by
    have e : (⟨1, 1⟩ : ℂ) = (√2 : ℝ) * (Complex.cos (Real.pi / 4 : ℝ) + Complex.sin (Real.pi / 4 : ℝ) * Complex.I) := by
      rw [← Complex.ofReal_cos, ← Complex.ofReal_sin, Real.cos_pi_div_four, Real.sin_pi_div_four]
      have : √2 * (√2 / 2) = 1 := by rw [← mul_div_assoc, Real.mul_self_sqrt (by norm_num)]; norm_num
      apply Complex.ext <;> simp [this]
    rw [real_arctan2, e, Complex.arg_mul_cos_add_sin_mul_I (by positivity)
      ⟨by linarith [Real.pi_pos], by linarith [Real.pi_pos]⟩]
  simp [ParamPoly3.u, ParamPoly3.v, ParamPoly3.tangent, sq, cube]
  exact h

end Pyodrx.Conformance
