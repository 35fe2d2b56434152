import Verif.Model.Geometry
import Mathlib.Analysis.SpecialFunctions.Trigonometric.Basic
import Mathlib.Analysis.SpecialFunctions.Complex.Arg
import Mathlib.Analysis.SpecialFunctions.Integrals.Basic
import Mathlib.Analysis.Real.Sqrt
import Mathlib.Data.Real.Sign

/-! # The exact real instance of `PyFloat`

The operations of pyodrx interpreted as exact mathematical functions. -/

namespace Pyodrx
open PyFloat

noncomputable instance instPyFloatReal : PyFloat ℝ where
  ofInt i := (i : ℝ)
  add a b := a + b
  sub a b := a - b
  mul a b := a * b
  div a b := a / b
  neg a := -a
  abs a := |a|
  max a b := Max.max a b
  sign a := Real.sign a
  sin := Real.sin
  cos := Real.cos
  sqrt := Real.sqrt
  arctan2 y x := Complex.arg ⟨x, y⟩
  pi := Real.pi
  fresnelS z := ∫ t in (0:ℝ)..z, Real.sin (Real.pi / 2 * t ^ 2)
  fresnelC z := ∫ t in (0:ℝ)..z, Real.cos (Real.pi / 2 * t ^ 2)
  quad f a b := ∫ t in a..b, f t
  isZero a := @decide (a = 0) (Classical.propDecidable _)
  lt a b := @decide (a < b) (Classical.propDecidable _)

section simp_lemmas
variable (a b : ℝ)
@[simp] theorem real_ofInt (i : Int) : (PyFloat.ofInt i : ℝ) = (i : ℝ) := rfl
@[simp] theorem real_add : PyFloat.add a b = a + b := rfl
@[simp] theorem real_sub : PyFloat.sub a b = a - b := rfl
@[simp] theorem real_mul : PyFloat.mul a b = a * b := rfl
@[simp] theorem real_div : PyFloat.div a b = a / b := rfl
@[simp] theorem real_neg : PyFloat.neg a = -a := rfl
@[simp] theorem real_abs : PyFloat.abs a = |a| := rfl
@[simp] theorem real_max : PyFloat.max a b = Max.max a b := rfl
@[simp] theorem real_sign : PyFloat.sign a = Real.sign a := rfl
@[simp] theorem real_sin : PyFloat.sin a = Real.sin a := rfl
@[simp] theorem real_cos : PyFloat.cos a = Real.cos a := rfl
@[simp] theorem real_sqrt : PyFloat.sqrt a = Real.sqrt a := rfl
@[simp] theorem real_arctan2 : PyFloat.arctan2 a b = Complex.arg ⟨b, a⟩ := rfl
@[simp] theorem real_pi : (PyFloat.pi : ℝ) = Real.pi := rfl
@[simp] theorem real_fresnelS :
    PyFloat.fresnelS a = ∫ t in (0:ℝ)..a, Real.sin (Real.pi / 2 * t ^ 2) := rfl
@[simp] theorem real_fresnelC :
    PyFloat.fresnelC a = ∫ t in (0:ℝ)..a, Real.cos (Real.pi / 2 * t ^ 2) := rfl
@[simp] theorem real_quad (f : ℝ → ℝ) : PyFloat.quad f a b = ∫ t in a..b, f t := rfl
theorem real_isZero_eq : PyFloat.isZero a = @decide (a = 0) (Classical.propDecidable _) := rfl
@[simp] theorem real_isZero : (PyFloat.isZero a = true) ↔ a = 0 := by
  rw [real_isZero_eq]; exact decide_eq_true_iff
@[simp] theorem real_isZero_false : (PyFloat.isZero a = false) ↔ a ≠ 0 := by
  rw [real_isZero_eq]; exact decide_eq_false_iff_not
@[simp] theorem real_lt : (PyFloat.lt a b = true) ↔ a < b :=
  @decide_eq_true_iff _ (Classical.propDecidable _)
@[simp] theorem real_lt_false : (PyFloat.lt a b = false) ↔ ¬ a < b :=
  @decide_eq_false_iff_not _ (Classical.propDecidable _)
@[simp] theorem real_sq : Pyodrx.sq a = a ^ 2 := by simp [Pyodrx.sq, pow_two]
@[simp] theorem real_cube : Pyodrx.cube a = a ^ 3 := by simp [Pyodrx.cube]; ring
end simp_lemmas

end Pyodrx
