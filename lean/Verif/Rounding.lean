import Verif.PyReal
import Mathlib.Data.Int.Log
import Mathlib.Algebra.Order.Round

/-! # Floating point numbers

`PyFloat` with rounding: the operations of IEEE 754 (and numpy's sine and cosine) as real numbers followed by rounding.
Nothing is fixed but what the standard says: the result of an operation is the exact result, rounded; rounding is
monotone, symmetric, exact on numbers that are floating point numbers already, and has a small relative error.
Simplification: no overflow, underflow, infinities and NaN; no sign of zero. -/

namespace Pyodrx

/-- An arithmetic with rounding. -/
structure Rounding where
  /-- the floating point number that a real number is rounded to -/
  rnd : ℝ → ℝ
  /-- the unit roundoff, `2^-53` for doubles -/
  u : ℝ
  u_nonneg : 0 ≤ u
  u_small : u ≤ 1 / 1000
  err : ∀ x, |rnd x - x| ≤ u * |x|
  idem : ∀ x, rnd (rnd x) = rnd x
  neg : ∀ x, rnd (-x) = -rnd x
  mono : ∀ {x y}, x ≤ y → rnd x ≤ rnd y
  one : rnd 1 = 1
  two : rnd 2 = 2
  /-- `np.sin`, `np.cos`: accurate to two units -/
  sin : ℝ → ℝ
  cos : ℝ → ℝ
  sin_err : ∀ x, |sin x - Real.sin x| ≤ 2 * u
  cos_err : ∀ x, |cos x - Real.cos x| ≤ 2 * u
  /-- `np.arctan2`, `scipy.special.fresnel`, `scipy.integrate.quad`: nothing is assumed -/
  arctan2 : ℝ → ℝ → ℝ
  fresnelS : ℝ → ℝ
  fresnelC : ℝ → ℝ
  quad : (ℝ → ℝ) → ℝ → ℝ → ℝ

/-- The floating point numbers of an arithmetic: the real numbers that are not changed by rounding. -/
structure Fl (R : Rounding) where
  val : ℝ
  rep : R.rnd val = val

namespace Fl
variable {R : Rounding}

@[ext] theorem ext {a b : Fl R} (h : a.val = b.val) : a = b := by
  cases a; cases b; cases h; rfl

/-- Round. -/
def of (R : Rounding) (x : ℝ) : Fl R := ⟨R.rnd x, R.idem x⟩

@[simp] theorem of_val (x : ℝ) : (of R x).val = R.rnd x := rfl

end Fl

theorem Rounding.zero (R : Rounding) : R.rnd 0 = 0 := by
  have := R.err 0
  simpa using this

/-- Floating point numbers as the numbers of pyodrx. -/
noncomputable instance instPyFloatFl (R : Rounding) : PyFloat (Fl R) where
  ofInt i := Fl.of R i
  add a b := Fl.of R (a.val + b.val)
  sub a b := Fl.of R (a.val - b.val)
  mul a b := Fl.of R (a.val * b.val)
  div a b := Fl.of R (a.val / b.val)
  neg a := ⟨-a.val, by rw [R.neg, a.rep]⟩
  abs a := ⟨|a.val|, by
    rcases abs_choice a.val with h | h <;> rw [h]
    · exact a.rep
    · rw [R.neg, a.rep]⟩
  max a b := ⟨Max.max a.val b.val, by
    rcases max_choice a.val b.val with h | h <;> rw [h]
    · exact a.rep
    · exact b.rep⟩
  sign a := ⟨Real.sign a.val, by
    rcases Real.sign_apply_eq a.val with h | h | h <;> rw [h]
    · rw [R.neg, R.one]
    · exact R.zero
    · exact R.one⟩
  sin a := Fl.of R (R.sin a.val)
  cos a := Fl.of R (R.cos a.val)
  sqrt a := Fl.of R (Real.sqrt a.val)
  arctan2 a b := Fl.of R (R.arctan2 a.val b.val)
  pi := Fl.of R Real.pi
  fresnelS a := Fl.of R (R.fresnelS a.val)
  fresnelC a := Fl.of R (R.fresnelC a.val)
  quad f a b := Fl.of R (R.quad (fun t => (f (Fl.of R t)).val) a.val b.val)
  isZero a := @decide (a.val = 0) (Classical.propDecidable _)
  lt a b := @decide (a.val < b.val) (Classical.propDecidable _)

section
variable {R : Rounding} (a b : Fl R)
open PyFloat
@[simp] theorem fl_ofInt (i : Int) : (ofInt i : Fl R).val = R.rnd i := rfl
@[simp] theorem fl_add : (a +. b).val = R.rnd (a.val + b.val) := rfl
@[simp] theorem fl_sub : (a -. b).val = R.rnd (a.val - b.val) := rfl
@[simp] theorem fl_mul : (a *. b).val = R.rnd (a.val * b.val) := rfl
@[simp] theorem fl_div : (a /. b).val = R.rnd (a.val / b.val) := rfl
@[simp] theorem fl_neg : (PyFloat.neg a).val = -a.val := rfl
@[simp] theorem fl_abs : (PyFloat.abs a).val = |a.val| := rfl
@[simp] theorem fl_sin : (PyFloat.sin a).val = R.rnd (R.sin a.val) := rfl
@[simp] theorem fl_cos : (PyFloat.cos a).val = R.rnd (R.cos a.val) := rfl
@[simp] theorem fl_pi : (PyFloat.pi : Fl R).val = R.rnd Real.pi := rfl
@[simp] theorem fl_isZero : (PyFloat.isZero a = true) ↔ a.val = 0 :=
  @decide_eq_true_iff _ (Classical.propDecidable _)
@[simp] theorem fl_isZero_false : (PyFloat.isZero a = false) ↔ a.val ≠ 0 :=
  @decide_eq_false_iff_not _ (Classical.propDecidable _)
@[simp] theorem fl_lt : (PyFloat.lt a b = true) ↔ a.val < b.val :=
  @decide_eq_true_iff _ (Classical.propDecidable _)
@[simp] theorem fl_lt_false : (PyFloat.lt a b = false) ↔ ¬ a.val < b.val :=
  @decide_eq_false_iff_not _ (Classical.propDecidable _)
end

/-! ## Doubles -/

/-- The exponent of the last of the 53 bits of `x`. -/
noncomputable def lastBit (x : ℝ) : ℤ := Int.log 2 |x| - 52

/-- Round a positive number to 53 significant bits. -/
noncomputable def roundPos (x : ℝ) : ℝ := (round (x / (2:ℝ) ^ lastBit x) : ℝ) * (2:ℝ) ^ lastBit x

/-- Round to 53 significant bits (exponents are not bounded; ties away from zero: the theorems do not depend on it). -/
noncomputable def roundDouble (x : ℝ) : ℝ :=
  if 0 < x then roundPos x else if x < 0 then -roundPos (-x) else 0

theorem lastBit_spec {x : ℝ} (hx : 0 < x) :
    (2:ℝ) ^ 52 * (2:ℝ) ^ lastBit x ≤ x ∧ x < (2:ℝ) ^ 53 * (2:ℝ) ^ lastBit x := by
  have h1 := Int.zpow_log_le_self (R := ℝ) (b := 2) (by norm_num) (abs_pos.mpr hx.ne')
  have h2 := Int.lt_zpow_succ_log_self (R := ℝ) (b := 2) (by norm_num) |x|
  rw [abs_of_pos hx] at h1 h2
  have e1 : (2:ℝ) ^ 52 * (2:ℝ) ^ lastBit x = (2:ℝ) ^ (Int.log 2 x) := by
    rw [lastBit, abs_of_pos hx, ← zpow_natCast, ← zpow_add₀ (by norm_num)]
    congr 1; push_cast; ring
  have e2 : (2:ℝ) ^ 53 * (2:ℝ) ^ lastBit x = (2:ℝ) ^ (Int.log 2 x + 1) := by
    rw [lastBit, abs_of_pos hx, ← zpow_natCast, ← zpow_add₀ (by norm_num)]
    congr 1; push_cast; ring
  rw [e1, e2]
  exact ⟨by exact_mod_cast h1, by exact_mod_cast h2⟩

theorem lastBit_unique {x : ℝ} {e : ℤ} (h1 : (2:ℝ) ^ 52 * (2:ℝ) ^ e ≤ x) (h2 : x < (2:ℝ) ^ 53 * (2:ℝ) ^ e) :
    lastBit x = e := by
  have hx : 0 < x := lt_of_lt_of_le (by positivity) h1
  obtain ⟨g1, g2⟩ := lastBit_spec hx
  have a : (2:ℝ) ^ (52 + e) < (2:ℝ) ^ (53 + lastBit x) := by
    rw [zpow_add₀ (by norm_num), zpow_add₀ (by norm_num)]
    exact_mod_cast lt_of_le_of_lt h1 g2
  have b : (2:ℝ) ^ (52 + lastBit x) < (2:ℝ) ^ (53 + e) := by
    rw [zpow_add₀ (by norm_num), zpow_add₀ (by norm_num)]
    exact_mod_cast lt_of_le_of_lt g1 h2
  rw [zpow_lt_zpow_iff_right₀ (by norm_num)] at a b
  omega

/-- What rounding a positive number does: the result is a multiple `m` of the last bit. -/
theorem roundPos_spec {x : ℝ} (hx : 0 < x) : ∃ m : ℤ, roundPos x = m * (2:ℝ) ^ lastBit x ∧
    2 ^ 52 ≤ m ∧ m ≤ 2 ^ 53 ∧ |roundPos x - x| ≤ 1 / 2 * (2:ℝ) ^ lastBit x := by
  have hp : (0:ℝ) < (2:ℝ) ^ lastBit x := by positivity
  obtain ⟨g1, g2⟩ := lastBit_spec hx
  rw [← le_div_iff₀ hp] at g1
  rw [← div_lt_iff₀ hp] at g2
  refine ⟨round (x / (2:ℝ) ^ lastBit x), rfl, ?_, ?_, ?_⟩
  · rw [round_eq, Int.le_floor]; push_cast; linarith
  · rw [← Int.lt_add_one_iff, round_eq, Int.floor_lt]; push_cast; linarith
  · have := abs_sub_round (x / (2:ℝ) ^ lastBit x)
    have e : roundPos x - x = (round (x / (2:ℝ) ^ lastBit x) - x / (2:ℝ) ^ lastBit x) * (2:ℝ) ^ lastBit x := by
      unfold roundPos; field_simp
    rw [e, abs_mul, abs_of_pos hp, abs_sub_comm]
    exact mul_le_mul_of_nonneg_right this hp.le

theorem roundPos_mul {m : ℤ} {e : ℤ} (h1 : 2 ^ 52 ≤ m) (h2 : m ≤ 2 ^ 53) :
    roundPos (m * (2:ℝ) ^ e) = m * (2:ℝ) ^ e := by
  have hp : (0:ℝ) < (2:ℝ) ^ e := by positivity
  have h1' : (2:ℝ) ^ 52 ≤ m := by exact_mod_cast h1
  rcases lt_or_eq_of_le h2 with h | h
  · have h2' : (m:ℝ) < (2:ℝ) ^ 53 := by exact_mod_cast h
    have : lastBit (m * (2:ℝ) ^ e) = e :=
      lastBit_unique (mul_le_mul_of_nonneg_right h1' hp.le) (mul_lt_mul_of_pos_right h2' hp)
    rw [roundPos, this, mul_div_assoc, div_self hp.ne', mul_one, round_intCast]
  · have hm : (m:ℝ) * (2:ℝ) ^ e = (2:ℝ) ^ 52 * (2:ℝ) ^ (e + 1) := by
      rw [h, zpow_add₀ (by norm_num)]; push_cast; ring
    have hp1 : (0:ℝ) < (2:ℝ) ^ (e + 1) := by positivity
    have : lastBit ((2:ℝ) ^ 52 * (2:ℝ) ^ (e + 1)) = e + 1 :=
      lastBit_unique le_rfl (mul_lt_mul_of_pos_right (by norm_num) hp1)
    rw [hm, roundPos, this, mul_div_assoc, div_self hp1.ne', mul_one]
    have : ((2:ℝ) ^ 52) = ((2 ^ 52 : ℤ) : ℝ) := by norm_num
    rw [this, round_intCast]

theorem roundPos_pos {x : ℝ} (hx : 0 < x) : 0 < roundPos x := by
  obtain ⟨m, h1, h2, -⟩ := roundPos_spec hx
  rw [h1]
  have : (0:ℝ) < m := by exact_mod_cast lt_of_lt_of_le (by norm_num) h2
  positivity

theorem roundPos_mono {x y : ℝ} (hx : 0 < x) (h : x ≤ y) : roundPos x ≤ roundPos y := by
  have hy := lt_of_lt_of_le hx h
  rcases lt_trichotomy (lastBit x) (lastBit y) with hl | hl | hl
  · obtain ⟨m, h1, -, h2, -⟩ := roundPos_spec hx
    obtain ⟨n, h3, h4, -⟩ := roundPos_spec hy
    have a : (m:ℝ) ≤ (2:ℝ) ^ 53 := by exact_mod_cast h2
    have b : (2:ℝ) ^ 52 ≤ n := by exact_mod_cast h4
    rw [h1, h3]
    have c : (2:ℝ) ^ (lastBit x + 1) ≤ (2:ℝ) ^ lastBit y := zpow_le_zpow_right₀ (by norm_num) (by omega)
    rw [zpow_add₀ (by norm_num), zpow_one] at c
    have p1 : (0:ℝ) < (2:ℝ) ^ lastBit x := by positivity
    have p2 : (0:ℝ) < (2:ℝ) ^ lastBit y := by positivity
    calc (m:ℝ) * (2:ℝ) ^ lastBit x ≤ (2:ℝ) ^ 53 * (2:ℝ) ^ lastBit x := mul_le_mul_of_nonneg_right a p1.le
      _ = (2:ℝ) ^ 52 * ((2:ℝ) ^ lastBit x * 2) := by ring
      _ ≤ (2:ℝ) ^ 52 * (2:ℝ) ^ lastBit y := mul_le_mul_of_nonneg_left c (by positivity)
      _ ≤ n * (2:ℝ) ^ lastBit y := mul_le_mul_of_nonneg_right b p2.le
  · rw [roundPos, roundPos, hl]
    refine mul_le_mul_of_nonneg_right ?_ (by positivity)
    rw [round_eq, round_eq]
    exact_mod_cast Int.floor_le_floor (by gcongr)
  · exfalso
    obtain ⟨a, -⟩ := lastBit_spec hx
    obtain ⟨-, b⟩ := lastBit_spec hy
    have : (2:ℝ) ^ (52 + lastBit x) < (2:ℝ) ^ (53 + lastBit y) := by
      rw [zpow_add₀ (by norm_num), zpow_add₀ (by norm_num)]
      exact_mod_cast lt_of_le_of_lt a (lt_of_le_of_lt h b)
    rw [zpow_lt_zpow_iff_right₀ (by norm_num)] at this
    omega

theorem roundDouble_neg (x : ℝ) : roundDouble (-x) = -roundDouble x := by
  unfold roundDouble
  rcases lt_trichotomy x 0 with h | rfl | h
  · rw [if_pos (by linarith), if_neg (by linarith), if_pos h, neg_neg]
  · simp
  · rw [if_neg (by linarith), if_pos (by linarith), if_pos h, neg_neg]

theorem roundDouble_err (x : ℝ) : |roundDouble x - x| ≤ (1 / 2 ^ 53 : ℝ) * |x| := by
  have pos : ∀ x : ℝ, 0 < x → |roundPos x - x| ≤ (1 / 2 ^ 53 : ℝ) * |x| := by
    intro x hx
    obtain ⟨m, -, -, -, h⟩ := roundPos_spec hx
    obtain ⟨g, -⟩ := lastBit_spec hx
    rw [abs_of_pos hx]
    refine h.trans ?_
    have : (2:ℝ) ^ lastBit x ≤ x / 2 ^ 52 := by rw [le_div_iff₀ (by positivity)]; linarith
    calc 1 / 2 * (2:ℝ) ^ lastBit x ≤ 1 / 2 * (x / 2 ^ 52) := by linarith
      _ = 1 / 2 ^ 53 * x := by ring
  unfold roundDouble
  rcases lt_trichotomy x 0 with h | rfl | h
  · rw [if_neg (by linarith), if_pos h]
    have := pos (-x) (by linarith)
    rw [abs_neg] at this
    rw [← abs_neg]
    convert this using 2
    ring
  · simp
  · rw [if_pos h]; exact pos x h

theorem roundDouble_idem (x : ℝ) : roundDouble (roundDouble x) = roundDouble x := by
  have pos : ∀ x : ℝ, 0 < x → roundDouble (roundPos x) = roundPos x := by
    intro x hx
    rw [roundDouble, if_pos (roundPos_pos hx)]
    obtain ⟨m, h1, h2, h3, -⟩ := roundPos_spec hx
    rw [h1]
    exact roundPos_mul h2 h3
  rcases lt_trichotomy x 0 with h | rfl | h
  · have e : roundDouble x = -roundPos (-x) := by
      rw [roundDouble, if_neg (by linarith), if_pos h]
    rw [e, roundDouble_neg, pos _ (by linarith)]
  · simp [roundDouble]
  · have e : roundDouble x = roundPos x := by rw [roundDouble, if_pos h]
    rw [e, pos x h]

theorem roundDouble_mono {x y : ℝ} (h : x ≤ y) : roundDouble x ≤ roundDouble y := by
  unfold roundDouble
  rcases lt_trichotomy x 0 with hx | rfl | hx
  · rw [if_neg (by linarith), if_pos hx]
    rcases lt_trichotomy y 0 with hy | rfl | hy
    · rw [if_neg (by linarith), if_pos hy]
      exact neg_le_neg (roundPos_mono (by linarith) (by linarith))
    · simp; exact (roundPos_pos (by linarith)).le
    · rw [if_pos hy]
      have := roundPos_pos (x := -x) (by linarith)
      have := roundPos_pos hy
      linarith
  · simp only [lt_irrefl, if_false]
    rcases eq_or_lt_of_le h with rfl | hy
    · simp
    · rw [if_pos hy]; exact (roundPos_pos hy).le
  · rw [if_pos hx, if_pos (by linarith)]
    exact roundPos_mono hx h

theorem roundDouble_int {n : ℤ} {e : ℕ} (h1 : 2 ^ 52 ≤ n * 2 ^ e) (h2 : n * 2 ^ e ≤ 2 ^ 53) :
    roundDouble n = n := by
  have hn : (0:ℝ) < n := by
    have : (0:ℤ) < n := by
      by_contra hc
      have : n * 2 ^ e ≤ 0 := mul_nonpos_of_nonpos_of_nonneg (by omega) (by positivity)
      linarith
    exact_mod_cast this
  rw [roundDouble, if_pos hn]
  have := roundPos_mul (e := -(e:ℤ)) h1 h2
  have e' : (((n * 2 ^ e : ℤ) : ℝ)) * (2:ℝ) ^ (-(e:ℤ)) = n := by
    push_cast
    rw [mul_assoc, zpow_neg, zpow_natCast, mul_inv_cancel₀ (by positivity), mul_one]
  rwa [e'] at this

/-- Doubles (with correctly rounded sine and cosine) are such an arithmetic. -/
noncomputable def double : Rounding where
  rnd := roundDouble
  u := 1 / 2 ^ 53
  u_nonneg := by positivity
  u_small := by norm_num
  err := roundDouble_err
  idem := roundDouble_idem
  neg := roundDouble_neg
  mono := roundDouble_mono
  one := by simpa using roundDouble_int (n := 1) (e := 52) (by norm_num) (by norm_num)
  two := by simpa using roundDouble_int (n := 2) (e := 51) (by norm_num) (by norm_num)
  sin := Real.sin
  cos := Real.cos
  sin_err x := by simp
  cos_err x := by simp
  arctan2 y x := Complex.arg ⟨x, y⟩
  fresnelS z := ∫ t in (0:ℝ)..z, Real.sin (Real.pi / 2 * t ^ 2)
  fresnelC z := ∫ t in (0:ℝ)..z, Real.cos (Real.pi / 2 * t ^ 2)
  quad f a b := ∫ t in a..b, f t

/-- Exact arithmetic is one too. -/
noncomputable def exactArithmetic : Rounding where
  rnd x := x
  u := 0
  u_nonneg := le_rfl
  u_small := by norm_num
  err := by simp
  idem _ := rfl
  neg _ := rfl
  mono h := h
  one := rfl
  two := rfl
  sin := Real.sin
  cos := Real.cos
  sin_err x := by simp
  cos_err x := by simp
  arctan2 y x := Complex.arg ⟨x, y⟩
  fresnelS z := ∫ t in (0:ℝ)..z, Real.sin (Real.pi / 2 * t ^ 2)
  fresnelC z := ∫ t in (0:ℝ)..z, Real.cos (Real.pi / 2 * t ^ 2)
  quad f a b := ∫ t in a..b, f t

end Pyodrx
