import Verif.Rounding
import Verif.Proofs.GeomReal
import Verif.Proofs.PlanViewGen
import Mathlib.Analysis.Real.Pi.Bounds

/-! # Errors of lines and arcs in floating point arithmetic -/

namespace Pyodrx
open PyFloat Spec

variable {R : Rounding}

theorem Rounding.near {a b c B : ℝ} (h : |a - b| ≤ R.u * c) (hc : 0 ≤ c) (hb : |b| ≤ B) :
    |R.rnd a - b| ≤ R.u * (1.001 * c + B) := by
  have h1 := R.err a
  have h2 : |a| ≤ B + R.u * c := by
    calc |a| = |(a - b) + b| := by ring_nf
      _ ≤ |a - b| + |b| := abs_add_le _ _
      _ ≤ _ := by linarith
  have h3 : |R.rnd a - b| ≤ |R.rnd a - a| + |a - b| := abs_sub_le _ _ _
  have h4 : R.u * |a| ≤ R.u * (B + R.u * c) := mul_le_mul_of_nonneg_left h2 R.u_nonneg
  have h5 : R.u * c ≤ 1 / 1000 * c := mul_le_mul_of_nonneg_right R.u_small hc
  have h6 : R.u * (R.u * c) ≤ R.u * (1 / 1000 * c) := mul_le_mul_of_nonneg_left h5 R.u_nonneg
  calc |R.rnd a - b| ≤ R.u * |a| + R.u * c := by linarith
    _ ≤ R.u * B + R.u * (1 / 1000 * c) + R.u * c := by linarith
    _ = _ := by ring

theorem Rounding.near_mul {a a' r ρ c : ℝ} (h : |a - a'| ≤ R.u * c) (hc : 0 ≤ c) (ha : |a'| ≤ 1) (hρ : 0 ≤ ρ)
    (hr : |r - ρ| ≤ R.u * ρ) : |a * r - a' * ρ| ≤ R.u * (ρ * (1.001 * c + 1)) := by
  have h1 : |r| ≤ 1.001 * ρ := by
    calc |r| = |(r - ρ) + ρ| := by ring_nf
      _ ≤ |r - ρ| + |ρ| := abs_add_le _ _
      _ ≤ R.u * ρ + ρ := by rw [abs_of_nonneg hρ]; linarith
      _ ≤ 1 / 1000 * ρ + ρ := by linarith [mul_le_mul_of_nonneg_right R.u_small hρ]
      _ = _ := by ring
  calc |a * r - a' * ρ| = |(a - a') * r + a' * (r - ρ)| := by ring_nf
    _ ≤ |a - a'| * |r| + |a'| * |r - ρ| := by rw [← abs_mul, ← abs_mul]; exact abs_add_le _ _
    _ ≤ (R.u * c) * (1.001 * ρ) + 1 * (R.u * ρ) := by
        refine add_le_add (mul_le_mul h h1 (abs_nonneg _) (mul_nonneg R.u_nonneg hc)) ?_
        exact mul_le_mul ha hr (abs_nonneg _) (by norm_num)
    _ = _ := by ring

/-- Cosine of an approximate angle. -/
theorem Rounding.near_cos {a b c : ℝ} (h : |a - b| ≤ R.u * c) : |R.rnd (R.cos a) - Real.cos b| ≤ R.u * (c + 3.1) := by
  have h0 := R.u_nonneg
  have h1 : |R.cos a - Real.cos a| ≤ R.u * 2 := by linarith [R.cos_err a]
  have h2 := R.near h1 (by norm_num) (Real.abs_cos_le_one a)
  have h3 : |Real.cos a - Real.cos b| ≤ |a - b| := Real.abs_cos_sub_cos_le a b
  have h4 := abs_sub_le (R.rnd (R.cos a)) (Real.cos a) (Real.cos b)
  linarith [mul_nonneg h0 (show (0:ℝ) ≤ 3.1 - (1.001 * 2 + 1) by norm_num)]

theorem Rounding.near_sin {a b c : ℝ} (h : |a - b| ≤ R.u * c) : |R.rnd (R.sin a) - Real.sin b| ≤ R.u * (c + 3.1) := by
  have h0 := R.u_nonneg
  have h1 : |R.sin a - Real.sin a| ≤ R.u * 2 := by linarith [R.sin_err a]
  have h2 := R.near h1 (by norm_num) (Real.abs_sin_le_one a)
  have h3 : |Real.sin a - Real.sin b| ≤ |a - b| := Real.abs_sin_sub_sin_le a b
  have h4 := abs_sub_le (R.rnd (R.sin a)) (Real.sin a) (Real.sin b)
  linarith [mul_nonneg h0 (show (0:ℝ) ≤ 3.1 - (1.001 * 2 + 1) by norm_num)]

/-- One coordinate of the end of a line: `rnd (rnd (L * t) + x)` where `t` approximates `t'`. -/
theorem Rounding.line_coord {t t' L x : ℝ} (ht : |t - t'| ≤ R.u * 3.1) (h1 : |t'| ≤ 1) :
    |R.rnd (R.rnd (L * t) + x) - (x + L * t')| ≤ R.u * (|x| + 6 * |L|) := by
  have h0 := R.u_nonneg
  have hL := abs_nonneg L
  have a : |L * t - L * t'| ≤ R.u * (3.1 * |L|) := by
    rw [← mul_sub, abs_mul]
    calc |L| * |t - t'| ≤ |L| * (R.u * 3.1) := mul_le_mul_of_nonneg_left ht hL
      _ = _ := by ring
  have hb : |L * t'| ≤ |L| := by
    rw [abs_mul]; exact (mul_le_mul_of_nonneg_left h1 hL).trans (by simp)
  have b := R.near a (by positivity) hb
  have c : |R.rnd (L * t) + x - (x + L * t')| ≤ R.u * (1.001 * (3.1 * |L|) + |L|) := by
    convert b using 2; ring
  have hd : |x + L * t'| ≤ |x| + |L| := (abs_add_le _ _).trans (by linarith)
  have d := R.near c (by positivity) hd
  refine d.trans (mul_le_mul_of_nonneg_left ?_ h0)
  linarith

/-- One coordinate of the end of an arc: `rnd (rnd (t₂ * r) + rnd (x - rnd (t₁ * r)))`. -/
theorem Rounding.arc_coord {t1 t1' t2 t2' r ρ x c1 c2 : ℝ} (h1 : |t1 - t1'| ≤ R.u * c1) (h1' : |t1'| ≤ 1)
    (h2 : |t2 - t2'| ≤ R.u * c2) (h2' : |t2'| ≤ 1) (hc1 : 0 ≤ c1) (hc2 : 0 ≤ c2) (hρ : 0 ≤ ρ) (hr : |r - ρ| ≤ R.u * ρ) :
    |R.rnd (R.rnd (t2 * r) + R.rnd (x - R.rnd (t1 * r))) - (x - t1' * ρ + t2' * ρ)| ≤
      R.u * (2.1 * |x| + ρ * (1.01 * c1 + 1.01 * c2 + 7.1)) := by
  have h0 := R.u_nonneg
  have hx := abs_nonneg x
  have bound : ∀ t : ℝ, |t| ≤ 1 → |t * ρ| ≤ ρ := fun t ht => by
    rw [abs_mul, abs_of_nonneg hρ]; exact (mul_le_mul_of_nonneg_right ht hρ).trans (by simp)
  have e1 : 0 ≤ ρ * (1.001 * c1 + 1) := by positivity
  have e2 : 0 ≤ ρ * (1.001 * c2 + 1) := by positivity
  have p1 := R.near (R.near_mul h1 hc1 h1' hρ hr) e1 (bound _ h1')
  have p2 := R.near (R.near_mul h2 hc2 h2' hρ hr) e2 (bound _ h2')
  have f1 : 0 ≤ 1.001 * (ρ * (1.001 * c1 + 1)) + ρ := by positivity
  have q1 : |x - R.rnd (t1 * r) - (x - t1' * ρ)| ≤ R.u * (1.001 * (ρ * (1.001 * c1 + 1)) + ρ) := by
    rw [← abs_neg]; convert p1 using 2; ring
  have hq1 : |x - t1' * ρ| ≤ |x| + ρ := by
    refine (abs_sub _ _).trans ?_
    linarith [bound _ h1']
  have r1 := R.near q1 f1 hq1
  have s1 : |R.rnd (t2 * r) + R.rnd (x - R.rnd (t1 * r)) - (x - t1' * ρ + t2' * ρ)| ≤
      R.u * (1.001 * (ρ * (1.001 * c2 + 1)) + ρ + (1.001 * (1.001 * (ρ * (1.001 * c1 + 1)) + ρ) + (|x| + ρ))) := by
    have := abs_add_le (R.rnd (t2 * r) - t2' * ρ) (R.rnd (x - R.rnd (t1 * r)) - (x - t1' * ρ))
    calc _ = |(R.rnd (t2 * r) - t2' * ρ) + (R.rnd (x - R.rnd (t1 * r)) - (x - t1' * ρ))| := by ring_nf
      _ ≤ _ := this
      _ ≤ _ := by rw [mul_add R.u]; linarith
  have hs1 : |x - t1' * ρ + t2' * ρ| ≤ |x| + 2 * ρ := by
    refine (abs_add_le _ _).trans ?_
    linarith [bound _ h2']
  have := R.near s1 (by positivity) hs1
  refine this.trans (mul_le_mul_of_nonneg_left ?_ h0)
  have g1 : 0 ≤ ρ * c1 := by positivity
  have g2 : 0 ≤ ρ * c2 := by positivity
  nlinarith

theorem pi_le : |Real.pi| ≤ 3.15 := by rw [abs_of_pos Real.pi_pos]; linarith [Real.pi_lt_d2]

/-- Adding the rounded `pi`. -/
theorem near_add_pi (R : Rounding) {h h' c : ℝ} (hh : |h - h'| ≤ R.u * c) (hc : 0 ≤ c) :
    |R.rnd (h + R.rnd Real.pi) - (h' + Real.pi)| ≤ R.u * (|h'| + 1.001 * c + 6.4) := by
  have h0 := R.u_nonneg
  have e := (R.err Real.pi).trans (mul_le_mul_of_nonneg_left pi_le h0)
  have a : |h + R.rnd Real.pi - (h' + Real.pi)| ≤ R.u * (c + 3.15) := by
    calc _ = |(h - h') + (R.rnd Real.pi - Real.pi)| := by ring_nf
      _ ≤ |h - h'| + |R.rnd Real.pi - Real.pi| := abs_add_le _ _
      _ ≤ _ := by linarith
  have b : |h' + Real.pi| ≤ |h'| + 3.15 := (abs_add_le _ _).trans (by linarith [pi_le])
  refine (R.near a (by positivity) b).trans (mul_le_mul_of_nonneg_left (by linarith) h0)

theorem Rounding.half_pi (R : Rounding) : |R.rnd (R.rnd Real.pi / 2) - Real.pi / 2| ≤ R.u * 3.2 := by
  have h0 := R.u_nonneg
  have hp : |Real.pi| ≤ 3.15 := by rw [abs_of_pos Real.pi_pos]; linarith [Real.pi_lt_d2]
  have a := R.err Real.pi
  have b : |R.rnd Real.pi / 2 - Real.pi / 2| ≤ R.u * 1.575 := by
    rw [← sub_div, abs_div, abs_of_pos (show (0:ℝ) < 2 by norm_num)]
    have := mul_le_mul_of_nonneg_left hp h0
    linarith
  have c := R.near b (by norm_num) (show |Real.pi / 2| ≤ 1.575 by
    rw [abs_of_pos (by positivity)]; linarith [Real.pi_lt_d2])
  refine c.trans (mul_le_mul_of_nonneg_left (by norm_num) h0)

/-- The value of `phi_0` up to rounding. -/
theorem Rounding.phi (R : Rounding) (h : ℝ) :
    |R.rnd (h + R.rnd (R.rnd Real.pi / R.rnd (2:ℤ))) - (h + Real.pi / 2)| ≤ R.u * (|h| + 5) ∧
    |R.rnd (h - R.rnd (R.rnd Real.pi / R.rnd (2:ℤ))) - (h - Real.pi / 2)| ≤ R.u * (|h| + 5) := by
  have h0 := R.u_nonneg
  have e : R.rnd ((2:ℤ):ℝ) = 2 := by rw [← R.two]; norm_num [R.two]
  rw [e]
  have hp : |Real.pi / 2| ≤ 1.575 := by rw [abs_of_pos (by positivity)]; linarith [Real.pi_lt_d2]
  constructor
  · have a : |h + R.rnd (R.rnd Real.pi / 2) - (h + Real.pi / 2)| ≤ R.u * 3.2 := by
      convert R.half_pi using 2; ring
    refine (R.near a (by norm_num) (abs_add_le _ _)).trans (mul_le_mul_of_nonneg_left (by linarith) h0)
  · have a : |h - R.rnd (R.rnd Real.pi / 2) - (h - Real.pi / 2)| ≤ R.u * 3.2 := by
      rw [← abs_neg]; convert R.half_pi using 2; ring
    refine (R.near a (by norm_num) (abs_sub _ _)).trans (mul_le_mul_of_nonneg_left (by linarith) h0)

/-- The angle of a point on the circle, up to rounding. -/
theorem Rounding.new_ang {h φ a a' : ℝ} {φ' : ℝ} (hφ : |φ - φ'| ≤ R.u * (|h| + 5)) (hφ' : |φ'| ≤ |h| + 1.575)
    (ha : |a - a'| ≤ R.u * |a'|) : |R.rnd (a + φ) - (a' + φ')| ≤ R.u * (2.1 * (|a'| + |h|) + 6.7) := by
  have h0 := R.u_nonneg
  have h1 := abs_nonneg h
  have h2 := abs_nonneg a'
  have b : |a + φ - (a' + φ')| ≤ R.u * (|a'| + |h| + 5) := by
    calc |a + φ - (a' + φ')| = |(a - a') + (φ - φ')| := by ring_nf
      _ ≤ |a - a'| + |φ - φ'| := abs_add_le _ _
      _ ≤ _ := by linarith
  have c : |a' + φ'| ≤ |a'| + |h| + 1.575 := (abs_add_le _ _).trans (by linarith)
  refine (R.near b (by positivity) c).trans (mul_le_mul_of_nonneg_left (by linarith) h0)

theorem Rounding.rnd_eq_zero {x : ℝ} (h : R.rnd x = 0) : x = 0 := by
  have := R.err x
  rw [h, zero_sub, abs_neg] at this
  by_contra hx
  have := abs_pos.mpr hx
  nlinarith [R.u_small]

theorem Rounding.rnd_nonneg {x : ℝ} (h : 0 ≤ x) : 0 ≤ R.rnd x := by
  have := R.mono h; rwa [R.zero] at this

theorem Rounding.ofInt_zero (R : Rounding) : (ofInt 0 : Fl R).val = 0 := by simp [R.zero]
theorem Rounding.ofInt_one (R : Rounding) : (ofInt 1 : Fl R).val = 1 := by simp [R.one]

/-- The radius up to rounding. -/
theorem Rounding.radius (R : Rounding) (k : Fl R) :
    |(ofInt 1 /. PyFloat.abs k : Fl R).val - (1 / |k.val|)| ≤ R.u * (1 / |k.val|) := by
  simp only [fl_div, fl_abs, R.ofInt_one]
  have := R.err (1 / |k.val|)
  rwa [abs_of_nonneg (a := 1 / |k.val|) (by positivity)] at this

/-- The end of an arc whose angle is `ang` instead of `A`: position and heading, compared with the exact end of the arc
with curvature `k` and angle `A` that starts at the same place. -/
theorem Arc.eval_near (k : Fl R) (hk : k.val ≠ 0) (p : Pose (Fl R)) (a a' : Arc (Fl R)) (v : Pose (Fl R) × Option (Fl R))
    (h : Arc.eval k p a = .ok v a') (ang : Fl R) (hang : a'.angle = some ang) (A : ℝ) (hA : |ang.val - A| ≤ R.u * |A|) :
    let B := R.u * (2.1 * |p.x.val| + (3.2 * |p.h.val| + 2.2 * |A| + 26) / |k.val|)
    let B' := R.u * (2.1 * |p.y.val| + (3.2 * |p.h.val| + 2.2 * |A| + 26) / |k.val|)
    |v.1.x.val - (p.x.val + (Real.sin (p.h.val + A) - Real.sin p.h.val) / k.val)| ≤ B ∧
    |v.1.y.val - (p.y.val + (Real.cos p.h.val - Real.cos (p.h.val + A)) / k.val)| ≤ B' ∧
    |v.1.h.val - (p.h.val + A)| ≤ R.u * (|p.h.val| + 2.1 * |A|) := by
  intro B B'
  have h0 := R.u_nonneg
  have hh := abs_nonneg p.h.val
  have hA' := abs_nonneg A
  unfold Arc.eval at h
  simp only at h
  split at h
  · cases h
  · rename_i ang' hang'
    cases h
    simp only [Option.some.injEq] at hang
    subst hang
    simp only [fl_add, fl_sub, fl_mul, fl_cos, fl_sin]
    have hr := R.radius k
    set r := (ofInt 1 /. PyFloat.abs k : Fl R).val with hrdef
    set φ : ℝ := (if PyFloat.lt k (ofInt 0) then p.h +. pi /. ofInt 2 else p.h -. pi /. ofInt 2 : Fl R).val with hφdef
    set φ' : ℝ := if k.val < 0 then p.h.val + Real.pi / 2 else p.h.val - Real.pi / 2 with hφ'def
    have hρ : 0 ≤ 1 / |k.val| := by positivity
    have hφ : |φ - φ'| ≤ R.u * (|p.h.val| + 5) := by
      have := R.phi p.h.val
      by_cases hs : k.val < 0
      · have e : PyFloat.lt k (ofInt 0 : Fl R) = true := by rw [fl_lt, R.ofInt_zero]; exact hs
        rw [hφdef, hφ'def, if_pos e, if_pos hs]
        exact this.1
      · have e : PyFloat.lt k (ofInt 0 : Fl R) = false := by rw [fl_lt_false, R.ofInt_zero]; exact hs
        rw [hφdef, hφ'def, if_neg (by rw [e]; decide), if_neg hs]
        exact this.2
    have hp : |Real.pi / 2| ≤ 1.575 := by rw [abs_of_pos (by positivity)]; linarith [Real.pi_lt_d2]
    have hφ' : |φ'| ≤ |p.h.val| + 1.575 := by
      rw [hφ'def]
      split
      · exact (abs_add_le _ _).trans (by linarith)
      · exact (abs_sub _ _).trans (by linarith)
    have hn := R.new_ang hφ hφ' hA
    have pos := arc_position k.val A hk ⟨p.x.val, p.y.val, p.h.val⟩
    simp only at pos
    rw [← hφ'def] at pos
    have key : ∀ z : ℝ, R.u * (2.1 * |z| + 1 / |k.val| * (1.01 * (|p.h.val| + 5 + 3.1) +
        1.01 * (2.1 * (|A| + |p.h.val|) + 6.7 + 3.1) + 7.1)) ≤
        R.u * (2.1 * |z| + (3.2 * |p.h.val| + 2.2 * |A| + 26) / |k.val|) := by
      intro z
      refine mul_le_mul_of_nonneg_left ?_ h0
      rw [show (3.2 * |p.h.val| + 2.2 * |A| + 26) / |k.val| = 1 / |k.val| * (3.2 * |p.h.val| + 2.2 * |A| + 26) by ring]
      have : 1.01 * (|p.h.val| + 5 + 3.1) + 1.01 * (2.1 * (|A| + |p.h.val|) + 6.7 + 3.1) + 7.1 ≤
        3.2 * |p.h.val| + 2.2 * |A| + 26 := by linarith
      linarith [mul_le_mul_of_nonneg_left this hρ]
    refine ⟨?_, ?_, ?_⟩
    · rw [← pos.1]
      have := R.arc_coord (x := p.x.val) (R.near_cos hφ) (Real.abs_cos_le_one _) (R.near_cos hn) (Real.abs_cos_le_one _)
        (by positivity) (by positivity) hρ hr
      refine le_trans (le_of_eq ?_) (this.trans (key _))
      congr 1; ring
    · rw [← pos.2]
      have := R.arc_coord (x := p.y.val) (R.near_sin hφ) (Real.abs_sin_le_one _) (R.near_sin hn) (Real.abs_sin_le_one _)
        (by positivity) (by positivity) hρ hr
      refine le_trans (le_of_eq ?_) (this.trans (key _))
      congr 1; ring
    · have a : |p.h.val + ang'.val - (p.h.val + A)| ≤ R.u * |A| := by convert hA using 2; ring
      refine (R.near a hA' (abs_add_le _ _)).trans (mul_le_mul_of_nonneg_left (by linarith) h0)

end Pyodrx
