import Verif.Proofs.Clothoid

/-! # Closed forms of the geometry functions over the reals -/

namespace Pyodrx
open PyFloat Spec

theorem Pose.ext' {p q : Pose ℝ} (hx : p.x = q.x) (hy : p.y = q.y) (hh : p.h = q.h) : p = q := by
  cases p; cases q; simp_all

theorem drive_const (h L : ℝ) (p : Pose ℝ) :
    drive (fun _ => h) L p = ⟨p.x + L * Real.cos h, p.y + L * Real.sin h, h⟩ := by
  simp [drive]

theorem drive_affine (k L : ℝ) (hk : k ≠ 0) (p : Pose ℝ) :
    drive (fun s => p.h + k * s) L p =
      ⟨p.x + (Real.sin (p.h + k * L) - Real.sin p.h) / k,
       p.y + (Real.cos p.h - Real.cos (p.h + k * L)) / k, p.h + k * L⟩ := by
  simp [drive, integral_cos_affine _ _ _ hk, integral_sin_affine _ _ _ hk]

/-- Driving back along the same curve returns to the start, turned around. -/
theorem drive_reverse (θ θ' : ℝ → ℝ) (L : ℝ) (p : Pose ℝ) (h0 : θ 0 = p.h)
    (hrev : ∀ s, θ' s = θ (L - s) + Real.pi) :
    drive θ' L (turned (drive θ L p)) = turned p := by
  have e : ∀ f : ℝ → ℝ, ∫ s in (0:ℝ)..L, f (L - s) = ∫ s in (0:ℝ)..L, f s := by
    intro f
    rw [intervalIntegral.integral_comp_sub_left]; simp
  have ec := e (fun s => Real.cos (θ s))
  have es := e (fun s => Real.sin (θ s))
  unfold drive turned
  simp only [hrev, Real.cos_add_pi, Real.sin_add_pi, intervalIntegral.integral_neg, ec, es]
  apply Pose.ext'
  · simp
  · simp
  · simp [h0]

/-- The radius formulas of `Arc` on one position. -/
theorem arc_position (k ang : ℝ) (hk : k ≠ 0) (p : Pose ℝ) :
    let phi0 := if k < 0 then p.h + Real.pi / 2 else p.h - Real.pi / 2
    Real.cos (ang + phi0) * (1 / |k|) + (p.x - Real.cos phi0 * (1 / |k|)) =
        p.x + (Real.sin (p.h + ang) - Real.sin p.h) / k ∧
    Real.sin (ang + phi0) * (1 / |k|) + (p.y - Real.sin phi0 * (1 / |k|)) =
        p.y + (Real.cos p.h - Real.cos (p.h + ang)) / k := by
  intro phi0
  rcases lt_or_gt_of_ne hk with hn | hn
  · have hp : phi0 = p.h + Real.pi / 2 := if_pos hn
    rw [hp, abs_of_neg hn, show ang + (p.h + Real.pi / 2) = (p.h + ang) + Real.pi / 2 by ring]
    simp only [Real.cos_add_pi_div_two, Real.sin_add_pi_div_two]
    constructor <;> field_simp <;> ring
  · have hp : phi0 = p.h - Real.pi / 2 := if_neg (not_lt.mpr hn.le)
    rw [hp, abs_of_pos hn, show ang + (p.h - Real.pi / 2) = (p.h + ang) - Real.pi / 2 by ring]
    simp only [Real.cos_sub_pi_div_two, Real.sin_sub_pi_div_two]
    constructor <;> field_simp <;> ring

/-- `Arc` body when a (non-zero) length is stored. -/
theorem Arc.eval_of_length (k L : ℝ) (hk : k ≠ 0) (hL : L ≠ 0) (p : Pose ℝ) (a : Arc ℝ)
    (ha : a.length = some L) :
    Arc.eval k p a = .ok (drive (fun s => p.h + k * s) L p, some |L|)
      { a with angle := some (L * k), length := some |L| } := by
  have hz : (PyFloat.isZero L : Bool) = false := by simp [hL]
  have hz2 : (PyFloat.isZero (L * k) : Bool) = false := by simp [hL, hk]
  have hpos := arc_position k (L * k) hk p
  simp only at hpos
  have hlen : |1 / |k| * (L * k)| = |L| := by
    rw [abs_mul, abs_div, abs_abs, abs_one, abs_mul]
    have := abs_pos.mpr hk
    field_simp
  simp only [Arc.eval, ha, hz, Bool.false_eq_true, if_false, real_mul, hz2, real_ofInt, real_div,
    real_abs, real_lt, real_pi, real_add, real_sub, real_cos, real_sin, Int.cast_one, Int.cast_zero,
    Int.cast_ofNat, hlen]
  rw [hpos.1, hpos.2, drive_affine k L hk, mul_comm L k]

/-- `Arc` body when no length but a (non-zero) angle is stored. -/
theorem Arc.eval_of_angle (k ang : ℝ) (hk : k ≠ 0) (hA : ang ≠ 0) (p : Pose ℝ) (a : Arc ℝ)
    (hl : a.length = none) (ha : a.angle = some ang) :
    Arc.eval k p a = .ok (drive (fun s => p.h + k * s) (ang / k) p, some (|ang| / |k|))
      { a with angle := some ang, length := some (|ang| / |k|) } := by
  have hz : (PyFloat.isZero ang : Bool) = false := by simp [hA]
  have hpos := arc_position k ang hk p
  simp only at hpos
  have hlen : |1 / |k| * ang| = |ang| / |k| := by
    rw [abs_mul, abs_div, abs_abs, abs_one]; ring
  simp only [Arc.eval, hl, ha, hz, Bool.false_eq_true, if_false, real_mul, real_ofInt, real_div,
    real_abs, real_lt, real_pi, real_add, real_sub, real_cos, real_sin, Int.cast_one, Int.cast_zero,
    Int.cast_ofNat, hlen]
  rw [hpos.1, hpos.2, drive_affine k _ hk, mul_div_cancel₀ ang hk]

theorem Spiral.getEndData_eq (sp : Spiral ℝ) (L : ℝ) (hl : sp.length = some L) (hL : L ≠ 0)
    (p : Pose ℝ) :
    sp.getEndData p = .ok (drive (clothHeading p.h sp.curvstart ((sp.curvend - sp.curvstart) / L)) L
      p, L) := by
  have hz : (PyFloat.isZero L : Bool) = false := by simp [hL]
  simp only [Spiral.getEndData, EulerSpiral.create, hl, hz, Bool.false_eq_true, if_false,
    calc_eq_drive, real_mul, real_ofInt, real_div, real_sub, Int.cast_one, one_mul]

theorem Spiral.getStartData_eq (sp : Spiral ℝ) (L : ℝ) (hl : sp.length = some L) (hL : L ≠ 0)
    (p : Pose ℝ) :
    sp.getStartData p =
      .ok (drive (clothHeading p.h (-sp.curvend) ((sp.curvend - sp.curvstart) / L)) L p, L) := by
  have hz : (PyFloat.isZero L : Bool) = false := by simp [hL]
  have e : (-sp.curvstart - -sp.curvend) = sp.curvend - sp.curvstart := by ring
  simp only [Spiral.getStartData, EulerSpiral.create, hl, hz, Bool.false_eq_true, if_false,
    calc_eq_drive, real_mul, real_ofInt, real_div, real_sub, real_neg, Int.cast_one, one_mul, e]

end Pyodrx
