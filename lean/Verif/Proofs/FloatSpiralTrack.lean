import Verif.Proofs.FloatSpiral
import Verif.Proofs.FloatTrack

/-! # Spirals of planviews in floating point arithmetic -/

namespace Pyodrx
open PyFloat Spec

variable {R : Rounding}

theorem spiral_end_near {f : ℝ} (hf : FresnelAccurate R f) {sp : Spiral (Fl R)} {p q : Pose (Fl R)} {l : Fl R}
    (h : sp.getEndData p = .ok (q, l)) :
    let e := spiralEnd sp.curvstart.val sp.curvend.val l.val (real p)
    l.val ≠ 0 ∧
    |q.x.val - e.x| ≤ R.u * spiralUnits f sp.curvstart.val sp.curvend.val l.val p.x.val p.h.val ∧
    |q.y.val - e.y| ≤ R.u * spiralUnits f sp.curvstart.val sp.curvend.val l.val p.y.val p.h.val ∧
    |q.h.val - e.h| ≤ R.u * (|p.h.val| + 3.1 * |sp.curvstart.val * l.val| +
      3.7 * |(sp.curvend.val - sp.curvstart.val) * l.val|) := by
  unfold Spiral.getEndData EulerSpiral.create at h
  cases hl : sp.length with
  | none => simp only [hl] at h; cases h
  | some l' =>
    simp only [hl] at h
    by_cases hz : isZero l' = true
    · simp only [hz, if_true] at h; cases h
    · simp only [hz] at h
      cases h
      have hz' : l.val ≠ 0 := fun h0 => hz ((fl_isZero l).mpr h0)
      exact ⟨hz', spiral_calc_near hf _ _ _ _ _ _ hz'⟩

theorem spiralUnits_neg (f k0 k1 L c h : ℝ) : spiralUnits f (-k0) (-k1) L c h = spiralUnits f k0 k1 L c h := by
  unfold spiralUnits radius
  rw [show -k1 - -k0 = -(k1 - k0) by ring, neg_mul, neg_mul, abs_neg, abs_neg, abs_neg, abs_neg]
  simp [neg_inj]

theorem spiral_start_near {f : ℝ} (hf : FresnelAccurate R f) {sp : Spiral (Fl R)} {p q : Pose (Fl R)} {l : Fl R}
    (h : sp.getStartData p = .ok (q, l)) :
    let e := spiralEnd (-sp.curvend.val) (-sp.curvstart.val) l.val (real p)
    l.val ≠ 0 ∧
    |q.x.val - e.x| ≤ R.u * spiralUnits f sp.curvend.val sp.curvstart.val l.val p.x.val p.h.val ∧
    |q.y.val - e.y| ≤ R.u * spiralUnits f sp.curvend.val sp.curvstart.val l.val p.y.val p.h.val ∧
    |q.h.val - e.h| ≤ R.u * (|p.h.val| + 3.1 * |sp.curvend.val * l.val| +
      3.7 * |(sp.curvend.val - sp.curvstart.val) * l.val|) := by
  unfold Spiral.getStartData EulerSpiral.create at h
  cases hl : sp.length with
  | none => simp only [hl] at h; cases h
  | some l' =>
    simp only [hl] at h
    by_cases hz : isZero l' = true
    · simp only [hz, if_true] at h; cases h
    · simp only [hz] at h
      cases h
      have hz' : l.val ≠ 0 := fun h0 => hz ((fl_isZero l).mpr h0)
      have := spiral_calc_near hf (neg sp.curvend) (neg sp.curvstart) l p.x p.y p.h hz'
      simp only [fl_neg, spiralUnits_neg] at this
      rw [show -sp.curvstart.val - -sp.curvend.val = sp.curvend.val - sp.curvstart.val by ring, neg_mul, abs_neg] at this
      exact ⟨hz', this⟩

theorem spiralEnd_back {k0 k1 L : ℝ} (hL : L ≠ 0) (p : Pose ℝ) :
    spiralEnd k0 k1 L (turned (spiralEnd (-k1) (-k0) L p)) = turned p := by
  have := drive_reverse (fun s => p.h + -k1 * s + (-k0 - -k1) / L * s ^ 2 / 2)
    (fun s => (turned (spiralEnd (-k1) (-k0) L p)).h + k0 * s + (k1 - k0) / L * s ^ 2 / 2) L p (by simp) (by
      intro s
      simp only [turned, spiralEnd, drive]
      field_simp
      ring)
  exact this

theorem spiralEnd_heading (k0 k1 L : ℝ) (x y h h' : ℝ) :
    |((spiralEnd k0 k1 L ⟨x, y, h⟩).x - x) - ((spiralEnd k0 k1 L ⟨x, y, h'⟩).x - x)| ≤ |h - h'| * |L| ∧
    |((spiralEnd k0 k1 L ⟨x, y, h⟩).y - y) - ((spiralEnd k0 k1 L ⟨x, y, h'⟩).y - y)| ≤ |h - h'| * |L| := by
  simp only [spiralEnd, drive, add_sub_cancel_left]
  have hd : ∀ s : ℝ, |(h + k0 * s + (k1 - k0) / L * s ^ 2 / 2) - (h' + k0 * s + (k1 - k0) / L * s ^ 2 / 2)| = |h - h'| := by
    intro s; congr 1; ring
  constructor
  · rw [← intervalIntegral.integral_sub (Continuous.intervalIntegrable (by fun_prop) _ _)
      (Continuous.intervalIntegrable (by fun_prop) _ _)]
    have := intervalIntegral.norm_integral_le_of_norm_le_const (a := (0:ℝ)) (b := L) (C := |h - h'|)
      (f := fun s => Real.cos (h + k0 * s + (k1 - k0) / L * s ^ 2 / 2) -
        Real.cos (h' + k0 * s + (k1 - k0) / L * s ^ 2 / 2)) (fun s _ => (Real.abs_cos_sub_cos_le _ _).trans (hd s).le)
    simpa using this
  · rw [← intervalIntegral.integral_sub (Continuous.intervalIntegrable (by fun_prop) _ _)
      (Continuous.intervalIntegrable (by fun_prop) _ _)]
    have := intervalIntegral.norm_integral_le_of_norm_le_const (a := (0:ℝ)) (b := L) (C := |h - h'|)
      (f := fun s => Real.sin (h + k0 * s + (k1 - k0) / L * s ^ 2 / 2) -
        Real.sin (h' + k0 * s + (k1 - k0) / L * s ^ 2 / 2)) (fun s _ => (Real.abs_sin_sub_sin_le _ _).trans (hd s).le)
    simpa using this

theorem Twice.near_spiral {f : ℝ} (hf : FresnelAccurate R f) {p q : Pose (Fl R)} {c : Geom (Fl R)} {L l k0 k1 : Fl R}
    (hk : spiralOf c = some (k0, k1)) (h : Twice p c (some L) q l) :
    let e := spiralEnd k0.val k1.val L.val (real p)
    |q.x.val - e.x| ≤ R.u * spiralUnits f k0.val k1.val L.val p.x.val p.h.val ∧
    |q.y.val - e.y| ≤ R.u * spiralUnits f k0.val k1.val L.val p.y.val p.h.val ∧
    |q.h.val - e.h| ≤ R.u * (|p.h.val| + 3.1 * |k0.val * L.val| + 3.7 * |(k1.val - k0.val) * L.val|) := by
  obtain ⟨q', c', c'', h1, h2⟩ := h
  cases c with
  | line g => cases hk
  | arc g => cases hk
  | poly g => cases hk
  | spiral sp =>
    cases hk
    have hc : c' = _ := getEndData_kind h1
    subst hc
    rw [h1] at h2
    cases h2
    unfold Geom.getEndData at h1
    simp only at h1
    split at h1
    · rename_i r hr
      cases h1
      exact (spiral_end_near hf (p := p) hr).2
    · cases h1

/-- The spiral that is written, driven forward, ends where the backward evaluation started. -/
theorem TwiceBack.near_spiral {f : ℝ} (hf : FresnelAccurate R f) {p q : Pose (Fl R)} {c : Geom (Fl R)} {L k0 k1 : Fl R}
    (hk : spiralOf c = some (k0, k1)) (h : TwiceBack p c (some L) q) :
    let e := spiralEnd k0.val k1.val L.val ⟨q.x.val, q.y.val, (q.h +. pi).val⟩
    let H := (p.h +. pi).val
    let b := 2.1 * |H| + 4.2 * |k1.val * L.val| + 4.3 * |(k1.val - k0.val) * L.val| + 20
    |e.x - p.x.val| ≤ R.u * (spiralUnits f k1.val k0.val L.val p.x.val H + |L.val| * b) ∧
    |e.y - p.y.val| ≤ R.u * (spiralUnits f k1.val k0.val L.val p.y.val H + |L.val| * b) ∧
    |e.h - H| ≤ R.u * (b + |H| + 3) := by
  have h0 := R.u_nonneg
  obtain ⟨v, c', c'', h1, h2⟩ := h
  cases c with
  | line g => cases hk
  | arc g => cases hk
  | poly g => cases hk
  | spiral sp =>
    cases hk
    have hc : c' = _ := getEndData_kind h1
    subst hc
    unfold Geom.getStartData at h2
    simp only at h2
    split at h2
    swap
    · cases h2
    rename_i r hr
    cases h2
    obtain ⟨hL0, n1, n2, n3⟩ := spiral_start_near hf (p := p) hr
    set k0 := sp.curvstart with hk0
    set k1 := sp.curvend with hk1
    set q := r.1 with hq
    set L := r.2 with hLd
    intro e H b
    have hback := spiralEnd_back (k0 := k0.val) (k1 := k1.val) hL0 (real p)
    set E := spiralEnd (-k1.val) (-k0.val) L.val (real p) with hE
    have hEh : E.h = p.h.val + -k1.val * L.val + (k1.val - k0.val) * L.val / 2 := by
      simp only [hE, spiralEnd, drive, real]
      field_simp
      ring
    have hHd : H = R.rnd (p.h.val + R.rnd Real.pi) := rfl
    obtain ⟨b1, b2⟩ := back_heading R p.h.val
    rw [← hHd] at b1 b2
    have hK := abs_nonneg (k1.val * L.val)
    have hD := abs_nonneg ((k1.val - k0.val) * L.val)
    have hph := abs_nonneg p.h.val
    have hH := abs_nonneg H
    have hLn := abs_nonneg L.val
    have d1 : |(q.h +. pi).val - (E.h + Real.pi)| ≤
        R.u * (2.01 * |p.h.val| + 4.2 * |k1.val * L.val| + 4.3 * |(k1.val - k0.val) * L.val| + 6.4) := by
      have := near_add_pi R n3 (by positivity)
      refine (show |(q.h +. pi).val - (E.h + Real.pi)| ≤ _ from this).trans (mul_le_mul_of_nonneg_left ?_ h0)
      have : |E.h| ≤ |p.h.val| + |k1.val * L.val| + |(k1.val - k0.val) * L.val| / 2 := by
        rw [hEh]
        have t1 := abs_add_le (p.h.val + -k1.val * L.val) ((k1.val - k0.val) * L.val / 2)
        have t2 := abs_add_le p.h.val (-k1.val * L.val)
        rw [neg_mul, abs_neg] at t2
        have t3 : |(k1.val - k0.val) * L.val / 2| = |(k1.val - k0.val) * L.val| / 2 := by rw [abs_div]; norm_num
        rw [neg_mul] at t1
        rw [neg_mul]
        linarith
      linarith
    have hl := spiralEnd_heading k0.val k1.val L.val q.x.val q.y.val (q.h +. pi).val (E.h + Real.pi)
    have tr : ∀ x y : ℝ, (spiralEnd k0.val k1.val L.val ⟨x, y, E.h + Real.pi⟩).x - x = p.x.val - E.x ∧
        (spiralEnd k0.val k1.val L.val ⟨x, y, E.h + Real.pi⟩).y - y = p.y.val - E.y := by
      intro x y
      have ex := congrArg Pose.x hback
      have ey := congrArg Pose.y hback
      simp only [spiralEnd, drive, turned, real] at ex ey ⊢
      constructor <;> linarith
    rw [(tr _ _).1, (tr _ _).2] at hl
    have d2 : |(q.h +. pi).val - (E.h + Real.pi)| * |L.val| ≤
        R.u * ((2.01 * |p.h.val| + 4.2 * |k1.val * L.val| + 4.3 * |(k1.val - k0.val) * L.val| + 6.4) * |L.val|) := by
      refine (mul_le_mul_of_nonneg_right d1 hLn).trans (le_of_eq ?_); ring
    have key : ∀ z : ℝ, R.u * spiralUnits f k1.val k0.val L.val z p.h.val +
        R.u * ((2.01 * |p.h.val| + 4.2 * |k1.val * L.val| + 4.3 * |(k1.val - k0.val) * L.val| + 6.4) * |L.val|) ≤
        R.u * (spiralUnits f k1.val k0.val L.val z H + |L.val| * b) := by
      intro z
      rw [← mul_add]
      refine mul_le_mul_of_nonneg_left ?_ h0
      unfold spiralUnits
      have t0 : |p.h.val| * |L.val| ≤ (1.002 * |H| + 3.2) * |L.val| := mul_le_mul_of_nonneg_right b2 hLn
      have t1 : 0 ≤ |L.val| * |H| := by positivity
      simp only [b]
      split
      · linarith
      · linarith
    refine ⟨?_, ?_, ?_⟩
    · refine le_trans ?_ (key p.x.val)
      calc |e.x - p.x.val| = |(q.x.val - E.x) + ((e.x - q.x.val) - (p.x.val - E.x))| := by ring_nf
        _ ≤ |q.x.val - E.x| + |(e.x - q.x.val) - (p.x.val - E.x)| := abs_add_le _ _
        _ ≤ _ := add_le_add n1 (hl.1.trans d2)
    · refine le_trans ?_ (key p.y.val)
      calc |e.y - p.y.val| = |(q.y.val - E.y) + ((e.y - q.y.val) - (p.y.val - E.y))| := by ring_nf
        _ ≤ |q.y.val - E.y| + |(e.y - q.y.val) - (p.y.val - E.y)| := abs_add_le _ _
        _ ≤ _ := add_le_add n2 (hl.2.trans d2)
    · have he : e.h = (q.h +. pi).val + k0.val * L.val + (k1.val - k0.val) * L.val / 2 := by
        simp only [e, spiralEnd, drive]
        field_simp
      have : e.h - H = ((q.h +. pi).val - (E.h + Real.pi)) - (H - (p.h.val + Real.pi)) := by
        rw [he, hEh]; ring
      rw [this]
      refine (abs_sub _ _).trans ((add_le_add d1 b1).trans ?_)
      rw [← mul_add]
      refine mul_le_mul_of_nonneg_left ?_ h0
      simp only [b]
      linarith

theorem spiralUnits_nonneg {f : ℝ} (hf : 0 ≤ f) (k0 k1 L c h : ℝ) : 0 ≤ spiralUnits f k0 k1 L c h := by
  have r0 : 0 ≤ radius k0 := by unfold radius; split <;> positivity
  unfold spiralUnits
  split <;> positivity

theorem Twice.spiralEnds {f : ℝ} (hf : FresnelAccurate R f) {p q : Pose (Fl R)} {c : Geom (Fl R)} {L l k0 k1 : Fl R}
    (hk : spiralOf c = some (k0, k1)) (h : Twice p c (some L) q l) :
    SpiralEndsNearly R.u f k0.val k1.val L.val (real p) (real q) := by
  obtain ⟨h1, h2, h3⟩ := h.near_spiral hf hk
  have n := spiralUnits_nonneg hf.1 k1.val k0.val L.val
  have a1 := abs_nonneg (real q).h
  have a2 := abs_nonneg (k1.val * L.val)
  have a3 := abs_nonneg ((k1.val - k0.val) * L.val)
  refine ⟨?_, ?_, ?_⟩
  · rw [abs_sub_comm]; refine R.up h1 ?_
    have : 0 ≤ |L.val| * (2.1 * |(real q).h| + 4.2 * |k1.val * L.val| + 4.3 * |(k1.val - k0.val) * L.val| + 20) := by positivity
    have nx := n (real q).x (real q).h
    simp only [real] at this nx ⊢
    linarith
  · rw [abs_sub_comm]; refine R.up h2 ?_
    have : 0 ≤ |L.val| * (2.1 * |(real q).h| + 4.2 * |k1.val * L.val| + 4.3 * |(k1.val - k0.val) * L.val| + 20) := by positivity
    have nx := n (real q).y (real q).h
    simp only [real] at this nx ⊢
    linarith
  · rw [abs_sub_comm]; refine R.up h3 ?_
    simp only [real] at a1 ⊢
    linarith

theorem TwiceBack.spiralEnds {f : ℝ} (hf : FresnelAccurate R f) {p q : Pose (Fl R)} {c : Geom (Fl R)} {L k0 k1 : Fl R}
    (hk : spiralOf c = some (k0, k1)) (h : TwiceBack p c (some L) q) :
    SpiralEndsNearly R.u f k0.val k1.val L.val ⟨q.x.val, q.y.val, (q.h +. pi).val⟩
      (real { p with h := p.h +. pi }) := by
  obtain ⟨h1, h2, h3⟩ := h.near_spiral hf hk
  have n := spiralUnits_nonneg hf.1 k0.val k1.val L.val
  refine ⟨R.up h1 ?_, R.up h2 ?_, R.up h3 ?_⟩
  · have := n q.x.val (q.h +. pi).val
    simp only [real]
    linarith
  · have := n q.y.val (q.h +. pi).val
    simp only [real]
    linarith
  · simp only [real]
    linarith [abs_nonneg (q.h +. pi).val, abs_nonneg (k0.val * L.val)]

/-- Evaluation keeps curvatures, of spirals as well. -/
def SameShape (geoms : Store (Geom (Fl R))) (r : Nat) (c : Geom (Fl R)) : Prop :=
  SameCurvature geoms r c ∧ spiralOf c = spiralOf (geoms.cell r)

theorem kept_shape {geoms : Store (Geom (Fl R))} (h : Kept (SameCurvature geoms)) : Kept (SameShape geoms) := by
  intro r c p v c' ⟨h1, h2⟩ he
  refine ⟨h r c p v c' h1 he, ?_⟩
  have := getEndData_kind he
  cases c with
  | line l => simp only at this; subst this; exact h2
  | spiral l => simp only at this; subst this; exact h2
  | arc a => obtain ⟨a', rfl, -⟩ := this; exact h2
  | poly g => obtain ⟨len, rfl⟩ := this; exact h2

theorem keptBack_shape {geoms : Store (Geom (Fl R))} (h : KeptBack (SameCurvature geoms)) : KeptBack (SameShape geoms) := by
  intro r c p v c' ⟨h1, h2⟩ he
  refine ⟨h r c p v c' h1 he, ?_⟩
  have := getStartData_kind he
  cases c with
  | line l => simp only at this; subst this; exact h2
  | spiral l => simp only at this; subst this; exact h2
  | arc a => obtain ⟨a', rfl, -⟩ := this; exact h2
  | poly g => obtain ⟨len, rfl⟩ := this; exact h2

/-- The requirement on one geometry. -/
def GeomDriven (f : ℝ) (geoms : Store (Geom (Fl R))) (g : AdjGeom (Fl R)) (m : Pose (Fl R)) : Prop :=
  (∀ k L, curvature (geoms.cell g.geom) = some k → g.length = some L → EndsNearly R.u k L.val (written g) (real m)) ∧
  (∀ k0 k1 L, spiralOf (geoms.cell g.geom) = some (k0, k1) → g.length = some L →
    SpiralEndsNearly R.u f k0.val k1.val L.val (written g) (real m))

theorem driven_forward {f : ℝ} {geoms : Store (Geom (Fl R))} (l : List Nat) : ∀ (F : Nat → Nat → AdjGeom (Fl R))
    (Q : Nat → Pose (Fl R)),
    (∀ j (hj : j < l.length), (⟨(F j l[j]).x, (F j l[j]).y, (F j l[j]).heading⟩ : Pose (Fl R)) = Q j ∧
      GeomDriven f geoms (F j l[j]) (Q (j + 1))) →
    DrivenNearly f geoms (l.mapIdx F) (Q 0) (Q l.length) := by
  induction l with
  | nil => intro F Q _; rfl
  | cons a l ih =>
    intro F Q h
    rw [List.mapIdx_cons]
    refine ⟨(h 0 (by simp)).1, Q 1, (h 0 (by simp)).2.1, (h 0 (by simp)).2.2, ?_⟩
    refine ih (fun j => F (j + 1)) (fun j => Q (j + 1)) (fun j hj => ?_)
    have := h (j + 1) (by simpa using hj)
    simpa using this

theorem Spec.DrivenNearly.congr {f : ℝ} {geoms geoms' : Store (Geom (Fl R))}
    (hc : ∀ j, curvature (geoms.cell j) = curvature (geoms'.cell j))
    (hs : ∀ j, spiralOf (geoms.cell j) = spiralOf (geoms'.cell j)) :
    ∀ {gs : List (AdjGeom (Fl R))} {p q : Pose (Fl R)}, DrivenNearly f geoms gs p q → DrivenNearly f geoms' gs p q
  | [], _, _, h => h
  | _ :: _, _, _, ⟨h1, m, h2, h3, h4⟩ => ⟨h1, m, fun k L hk => h2 k L ((hc _).trans hk),
      fun k0 k1 L hk => h3 k0 k1 L ((hs _).trans hk), h4.congr hc hs⟩

theorem Spec.DrivenNearly.snoc {f : ℝ} {geoms : Store (Geom (Fl R))} {gs : List (AdjGeom (Fl R))} {g : AdjGeom (Fl R)} :
    ∀ {p m q : Pose (Fl R)}, DrivenNearly f geoms gs p m → DrivenNearly f geoms [g] m q →
      DrivenNearly f geoms (gs ++ [g]) p q := by
  induction gs with
  | nil => intro p m q h h'; cases h; exact h'
  | cons a gs ih =>
    rintro p m q ⟨h1, m', h2, h3, h4⟩ h'
    exact ⟨h1, m', h2, h3, ih h4 h'⟩

theorem driven_backward {f : ℝ} {geoms : Store (Geom (Fl R))} (gs : List (AdjGeom (Fl R))) : ∀ (B : Nat → Pose (Fl R)),
    (∀ j (hj : j < gs.length), (⟨gs[j].x, gs[j].y, gs[j].heading⟩ : Pose (Fl R)) = B (j + 1) ∧
      GeomDriven f geoms gs[j] (B j)) →
    DrivenNearly f geoms gs.reverse (B gs.length) (B 0) := by
  induction gs with
  | nil => intro B _; rfl
  | cons a gs ih =>
    intro B h
    rw [List.reverse_cons]
    refine DrivenNearly.snoc (m := B 1) (ih (fun j => B (j + 1)) fun j hj => ?_) ?_
    · have := h (j + 1) (by simpa using hj)
      simpa using this
    · have := h 0 (by simp)
      exact ⟨this.1, _, this.2.1, this.2.2, rfl⟩

/-- The geometries of an adjusted planview, in the order of driving, lead from its start to its end. -/
theorem adjust_driven {f : ℝ} (hf : FresnelAccurate R f) {geoms0 : Store (Geom (Fl R))} (hKept : Kept (SameShape geoms0))
    (hBack : KeptBack (SameShape geoms0)) {b : Bool} {st st' : PVState (Fl R)} {u : Unit}
    (h : PlanView.adjustGeometries b st = .ok u st') (hK : ∀ j, SameShape geoms0 j (st.geoms.cell j))
    (he : st.pv.adjGeoms = []) (ho : st.pv.overridden = []) :
    ∃ p q, st'.pv.start = some p ∧ st'.pv.stop = some q ∧
      DrivenNearly f geoms0 (if b then st'.pv.adjGeoms.reverse else st'.pv.adjGeoms) p q := by
  cases b with
  | false =>
    obtain ⟨S, P, Q, len, l, c, hE, hS0, hSn, hQ0, hst, hsp, hs, -⟩ := adjust_forward_calls hKept h hK
    refine ⟨_, _, hst, hsp, ?_⟩
    simp only [Bool.false_eq_true, if_false]
    rw [hE, he, List.nil_append, ← hQ0]
    refine driven_forward _ _ _ ?_
    intro j hj
    obtain ⟨⟨⟨k1, k2⟩, k3⟩, -, -, h3, -, ht⟩ := hs j hj
    rw [← h3 ho]
    refine ⟨rfl, ?_, ?_⟩
    · intro k L hk hL
      simp only at hk hL
      rw [hL] at ht
      have := ht.near k2 (k1.trans hk)
      exact EndsNearly.of_forward R.u_nonneg this.1 this.2.1 this.2.2
    · intro s0 s1 L hk hL
      simp only at hk hL
      rw [hL] at ht
      exact ht.spiralEnds hf (k3.trans hk)
  | true =>
    obtain ⟨S, Q, L, c, hE, hS0, hSn, hQ0, hst, hsp, hs, -⟩ := adjust_backward_calls hKept hBack h hK
    refine ⟨_, _, hst, hsp, ?_⟩
    simp only [if_true]
    rw [he, List.map_nil, List.nil_append] at hE
    have hlen : st'.pv.adjGeoms.length = st.pv.raw.length := by
      have := congrArg List.length hE; simpa using this
    have := driven_backward (f := f) (geoms := geoms0) st'.pv.adjGeoms (fun j => { Q j with h := (Q j).h +. pi }) ?_
    · rw [hlen, hQ0] at this; exact this
    intro j hj
    rw [hlen] at hj
    have e : (st'.pv.adjGeoms.map AdjGeom.rest)[j]'(by simpa [hlen] using hj) =
        ((Q (j + 1)).x, (Q (j + 1)).y, (Q (j + 1)).h +. pi, some (L j), st.pv.raw.reverse[j]'(by simpa using hj)) := by
      simp only [hE, List.getElem_mapIdx]
    rw [List.getElem_map] at e
    simp only [AdjGeom.rest, Prod.mk.injEq] at e
    obtain ⟨e1, e2, e3, e4, e5⟩ := e
    have hw : written (st'.pv.adjGeoms[j]'(by omega)) =
        ⟨(Q (j + 1)).x.val, (Q (j + 1)).y.val, ((Q (j + 1)).h +. pi).val⟩ := by simp only [written, e1, e2, e3]
    obtain ⟨⟨⟨k1, k2⟩, k3⟩, -, ht⟩ := hs j hj
    refine ⟨by rw [e1, e2, e3], ?_, ?_⟩
    · intro k L' hk hL
      rw [e5] at hk
      rw [e4] at hL; cases hL
      have := ht.near k2 (k1.trans hk)
      rw [hw]
      exact EndsNearly.of_backward R.u_nonneg this.1 this.2.1 this.2.2
    · intro s0 s1 L' hk hL
      rw [e5] at hk
      rw [e4] at hL; cases hL
      rw [hw]
      exact ht.spiralEnds hf (k3.trans hk)

end Pyodrx
