import Verif.Spec.Shape
import Verif.Proofs.GeomReal
import Verif.Proofs.Monad

/-! # Geometry objects realise their shapes -/

namespace Pyodrx
open Spec

theorem drive_eq_place (θ : ℝ → ℝ) (hθ : Continuous θ) (L : ℝ) (p : Pose ℝ) :
    drive (fun s => p.h + θ s) L p = (Shape.ofHeading θ L).place p := by
  have hc : IntervalIntegrable (fun s => Real.cos (θ s)) MeasureTheory.volume 0 L :=
    (Real.continuous_cos.comp hθ).intervalIntegrable _ _
  have hs : IntervalIntegrable (fun s => Real.sin (θ s)) MeasureTheory.volume 0 L :=
    (Real.continuous_sin.comp hθ).intervalIntegrable _ _
  unfold drive Shape.place Shape.ofHeading
  simp only [Real.cos_add, Real.sin_add]
  rw [intervalIntegral.integral_sub (hc.const_mul _) (hs.const_mul _),
    intervalIntegral.integral_add (hc.const_mul _) (hs.const_mul _),
    intervalIntegral.integral_const_mul, intervalIntegral.integral_const_mul,
    intervalIntegral.integral_const_mul, intervalIntegral.integral_const_mul]
  apply Pose.ext' <;> simp <;> ring

theorem arcLength_pos {a : Arc ℝ} {L : ℝ} (hk : a.curvature ≠ 0) (h : arcLength a = some L) :
    0 < L := by
  have hv : ∀ o : Option ℝ, arcLength.viaAngle a o = some L → 0 < L := by
    intro o ho
    cases o with
    | none => simp [arcLength.viaAngle] at ho
    | some ang =>
      simp only [arcLength.viaAngle] at ho
      split at ho
      · rename_i hA
        cases ho
        exact div_pos (abs_pos.mpr hA) (abs_pos.mpr hk)
      · simp at ho
  unfold arcLength at h
  split at h
  · split at h
    · rename_i hL; cases h; exact abs_pos.mpr hL
    · exact hv _ h
  · exact hv _ h

/-- the Arc after any evaluation: length known -/
theorem Arc.eval_settled (k L : ℝ) (hk : k ≠ 0) (hL : 0 < L) (p : Pose ℝ) (a : Arc ℝ)
    (ha : a.length = some L) :
    Arc.eval k p a = .ok ((Shape.ofHeading (fun s => k * s) L).place p, some L)
      { a with angle := some (L * k), length := some L } := by
  rw [Arc.eval_of_length k L hk hL.ne' p a ha, abs_of_pos hL,
    drive_eq_place (fun s => k * s) (by fun_prop)]

theorem Arc.eval_any (L : ℝ) (a : Arc ℝ) (hk : a.curvature ≠ 0) (h : arcLength a = some L)
    (p : Pose ℝ) :
    ∃ q ang, Arc.eval a.curvature p a = .ok (q, some L) { a with length := some L, angle := some ang } := by
  obtain ⟨k, len, ang⟩ := a
  simp only at hk
  have hv : ∀ (len : Option ℝ), (len = none ∨ len = some 0) →
      arcLength.viaAngle ⟨k, len, ang⟩ ang = some L →
      ∃ q ang', Arc.eval k p ⟨k, len, ang⟩ = .ok (q, some L) ⟨k, some L, some ang'⟩ := by
    intro len hlen ho
    cases ang with
    | none => simp [arcLength.viaAngle] at ho
    | some ang =>
      simp only [arcLength.viaAngle] at ho
      split at ho
      · rename_i hA
        cases ho
        rcases hlen with rfl | rfl
        · exact ⟨_, _, Arc.eval_of_angle k ang hk hA p ⟨k, none, some ang⟩ rfl rfl⟩
        · have h0 : (PyFloat.isZero (0:ℝ) : Bool) = true := by simp
          have h1 := Arc.eval_of_angle k ang hk hA p ⟨k, none, some ang⟩ rfl rfl
          have h2 : Arc.eval k p ⟨k, some 0, some ang⟩ = Arc.eval k p ⟨k, none, some ang⟩ := by
            have hz : (PyFloat.isZero ang : Bool) = false := by simp [hA]
            simp only [Arc.eval, h0, if_true, hz, Bool.false_eq_true, if_false]
          exact ⟨_, _, h2.trans h1⟩
      · simp at ho
  cases len with
  | none => exact hv _ (Or.inl rfl) (by simpa [arcLength] using h)
  | some L' =>
    by_cases hL : L' = 0
    · subst hL
      exact hv _ (Or.inr rfl) (by simpa [arcLength] using h)
    · have hL2 : L = |L'| := by simpa [arcLength, hL] using h.symm
      subst hL2
      exact ⟨_, _, Arc.eval_of_length k L' hk hL p ⟨k, some L', ang⟩ rfl⟩

theorem arcLength_settled {a : Arc ℝ} {L : ℝ} (hL : 0 < L) (h : a.length = some L) :
    arcLength a = some L := by
  simp [arcLength, h, hL.ne', abs_of_pos hL]

/-- The object answers consistently (an Arc has a positive length stored). -/
def Settled : Geom ℝ → Prop
  | .arc a => ∃ L, 0 < L ∧ a.length = some L
  | _ => True

/-- Not a ParamPoly3. -/
def NotPoly : Geom ℝ → Prop
  | .poly _ => False
  | _ => True

/-- The geometry object can exist: an Arc has non-zero curvature and never both a zero length and
a zero angle (its constructor refuses both, evaluation never produces them). -/
def Constructible : Geom ℝ → Prop
  | .arc a => a.curvature ≠ 0 ∧ ¬(a.length = some 0 ∧ a.angle = some 0)
  | _ => True

theorem shapeOf_arc {a : Arc ℝ} {sh : Shape} (h : shapeOf (.arc a) = some sh) :
    a.curvature ≠ 0 ∧ ∃ L, 0 < L ∧ arcLength a = some L ∧
      sh = .ofHeading (fun s => a.curvature * s) L := by
  simp only [shapeOf] at h
  split at h
  · simp at h
  · rename_i hk
    refine ⟨hk, ?_⟩
    cases hL : arcLength a with
    | none => simp [hL] at h
    | some L => exact ⟨L, arcLength_pos hk hL, rfl, by simpa [hL] using h.symm⟩

theorem shapeOf_arc_of {a : Arc ℝ} {L : ℝ} (hk : a.curvature ≠ 0) (hL : 0 < L)
    (h : a.length = some L) :
    shapeOf (.arc a) = some (.ofHeading (fun s => a.curvature * s) L) := by
  simp [shapeOf, hk, arcLength_settled hL h]

theorem shapeOf_spiral {sp : Spiral ℝ} {sh : Shape} (h : shapeOf (.spiral sp) = some sh) :
    ∃ L, L ≠ 0 ∧ sp.length = some L ∧ sh = .ofHeading
      (fun s => sp.curvstart * s + (sp.curvend - sp.curvstart) / L * (s ^ 2 / 2)) L := by
  simp only [shapeOf] at h
  split at h
  · rename_i L hl
    split at h
    · simp at h
    · rename_i h0
      exact ⟨L, h0, hl, by simpa using h.symm⟩
  · simp at h

theorem poly_end (g : ParamPoly3 ℝ) (sh : Shape) (h : shapeOf (.poly g) = some sh) (p : Pose ℝ) :
    ∃ g', ParamPoly3.getEndData p g = .ok (sh.place p, some sh.len) g' ∧
      shapeOf (.poly g') = some sh := by
  cases ht : polyEnd g with
  | none => simp [shapeOf, ht] at h
  | some t =>
    simp only [shapeOf, ht, Option.map_some, Option.some.injEq] at h
    have hsh := h.symm
    have hpar : g.param = .ok (t, some sh.len) := by
      unfold polyEnd at ht
      unfold ParamPoly3.param
      by_cases hn : g.prange = "normalized"
      · simp only [hn, if_true, Option.some.injEq] at ht
        subst ht
        simp only [hn, if_true, hsh, real_ofInt, Int.cast_one, real_quad, Int.cast_zero]
        congr 3
        refine intervalIntegral.integral_congr (fun s _ => ?_)
        simp only [ParamPoly3.integrand, real_sqrt, real_add, real_sq, real_abs, sq_abs, real_mul,
          real_ofInt]
        congr 1
        push_cast
        ring
      · simp only [hn, if_false] at ht
        simp only [hn, if_false, ht, hsh]
    have hpl : sh.place p = ⟨p.x + g.u t * Real.cos p.h - Real.sin p.h * g.v t,
        p.y + g.u t * Real.sin p.h + Real.cos p.h * g.v t, p.h + g.tangent t⟩ := by
      rw [hsh]
      apply Pose.ext'
      · simp [Shape.place, ParamPoly3.u, ParamPoly3.v]; ring
      · simp [Shape.place, ParamPoly3.u, ParamPoly3.v]; ring
      · simp only [Shape.place, ParamPoly3.tangent, real_add, real_mul, real_ofInt, real_sq,
          real_arctan2]
        push_cast
        rfl
    refine ⟨{ g with length := some sh.len }, ?_, ?_⟩
    · rw [hpl]; simp only [ParamPoly3.getEndData, hpar]; rfl
    · have : polyEnd { g with length := some sh.len } = polyEnd g := by
        unfold polyEnd at ht ⊢
        by_cases hn : g.prange = "normalized"
        · simp [hn]
        · simp only [hn, if_false] at ht ⊢
          rw [ht, hsh]; simp [hn]
      simp only [shapeOf, this, ht, Option.map_some, Option.some.injEq]
      exact h

theorem poly_start (g : ParamPoly3 ℝ) (sh : Shape) (h : shapeOf (.poly g) = some sh) (p : Pose ℝ) :
    ∃ q g', ParamPoly3.getStartData p g = .ok (q, some sh.len) g' ∧
      shapeOf (.poly g') = some sh := by
  obtain ⟨g', h1, h2⟩ := poly_end g sh h p
  cases hp : g.param with
  | error e => simp [ParamPoly3.getEndData, hp] at h1
  | ok v =>
    obtain ⟨t, len⟩ := v
    simp only [ParamPoly3.getEndData, hp, EStateM.Result.ok.injEq, Prod.mk.injEq] at h1
    have hlen := h1.1.2
    have hg := h1.2
    subst hlen hg
    exact ⟨_, _, by simp only [ParamPoly3.getStartData, hp]; rfl, h2⟩

theorem line_end (l : Line ℝ) (p : Pose ℝ) :
    l.getEndData p = ((Shape.ofHeading (fun _ => 0) l.length).place p, l.length) := by
  simp only [Line.getEndData, Shape.ofHeading, Shape.place, Prod.mk.injEq, and_true]
  apply Pose.ext' <;> simp <;> ring

theorem settled_end (g : Geom ℝ) (sh : Shape) (h : shapeOf g = some sh) (hs : Settled g)
    (p : Pose ℝ) :
    ∃ g', Geom.getEndData p g = .ok (sh.place p, some sh.len) g' ∧ shapeOf g' = some sh ∧
      Settled g' := by
  cases g with
  | line l =>
    have hsh : sh = .ofHeading (fun _ => 0) l.length := by simpa [shapeOf] using h.symm
    refine ⟨.line l, ?_, h, trivial⟩
    simp only [Geom.getEndData, line_end, hsh]; rfl
  | spiral sp =>
    obtain ⟨L, hL, hl, hsh⟩ := shapeOf_spiral h
    refine ⟨.spiral sp, ?_, h, trivial⟩
    simp only [Geom.getEndData, Spiral.getEndData_eq sp L hl hL p]
    have e : clothHeading p.h sp.curvstart ((sp.curvend - sp.curvstart) / L) =
        fun s => p.h + (sp.curvstart * s + (sp.curvend - sp.curvstart) / L * (s ^ 2 / 2)) := by
      funext s; simp [clothHeading]; ring
    rw [e, drive_eq_place _ (by fun_prop), hsh]; rfl
  | arc a =>
    obtain ⟨hk, L, hL, hal, hsh⟩ := shapeOf_arc h
    obtain ⟨L', hL', hl'⟩ := hs
    have : L' = L := by
      have := arcLength_settled hL' hl'
      rw [hal] at this; exact (Option.some.inj this).symm
    subst this
    refine ⟨.arc { a with angle := some (L' * a.curvature), length := some L' }, ?_, ?_, ?_⟩
    · simp only [Geom.getEndData, Arc.getEndData, Arc.eval_settled _ L' hk hL p a hl', hsh]; rfl
    · rw [hsh]; exact shapeOf_arc_of (a := { a with angle := some (L' * a.curvature), length := some L' }) hk hL rfl
    · exact ⟨L', hL, rfl⟩
  | poly g =>
    obtain ⟨g', h1, h2⟩ := poly_end g sh h p
    exact ⟨.poly g', by simp only [Geom.getEndData, h1], h2, trivial⟩

theorem first_end (g : Geom ℝ) (sh : Shape) (h : shapeOf g = some sh) (p : Pose ℝ) :
    ∃ q g', Geom.getEndData p g = .ok (q, some sh.len) g' ∧ shapeOf g' = some sh ∧
      Settled g' := by
  cases g with
  | line l => obtain ⟨g', h1⟩ := settled_end _ sh h trivial p; exact ⟨_, g', h1⟩
  | spiral sp => obtain ⟨g', h1⟩ := settled_end _ sh h trivial p; exact ⟨_, g', h1⟩
  | poly g => obtain ⟨g', h1⟩ := settled_end _ sh h trivial p; exact ⟨_, g', h1⟩
  | arc a =>
    obtain ⟨hk, L, hL, hal, hsh⟩ := shapeOf_arc h
    obtain ⟨q, ang, he⟩ := Arc.eval_any L a hk hal p
    refine ⟨q, .arc { a with length := some L, angle := some ang }, ?_, ?_, ⟨L, hL, rfl⟩⟩
    · simp only [Geom.getEndData, Arc.getEndData, he, hsh]; rfl
    · rw [hsh]; exact shapeOf_arc_of (a := { a with length := some L, angle := some ang }) hk hL rfl

/-- Driving backwards: the pose from which the shape reaches `p` turned around. -/
theorem place_of_reverse (θ : ℝ → ℝ) (hθ : Continuous θ) (h0 : θ 0 = 0) (L : ℝ) (p : Pose ℝ) :
    (Shape.ofHeading θ L).place (turned (drive (fun s => p.h + (θ (L - s) - θ L)) L p)) =
      turned p := by
  rw [← drive_eq_place θ hθ]
  apply drive_reverse (fun s => p.h + (θ (L - s) - θ L))
  · simp
  · intro s
    simp [turned, drive, h0]; ring

theorem settled_start (g : Geom ℝ) (sh : Shape) (h : shapeOf g = some sh) (hs : Settled g)
    (hp : NotPoly g) (p : Pose ℝ) :
    ∃ q g', Geom.getStartData p g = .ok (q, some sh.len) g' ∧ sh.place (turned q) = turned p ∧
      shapeOf g' = some sh ∧ Settled g' ∧ NotPoly g' := by
  cases g with
  | line l =>
    have hsh : sh = .ofHeading (fun _ => 0) l.length := by simpa [shapeOf] using h.symm
    have hst : l.getStartData p = l.getEndData p := rfl
    refine ⟨(Shape.ofHeading (fun _ => 0) l.length).place p, .line l, ?_, ?_, h, trivial, trivial⟩
    · simp only [Geom.getStartData, hst, line_end, hsh]; rfl
    · have := place_of_reverse (fun _ => 0) (by fun_prop) rfl l.length p
      have e := drive_eq_place (fun _ => 0) (by fun_prop) l.length p
      simp only [sub_self, add_zero] at this e
      rw [hsh, ← e]
      exact this
  | spiral sp =>
    obtain ⟨L, hL, hl, hsh⟩ := shapeOf_spiral h
    refine ⟨_, .spiral sp, by simp only [Geom.getStartData, Spiral.getStartData_eq sp L hl hL p, hsh]; rfl, ?_, h, trivial, trivial⟩
    rw [hsh]
    have e : clothHeading p.h (-sp.curvend) ((sp.curvend - sp.curvstart) / L) =
        fun s => p.h + ((fun s => sp.curvstart * s + (sp.curvend - sp.curvstart) / L * (s ^ 2 / 2)) (L - s)
          - (fun s => sp.curvstart * s + (sp.curvend - sp.curvstart) / L * (s ^ 2 / 2)) L) := by
      funext s; simp [clothHeading]; field_simp; ring
    rw [e]
    exact place_of_reverse _ (by fun_prop) (by simp) L p
  | arc a =>
    obtain ⟨hk, L, hL, hal, hsh⟩ := shapeOf_arc h
    obtain ⟨L', hL', hl'⟩ := hs
    have : L' = L := by
      have := arcLength_settled hL' hl'
      rw [hal] at this; exact (Option.some.inj this).symm
    subst this
    have he := Arc.eval_of_length (-a.curvature) L' (neg_ne_zero.mpr hk) hL.ne' p a hl'
    rw [abs_of_pos hL] at he
    refine ⟨drive (fun s => p.h + -a.curvature * s) L' p,
      .arc { a with angle := some (L' * -a.curvature), length := some L' }, ?_, ?_, ?_,
      ⟨L', hL, rfl⟩, trivial⟩
    · simp only [Geom.getStartData, Arc.getStartData, real_neg, he, hsh]; rfl
    · rw [hsh]
      have e : (fun s => p.h + -a.curvature * s) =
          fun s => p.h + ((fun s => a.curvature * s) (L' - s) - (fun s => a.curvature * s) L') := by
        funext s; ring
      rw [e]
      exact place_of_reverse (fun s => a.curvature * s) (by fun_prop) (by simp) L' p
    · rw [hsh]; exact shapeOf_arc_of (a := { a with angle := some (L' * -a.curvature), length := some L' }) hk hL rfl
  | poly g => exact hp.elim

theorem settled_start_len (g : Geom ℝ) (sh : Shape) (h : shapeOf g = some sh) (hs : Settled g)
    (p : Pose ℝ) :
    ∃ q g', Geom.getStartData p g = .ok (q, some sh.len) g' ∧
      shapeOf g' = some sh ∧ Settled g' := by
  cases g with
  | line l => obtain ⟨q, g', h1, _, h3, h4, _⟩ := settled_start _ sh h hs trivial p; exact ⟨q, g', h1, h3, h4⟩
  | spiral l => obtain ⟨q, g', h1, _, h3, h4, _⟩ := settled_start _ sh h hs trivial p; exact ⟨q, g', h1, h3, h4⟩
  | arc l => obtain ⟨q, g', h1, _, h3, h4, _⟩ := settled_start _ sh h hs trivial p; exact ⟨q, g', h1, h3, h4⟩
  | poly g =>
    obtain ⟨q, g', h1, h2⟩ := poly_start g sh h p
    exact ⟨q, .poly g', by simp only [Geom.getStartData, h1], h2, trivial⟩

theorem constructible_of_shape {g : Geom ℝ} {sh : Shape} (h : shapeOf g = some sh) :
    Constructible g := by
  cases g with
  | arc a =>
    obtain ⟨hk, L, hL, hal, _⟩ := shapeOf_arc h
    refine ⟨hk, ?_⟩
    rintro ⟨h1, h2⟩
    simp [arcLength, h1, h2, arcLength.viaAngle] at hal
  | _ => trivial

/-- An object without shape cannot be evaluated to a length. -/
theorem no_shape_end (g : Geom ℝ) (h : shapeOf g = none) (hc : Constructible g) (p : Pose ℝ) :
    (∃ e g', Geom.getEndData p g = .error e g') ∨ (∃ q, Geom.getEndData p g = .ok (q, none) g) := by
  cases g with
  | line l => simp [shapeOf] at h
  | spiral sp =>
    left
    simp only [shapeOf] at h
    split at h
    · rename_i L hl
      split at h
      · rename_i h0
        exact ⟨.zeroDivisionError, .spiral sp, by
          simp [Geom.getEndData, Spiral.getEndData, EulerSpiral.create, hl, h0, real_isZero_eq]⟩
      · simp at h
    · rename_i hl
      exact ⟨.typeError, .spiral sp, by
        simp [Geom.getEndData, Spiral.getEndData, EulerSpiral.create, hl]⟩
  | arc a =>
    obtain ⟨k, len, ang⟩ := a
    obtain ⟨hk, hc⟩ := hc
    simp only at hk hc
    simp only [shapeOf, hk, if_false, Option.map_eq_none_iff] at h
    have hlen : len = none ∨ len = some 0 := by
      cases len with
      | none => exact Or.inl rfl
      | some L =>
        right
        by_cases hL : L = 0
        · rw [hL]
        · simp [arcLength, hL] at h
    have hang : ang = none ∨ ang = some 0 := by
      cases ang with
      | none => exact Or.inl rfl
      | some A =>
        right
        by_cases hA : A = 0
        · rw [hA]
        · rcases hlen with rfl | rfl <;> simp [arcLength, arcLength.viaAngle, hA] at h
    have h0 : (PyFloat.isZero (0:ℝ) : Bool) = true := by simp
    rcases hlen with rfl | rfl <;> rcases hang with rfl | rfl <;>
      simp [Geom.getEndData, Arc.getEndData, Arc.eval, h0]
    exact hc ⟨rfl, rfl⟩
  | poly g =>
    left
    have ht : polyEnd g = none := by
      cases ht : polyEnd g with
      | none => rfl
      | some t => simp [shapeOf, ht] at h
    unfold polyEnd at ht
    by_cases hn : g.prange = "normalized"
    · simp [hn] at ht
    · simp only [hn, if_false] at ht
      exact ⟨.typeError, .poly g, by
        simp [Geom.getEndData, ParamPoly3.getEndData, ParamPoly3.param, hn, ht]⟩

/-- An object without shape cannot be evaluated backwards to a length. -/
theorem no_shape_start (g : Geom ℝ) (h : shapeOf g = none) (hc : Constructible g) (p : Pose ℝ) :
    (∃ e g', Geom.getStartData p g = .error e g') ∨ (∃ q, Geom.getStartData p g = .ok (q, none) g) := by
  cases g with
  | line l => simp [shapeOf] at h
  | spiral sp =>
    left
    simp only [shapeOf] at h
    split at h
    · rename_i L hl
      split at h
      · rename_i h0
        exact ⟨.zeroDivisionError, .spiral sp, by
          simp [Geom.getStartData, Spiral.getStartData, EulerSpiral.create, hl, h0, real_isZero_eq]⟩
      · simp at h
    · rename_i hl
      exact ⟨.typeError, .spiral sp, by
        simp [Geom.getStartData, Spiral.getStartData, EulerSpiral.create, hl]⟩
  | arc a =>
    obtain ⟨k, len, ang⟩ := a
    obtain ⟨hk, hc⟩ := hc
    simp only at hk hc
    simp only [shapeOf, hk, if_false, Option.map_eq_none_iff] at h
    have hlen : len = none ∨ len = some 0 := by
      cases len with
      | none => exact Or.inl rfl
      | some L =>
        right
        by_cases hL : L = 0
        · rw [hL]
        · simp [arcLength, hL] at h
    have hang : ang = none ∨ ang = some 0 := by
      cases ang with
      | none => exact Or.inl rfl
      | some A =>
        right
        by_cases hA : A = 0
        · rw [hA]
        · rcases hlen with rfl | rfl <;> simp [arcLength, arcLength.viaAngle, hA] at h
    have h0 : (PyFloat.isZero (0:ℝ) : Bool) = true := by simp
    rcases hlen with rfl | rfl <;> rcases hang with rfl | rfl <;>
      simp [Geom.getStartData, Arc.getStartData, Arc.eval, h0]
    exact hc ⟨rfl, rfl⟩
  | poly g =>
    left
    have ht : polyEnd g = none := by
      cases ht : polyEnd g with
      | none => rfl
      | some t => simp [shapeOf, ht] at h
    unfold polyEnd at ht
    by_cases hn : g.prange = "normalized"
    · simp [hn] at ht
    · simp only [hn, if_false] at ht
      exact ⟨.typeError, .poly g, by
        simp [Geom.getStartData, ParamPoly3.getStartData, ParamPoly3.param, hn, ht]⟩

end Pyodrx
