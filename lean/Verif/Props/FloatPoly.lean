import Verif.Proofs.FloatPoly
import Verif.Props.FloatSpiral
import Verif.Props.Geometry

/-! # C84: ParamPoly3 in floating point arithmetic -/

namespace Pyodrx.Props
open Pyodrx Pyodrx.Spec PyFloat

variable {R : Rounding}

theorem poly_end_near {a : ℝ} (ha : ArctanAccurate R a) (g : ParamPoly3 (Fl R)) (t : Fl R) (p : Pose (Fl R)) :
    PolyEndsNearly R.u a g t.val (real p) (p.x +. g.u t *. cos p.h -. sin p.h *. g.v t).val
      (p.y +. g.u t *. sin p.h +. cos p.h *. g.v t).val (p.h +. g.tangent t).val True := by
  obtain ⟨h1, h2⟩ := poly_position_near g t p
  have er : (polyEndpoint g t.val (real p)).re = p.x.val +
      cubic g.au.val g.bu.val g.cu.val g.du.val t.val * Real.cos p.h.val -
      Real.sin p.h.val * cubic g.av.val g.bv.val g.cv.val g.dv.val t.val := by
    simp only [polyEndpoint, real, Complex.add_re, Complex.mul_re, Complex.exp_ofReal_mul_I_re, Complex.exp_ofReal_mul_I_im]
    ring
  have ei : (polyEndpoint g t.val (real p)).im = p.y.val +
      cubic g.au.val g.bu.val g.cu.val g.du.val t.val * Real.sin p.h.val +
      Real.cos p.h.val * cubic g.av.val g.bv.val g.cv.val g.dv.val t.val := by
    simp only [polyEndpoint, real, Complex.add_im, Complex.mul_im, Complex.exp_ofReal_mul_I_re, Complex.exp_ofReal_mul_I_im]
    ring
  refine ⟨?_, ?_, ?_⟩
  · rw [er]; exact h1
  · rw [ei]; exact h2
  · intro _ hw
    exact poly_heading_near ha g t p.h (polyTangent g t.val) (by simp only [polyTangent, deriv_cubic]) hw

theorem Twice.near_poly {a : ℝ} (ha : ArctanAccurate R a) {p q : Pose (Fl R)} {c : Geom (Fl R)} {L l : Fl R}
    {g : ParamPoly3 (Fl R)} (hk : polyOf c = some g) (h : Twice p c (some L) q l) :
    PolyEndsNearly R.u a g (finalParam g L) (real p) q.x.val q.y.val q.h.val True := by
  obtain ⟨q', c', c'', h1, h2⟩ := h
  cases c with
  | line g => cases hk
  | arc g => cases hk
  | spiral g => cases hk
  | poly g0 =>
    cases hk
    unfold Geom.getEndData at h1
    simp only at h1
    split at h1
    swap
    · cases h1
    rename_i r g' he
    cases h1
    unfold Geom.getEndData at h2
    simp only at h2
    split at h2
    swap
    · cases h2
    rename_i r' g'' he'
    cases h2
    unfold ParamPoly3.getEndData at he he'
    split at he
    · cases he
    rename_i t len1 hp1
    cases he
    split at he'
    · cases he'
    rename_i t' len2 hp2
    cases he'
    unfold ParamPoly3.param at hp1 hp2
    by_cases hn : g0.prange = "normalized"
    · rw [if_pos (by exact hn)] at hp2
      cases hp2
      have e : finalParam { g0 with length := none } L = (ofInt 1 : Fl R).val := by
        rw [finalParam, if_pos (by exact hn)]; exact R.ofInt_one.symm
      rw [e]
      exact poly_end_near ha { g0 with length := none } (ofInt 1) p
    · rw [if_neg hn] at hp1
      rw [if_neg (by exact hn)] at hp2
      cases hgl : g0.length with
      | none => rw [hgl] at hp1; cases hp1
      | some L0 =>
        rw [hgl] at hp1
        cases hp1
        cases hp2
        have e : finalParam { g0 with length := none } L = L.val := by rw [finalParam, if_neg (by exact hn)]
        rw [e]
        exact poly_end_near ha { g0 with length := none } L p

/-- Evaluation keeps the coefficients. -/
def SamePoly (geoms : Store (Geom (Fl R))) (r : Nat) (c : Geom (Fl R)) : Prop := polyOf c = polyOf (geoms.cell r)

theorem kept_poly (geoms : Store (Geom (Fl R))) : Kept (SamePoly geoms) := by
  intro r c p v c' h2 he
  have := getEndData_kind he
  cases c with
  | line l => simp only at this; subst this; exact h2
  | spiral l => simp only at this; subst this; exact h2
  | arc a => obtain ⟨a', rfl, -⟩ := this; exact h2
  | poly g => obtain ⟨len, rfl⟩ := this; exact h2

/-- C84: consecutive geometries fit after a ParamPoly3: a geometry starts at the exact end of the polynomial curve that was
written before it, up to rounding errors (and, unless headings were given, in the direction of its tangent). -/
theorem C84_gap (a : ℝ) (ha : ArctanAccurate R a) (x y h : Option (Fl R)) (pv : PlanView (Fl R))
    (hpv : PlanView.new x y h = .ok pv) (calls : List (Nat × Option (Fl R))) (geoms : Store (Geom (Fl R)))
    (st : PVState (Fl R)) (hadj : PlanView.adjustGeometries false ⟨addEach pv calls, geoms⟩ = .ok () st)
    (i : Nat) (g g' : AdjGeom (Fl R)) (hg : st.pv.adjGeoms[i]? = some g) (hg' : st.pv.adjGeoms[i + 1]? = some g')
    (poly : ParamPoly3 (Fl R)) (hk : polyOf (st.geoms.cell g.geom) = some poly) (L : Fl R) (hL : g.length = some L) :
    PolyEndsNearly R.u a poly (finalParam poly L) (written g) g'.x.val g'.y.val g'.heading.val
      (∀ c ∈ calls, c.2 = none) := by
  obtain ⟨n1, n2, n3, n4, n5⟩ := newFl_eq x y h pv hpv
  rw [addEach_eq] at hadj
  simp only [n1, n2, List.nil_append] at hadj
  obtain ⟨S, P, Q, len, l, c, hE, -, -, -, -, -, hs, hK⟩ :=
    adjust_forward_calls (kept_poly geoms) hadj (fun j => rfl)
  simp only [n3, List.nil_append, List.length_map] at hE hs
  rw [hE] at hg hg'
  have hi : i + 1 < calls.length := by
    have := (List.getElem?_eq_some_iff.mp hg').1; simpa using this
  rw [List.getElem?_eq_getElem (by simp; omega)] at hg
  rw [List.getElem?_eq_getElem (by simp; omega)] at hg'
  simp only [List.getElem_mapIdx, List.getElem_map, Option.some.injEq] at hg hg'
  subst hg hg'
  simp only at hL hk
  obtain ⟨k3, -, -, -, -, ht⟩ := hs i (by omega)
  obtain ⟨-, j1, j2, j3, -, -⟩ := hs (i + 1) hi
  rw [hL] at ht
  have hk' : polyOf (c i) = some poly := by
    have e := hK ((calls.map (·.1))[i]'(by simp; omega))
    unfold SamePoly at e k3
    rw [k3, ← e]; simpa using hk
  have := Twice.near_poly ha hk' ht
  refine ⟨?_, ?_, ?_⟩
  · simp only [j1]; exact this.1
  · simp only [j2]; exact this.2.1
  · intro hno
    simp only [j3 (by rw [List.filterMap_eq_nil_iff]; exact hno)]
    exact this.2.2 trivial

/-- C84: the end of the planview is the exact end of its last polynomial curve, up to rounding errors. -/
theorem C84_end (a : ℝ) (ha : ArctanAccurate R a) (x y h : Option (Fl R)) (pv : PlanView (Fl R))
    (hpv : PlanView.new x y h = .ok pv) (calls : List (Nat × Option (Fl R))) (geoms : Store (Geom (Fl R)))
    (st : PVState (Fl R)) (hadj : PlanView.adjustGeometries false ⟨addEach pv calls, geoms⟩ = .ok () st)
    (g : AdjGeom (Fl R)) (hg : st.pv.adjGeoms.getLast? = some g)
    (poly : ParamPoly3 (Fl R)) (hk : polyOf (st.geoms.cell g.geom) = some poly) (L : Fl R) (hL : g.length = some L) :
    ∃ q, st.pv.stop = some q ∧
      PolyEndsNearly R.u a poly (finalParam poly L) (written g) q.x.val q.y.val q.h.val True := by
  obtain ⟨n1, n2, n3, n4, n5⟩ := newFl_eq x y h pv hpv
  rw [addEach_eq] at hadj
  simp only [n1, n2, List.nil_append] at hadj
  obtain ⟨S, P, Q, len, l, c, hE, -, -, -, -, hq, hs, hK⟩ :=
    adjust_forward_calls (kept_poly geoms) hadj (fun j => rfl)
  simp only [n3, List.nil_append, List.length_map] at hE hs hq
  rw [hE, List.getLast?_eq_getElem?] at hg
  have hi := (List.getElem?_eq_some_iff.mp hg).1
  rw [List.getElem?_eq_getElem hi] at hg
  simp only [List.length_mapIdx, List.length_map] at hi hg
  simp only [List.getElem_mapIdx, List.getElem_map, Option.some.injEq] at hg
  subst hg
  simp only at hL hk
  obtain ⟨k3, -, -, -, -, ht⟩ := hs _ hi
  rw [hL] at ht
  refine ⟨_, hq, ?_⟩
  have hk' : polyOf (c (calls.length - 1)) = some poly := by
    have e := hK ((calls.map (·.1))[calls.length - 1]'(by simp; omega))
    unfold SamePoly at e k3
    rw [k3, ← e]; simpa using hk
  have := Twice.near_poly ha hk' ht
  rwa [Nat.sub_add_cancel (by omega)] at this

/-- The hypotheses: doubles, a line of length 2 and the polynomial curve `(t, t²)` for `0 ≤ t ≤ 1`; a road through line,
curve, line. The curve has a tangent at its end. -/
example : ∃ (geoms : Store (Geom (Fl double))) (pv : PlanView (Fl double)) (st : PVState (Fl double))
      (poly : ParamPoly3 (Fl double)),
    ArctanAccurate double 4 ∧ PlanView.new none none none = .ok pv ∧
    PlanView.adjustGeometries false ⟨addEach pv [(0, none), (1, none), (0, none)], geoms⟩ = .ok () st ∧
    polyOf (geoms.cell 1) = some poly ∧ polyTangent poly 1 = ⟨1, 2⟩ := by
  let P : ParamPoly3 (Fl double) :=
    ⟨ofInt 0, ofInt 1, ofInt 0, ofInt 0, ofInt 0, ofInt 0, ofInt 1, ofInt 0, "normalized", none⟩
  let geoms : Store (Geom (Fl double)) := ⟨fun r => if r = 0 then .line ⟨ofInt 2⟩ else .poly P, 2⟩
  have h0 : (ofInt 0 : Fl double).val = 0 := Rounding.ofInt_zero _
  have h1 : (ofInt 1 : Fl double).val = 1 := Rounding.ofInt_one _
  obtain ⟨pv, hpv⟩ := (C10_succeeds_iff (F := Fl double) none none none).mpr (by simp)
  obtain ⟨st, hst⟩ := C67_succeeds none none none pv hpv [(0, none), (1, none), (0, none)] (.inl (by simp)) geoms (by
    rintro ⟨r, -⟩ -
    by_cases h0 : r = 0
    · simp [geoms, h0, Spec.Usable]
    · simp [geoms, h0, Spec.Usable, P])
  refine ⟨geoms, pv, st, P, ⟨by norm_num, fun y x => ?_⟩, hpv, hst, rfl, ?_⟩
  · refine (double.err _).trans (mul_le_mul_of_nonneg_left ?_ double.u_nonneg)
    refine (Complex.abs_arg_le_pi _).trans ?_
    linarith [Real.pi_lt_d2]
  · simp only [polyTangent, deriv_cubic, P, h0, h1]
    norm_num

end Pyodrx.Props
