import Verif.Props.Geometry

/-! # C09: `ParamPoly3.get_start_data` is not the inverse of `get_end_data` -/

namespace Pyodrx.Props
open Pyodrx Pyodrx.Spec PyFloat

/-- **C09** (finding): asked at the end of a ParamPoly3 (with the heading turned around, as `adjust_geometries(from_end=True)` does) for its start,
`get_start_data` returns the right heading, but a wrong point: the squared distance to the start is twice that from start to end, times
one plus the cosine of the turn of the curve. -/
theorem C09_distance (g g' : ParamPoly3 ℝ) (P E : Pose ℝ) (l : Option ℝ) (h : g.getEndData P = .ok (E, l) g') :
    ∃ B g'', g'.getStartData (turned E) = .ok (B, l) g'' ∧ B.h = P.h + Real.pi ∧
      (B.x - P.x) ^ 2 + (B.y - P.y) ^ 2 = 2 * ((E.x - P.x) ^ 2 + (E.y - P.y) ^ 2) * (1 + Real.cos (E.h - P.h)) ∧
      ((B.x = P.x ∧ B.y = P.y) ↔ (E.x = P.x ∧ E.y = P.y) ∨ Real.cos (E.h - P.h) = -1) := by
  unfold ParamPoly3.getEndData at h
  cases hp : g.param with
  | error e => simp [hp] at h
  | ok pl =>
    obtain ⟨p, len⟩ := pl
    simp only [hp, EStateM.Result.ok.injEq, Prod.mk.injEq] at h
    obtain ⟨⟨hE, hlen⟩, hg⟩ := h
    subst hlen
    subst hg
    have hp' : ({ g with length := len } : ParamPoly3 ℝ).param = .ok (p, len) := by
      unfold ParamPoly3.param at hp ⊢
      split at hp
      · next hr =>
        cases hp
        simp only [hr, if_true]
        rfl
      · next hr =>
        cases hl : g.length with
        | none => simp [hl] at hp
        | some x => simp only [hl] at hp; cases hp; simp [hr]
    have hu : ({ g with length := len } : ParamPoly3 ℝ).u p = g.u p := rfl
    have hv : ({ g with length := len } : ParamPoly3 ℝ).v p = g.v p := rfl
    have ht : ({ g with length := len } : ParamPoly3 ℝ).tangent p = g.tangent p := rfl
    have hE' : E = ⟨P.x + g.u p * Real.cos P.h - Real.sin P.h * g.v p, P.y + g.u p * Real.sin P.h + Real.cos P.h * g.v p, P.h + g.tangent p⟩ := hE.symm
    clear hE
    have hsq : ∀ E B : Pose ℝ, E = ⟨P.x + g.u p * Real.cos P.h - Real.sin P.h * g.v p, P.y + g.u p * Real.sin P.h + Real.cos P.h * g.v p,
          P.h + g.tangent p⟩ → B = ⟨E.x + (g.u p * Real.cos E.h - Real.sin E.h * g.v p), E.y + (g.u p * Real.sin E.h + Real.cos E.h * g.v p), P.h + Real.pi⟩ →
        (B.x - P.x) ^ 2 + (B.y - P.y) ^ 2 = 2 * ((E.x - P.x) ^ 2 + (E.y - P.y) ^ 2) * (1 + Real.cos (E.h - P.h)) := by
      intro E B hE hB
      have c := Real.cos_sub E.h P.h
      have s1 := Real.sin_sq_add_cos_sq E.h
      have s2 := Real.sin_sq_add_cos_sq P.h
      have ex : E.x = P.x + g.u p * Real.cos P.h - Real.sin P.h * g.v p := by rw [hE]
      have ey : E.y = P.y + g.u p * Real.sin P.h + Real.cos P.h * g.v p := by rw [hE]
      have bx : B.x = E.x + (g.u p * Real.cos E.h - Real.sin E.h * g.v p) := by rw [hB]
      have by' : B.y = E.y + (g.u p * Real.sin E.h + Real.cos E.h * g.v p) := by rw [hB]
      have n1 : (E.x - P.x) ^ 2 + (E.y - P.y) ^ 2 = g.u p ^ 2 + g.v p ^ 2 := by
        rw [ex, ey]; linear_combination (g.u p ^ 2 + g.v p ^ 2) * s2
      rw [n1, c, bx, by', ex, ey]
      linear_combination (g.u p ^ 2 + g.v p ^ 2) * s1 + (g.u p ^ 2 + g.v p ^ 2) * s2
    have main : ∀ B : Pose ℝ, (B.x - P.x) ^ 2 + (B.y - P.y) ^ 2 = 2 * ((E.x - P.x) ^ 2 + (E.y - P.y) ^ 2) * (1 + Real.cos (E.h - P.h)) →
        ((B.x = P.x ∧ B.y = P.y) ↔ (E.x = P.x ∧ E.y = P.y) ∨ Real.cos (E.h - P.h) = -1) := by
      intro B hB
      have zero : ∀ a b : ℝ, a ^ 2 + b ^ 2 = 0 ↔ a = 0 ∧ b = 0 := fun a b =>
        ⟨fun h => ⟨by nlinarith [sq_nonneg a, sq_nonneg b], by nlinarith [sq_nonneg a, sq_nonneg b]⟩, fun ⟨h1, h2⟩ => by rw [h1, h2]; ring⟩
      rw [← sub_eq_zero (a := B.x), ← sub_eq_zero (a := B.y), ← zero, hB, mul_eq_zero, mul_eq_zero, zero, sub_eq_zero, sub_eq_zero]
      constructor
      · rintro ((h | h) | h)
        · norm_num at h
        · exact .inl h
        · exact .inr (by linarith)
      · rintro (h | h)
        · exact .inl (.inr h)
        · exact .inr (by linarith)
    have turn : ∀ x, Real.cos (x + Real.pi) = -Real.cos x ∧ Real.sin (x + Real.pi) = -Real.sin x := fun x =>
      ⟨Real.cos_add_pi x, Real.sin_add_pi x⟩
    refine ⟨_, _, by unfold ParamPoly3.getStartData; simp only [hp']; rfl, ?_, ?_⟩
    · simp only [turned, ht, real_add, real_sub, hE']; ring
    · have := hsq E _ hE' rfl
      have k := main _ this
      simp only [turned, ht, hu, hv, real_add, real_sub, real_mul, real_cos, real_sin, (turn _).1, (turn _).2]
      constructor
      · refine Eq.trans ?_ this
        ring
      · refine Iff.trans (Eq.to_iff ?_) k
        congr 2 <;> ring

/-- A straight line of length 1 as a ParamPoly3: asked at its end (1, 0) for its start, it answers with a point at the distance 2 from the
start (0, 0), namely (2, 0). -/
example : ∃ E g' l B g'', (⟨0, 1, 0, 0, 0, 0, 0, 0, "arcLength", some 1⟩ : ParamPoly3 ℝ).getEndData ⟨0, 0, 0⟩ = .ok (E, l) g' ∧ E.x = 1 ∧ E.y = 0 ∧
    g'.getStartData (turned E) = .ok (B, l) g'' ∧ (B.x - 0) ^ 2 + (B.y - 0) ^ 2 = 4 := by
  obtain ⟨E, l, g', h, hx, hy, hh⟩ : ∃ E l g', (⟨0, 1, 0, 0, 0, 0, 0, 0, "arcLength", some 1⟩ : ParamPoly3 ℝ).getEndData ⟨0, 0, 0⟩ = .ok (E, l) g' ∧
      E.x = 1 ∧ E.y = 0 ∧ E.h = 0 := by
    refine ⟨_, _, _, rfl, ?_, ?_, ?_⟩ <;> simp [ParamPoly3.u, ParamPoly3.v, ParamPoly3.tangent, sq, cube]
    exact Complex.arg_ofReal_of_nonneg (x := 1) zero_le_one
  obtain ⟨B, g'', h1, -, h2, -⟩ := C09_distance _ g' ⟨0, 0, 0⟩ E l h
  refine ⟨E, g', l, B, g'', h, hx, hy, h1, ?_⟩
  rw [hx, hy, hh] at h2
  simp at h2 ⊢
  linarith

end Pyodrx.Props
