import Verif.Props.PolyBackward
import Verif.Props.PlanView

/-! # C12: a road with a ParamPoly3 that is placed from its end -/

namespace Pyodrx.Props
open Pyodrx Pyodrx.Spec PyFloat

theorem poly_end (g : ParamPoly3 ℝ) (p l : ℝ) (hp : g.param = .ok (p, some l)) (P : Pose ℝ) :
    g.getEndData P = .ok (⟨P.x + g.u p * Real.cos P.h - Real.sin P.h * g.v p, P.y + g.u p * Real.sin P.h + Real.cos P.h * g.v p,
      P.h + g.tangent p⟩, some l) { g with length := some l } := by
  unfold ParamPoly3.getEndData; simp only [hp]; rfl

theorem poly_start (g : ParamPoly3 ℝ) (p l : ℝ) (hp : g.param = .ok (p, some l)) (P : Pose ℝ) :
    g.getStartData P = .ok (⟨P.x - (g.u p * Real.cos P.h - Real.sin P.h * g.v p), P.y - (g.u p * Real.sin P.h + Real.cos P.h * g.v p),
      P.h - g.tangent p⟩, some l) { g with length := some l } := by
  unfold ParamPoly3.getStartData; simp only [hp]; rfl

theorem poly_param_again (g : ParamPoly3 ℝ) (p l : ℝ) (hp : g.param = .ok (p, some l)) :
    ({ g with length := some l } : ParamPoly3 ℝ).param = .ok (p, some l) := by
  unfold ParamPoly3.param at hp ⊢
  split at hp
  · next hr =>
    cases hp
    simp only [hr, if_true]
    rfl
  · next hr =>
    cases hl : g.length with
    | none => simp [hl] at hp
    | some x => simp only [hl] at hp; cases hp; simp [hr]

/-- **C12** (finding, the counterpart for ParamPoly3): a road of one ParamPoly3 with a length (or a normalized range) that is placed from its end
begins with the right heading, so that following the curve from the start that is written one arrives in the right direction, but not at the
right point: the squared distance is twice that from start to end, times one plus the cosine of the turn of the curve. -/
theorem C12_poly (pv : PlanView ℝ) (r : Nat) (hraw : pv.raw = [r]) (hadj : pv.adjGeoms = []) (geoms : Store (Geom ℝ)) (g : ParamPoly3 ℝ)
    (hg : geoms.cell r = .poly g) (hL : g.prange = "normalized" ∨ g.length ≠ none) :
    ∃ st P E l g', PlanView.adjustGeometries true ⟨pv, geoms⟩ = .ok () st ∧ st.pv.start = some P ∧ st.pv.stop = some (turned pv.present) ∧
      st.pv.adjGeoms = [⟨some 0, P.x, P.y, P.h, some l, r⟩] ∧ Geom.getEndData P (st.geoms.cell r) = .ok (E, some l) g' ∧
      E.h = (turned pv.present).h ∧
      (E.x - pv.present.x) ^ 2 + (E.y - pv.present.y) ^ 2 = 2 * ((E.x - P.x) ^ 2 + (E.y - P.y) ^ 2) * (1 + Real.cos (E.h - P.h)) := by
  obtain ⟨p, l, hp⟩ : ∃ p l, g.param = .ok (p, some l) := by
    unfold ParamPoly3.param
    split
    · exact ⟨_, _, rfl⟩
    · next hr =>
      cases hl : g.length with
      | none => exact absurd hl (hL.resolve_left hr)
      | some x => exact ⟨_, _, rfl⟩
  obtain ⟨T, s0, fx, st0, sp0, raw, adj, ov, ad⟩ := pv
  simp only at hraw hadj
  subst hraw hadj
  have hp1 := poly_param_again g p l hp
  let g1 : ParamPoly3 ℝ := { g with length := some l }
  let B : Pose ℝ := ⟨T.x - (g.u p * Real.cos T.h - Real.sin T.h * g.v p), T.y - (g.u p * Real.sin T.h + Real.cos T.h * g.v p), T.h - g.tangent p⟩
  let P : Pose ℝ := ⟨B.x, B.y, B.h + Real.pi⟩
  let geoms' := (geoms.put r (.poly g1)).put r (.poly g1)
  have hcell : (geoms.put r (.poly g1)).cell r = .poly g1 := by simp
  have hcell' : geoms'.cell r = .poly g1 := by simp [geoms']
  have run : PlanView.adjustGeometries true ⟨⟨T, s0, fx, st0, sp0, [r], [], ov, ad⟩, geoms⟩ =
      .ok () ⟨⟨B, 0 + l, fx, some P, some (turned T), [r], [⟨some 0, P.x, P.y, P.h, some l, r⟩], ov, true⟩, geoms'⟩ := by
    have hE := poly_end g p l hp T
    have hS : g1.getStartData T = .ok (B, some l) g1 := poly_start g1 p l hp1 T
    simp [PlanView.adjustGeometries, PlanView.bwdLoop, PlanView.bwdStep, AdjGeom.new, callEnd, callStart, bind_of_ok, get_eq, modifyPV,
      hg, Geom.getEndData, Geom.getStartData, hE, hS, bind, EStateM.bind, pure, EStateM.pure, get, EStateM.get, getThe, MonadStateOf.get, hcell,
      allSome, orRaise, PlanView.sLoop, setLastS, turned, g1]
    exact ⟨⟨rfl, rfl, rfl, rfl⟩, rfl⟩
  have hend := poly_end g1 p l hp1 P
  refine ⟨_, P, _, l, _, run, rfl, rfl, rfl, by simp only [Geom.getEndData, hcell', hend]; rfl, ?_, ?_⟩
  · show P.h + g.tangent p = T.h + Real.pi
    simp only [P, B]; ring
  · show (P.x + g.u p * Real.cos P.h - Real.sin P.h * g.v p - T.x) ^ 2 + (P.y + g.u p * Real.sin P.h + Real.cos P.h * g.v p - T.y) ^ 2 =
      2 * ((P.x + g.u p * Real.cos P.h - Real.sin P.h * g.v p - P.x) ^ 2 + (P.y + g.u p * Real.sin P.h + Real.cos P.h * g.v p - P.y) ^ 2) *
        (1 + Real.cos (P.h + g.tangent p - P.h))
    have c := Real.cos_sub T.h (T.h - g.tangent p)
    rw [sub_sub_cancel] at c
    have s1 := Real.sin_sq_add_cos_sq T.h
    have s2 := Real.sin_sq_add_cos_sq (T.h - g.tangent p)
    have px : P.x = T.x - (g.u p * Real.cos T.h - Real.sin T.h * g.v p) := rfl
    have py : P.y = T.y - (g.u p * Real.sin T.h + Real.cos T.h * g.v p) := rfl
    have hc : Real.cos P.h = -Real.cos (T.h - g.tangent p) := Real.cos_add_pi _
    have hs : Real.sin P.h = -Real.sin (T.h - g.tangent p) := Real.sin_add_pi _
    have n1 : (P.x + g.u p * Real.cos P.h - Real.sin P.h * g.v p - P.x) ^ 2 + (P.y + g.u p * Real.sin P.h + Real.cos P.h * g.v p - P.y) ^ 2 =
        g.u p ^ 2 + g.v p ^ 2 := by
      rw [hc, hs]; linear_combination (g.u p ^ 2 + g.v p ^ 2) * s2
    rw [n1, show P.h + g.tangent p - P.h = g.tangent p by ring, c, hc, hs, px, py]
    linear_combination (g.u p ^ 2 + g.v p ^ 2) * s1 + (g.u p ^ 2 + g.v p ^ 2) * s2

/-- The hypotheses hold for a straight ParamPoly3 of length 1 that is to end at (0, 0) in the direction of π. -/
example : ∃ st P E l g', PlanView.adjustGeometries (F := ℝ) true ⟨⟨⟨0, 0, 0⟩, 0, false, none, none, [0], [], [], false⟩,
      ⟨fun _ => .poly ⟨0, 1, 0, 0, 0, 0, 0, 0, "arcLength", some 1⟩, 1⟩⟩ = .ok () st ∧ st.pv.start = some P ∧
    Geom.getEndData P (st.geoms.cell 0) = .ok (E, some l) g' ∧ E.h = 0 + Real.pi ∧
    (E.x - 0) ^ 2 + (E.y - 0) ^ 2 = 2 * ((E.x - P.x) ^ 2 + (E.y - P.y) ^ 2) * (1 + Real.cos (E.h - P.h)) := by
  obtain ⟨st, P, E, l, g', h1, h2, -, -, h3, h4, h5⟩ := C12_poly ⟨⟨0, 0, 0⟩, 0, false, none, none, [0], [], [], false⟩ 0 rfl rfl
    ⟨fun _ => .poly ⟨0, 1, 0, 0, 0, 0, 0, 0, "arcLength", some 1⟩, 1⟩ _ rfl (.inr (by simp))
  exact ⟨st, P, E, l, g', h1, h2, h3, h4, h5⟩

end Pyodrx.Props
