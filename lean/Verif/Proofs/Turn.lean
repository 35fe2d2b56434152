import Verif.Spec.JunctionProgram
import Verif.Props.PlanView

/-! # The connecting roads of a junction are symmetric -/

namespace Pyodrx
open Spec

/-- Driving the other way round. -/
theorem ofHeading_rev (θ ψ : ℝ → ℝ) (L : ℝ) (hθ : Continuous θ) (h : ∀ s, ψ s = θ L - θ (L - s)) :
    (Shape.ofHeading ψ L).dx = Real.cos (θ L) * (Shape.ofHeading θ L).dx +
        Real.sin (θ L) * (Shape.ofHeading θ L).dy ∧
    (Shape.ofHeading ψ L).dy = Real.sin (θ L) * (Shape.ofHeading θ L).dx -
        Real.cos (θ L) * (Shape.ofHeading θ L).dy := by
  have e : ∀ f : ℝ → ℝ, ∫ s in (0:ℝ)..L, f (L - s) = ∫ s in (0:ℝ)..L, f s := by
    intro f
    rw [intervalIntegral.integral_comp_sub_left]; simp
  have hc : ∀ k : ℝ, IntervalIntegrable (fun s => k * Real.cos (θ s)) MeasureTheory.volume 0 L := fun k =>
    (continuous_const.mul (Real.continuous_cos.comp hθ)).intervalIntegrable _ _
  have hs : ∀ k : ℝ, IntervalIntegrable (fun s => k * Real.sin (θ s)) MeasureTheory.volume 0 L := fun k =>
    (continuous_const.mul (Real.continuous_sin.comp hθ)).intervalIntegrable _ _
  constructor
  · simp only [Shape.ofHeading, h]
    rw [e (fun s => Real.cos (θ L - θ s))]
    simp only [Real.cos_sub]
    rw [intervalIntegral.integral_add (hc _) (hs _), intervalIntegral.integral_const_mul,
      intervalIntegral.integral_const_mul]
  · simp only [Shape.ofHeading, h]
    rw [e (fun s => Real.sin (θ L - θ s))]
    simp only [Real.sin_sub]
    rw [intervalIntegral.integral_sub (hc _) (hs _), intervalIntegral.integral_const_mul,
      intervalIntegral.integral_const_mul]

/-- The mirror image. -/
def Shape.mirror (σ : ℝ) (sh : Shape) : Shape := ⟨sh.dx, σ * sh.dy, σ * sh.dh, sh.len⟩

theorem ofHeading_mirror (σ : ℝ) (hσ : σ = 1 ∨ σ = -1) (θ ψ : ℝ → ℝ) (L : ℝ)
    (h : ∀ s, ψ s = σ * θ s) : Shape.ofHeading ψ L = Shape.mirror σ (Shape.ofHeading θ L) := by
  rcases hσ with rfl | rfl <;> simp [Shape.ofHeading, Shape.mirror, h]

/-- Three pieces of which the third is the first the other way round, and the second is symmetric:
the displacement of the whole is symmetric. -/
theorem finish_symmetric {a b c : Shape} {ra rb rc : Nat} (h1 : c.dh = a.dh)
    (h2 : c.dx = Real.cos a.dh * a.dx + Real.sin a.dh * a.dy)
    (h3 : c.dy = Real.sin a.dh * a.dx - Real.cos a.dh * a.dy)
    (h4 : b.dx = Real.cos b.dh * b.dx + Real.sin b.dh * b.dy)
    (h5 : b.dy = Real.sin b.dh * b.dx - Real.cos b.dh * b.dy) :
    (finish ⟨0, 0, 0⟩ [⟨ra, a, none⟩, ⟨rb, b, none⟩, ⟨rc, c, none⟩]).y *
      (1 + Real.cos (2 * a.dh + b.dh)) =
    (finish ⟨0, 0, 0⟩ [⟨ra, a, none⟩, ⟨rb, b, none⟩, ⟨rc, c, none⟩]).x *
      Real.sin (2 * a.dh + b.dh) := by
  obtain ⟨v, hv⟩ : ∃ v, v = a.dh + b.dh := ⟨_, rfl⟩
  have hb : b.dh = v - a.dh := by rw [hv]; ring
  have ht : 2 * a.dh + b.dh = a.dh + v := by rw [hv]; ring
  have hP := Real.sin_sq_add_cos_sq (a.dh + v)
  rw [ht]
  simp only [finish, Piece.start, Shape.place, h2, h3, Real.cos_zero, Real.sin_zero, zero_add, ← hv]
  rw [hb, Real.cos_sub, Real.sin_sub] at h4 h5
  rw [Real.cos_add, Real.sin_add] at hP ⊢
  linear_combination Real.sin a.dh * h4 + Real.cos a.dh * h5 - a.dy * hP

theorem leftTurn_symmetric {r sp ap a : ℝ} (hr : 0 < r) (hsp : 0 < sp) (ha : 0 < a) :
    (finish ⟨0, 0, 0⟩ (leftTurn r sp ap a)).h = a * turnFactor r sp ap ∧
    (finish ⟨0, 0, 0⟩ (leftTurn r sp ap a)).y * (1 + Real.cos (a * turnFactor r sp ap)) =
    (finish ⟨0, 0, 0⟩ (leftTurn r sp ap a)).x * Real.sin (a * turnFactor r sp ap) := by
  have hL : 2 * (a * sp) * r ≠ 0 := by positivity
  have hh : (finish ⟨0, 0, 0⟩ (leftTurn r sp ap a)).h = a * turnFactor r sp ap := by
    simp only [leftTurn, finish, Piece.start, Shape.place, Shape.ofHeading, turnFactor, startCurvature]
    field_simp
    ring
  refine ⟨hh, ?_⟩
  have hr1 := ofHeading_rev
    (fun s => startCurvature * s + (1 / r - startCurvature) / (2 * (a * sp) * r) * (s ^ 2 / 2))
    (fun s => 1 / r * s + (startCurvature - 1 / r) / (2 * (a * sp) * r) * (s ^ 2 / 2))
    (2 * (a * sp) * r) (by fun_prop) (by intro s; field_simp; ring)
  have hr2 := ofHeading_rev (fun s => 1 / r * s) (fun s => 1 / r * s) (a * ap * r) (by fun_prop)
    (by intro s; ring)
  have key := finish_symmetric (ra := 0) (rb := 0) (rc := 0)
    (a := .ofHeading (fun s => startCurvature * s +
      (1 / r - startCurvature) / (2 * (a * sp) * r) * (s ^ 2 / 2)) (2 * (a * sp) * r))
    (b := .ofHeading (fun s => 1 / r * s) (a * ap * r))
    (c := .ofHeading (fun s => 1 / r * s +
      (startCurvature - 1 / r) / (2 * (a * sp) * r) * (s ^ 2 / 2)) (2 * (a * sp) * r))
    (by simp only [Shape.ofHeading]; field_simp; ring) hr1.1 hr1.2 hr2.1 hr2.2
  have e : 2 * (Shape.ofHeading (fun s => startCurvature * s +
      (1 / r - startCurvature) / (2 * (a * sp) * r) * (s ^ 2 / 2)) (2 * (a * sp) * r)).dh +
      (Shape.ofHeading (fun s => 1 / r * s) (a * ap * r)).dh = a * turnFactor r sp ap := by
    simp only [Shape.ofHeading, turnFactor, startCurvature]
    field_simp
    ring
  rw [e] at key
  exact key

/-- Mirroring all pieces mirrors the end. -/
theorem finish_mirror (σ : ℝ) (hσ : σ = 1 ∨ σ = -1) (pcs : List Piece)
    (hn : ∀ pc ∈ pcs, pc.heading = none) : ∀ p : Pose ℝ,
    finish ⟨p.x, σ * p.y, σ * p.h⟩ (pcs.map fun pc => ⟨pc.ref, Shape.mirror σ pc.shape, none⟩) =
      ⟨(finish p pcs).x, σ * (finish p pcs).y, σ * (finish p pcs).h⟩ := by
  induction pcs with
  | nil => intro p; rfl
  | cons pc pcs ih =>
    intro p
    simp only [List.map_cons, finish]
    have h0 : pc.start p = p := by simp [Piece.start, hn pc (by simp)]
    rw [h0, ← ih (fun x hx => hn x (by simp [hx]))]
    congr 1
    rcases hσ with rfl | rfl <;> simp [Piece.start, Shape.place, Shape.mirror] <;> ring_nf <;> simp

/-- The references do not matter. -/
theorem finish_shapes : ∀ (a b : List Piece), a.map (fun pc => (pc.shape, pc.heading)) =
    b.map (fun pc => (pc.shape, pc.heading)) → ∀ p, finish p a = finish p b := by
  intro a
  induction a with
  | nil => intro b h p; cases b with
    | nil => rfl
    | cons _ _ => simp at h
  | cons x a ih =>
    intro b h p
    cases b with
    | nil => simp at h
    | cons y b =>
      simp only [List.map_cons, List.cons.injEq, Prod.mk.injEq] at h
      obtain ⟨⟨h1, h2⟩, h3⟩ := h
      simp only [finish, Piece.start, h1, h2]
      exact ih b h3 _

/-- A road that is symmetric seen from the origin goes round a corner from everywhere. -/
theorem finish_corner {pcs : List Piece} (hn : ∀ pc ∈ pcs, pc.heading = none) {t τ : ℝ}
    (h : finish ⟨0, 0, 0⟩ pcs = ⟨t * (1 + Real.cos τ), t * Real.sin τ, τ⟩) (p : Pose ℝ) :
    finish p pcs = corner t τ p := by
  have h1 := (Props.layout_move p.h p.x p.y pcs hn 0 ⟨0, 0, 0⟩).2
  have h2 : move p.h p.x p.y ⟨0, 0, 0⟩ = p := by simp [move]
  rw [h2, h] at h1
  rw [h1]
  apply Pose.ext' <;> simp only [move, corner, Real.cos_add, Real.sin_add] <;> ring

end Pyodrx
