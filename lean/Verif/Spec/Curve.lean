import Verif.PyReal

/-! # Specification vocabulary for plane curves (independent of the model's functions) -/

namespace Pyodrx.Spec

/-- The pose reached from `p` by driving the distance `L` with heading `θ s` after the distance `s`:
the position is the start plus the integral of the unit tangent, the heading is `θ L`. -/
noncomputable def drive (θ : ℝ → ℝ) (L : ℝ) (p : Pose ℝ) : Pose ℝ :=
  ⟨p.x + ∫ s in (0:ℝ)..L, Real.cos (θ s), p.y + ∫ s in (0:ℝ)..L, Real.sin (θ s), θ L⟩

/-- Turn around on the spot. -/
noncomputable def turned (p : Pose ℝ) : Pose ℝ := ⟨p.x, p.y, p.h + Real.pi⟩

/-- Two headings are the same direction. -/
def SameHeading (a b : ℝ) : Prop := ∃ n : ℤ, a = b + 2 * Real.pi * n

/-- Same position, same direction. -/
def SamePose (p q : Pose ℝ) : Prop := p.x = q.x ∧ p.y = q.y ∧ SameHeading p.h q.h

/-- A cubic polynomial. -/
noncomputable def cubic (a b c d t : ℝ) : ℝ := a + b * t + c * t ^ 2 + d * t ^ 3

end Pyodrx.Spec
