import Verif.Spec.Read
import Verif.Spec.Shape

/-! # Specification: the reference line described by a `<planView>` -/

namespace Pyodrx.Spec

/-- The shape that OpenDRIVE prescribes for the child of a `<geometry>` of the given length: a
straight line; a curvature changing linearly from `curvStart` to `curvEnd` over the length; a
constant curvature; a parametric cubic, whose parameter runs from 0 to 1 or to the length. -/
noncomputable def RCurve.shape (len : ℝ) : RCurve ℝ → Shape
  | .line => .ofHeading (fun _ => 0) len
  | .spiral k0 k1 => .ofHeading (fun s => k0 * s + (k1 - k0) / len * (s ^ 2 / 2)) len
  | .arc k => .ofHeading (fun s => k * s) len
  | .paramPoly3 aU bU cU dU aV bV cV dV normalized =>
    let t := if normalized then 1 else len
    ⟨aU + bU * t + cU * t ^ 2 + dU * t ^ 3, aV + bV * t + cV * t ^ 2 + dV * t ^ 3,
     Complex.arg ⟨bU + 2 * cU * t + 3 * dU * t ^ 2, bV + 2 * cV * t + 3 * dV * t ^ 2⟩, len⟩

/-- The start of a geometry. -/
def RGeometry.start (g : RGeometry ℝ) : Pose ℝ := ⟨g.x, g.y, g.hdg⟩

/-- The end of a geometry. -/
noncomputable def RGeometry.stop (g : RGeometry ℝ) : Pose ℝ :=
  (g.curve.shape g.length).place g.start

/-- The geometries form one reference line: the first starts at `p` with s-coordinate `s`; each next
one starts where the previous one ends, at an s-coordinate larger by its length; the last one ends
at `q`, at s-coordinate `e`. -/
def Chained (s : ℝ) (p : Pose ℝ) : List (RGeometry ℝ) → ℝ → Pose ℝ → Prop
  | [], e, q => e = s ∧ q = p
  | g :: gs, e, q => g.s = s ∧ g.start = p ∧ Chained (s + g.length) g.stop gs e q

/-- As `Chained`, but each geometry may start with a different heading (a kink). -/
def ChainedPositions (s : ℝ) (x y : ℝ) : List (RGeometry ℝ) → ℝ → ℝ → ℝ → Prop
  | [], e, x', y' => e = s ∧ x' = x ∧ y' = y
  | g :: gs, e, x', y' => g.s = s ∧ g.x = x ∧ g.y = y ∧
      ChainedPositions (s + g.length) g.stop.x g.stop.y gs e x' y'

end Pyodrx.Spec
