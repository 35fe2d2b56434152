import Verif.Rounding
import Verif.Spec.Curve
import Verif.Model.PlanView

/-! # Specification: what a reader computes from numbers that were rounded -/

namespace Pyodrx.Spec

variable {R : Rounding}

/-- The number that was written, as a real number. -/
def real (p : Pose (Fl R)) : Pose ℝ := ⟨p.x.val, p.y.val, p.h.val⟩

/-- The start of an emitted geometry. -/
def written (g : AdjGeom (Fl R)) : Pose ℝ := ⟨g.x.val, g.y.val, g.heading.val⟩

/-- The curvature of a line or an arc. -/
noncomputable def curvature : Geom (Fl R) → Option ℝ
  | .line _ => some 0
  | .arc a => some a.curvature.val
  | _ => none

/-- The exact end of a line or arc with curvature `k` and length `L` that starts at `p`. -/
noncomputable def exactEnd (k L : ℝ) (p : Pose ℝ) : Pose ℝ := drive (fun s => p.h + k * s) L p

/-- The radius of an arc; 0 for lines. -/
noncomputable def radius (k : ℝ) : ℝ := if k = 0 then 0 else 1 / |k|

/-- Arcs have a curvature (the constructor of Arc refuses 0). -/
def ArcsCurved (geoms : Store (Geom (Fl R))) : Prop :=
  ∀ r a, geoms.cell r = .arc a → a.curvature.val ≠ 0

end Pyodrx.Spec

namespace Pyodrx.Spec
variable {R : Rounding}

/-- A user's calls `pv.add_geometry(geometry, heading)`, in order. -/
def addEach (pv : PlanView (Fl R)) (calls : List (Nat × Option (Fl R))) : PlanView (Fl R) :=
  calls.foldl (fun pv c => pv.addGeometry c.1 c.2) pv

/-- The object has a length to work with: a number for lines, a nonzero number for spirals, a nonzero length or (without
a length) a nonzero angle for arcs, any length or pRange normalized for polynomials. -/
def Usable : Geom (Fl R) → Prop
  | .line _ => True
  | .spiral s => ∃ l, s.length = some l ∧ l.val ≠ 0
  | .arc a => a.curvature.val ≠ 0 ∧
      ((∃ l, a.length = some l ∧ l.val ≠ 0) ∨ (a.length = none ∧ ∃ t, a.angle = some t ∧ t.val ≠ 0))
  | .poly g => g.prange = "normalized" ∨ g.length.isSome

end Pyodrx.Spec

namespace Pyodrx.Spec

/-- The exact end of a spiral of length `L` whose curvature grows from `k0` to `k1` at a constant rate. -/
noncomputable def spiralEnd (k0 k1 L : ℝ) (p : Pose ℝ) : Pose ℝ :=
  drive (fun s => p.h + k0 * s + (k1 - k0) / L * s ^ 2 / 2) L p

/-- `scipy.special.fresnel` has a relative error of `f` units (its documentation: about 20 for doubles). -/
def FresnelAccurate (R : Rounding) (f : ℝ) : Prop :=
  0 ≤ f ∧ ∀ z : Fl R,
    |(PyFloat.fresnelS z).val - ∫ t in (0:ℝ)..z.val, Real.sin (Real.pi / 2 * t ^ 2)| ≤
      R.u * (f * |∫ t in (0:ℝ)..z.val, Real.sin (Real.pi / 2 * t ^ 2)|) ∧
    |(PyFloat.fresnelC z).val - ∫ t in (0:ℝ)..z.val, Real.cos (Real.pi / 2 * t ^ 2)| ≤
      R.u * (f * |∫ t in (0:ℝ)..z.val, Real.cos (Real.pi / 2 * t ^ 2)|)

/-- The error, in units, of a coordinate `c` of the end of a spiral that starts with heading `h`. The last term is large
for a spiral whose curvature hardly changes: the algorithm is inaccurate there. -/
noncomputable def spiralUnits (f k0 k1 L c h : ℝ) : ℝ :=
  if k1 = k0 then |c| + 6 * |L| + 31 * radius k0
  else |c| + |L| * (2.1 * |h| + 37 + 2.2 * f + 1.1 * |(k1 - k0) * L| +
    (20 + 4.4 * f + 5 * |k0 * L|) * (|k0| / |k1 - k0|))

/-- The curvatures of a spiral. -/
def spiralOf {R : Rounding} : Geom (Fl R) → Option (Fl R × Fl R)
  | .spiral sp => some (sp.curvstart, sp.curvend)
  | _ => none

/-- The coefficients and the range of a ParamPoly3 (without its length, which is computed). -/
def polyOf {R : Rounding} : Geom (Fl R) → Option (ParamPoly3 (Fl R))
  | .poly g => some { g with length := none }
  | _ => none

/-- `np.arctan2` is accurate to `a` units. -/
def ArctanAccurate (R : Rounding) (a : ℝ) : Prop :=
  0 ≤ a ∧ ∀ y x : Fl R, |(PyFloat.arctan2 y x).val - Complex.arg ⟨x.val, y.val⟩| ≤ R.u * a

/-- The sum of the absolute values of the terms of a cubic polynomial and of its derivative. -/
def cubicSize (a b c d t : ℝ) : ℝ := |a| + |b * t| + |c * t ^ 2| + |d * t ^ 3|
@[inherit_doc cubicSize]
def slopeSize (b c d t : ℝ) : ℝ := |b| + |2 * c * t| + |3 * d * t ^ 2|

variable {R : Rounding}

/-- The end of the polynomial curve with the coefficients of `g` and final parameter `t` that starts at `p`. -/
noncomputable def polyEndpoint (g : ParamPoly3 (Fl R)) (t : ℝ) (p : Pose ℝ) : ℂ :=
  ⟨p.x, p.y⟩ + Complex.exp (p.h * Complex.I) *
    ⟨cubic g.au.val g.bu.val g.cu.val g.du.val t, cubic g.av.val g.bv.val g.cv.val g.dv.val t⟩

/-- Its tangent, in the coordinates of the curve. -/
noncomputable def polyTangent (g : ParamPoly3 (Fl R)) (t : ℝ) : ℂ :=
  ⟨deriv (cubic g.au.val g.bu.val g.cu.val g.du.val) t, deriv (cubic g.av.val g.bv.val g.cv.val g.dv.val) t⟩

/-- The final parameter of a written ParamPoly3 of length `L`. -/
noncomputable def finalParam (g : ParamPoly3 (Fl R)) (L : Fl R) : ℝ := if g.prange = "normalized" then 1 else L.val

/-- The pose `(x, y, h)` is the end of the curve that starts at `p`, up to rounding errors: the position, and the direction
`exp(ih)` if the curve has a tangent. -/
def PolyEndsNearly (u a : ℝ) (g : ParamPoly3 (Fl R)) (t : ℝ) (p : Pose ℝ) (x y h : ℝ) (heading : Prop) : Prop :=
  let S := cubicSize g.au.val g.bu.val g.cu.val g.du.val t + cubicSize g.av.val g.bv.val g.cv.val g.dv.val t
  let D := slopeSize g.bu.val g.cu.val g.du.val t + slopeSize g.bv.val g.cv.val g.dv.val t
  let w := polyTangent g t
  |x - (polyEndpoint g t p).re| ≤ u * (2.1 * |p.x| + 11 * S) ∧
  |y - (polyEndpoint g t p).im| ≤ u * (2.1 * |p.y| + 11 * S) ∧
  (heading → w ≠ 0 → ‖Complex.exp (h * Complex.I) - Complex.exp (p.h * Complex.I) * (w / (‖w‖ : ℂ))‖ ≤
    u * (|p.h| + 1.1 * a + 3.2 + 10.4 * D / ‖w‖))

end Pyodrx.Spec
