import Verif.Spec.Curve
import Verif.Model.PlanView

/-! # Specification: the shape of a geometry object and how a road is laid out from shapes -/

namespace Pyodrx.Spec

/-- A piece of road in local coordinates: the displacement of its end seen from a start at the
origin with heading 0, the change of heading, and the length. -/
structure Shape where
  dx : ℝ
  dy : ℝ
  dh : ℝ
  len : ℝ

/-- The end of a shape that starts at `p`: rotate the displacement by the heading and add it. -/
noncomputable def Shape.place (sh : Shape) (p : Pose ℝ) : Pose ℝ :=
  ⟨p.x + (sh.dx * Real.cos p.h - sh.dy * Real.sin p.h),
   p.y + (sh.dx * Real.sin p.h + sh.dy * Real.cos p.h), p.h + sh.dh⟩

/-- The shape driven with heading `θ s` after distance `s`. -/
noncomputable def Shape.ofHeading (θ : ℝ → ℝ) (L : ℝ) : Shape :=
  ⟨∫ s in (0:ℝ)..L, Real.cos (θ s), ∫ s in (0:ℝ)..L, Real.sin (θ s), θ L, L⟩

/-- The arc length of an Arc object: what it was given, or the angle times the radius. -/
noncomputable def arcLength (a : Arc ℝ) : Option ℝ :=
  match a.length with
  | some L => if L ≠ 0 then some |L| else viaAngle a.angle
  | none => viaAngle a.angle
where
  viaAngle : Option ℝ → Option ℝ
    | some ang => if ang ≠ 0 then some (|ang| / |a.curvature|) else none
    | none => none

/-- The parameter at which a ParamPoly3 ends. -/
noncomputable def polyEnd (g : ParamPoly3 ℝ) : Option ℝ :=
  if g.prange = "normalized" then some 1 else g.length

/-- The shape described by a geometry object; `none` if the object describes no curve
(no usable length). -/
noncomputable def shapeOf : Geom ℝ → Option Shape
  | .line l => some (.ofHeading (fun _ => 0) l.length)
  | .spiral sp =>
    match sp.length with
    | some L => if L = 0 then none else
        some (.ofHeading (fun s => sp.curvstart * s + (sp.curvend - sp.curvstart) / L * (s ^ 2 / 2)) L)
    | none => none
  | .arc a =>
    if a.curvature = 0 then none else
      (arcLength a).map (.ofHeading (fun s => a.curvature * s))
  | .poly g =>
    let u := fun t => g.au + g.bu * t + g.cu * t ^ 2 + g.du * t ^ 3
    let v := fun t => g.av + g.bv * t + g.cv * t ^ 2 + g.dv * t ^ 3
    let u' := fun t => g.bu + 2 * g.cu * t + 3 * g.du * t ^ 2
    let v' := fun t => g.bv + 2 * g.cv * t + 3 * g.dv * t ^ 2
    (polyEnd g).map fun t =>
      ⟨u t, v t, Complex.arg ⟨u' t, v' t⟩,
       if g.prange = "normalized" then ∫ s in (0:ℝ)..1, Real.sqrt (u' s ^ 2 + v' s ^ 2) else t⟩

/-- One added geometry: which object, its shape, and the heading forced by the user, if any. -/
structure Piece where
  ref : Nat
  shape : Shape
  heading : Option ℝ

/-- Where a piece starts when the road so far ends at `p`. -/
def Piece.start (pc : Piece) (p : Pose ℝ) : Pose ℝ :=
  match pc.heading with
  | none => p
  | some h => { p with h := h }

/-- The emitted geometries of a road laid out forward from `p`, the first at distance `s`. -/
noncomputable def layout (s : ℝ) (p : Pose ℝ) : List Piece → List (AdjGeom ℝ)
  | [] => []
  | pc :: l =>
    ⟨some s, (pc.start p).x, (pc.start p).y, (pc.start p).h, some pc.shape.len, pc.ref⟩ ::
      layout (s + pc.shape.len) (pc.shape.place (pc.start p)) l

/-- The end of the road. -/
noncomputable def finish (p : Pose ℝ) : List Piece → Pose ℝ
  | [] => p
  | pc :: l => finish (pc.shape.place (pc.start p)) l

/-- The length of the road. -/
noncomputable def totalLen (l : List Piece) : ℝ := (l.map (·.shape.len)).sum

/-- A user's calls `pv.add_geometry(geometry, heading)`, in order. -/
def addAll (pv : PlanView ℝ) (pcs : List Piece) : PlanView ℝ :=
  pcs.foldl (fun pv pc => pv.addGeometry pc.ref pc.heading) pv

/-- The calls describe these shapes in the heap of geometry objects. -/
def Describes (geoms : Store (Geom ℝ)) (pcs : List Piece) : Prop :=
  ∀ pc ∈ pcs, shapeOf (geoms.cell pc.ref) = some pc.shape

/-- Headings are given for all geometries or for none. -/
def AllOrNoHeadings (pcs : List Piece) : Prop :=
  (∀ pc ∈ pcs, pc.heading = none) ∨ (∀ pc ∈ pcs, ∃ h, pc.heading = some h)

/-- Rigid motion: rotate by `φ` about the origin, then translate by `(tx, ty)`. -/
noncomputable def move (φ tx ty : ℝ) (p : Pose ℝ) : Pose ℝ :=
  ⟨p.x * Real.cos φ - p.y * Real.sin φ + tx, p.x * Real.sin φ + p.y * Real.cos φ + ty, p.h + φ⟩

/-- The start pose of an emitted geometry. -/
def poseOf (g : AdjGeom ℝ) : Pose ℝ := ⟨g.x, g.y, g.heading⟩

end Pyodrx.Spec
