import Verif.Spec.Float
import Verif.Spec.Network

/-! # Specification: roads that meet up to rounding errors -/

namespace Pyodrx.Spec

variable {R : Rounding}

/-- As `Meets`, up to rounding errors; positions are equal if there is no lane offset. -/
def MeetsNearly (u : ℝ) (d : Int) (e : ContactPoint) (p : Pose ℝ) (e' : ContactPoint) (q : Pose ℝ) : Prop :=
  |p.x - (q.x - 3 * d * Real.sin p.h)| ≤ u * (|(d : ℝ)| * (|q.x| + 4 * |q.h| + 50)) ∧
  |p.y - (q.y + 3 * d * Real.cos p.h)| ≤ u * (|(d : ℝ)| * (|q.y| + 4 * |q.h| + 50)) ∧
  |outgoing e p.h - (outgoing e' q.h + Real.pi)| ≤ u * (2.1 * |q.h| + 16)

/-- In the placed network `roads`, road `k` was put at road `nb` by a link declared in `roads0`. -/
def JoinedNearly (roads0 roads : Dict (Road (Fl R))) (k nb : String) : Prop :=
  ∃ e e' r n p q, PlacedBy roads0 k e nb e' ∧ roads.get? k = some r ∧ roads.get? nb = some n ∧
    endPose r e = some p ∧ endPose n e' = some q ∧ MeetsNearly R.u (offsetAt r e) e (real p) e' (real q)

/-- Following such joints one reaches an anchor. -/
inductive ConnectedNearly (roads0 roads : Dict (Road (Fl R))) : String → Prop where
  | anchor {k : String} : Anchor roads0 k → ConnectedNearly roads0 roads k
  | step {k nb : String} : JoinedNearly roads0 roads k nb → ConnectedNearly roads0 roads nb →
      ConnectedNearly roads0 roads k

/-- The planviews can be adjusted: every added geometry has a usable length, and headings were given for all of them or
for none. -/
def UsableRoads (net : Net (Fl R)) : Prop :=
  ∀ k r, net.roads.get? k = some r → (∀ g ∈ r.planview.raw, Usable (net.geoms.cell g)) ∧
    (r.planview.overridden = [] ∨ r.planview.raw.length ≤ r.planview.overridden.length)

/-- A line or arc of curvature `k` and length `L` from `p` ends at `q`, up to rounding errors. -/
def EndsNearly (u k L : ℝ) (p q : Pose ℝ) : Prop :=
  let e := exactEnd k L p
  let H := max |p.h| |q.h|
  let c := 4 * H + 8 * |k * L| + 23
  |e.x - q.x| ≤ u * (3 * max |p.x| |q.x| + |L| * c + (5 * H + 40) * radius k) ∧
  |e.y - q.y| ≤ u * (3 * max |p.y| |q.y| + |L| * c + (5 * H + 40) * radius k) ∧
  |e.h - q.h| ≤ u * c

/-- Written geometries, in the order of driving, lead from `p` to `q`: each starts exactly where the one before is taken
to end, and every line or arc ends there up to rounding errors. -/
def TrackNearly (geoms : Store (Geom (Fl R))) : List (AdjGeom (Fl R)) → Pose (Fl R) → Pose (Fl R) → Prop
  | [], p, q => p = q
  | g :: gs, p, q => (⟨g.x, g.y, g.heading⟩ : Pose (Fl R)) = p ∧ ∃ m,
      (∀ k L, curvature (geoms.cell g.geom) = some k → g.length = some L →
        EndsNearly R.u k L.val (written g) (real m)) ∧ TrackNearly geoms gs m q

/-- A spiral of length `L` with curvatures `k0` and `k1` from `p` ends at `q`, up to rounding errors (of an algorithm that
works from `p` or from `q`). -/
def SpiralEndsNearly (u f k0 k1 L : ℝ) (p q : Pose ℝ) : Prop :=
  let e := spiralEnd k0 k1 L p
  let b := 2.1 * |q.h| + 4.2 * |k1 * L| + 4.3 * |(k1 - k0) * L| + 20
  |e.x - q.x| ≤ u * (spiralUnits f k0 k1 L p.x p.h + spiralUnits f k1 k0 L q.x q.h + |L| * b) ∧
  |e.y - q.y| ≤ u * (spiralUnits f k0 k1 L p.y p.h + spiralUnits f k1 k0 L q.y q.h + |L| * b) ∧
  |e.h - q.h| ≤ u * (|p.h| + 3.1 * |k0 * L| + b + |q.h| + 3)

/-- As `TrackNearly`, for lines, arcs and spirals. -/
def DrivenNearly (f : ℝ) (geoms : Store (Geom (Fl R))) : List (AdjGeom (Fl R)) → Pose (Fl R) → Pose (Fl R) → Prop
  | [], p, q => p = q
  | g :: gs, p, q => (⟨g.x, g.y, g.heading⟩ : Pose (Fl R)) = p ∧ ∃ m,
      (∀ k L, curvature (geoms.cell g.geom) = some k → g.length = some L →
        EndsNearly R.u k L.val (written g) (real m)) ∧
      (∀ k0 k1 L, spiralOf (geoms.cell g.geom) = some (k0, k1) → g.length = some L →
        SpiralEndsNearly R.u f k0.val k1.val L.val (written g) (real m)) ∧ DrivenNearly f geoms gs m q

end Pyodrx.Spec
