import Verif.Spec.FloatNetwork
import Verif.Spec.ReadNetwork

/-! # Specification: a document whose numbers were rounded

A document that was read has numbers of floating point arithmetic; `RGeometry.real` takes them as real numbers. -/

namespace Pyodrx.Spec

variable {R : Rounding}

/-- The numbers of a curve, as real numbers. -/
def RCurve.real : RCurve (Fl R) → RCurve ℝ
  | .line => .line
  | .spiral k0 k1 => .spiral k0.val k1.val
  | .arc k => .arc k.val
  | .paramPoly3 aU bU cU dU aV bV cV dV n =>
    .paramPoly3 aU.val bU.val cU.val dU.val aV.val bV.val cV.val dV.val n

/-- The numbers of a geometry, as real numbers. -/
def RGeometry.real (g : RGeometry (Fl R)) : RGeometry ℝ :=
  ⟨g.s.val, g.x.val, g.y.val, g.hdg.val, g.length.val, g.curve.real⟩

/-- The pose `q` is the end of a ParamPoly3, up to rounding errors: the position, and the direction if the curve has a
tangent there. -/
def CubicEndsNearly (u a : ℝ) (aU bU cU dU aV bV cV dV t : ℝ) (p : Pose ℝ) (q : Pose ℝ) : Prop :=
  let S := cubicSize aU bU cU dU t + cubicSize aV bV cV dV t
  let D := slopeSize bU cU dU t + slopeSize bV cV dV t
  let z : ℂ := ⟨p.x, p.y⟩ + Complex.exp (p.h * Complex.I) * ⟨cubic aU bU cU dU t, cubic aV bV cV dV t⟩
  let w : ℂ := ⟨deriv (cubic aU bU cU dU) t, deriv (cubic aV bV cV dV) t⟩
  |q.x - z.re| ≤ u * (2.1 * |p.x| + 11 * S) ∧ |q.y - z.im| ≤ u * (2.1 * |p.y| + 11 * S) ∧
  (w ≠ 0 → ‖Complex.exp (q.h * Complex.I) - Complex.exp (p.h * Complex.I) * (w / (‖w‖ : ℂ))‖ ≤
    u * (|p.h| + 1.1 * a + 3.2 + 10.4 * D / ‖w‖))

/-- The geometry ends at `q`, up to rounding errors. -/
def RGeometry.EndsAt (u f a : ℝ) (g : RGeometry ℝ) (q : Pose ℝ) : Prop :=
  match g.curve with
  | .line => EndsNearly u 0 g.length g.start q
  | .arc k => EndsNearly u k g.length g.start q
  | .spiral k0 k1 => SpiralEndsNearly u f k0 k1 g.length g.start q
  | .paramPoly3 aU bU cU dU aV bV cV dV n =>
    CubicEndsNearly u a aU bU cU dU aV bV cV dV (if n then 1 else g.length) g.start q

/-- As `Chained`, up to rounding errors: every geometry starts exactly at a pose that is nearly the end of the one before,
and at an s-coordinate that is nearly the sum of the s-coordinate and the length of the one before. -/
def ChainedNearly (u f a : ℝ) (s : ℝ) (p : Pose ℝ) : List (RGeometry ℝ) → ℝ → Pose ℝ → Prop
  | [], e, q => e = s ∧ q = p
  | g :: gs, e, q => g.s = s ∧ g.start = p ∧ ∃ s' m, |s' - (s + g.length)| ≤ u * (|s| + 6 * |g.length|) ∧
      g.EndsAt u f a m ∧ ChainedNearly u f a s' m gs e q

/-- The geometries of the road form, up to rounding errors, one line that starts at s = 0 and has the length of the
road. -/
def RRoad.OneLineNearly (f a : ℝ) (r : RRoad (Fl R)) : Prop :=
  ∃ p q, ChainedNearly R.u f a 0 p (r.planView.map RGeometry.real) r.length.val q

/-- The pose `p` is the start of a road in a document (of its first geometry), or is the end of its last geometry up to
rounding errors. -/
def RRoad.NearlyAt (f a : ℝ) (r : RRoad (Fl R)) : ContactPoint → Pose ℝ → Prop
  | .start, p => r.planView.head?.map (fun g => g.real.start) = some p
  | .end, p => ∃ g, r.planView.getLast? = some g ∧ g.real.EndsAt R.u f a p

/-- Road `x` of the document is linked to road `y` and joins it up to rounding errors: the ends meet, shifted by `off e`
lanes. -/
def RRoad.JoinsNearly (f a : ℝ) (off : ContactPoint → Int) (x y : RRoad (Fl R)) : Prop :=
  ∃ e e' p q, x.LinkedTo e y e' ∧ x.NearlyAt f a e p ∧ y.NearlyAt f a e' q ∧ MeetsNearly R.u (off e) e p e' q

/-- From the road one comes to an anchor by going from road to joining road. -/
inductive RDocument.LeadsNearly (f a : ℝ) (doc : RDocument (Fl R)) (anchor : String → Prop)
    (off : String → ContactPoint → Int) : RRoad (Fl R) → Prop where
  | anchor {x : RRoad (Fl R)} : anchor x.id → doc.LeadsNearly f a anchor off x
  | step {x y : RRoad (Fl R)} : y ∈ doc.roads → x.JoinsNearly f a (off x.id) y → doc.LeadsNearly f a anchor off y →
      doc.LeadsNearly f a anchor off x

/-- A road as the user draws it: it is stored under its id, its predecessor and successor are among its links, and its
planview has at least one geometry and no forced headings. -/
structure DrawnFl (k : String) (r : Road (Fl R)) : Prop where
  id : r.id.toStr = k
  pred : ∀ l, r.predecessor = some l → l ∈ r.links ∧ l.kind = .predecessor
  succ : ∀ l, r.successor = some l → l ∈ r.links ∧ l.kind = .successor
  plan : ∃ x y h pv calls, PlanView.new x y h = .ok pv ∧ r.planview = addEach pv calls ∧ calls ≠ [] ∧
    ∀ c ∈ calls, c.2 = none

/-- The user has drawn a network: different keys, drawn roads, curved arcs; a road that consists of one ParamPoly3 is an
anchor (placing a ParamPoly3 from its end is wrong, C12). -/
structure DrawnNetFl (net : Net (Fl R)) : Prop where
  nodup : net.roads.keys.Nodup
  drawn : ∀ k r, net.roads.get? k = some r → DrawnFl k r
  arcs : ArcsCurved net.geoms
  poly : ∀ k r i, net.roads.get? k = some r → ¬ Anchor net.roads k → r.planview.raw = [i] →
    polyOf (net.geoms.cell i) = none

end Pyodrx.Spec
