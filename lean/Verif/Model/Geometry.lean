import Verif.Xml

/-! # `pyodrx/geometry.py`: Line, Spiral, Arc, ParamPoly3, EulerSpiral -/

namespace Pyodrx
open PyFloat

variable {F : Type}

/-- `(x, y, h)`: a position and a heading. -/
structure Pose (F : Type) where
  x : F
  y : F
  h : F

/-- Complex numbers as used in `EulerSpiral.calc` (Python `complex`). -/
structure Cpx (F : Type) where
  re : F
  im : F

section
variable [PyFloat F]

/-- complex `+` -/
def Cpx.add (a b : Cpx F) : Cpx F := ⟨a.re +. b.re, a.im +. b.im⟩
/-- complex `*` -/
def Cpx.mul (a b : Cpx F) : Cpx F :=
  ⟨a.re *. b.re -. a.im *. b.im, a.re *. b.im +. a.im *. b.re⟩
/-- real `*` complex -/
def Cpx.smul (a : F) (b : Cpx F) : Cpx F := ⟨a *. b.re, a *. b.im⟩
/-- complex `/` real -/
def Cpx.divr (a : Cpx F) (b : F) : Cpx F := ⟨a.re /. b, a.im /. b⟩
/-- `np.exp(1j * t)` -/
def Cpx.expI (t : F) : Cpx F := ⟨cos t, sin t⟩

/-- `x**2`. Simplification: `**` as repeated multiplication. -/
def sq (x : F) : F := x *. x
/-- `x**3` -/
def cube (x : F) : F := x *. x *. x

/-! ## EulerSpiral, geometry.py:912-948 -/

/-- `EulerSpiral.createFromLengthAndCurvature(length, curvStart, curvEnd)._gamma`,
geometry.py:917-919. A `None` length is a `TypeError`, a zero length a `ZeroDivisionError`. -/
def EulerSpiral.create (length : Option F) (curvStart curvEnd : F) : Except PyErr F :=
  match length with
  | none => .error .typeError
  | some l =>
    if isZero l then .error .zeroDivisionError
    else .ok (ofInt 1 *. (curvEnd -. curvStart) /. l)

/-- `EulerSpiral.calc`, geometry.py:921-948. -/
def EulerSpiral.calc (gamma s x0 y0 kappa0 theta0 : F) : Pose F :=
  let c0 : Cpx F := ⟨x0, y0⟩
  let cs : Cpx F :=
    if isZero gamma && isZero kappa0 then
      -- geometry.py:926-928, straight line
      c0.add (Cpx.smul s (Cpx.expI theta0))
    else if isZero gamma && !isZero kappa0 then
      -- geometry.py:930-932, arc
      c0.add (((Cpx.expI theta0).divr kappa0).mul
        ⟨sin (kappa0 *. s), ofInt 1 -. cos (kappa0 *. s)⟩)
    else
      -- geometry.py:934-943, Fresnel integrals
      let za := (kappa0 +. gamma *. s) /. sqrt (pi *. abs gamma)
      let zb := kappa0 /. sqrt (pi *. abs gamma)
      let sa := fresnelS za
      let ca := fresnelC za
      let sb := fresnelS zb
      let cb := fresnelC zb
      let cs1 := Cpx.smul (sqrt (pi /. abs gamma))
        (Cpx.expI (theta0 -. sq kappa0 /. ofInt 2 /. gamma))
      let cs2 : Cpx F := ⟨sign gamma *. (ca -. cb), sa -. sb⟩
      c0.add (cs1.mul cs2)
  -- geometry.py:946
  let theta := gamma *. sq s /. ofInt 2 +. kappa0 *. s +. theta0
  ⟨cs.re, cs.im, theta⟩

/-! ## Line, geometry.py:316-402 -/

/-- `Line`, geometry.py:336-337 -/
structure Line (F : Type) where
  length : F

/-- `Line.get_end_data`, geometry.py:339-366 -/
def Line.getEndData (l : Line F) (p : Pose F) : Pose F × F :=
  (⟨l.length *. cos p.h +. p.x, l.length *. sin p.h +. p.y, p.h⟩, l.length)

/-- `Line.get_start_data`, geometry.py:368-394 -/
def Line.getStartData (l : Line F) (p : Pose F) : Pose F × F :=
  (⟨l.length *. cos p.h +. p.x, l.length *. sin p.h +. p.y, p.h⟩, l.length)

/-! ## Spiral, geometry.py:406-526 -/

/-- `Spiral` attributes, geometry.py:447-459. `length` may end up `None` (e.g. `angle=0`). -/
structure Spiral (F : Type) where
  curvstart : F
  curvend : F
  length : Option F

/-- number of inputs that are not `None`, geometry.py:451 -/
def countGiven (l : List (Option F)) : Nat := (l.filter Option.isSome).length

/-- `Spiral.__init__`, geometry.py:438-459.
Simplification: with `angle` given and both curvatures zero numpy divides by zero and stores `inf`;
the model reports `nonFinite`. -/
def Spiral.new (curvstart curvend : F) (length angle cdot : Option F) :
    Except PyErr (Spiral F) :=
  if length.isNone && angle.isNone && cdot.isNone then .error .notEnoughInputArguments
  else if countGiven [length, angle, cdot] > 1 then .error .toManyOptionalArguments
  else
    match angle with
    | some a =>
      if !isZero a then
        let m := max (abs curvend) (abs curvstart)
        if isZero m then .error .nonFinite
        else .ok ⟨curvstart, curvend, some (ofInt 2 *. abs a /. m)⟩
      else
        -- `if angle:` is false; `elif cdot:` is false because only one input is given
        .ok ⟨curvstart, curvend, length⟩
    | none =>
      match cdot with
      | some c =>
        if !isZero c then .ok ⟨curvstart, curvend, some ((curvend -. curvstart) /. c)⟩
        else .ok ⟨curvstart, curvend, length⟩
      | none => .ok ⟨curvstart, curvend, length⟩

/-- `Spiral.get_end_data`, geometry.py:461-484 -/
def Spiral.getEndData (sp : Spiral F) (p : Pose F) : Except PyErr (Pose F × F) :=
  match EulerSpiral.create sp.length sp.curvstart sp.curvend, sp.length with
  | .error e, _ => .error e
  | .ok gamma, some l => .ok (EulerSpiral.calc gamma l p.x p.y sp.curvstart p.h, l)
  | .ok _, none => .error .typeError

/-- `Spiral.get_start_data`, geometry.py:486-511 -/
def Spiral.getStartData (sp : Spiral F) (p : Pose F) : Except PyErr (Pose F × F) :=
  match EulerSpiral.create sp.length (neg sp.curvend) (neg sp.curvstart), sp.length with
  | .error e, _ => .error e
  | .ok gamma, some l => .ok (EulerSpiral.calc gamma l p.x p.y (neg sp.curvend) p.h, l)
  | .ok _, none => .error .typeError

/-! ## Arc, geometry.py:529-703 -/

/-- `Arc` attributes, geometry.py:578-582. `length` and `angle` are mutated by evaluation. -/
structure Arc (F : Type) where
  curvature : F
  length : Option F
  angle : Option F

/-- `Arc.__init__`, geometry.py:559-582 -/
def Arc.new (curvature : F) (length angle : Option F) : Except PyErr (Arc F) :=
  if length.isNone && angle.isNone then .error .notEnoughInputArguments
  else if length.isSome && angle.isSome then .error .toManyOptionalArguments
  else if isZero curvature then .error .valueError
  else .ok ⟨curvature, length, angle⟩

/-- The common body of `Arc.get_end_data` (geometry.py:607-631, `k = self.curvature`) and
`Arc.get_start_data` (geometry.py:657-689, `k = -self.curvature`).
The returned length may be `None` (angle 0). -/
def Arc.eval (k : F) (p : Pose F) : EStateM PyErr (Arc F) (Pose F × Option F) := fun a =>
  let radius := ofInt 1 /. abs k
  let phi0 := if lt k (ofInt 0) then p.h +. pi /. ofInt 2 else p.h -. pi /. ofInt 2
  let x0 := p.x -. cos phi0 *. radius
  let y0 := p.y -. sin phi0 *. radius
  -- `if self.length: self.angle = self.length * k`
  let angle1 : Option F :=
    match a.length with
    | some l => if isZero l then a.angle else some (l *. k)
    | none => a.angle
  match angle1 with
  | none => .error .typeError { a with angle := angle1 }     -- `None + phi_0`
  | some ang =>
    let newAng := ang +. phi0
    -- `if self.angle: self.length = np.abs(radius*self.angle)`
    let length1 := if isZero ang then a.length else some (abs (radius *. ang))
    .ok (⟨cos newAng *. radius +. x0, sin newAng *. radius +. y0, p.h +. ang⟩, length1)
      { a with angle := some ang, length := length1 }

/-- `Arc.get_end_data`, geometry.py:584-631 -/
def Arc.getEndData (p : Pose F) : EStateM PyErr (Arc F) (Pose F × Option F) := fun a =>
  Arc.eval a.curvature p a

/-- `Arc.get_start_data`, geometry.py:633-689 -/
def Arc.getStartData (p : Pose F) : EStateM PyErr (Arc F) (Pose F × Option F) := fun a =>
  Arc.eval (neg a.curvature) p a

/-! ## ParamPoly3, geometry.py:707-909 -/

/-- `ParamPoly3` attributes, geometry.py:797-808. `length` is mutated by evaluation. -/
structure ParamPoly3 (F : Type) where
  au : F
  bu : F
  cu : F
  du : F
  av : F
  bv : F
  cv : F
  dv : F
  prange : String
  length : Option F

/-- `ParamPoly3.__init__`, geometry.py:770-808 -/
def ParamPoly3.new (au bu cu du av bv cv dv : F) (prange : String) (length : Option F) :
    Except PyErr (ParamPoly3 F) :=
  if prange = "arcLength" ∧ length.isNone then .error .valueError
  else .ok ⟨au, bu, cu, du, av, bv, cv, dv, prange, length⟩

/-- `ParamPoly3._integrand`, geometry.py:810-816 -/
def ParamPoly3.integrand (g : ParamPoly3 F) (p : F) : F :=
  sqrt (sq (abs (ofInt 3 *. g.du *. sq p +. ofInt 2 *. g.cu *. p +. g.bu)) +.
        sq (abs (ofInt 3 *. g.dv *. sq p +. ofInt 2 *. g.cv *. p +. g.bv)))

/-- The parameter value and new length, geometry.py:837-842 and 870-875. -/
def ParamPoly3.param (g : ParamPoly3 F) : Except PyErr (F × Option F) :=
  if g.prange = "normalized" then .ok (ofInt 1, some (quad g.integrand (ofInt 0) (ofInt 1)))
  else match g.length with
    | some l => .ok (l, some l)
    | none => .error .typeError

/-- `newu`, geometry.py:843, 876 -/
def ParamPoly3.u (g : ParamPoly3 F) (p : F) : F :=
  g.au +. g.bu *. p +. g.cu *. sq p +. g.du *. cube p
/-- `newv`, geometry.py:844, 877 -/
def ParamPoly3.v (g : ParamPoly3 F) (p : F) : F :=
  g.av +. g.bv *. p +. g.cv *. sq p +. g.dv *. cube p
/-- the `arctan2` term, geometry.py:848, 881 -/
def ParamPoly3.tangent (g : ParamPoly3 F) (p : F) : F :=
  arctan2 (g.bv +. ofInt 2 *. g.cv *. p +. ofInt 3 *. g.dv *. sq p)
          (g.bu +. ofInt 2 *. g.cu *. p +. ofInt 3 *. g.du *. sq p)

/-- `ParamPoly3.get_end_data`, geometry.py:851-883 -/
def ParamPoly3.getEndData (q : Pose F) : EStateM PyErr (ParamPoly3 F) (Pose F × Option F) :=
  fun g =>
  match g.param with
  | .error e => .error e g
  | .ok (p, len) =>
    let u := g.u p
    let v := g.v p
    .ok (⟨q.x +. u *. cos q.h -. sin q.h *. v, q.y +. u *. sin q.h +. cos q.h *. v,
          q.h +. g.tangent p⟩, len) { g with length := len }

/-- `ParamPoly3.get_start_data`, geometry.py:818-850 -/
def ParamPoly3.getStartData (q : Pose F) : EStateM PyErr (ParamPoly3 F) (Pose F × Option F) :=
  fun g =>
  match g.param with
  | .error e => .error e g
  | .ok (p, len) =>
    let u := g.u p
    let v := g.v p
    .ok (⟨q.x -. (u *. cos q.h -. sin q.h *. v), q.y -. (u *. sin q.h +. cos q.h *. v),
          q.h -. g.tangent p⟩, len) { g with length := len }

/-! ## The four geometry classes together -/

/-- Any geometry object that can be given to `PlanView.add_geometry`. -/
inductive Geom (F : Type) where
  | line (l : Line F)
  | spiral (s : Spiral F)
  | arc (a : Arc F)
  | poly (g : ParamPoly3 F)

/-- `geom.get_end_data(x,y,h)` by dynamic dispatch. -/
def Geom.getEndData (p : Pose F) : EStateM PyErr (Geom F) (Pose F × Option F) := fun g =>
  match g with
  | .line l => let r := l.getEndData p; .ok (r.1, some r.2) g
  | .spiral s =>
    match s.getEndData p with
    | .ok r => .ok (r.1, some r.2) g
    | .error e => .error e g
  | .arc a =>
    match Arc.getEndData p a with
    | .ok r a' => .ok r (.arc a')
    | .error e a' => .error e (.arc a')
  | .poly q =>
    match ParamPoly3.getEndData p q with
    | .ok r q' => .ok r (.poly q')
    | .error e q' => .error e (.poly q')

/-- `geom.get_start_data(x,y,h)` by dynamic dispatch. -/
def Geom.getStartData (p : Pose F) : EStateM PyErr (Geom F) (Pose F × Option F) := fun g =>
  match g with
  | .line l => let r := l.getStartData p; .ok (r.1, some r.2) g
  | .spiral s =>
    match s.getStartData p with
    | .ok r => .ok (r.1, some r.2) g
    | .error e => .error e g
  | .arc a =>
    match Arc.getStartData p a with
    | .ok r a' => .ok r (.arc a')
    | .error e a' => .error e (.arc a')
  | .poly q =>
    match ParamPoly3.getStartData p q with
    | .ok r q' => .ok r (.poly q')
    | .error e q' => .error e (.poly q')

end

/-- `get_element` of the four classes, geometry.py:396-402, 514-526, 691-703, 886-909. -/
def Geom.getElement : Geom F → Xml F
  | .line _ => .elem "line" [] []
  | .spiral s => .elem "spiral" [("curvStart", .num s.curvstart), ("curvEnd", .num s.curvend)] []
  | .arc a => .elem "arc" [("curvature", .num a.curvature)] []
  | .poly g => .elem "paramPoly3"
      [("aU", .num g.au), ("bU", .num g.bu), ("cU", .num g.cu), ("dU", .num g.du),
       ("aV", .num g.av), ("bV", .num g.bv), ("cV", .num g.cv), ("dV", .num g.dv),
       ("pRange", .str g.prange)] []

end Pyodrx
