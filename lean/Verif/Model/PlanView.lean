import Verif.Model.Geometry

/-! # `pyodrx/geometry.py`: _Geometry and PlanView -/

namespace Pyodrx
open PyFloat

variable {F : Type}

/-- `_Geometry` attributes, geometry.py:60-67. `geom` is the reference to the (shared, mutable)
geometry object `geom_type`. `s` is `None` after `get_start_data` until `set_s`. -/
structure AdjGeom (F : Type) where
  s : Option F
  x : F
  y : F
  heading : F
  length : Option F
  geom : Nat

/-- `PlanView` attributes, geometry.py:154-177.
`x_start, y_start, h_start` (and the `_end` ones) are always assigned together and are therefore
modelled as one optional pose. -/
structure PlanView (F : Type) where
  present : Pose F
  presentS : F
  fixed : Bool
  start : Option (Pose F)
  stop : Option (Pose F)
  raw : List Nat
  adjGeoms : List (AdjGeom F)
  overridden : List F
  adjusted : Bool

/-- State touched by planview operations: the planview and the heap of geometry objects. -/
structure PVState (F : Type) where
  pv : PlanView F
  geoms : Store (Geom F)

section
variable [PyFloat F]

/-- `PlanView.set_start_point`, geometry.py:195-212 -/
def PlanView.setStartPoint (pv : PlanView F) (p : Pose F) : PlanView F := { pv with present := p }

/-- `PlanView.__init__`, geometry.py:148-177 -/
def PlanView.new (x y h : Option F) : Except PyErr (PlanView F) :=
  let base : PlanView F :=
    { present := ⟨ofInt 0, ofInt 0, ofInt 0⟩, presentS := ofInt 0, fixed := false,
      start := none, stop := none, raw := [], adjGeoms := [], overridden := [],
      adjusted := false }
  match x, y, h with
  | some x, some y, some h => .ok { base.setStartPoint ⟨x, y, h⟩ with fixed := true }
  | none, none, none => .ok base
  | _, _, _ => .error .notEnoughInputArguments

/-- `PlanView.add_geometry`, geometry.py:179-193 -/
def PlanView.addGeometry (pv : PlanView F) (g : Nat) (heading : Option F) : PlanView F :=
  { pv with
    overridden := match heading with | some h => pv.overridden ++ [h] | none => pv.overridden
    raw := pv.raw ++ [g] }

/-- Call `get_end_data` on the geometry object `r`. -/
def callEnd (r : Nat) (p : Pose F) : EStateM PyErr (PVState F) (Pose F × Option F) := fun st =>
  match Geom.getEndData p (st.geoms.cell r) with
  | .ok v g => .ok v { st with geoms := st.geoms.put r g }
  | .error e g => .error e { st with geoms := st.geoms.put r g }

/-- Call `get_start_data` on the geometry object `r`. -/
def callStart (r : Nat) (p : Pose F) : EStateM PyErr (PVState F) (Pose F × Option F) := fun st =>
  match Geom.getStartData p (st.geoms.cell r) with
  | .ok v g => .ok v { st with geoms := st.geoms.put r g }
  | .error e g => .error e { st with geoms := st.geoms.put r g }

/-- Assign to attributes of the planview. -/
def modifyPV (f : PlanView F → PlanView F) : EStateM PyErr (PVState F) Unit := fun st =>
  .ok () { st with pv := f st.pv }

/-- `_Geometry.__init__`, geometry.py:44-67: evaluates `get_end_data` once to obtain the length. -/
def AdjGeom.new (s : F) (p : Pose F) (r : Nat) : EStateM PyErr (PVState F) (AdjGeom F) := do
  let (_, len) ← callEnd r p
  pure { s := some s, x := p.x, y := p.y, heading := p.h, length := len, geom := r }

/-- One iteration of the forward loop, geometry.py:255-264. -/
def PlanView.fwdStep (i r : Nat) : EStateM PyErr (PVState F) Unit := do
  let st ← get
  if st.pv.overridden.length > 0 then
    let h ← orRaise .indexError st.pv.overridden[i]?
    modifyPV fun pv => { pv with present := { pv.present with h := h } }
  let st ← get
  let g ← AdjGeom.new st.pv.presentS st.pv.present r
  -- `newgeom.get_end_data()`, geometry.py:69-70, 261
  let (p, len) ← callEnd r ⟨g.x, g.y, g.heading⟩
  modifyPV fun pv => { pv with present := p }
  let l ← orRaise .typeError len
  modifyPV fun pv => { pv with presentS := pv.presentS +. l }
  modifyPV fun pv => { pv with adjGeoms := pv.adjGeoms ++ [g] }

/-- The forward loop over `range(len(self._raw_geometries))` from index `i`. -/
def PlanView.fwdLoop (i : Nat) : List Nat → EStateM PyErr (PVState F) Unit
  | [] => pure ()
  | r :: rs => do
    PlanView.fwdStep i r
    PlanView.fwdLoop (i + 1) rs

/-- One iteration of the backward loop, geometry.py:276-281, with `_Geometry.get_start_data`,
geometry.py:72-78. Returns `partial_length`. -/
def PlanView.bwdStep (r : Nat) : EStateM PyErr (PVState F) (Option F) := do
  let st ← get
  let g ← AdjGeom.new st.pv.presentS st.pv.present r
  let (p, len) ← callStart r ⟨g.x, g.y, g.heading⟩
  let g : AdjGeom F := { g with x := p.x, y := p.y, heading := p.h +. pi, s := none, length := len }
  modifyPV fun pv => { pv with present := p, adjGeoms := pv.adjGeoms ++ [g] }
  pure len

/-- The backward loop; returns the list `lengths`. -/
def PlanView.bwdLoop : List Nat → EStateM PyErr (PVState F) (List (Option F))
  | [] => pure []
  | r :: rs => do
    let l ← PlanView.bwdStep r
    let ls ← PlanView.bwdLoop rs
    pure (l :: ls)

/-- `newgeom.set_s(s)` where `newgeom` is the last geometry appended, geometry.py:80-81, 292. -/
def setLastS (l : List (AdjGeom F)) (s : F) : List (AdjGeom F) :=
  match l.getLast? with
  | none => l
  | some g => l.dropLast ++ [{ g with s := some s }]

/-- The final loop of the backward branch, geometry.py:290-293. -/
def PlanView.sLoop : List F → EStateM PyErr (PVState F) Unit
  | [] => pure ()
  | l :: ls => do
    modifyPV fun pv => { pv with adjGeoms := setLastS pv.adjGeoms pv.presentS }
    modifyPV fun pv => { pv with presentS := pv.presentS +. l }
    PlanView.sLoop ls

/-- all lengths, or `none` if one of them is `None` (then `sum(lengths)` is a `TypeError`) -/
def allSome {α : Type} : List (Option α) → Option (List α)
  | [] => some []
  | none :: _ => none
  | some a :: l => (allSome l).map (a :: ·)

/-- `PlanView.adjust_geometries`, geometry.py:241-295 -/
def PlanView.adjustGeometries (fromEnd : Bool) : EStateM PyErr (PVState F) Unit := do
  let st ← get
  if fromEnd = false then
    modifyPV fun pv => { pv with start := some pv.present }
    PlanView.fwdLoop 0 st.pv.raw
    modifyPV fun pv => { pv with stop := some pv.present }
  else
    modifyPV fun pv => { pv with stop := some { pv.present with h := pv.present.h +. pi } }
    let lengths ← PlanView.bwdLoop st.pv.raw.reverse
    modifyPV fun pv => { pv with start := some { pv.present with h := pv.present.h +. pi } }
    -- `length = sum(lengths)`
    let ls ← orRaise .typeError (allSome lengths)
    modifyPV fun pv => { pv with presentS := ofInt 0 }
    PlanView.sLoop ls
  modifyPV fun pv => { pv with adjusted := true }

/-- `PlanView.get_total_length`, geometry.py:297-302 -/
def PlanView.getTotalLength (pv : PlanView F) : F := pv.presentS

end

/-- `_Geometry.get_attributes` and `get_element`, geometry.py:83-102 -/
def AdjGeom.getElement (geoms : Store (Geom F)) (g : AdjGeom F) : Xml F :=
  .elem "geometry"
    [("s", .ofOpt g.s), ("x", .num g.x), ("y", .num g.y), ("hdg", .num g.heading),
     ("length", .ofOpt g.length)]
    [(geoms.cell g.geom).getElement]

/-- `PlanView.get_element`, geometry.py:304-312 -/
def PlanView.getElement (geoms : Store (Geom F)) (pv : PlanView F) : Xml F :=
  .elem "planView" [] (pv.adjGeoms.map (AdjGeom.getElement geoms))

end Pyodrx
