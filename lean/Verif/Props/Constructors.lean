import Verif.Props.PlanView

/-!
# C60: what the constructors of `Arc` and `ParamPoly3` accept

`Arc` takes exactly one of `length` and `angle` and a non-zero curvature; `ParamPoly3` needs a length
when its parameter range is "arcLength".  What is accepted is kept.  The checks are incomplete: an
arc of length or angle zero is accepted, but no road with it can be laid out.
-/

namespace Pyodrx.Props
open Pyodrx Pyodrx.Spec

/-- C60: when each of the possible outcomes of `Arc(curvature, length, angle)` happens.  The number
of arguments is checked before the curvature. -/
theorem C60_arc (k : ℝ) (length angle : Option ℝ) :
    (Arc.new k length angle = .error .notEnoughInputArguments ↔ length = none ∧ angle = none) ∧
    (Arc.new k length angle = .error .toManyOptionalArguments ↔ length.isSome ∧ angle.isSome) ∧
    (Arc.new k length angle = .error .valueError ↔ k = 0 ∧ length.isSome ≠ angle.isSome) ∧
    (∀ a, Arc.new k length angle = .ok a ↔
      (k ≠ 0 ∧ length.isSome ≠ angle.isSome ∧ a = ⟨k, length, angle⟩)) := by
  cases length <;> cases angle <;> by_cases hk : k = 0 <;> simp [Arc.new, hk] <;>
    exact fun a => eq_comm

/-- C60: `ParamPoly3(...)` is refused, with a `ValueError`, exactly if the range is "arcLength" and
there is no length; otherwise the object has the coefficients, range and length that were given. -/
theorem C60_poly {F : Type} [PyFloat F] (au bu cu du av bv cv dv : F) (prange : String)
    (length : Option F) :
    (prange = "arcLength" ∧ length = none →
      ParamPoly3.new au bu cu du av bv cv dv prange length = .error .valueError) ∧
    (¬(prange = "arcLength" ∧ length = none) →
      ∃ g, ParamPoly3.new au bu cu du av bv cv dv prange length = .ok g ∧
        (g.au, g.bu, g.cu, g.du) = (au, bu, cu, du) ∧
        (g.av, g.bv, g.cv, g.dv) = (av, bv, cv, dv) ∧ g.prange = prange ∧ g.length = length) := by
  constructor
  · rintro ⟨rfl, rfl⟩
    simp [ParamPoly3.new]
  · intro h
    refine ⟨⟨au, bu, cu, du, av, bv, cv, dv, prange, length⟩, ?_, rfl, rfl, rfl, rfl⟩
    unfold ParamPoly3.new
    rw [if_neg (by simpa using h)]

/-- C60 (violation): an arc of length zero is accepted, and evaluating it raises `TypeError`, from
both ends, wherever it is placed. -/
theorem C60_arc_zero_length (k : ℝ) (hk : k ≠ 0) : ∃ a, Arc.new k (some 0) none = .ok a ∧
    ∀ p, (∃ a', Arc.getEndData p a = .error .typeError a') ∧
      (∃ a', Arc.getStartData p a = .error .typeError a') := by
  refine ⟨⟨k, some 0, none⟩, by simp [Arc.new, hk], fun p => ⟨?_, ?_⟩⟩ <;>
    simp [Arc.getEndData, Arc.getStartData, Arc.eval]

/-- C60 (violation): an arc of angle zero is accepted and evaluates to the pose it started from, but
has no length. -/
theorem C60_arc_zero_angle (k : ℝ) (hk : k ≠ 0) : ∃ a, Arc.new k none (some 0) = .ok a ∧
    ∀ p, ∃ a', Arc.getEndData p a = .ok (p, none) a' := by
  refine ⟨⟨k, none, some 0⟩, by simp [Arc.new, hk], fun p => ?_⟩
  simp [Arc.getEndData, Arc.eval]

/-- C60 (violation): so no plan view with an arc of length or angle zero among its geometries can be
adjusted, whatever the other geometries are. -/
theorem C60_arc_zero_adjust (x y h : Option ℝ) (pv : PlanView ℝ)
    (hpv : PlanView.new x y h = .ok pv) (refs : List Nat) (geoms : Store (Geom ℝ))
    (hc : ∀ r ∈ refs, Constructible (geoms.cell r)) (k : ℝ) (length angle : Option ℝ)
    (hz : length = some 0 ∨ angle = some 0) (a : Arc ℝ) (ha : Arc.new k length angle = .ok a)
    (r : Nat) (hr : r ∈ refs) (hcell : geoms.cell r = .arc a) (st : PVState ℝ) :
    PlanView.adjustGeometries false
      ⟨refs.foldl (fun pv r => pv.addGeometry r none) pv, geoms⟩ ≠ .ok () st := by
  intro hadj
  obtain ⟨sh, hsh⟩ := C11_only_if x y h pv hpv refs geoms hc st hadj r hr
  rw [hcell] at hsh
  obtain ⟨hk, hx, rfl⟩ := ((C60_arc k length angle).2.2.2 a).mp ha
  rcases hz with rfl | rfl
  · cases angle with
    | none => simp [shapeOf, arcLength, arcLength.viaAngle] at hsh
    | some _ => simp at hx
  · cases length with
    | none => simp [shapeOf, arcLength, arcLength.viaAngle] at hsh
    | some _ => simp at hx

/-- Such a plan view: a line, an arc of length zero, a line. -/
example : ∃ (geoms : Store (Geom ℝ)) (a : Arc ℝ),
    (∀ r ∈ [0, 1, 2], Constructible (geoms.cell r)) ∧ Arc.new 1 (some 0) none = .ok a ∧
    geoms.cell 1 = .arc a := by
  refine ⟨⟨fun r => if r = 1 then .arc ⟨1, some 0, none⟩ else .line ⟨2⟩, 3⟩, ⟨1, some 0, none⟩,
    ?_, by simp [Arc.new], by simp⟩
  intro r hr
  simp only [List.mem_cons, List.not_mem_nil, or_false] at hr
  rcases hr with rfl | rfl | rfl <;> simp [Constructible]

end Pyodrx.Props
