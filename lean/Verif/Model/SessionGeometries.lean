import Verif.Model.SessionRoadside

/-! # `planview.adjust_geometries` called by a program -/

namespace Pyodrx

variable {F : Type} [PyFloat F]

/-- `planview.adjust_geometries(from_end)`, geometry.py:241-295 (Model/PlanView.lean), where `v` is the variable of the planview; the
geometries are changed where they are, also if it raises. -/
def Session.adjustGeometries (v : Nat) (fromEnd : Bool) : EStateM PyErr (Session F) Unit := fun s =>
  match PlanView.adjustGeometries fromEnd ⟨s.planviews.cell v, s.geoms⟩ with
  | .ok _ st => .ok () { s with planviews := s.planviews.put v st.pv, geoms := st.geoms }
  | .error e st => .error e { s with planviews := s.planviews.put v st.pv, geoms := st.geoms }

end Pyodrx
