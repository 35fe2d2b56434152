import Verif.Model.Shared

/-! # Specification: roads with their own PlanView objects -/

namespace Pyodrx.Spec

variable {F : Type}

/-- No two roads have the same PlanView object. -/
def OwnPlanViews (net : SharedNet F) : Prop :=
  ∀ k k' r r', net.roads.get? k = some r → net.roads.get? k' = some r' → k ≠ k' → r.pv ≠ r'.pv

/-- The roads as they are read, each with its planview inside. -/
def unshared (net : SharedNet F) : Net F := ⟨net.roads.map fun kv => (kv.1, kv.2.read net.pvs), net.geoms⟩

end Pyodrx.Spec
