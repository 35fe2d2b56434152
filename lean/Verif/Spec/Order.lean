import Verif.Spec.NoLoops

/-! # Specification: the order in which roads were added -/

namespace Pyodrx.Spec

variable {F : Type}

/-- No two roads share a geometry object. -/
def Private (roads : Dict (Road F)) : Prop :=
  ∀ k k' r r', roads.get? k = some r → roads.get? k' = some r' → k ≠ k' →
    ∀ g ∈ r.planview.raw, g ∉ r'.planview.raw

/-- The same roads, added in another order. The first road may be another one only if some road has a given start
pose (otherwise the first road is the one where placement starts). -/
structure Reordered (a b : Net F) : Prop where
  roads : a.roads.Perm b.roads
  geoms : a.geoms = b.geoms
  first : a.roads.keys.head? = b.roads.keys.head? ∨ ∃ k r, a.roads.get? k = some r ∧ r.planview.fixed = true

end Pyodrx.Spec
