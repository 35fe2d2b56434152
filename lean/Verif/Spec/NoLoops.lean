import Verif.Spec.Network

/-! # Specification: networks without loops -/

namespace Pyodrx.Spec

variable {F : Type}

/-- One end of a road. -/
abbrev RoadEnd := String × ContactPoint

/-- `L` lists the joints that the links of the network declare, each once, in one of its two directions. -/
def DeclaredJoints (roads : Dict (Road F)) (L : List (RoadEnd × RoadEnd)) : Prop :=
  ∀ k e nb e', PlacedBy roads k e nb e' → ((k, e), (nb, e')) ∈ L ∨ ((nb, e'), (k, e)) ∈ L

/-- There are no more joints than roads that have to be placed. (If every road can be reached from an anchor there
are no fewer either, and the joints form one tree around each anchor.) -/
def NoLoops (roads : Dict (Road F)) : Prop :=
  ∃ (L : List (RoadEnd × RoadEnd)) (placed : List String), DeclaredJoints roads L ∧ placed.Nodup ∧
    (∀ k ∈ placed, k ∈ roads.keys ∧ ¬ Anchor roads k) ∧ L.length ≤ placed.length

end Pyodrx.Spec
