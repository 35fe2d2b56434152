import Verif.Spec.NoLoops

/-! # Specification: networks that form trees -/

namespace Pyodrx.Spec

variable {F : Type}

/-- `L` lists the joints of the network from the anchors outwards. An entry `((k, e), (nb, e'))` says that the end `e`
of road `k` is to be put at the end `e'` of road `nb`. -/
structure Tree (roads : Dict (Road F)) (L : List (RoadEnd × RoadEnd)) : Prop where
  /-- every joint that the links declare is listed, in one of its two directions -/
  complete : DeclaredJoints roads L
  /-- every road is put somewhere once ... -/
  once : (L.map (·.1.1)).Nodup
  /-- ... except the anchors -/
  all : ∀ k, k ∈ L.map (·.1.1) ↔ k ∈ roads.keys ∧ ¬ Anchor roads k
  /-- by a declared link -/
  declared : ∀ k e nb e', ((k, e), (nb, e')) ∈ L → PlacedBy roads k e nb e'
  /-- at an anchor or at a road that was put before -/
  outwards : ∀ (i : Nat) k nb, L[i]? = some (k, nb) →
    Anchor roads nb.1 ∨ ∃ j, j < i ∧ ∃ y, L[j]? = some y ∧ y.1.1 = nb.1

end Pyodrx.Spec
