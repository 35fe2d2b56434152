import Verif.Spec.XmlText
import Verif.Model.SignalsObjects

/-! # Specification: repeats of objects carry the attributes of the class `Object` only -/

namespace Pyodrx.Spec

variable {F : Type}

/-- The attributes of a `repeat` element. -/
def repeatAttributes : List String :=
  ["length", "distance", "s", "tStart", "tEnd", "heightStart", "heightEnd", "zOffsetStart", "zOffsetEnd",
   "widthStart", "widthEnd", "lengthStart", "lengthEnd", "radiusStart", "radiusEnd"]

/-- Every repeat of the object has some of these attributes, each at most once, and each with a number or
the text `None`. This holds of every object that pyodrx makes: `C63_repeats`. -/
def RepeatsNamed (o : Obj F) : Prop := ∀ r ∈ o.repeats, (r.map Prod.fst).Sublist repeatAttributes ∧
  ∀ p ∈ r, (∃ x, p.2 = .num x) ∨ p.2 = .pyNone

end Pyodrx.Spec
