import Verif.Spec.SessionFile
import Verif.Spec.SessionRoads
import Verif.Spec.SessionIds
import Verif.Spec.SessionNumbers

/-! # Specification: the texts of calls that are certainly written -/

namespace Pyodrx.Spec
open Pyodrx

variable {F : Type}

/-- The road `v` is added to the `OpenDrive` object `o` and no other road is added later under the same id. -/
def RoadKept (p : List (Call F)) (o v : Nat) : Prop :=
  ∃ a b, roadCalls o p = a ++ v :: b ∧ ∀ w ∈ b, roadIdCall w p ≠ roadIdCall v p

/-- The texts in the calls of `p` that are in the document of the `OpenDrive` object `o`: its name; the name, rule and id of the roads that
are kept and the ids that their predecessor and successor have; subtype, name and type of the objects added to these roads; subtype, name,
country and type of their signals, and the unit of those with a value; name and id of the added junctions; the road ids of their connections. -/
inductive CallWritten (p : List (Call F)) (o : Nat) : String → Prop
  | document {t} : .openDrive o t ∈ p → CallWritten p o t
  | road {v i pv l ty n ru t} : RoadKept p o v → .road v i pv l ty n ru ∈ p → t ∈ n.toList ++ ru.toList ++ idTexts i → CallWritten p o t
  | link {v l t} : RoadKept p o v → l ∈ ((predecessorCalls v p).take 1 ++ (successorCalls v p).take 1).map (·.1) → t ∈ idTexts l.elementId →
      CallWritten p o t
  | object {v x ob t} : RoadKept p o v → x ∈ objectCalls v p → .object x ob ∈ p → t ∈ ob.base.subtype.toList ++ ob.base.name.toList →
      CallWritten p o t
  | objectType {v x ob t} : RoadKept p o v → x ∈ objectCalls v p → .object x ob ∈ p → ob.base.typ = .str t → CallWritten p o t
  | signal {v x g t} : RoadKept p o v → x ∈ signalCalls v p → .signal x g ∈ p →
      t ∈ g.base.subtype.toList ++ g.base.name.toList ++ [g.country, g.type] → CallWritten p o t
  | unit {v x g t} : RoadKept p o v → x ∈ signalCalls v p → .signal x g ∈ p → g.value.isSome → g.unit = some t → CallWritten p o t
  | junction {j name id t} : .addJunction o j ∈ p → .junction j name id ∈ p → t ∈ name :: idTexts id → CallWritten p o t
  | connection {j x inc con cp id t} : .addJunction o j ∈ p → x ∈ connectionCalls j p → .connection x inc con cp id ∈ p →
      t ∈ idTexts inc ++ idTexts con → CallWritten p o t

end Pyodrx.Spec
