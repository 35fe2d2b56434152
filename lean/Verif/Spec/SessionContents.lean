import Verif.Spec.SessionProgram

/-! # Specification: what lanes, planviews, signals and objects contain in programs of calls -/

namespace Pyodrx.Spec
open Pyodrx

variable {F : Type}

/-- The road marks that the program adds to the lane `v`, in this order. -/
def markCalls (v : Nat) (p : List (Call F)) : List (RoadMark F) :=
  p.filterMap fun c => match c with
    | .addRoadmark l m => if l = v then some m else none
    | _ => none

/-- The links that the program itself adds to the lane `v`. -/
def laneAddLinkCalls (v : Nat) (p : List (Call F)) : List Link :=
  p.filterMap fun c => match c with
    | .addLaneLink l k id => if l = v then some ⟨k, .str id, none, none, none⟩ else none
    | _ => none

/-- The geometries that the program adds to the planview `v`, with their headings. -/
def geometryCalls (v : Nat) (p : List (Call F)) : List (Nat × Option F) :=
  p.filterMap fun c => match c with
    | .addGeometry pv g h => if pv = v then some (g, h) else none
    | _ => none

/-- The start points that the program sets for the planview `v`. -/
def startCalls (v : Nat) (p : List (Call F)) : List (Pose F) :=
  p.filterMap fun c => match c with
    | .setStartPoint pv q => if pv = v then some q else none
    | _ => none

/-- The repetitions of the object `v`. -/
def repeatCalls (v : Nat) (p : List (Call F)) : List (F × F × RepeatArgs F) :=
  p.filterMap fun c => match c with
    | .repeatObject o len dist args => if o = v then some (len, dist, args) else none
    | _ => none

/-- The object without its id. -/
def Obj.anonymous (o : Obj F) : Obj F := { o with base := { o.base with id := none } }

/-- The signal without its id. -/
def Signal.anonymous (g : Signal F) : Signal F := { g with base := { g.base with id := none } }

end Pyodrx.Spec
