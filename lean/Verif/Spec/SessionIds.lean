import Verif.Spec.SessionProgram
import Verif.Spec.Read

/-! # Specification: signals and objects in programs of calls -/

namespace Pyodrx.Spec
open Pyodrx

variable {F : Type}

/-- The objects that the program adds to the road `v`, in this order. -/
def objectCalls (v : Nat) (p : List (Call F)) : List Nat :=
  p.flatMap fun c => match c with
    | .addObject r os => if r = v then os else []
    | _ => []

/-- The signals that the program adds to the road `v`. -/
def signalCalls (v : Nat) (p : List (Call F)) : List Nat :=
  p.flatMap fun c => match c with
    | .addSignal r os => if r = v then os else []
    | _ => []

/-- The objects that the program adds to roads, with repetitions. -/
def addedObjects (p : List (Call F)) : List Nat :=
  p.flatMap fun c => match c with
    | .addObject _ os => os
    | _ => []

/-- The signals that the program adds to roads, with repetitions. -/
def addedSignals (p : List (Call F)) : List Nat :=
  p.flatMap fun c => match c with
    | .addSignal _ os => os
    | _ => []

end Pyodrx.Spec
