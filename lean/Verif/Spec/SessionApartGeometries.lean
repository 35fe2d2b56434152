import Verif.Spec.SessionApart
import Verif.Model.SessionGeometries

/-! # Specification: programs that also call `planview.adjust_geometries` -/

namespace Pyodrx.Spec
open Pyodrx PyFloat

variable {F : Type}

/-- A call, or `planview.adjust_geometries(from_end)`. -/
inductive Act (F : Type)
  | call (c : Call F)
  | geometries (v : Nat) (fromEnd : Bool)

variable [PyFloat F]

/-- The exception that was raised, and the objects afterwards. -/
def Act.step : Act F → Session F → Option PyErr × Session F
  | .call c, s => c.step s
  | .geometries v b, s => match Session.adjustGeometries v b s with
    | .ok _ s' => (none, s')
    | .error e s' => (some e, s')

/-- What each act raises (or `none`), and the objects after them; every exception is caught. -/
def runActs : List (Act F) → Session F → List (Act F × Option PyErr) × Session F
  | [], s => ([], s)
  | a :: as, s => ((a, (a.step s).1) :: (runActs as (a.step s).2).1, (runActs as (a.step s).2).2)

/-- The call that makes and uses the same objects: `adjust_geometries` uses its planview, as `set_start_point` does. -/
def Act.like : Act F → Call F
  | .call c => c
  | .geometries v _ => .setStartPoint v ⟨ofInt 0, ofInt 0, ofInt 0⟩

/-- The calls that make and use the same objects. -/
def likeCalls (p : List (Act F)) : List (Call F) := p.map Act.like

end Pyodrx.Spec
