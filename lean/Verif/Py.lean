/-!
# A small Python runtime

The parts of Python (and numpy/scipy) that pyodrx relies on, as ordinary Lean values.
Nothing here models pyodrx itself; it is the vocabulary in which `Verif/Model` is written.
-/

namespace Pyodrx

/-- The exceptions pyodrx (or the Python runtime below it) can raise.
Builtin ones, and those of `pyodrx/exceptions.py:4-26`.
Simplification: the message texts are not modelled.
`nonFinite` is not a Python exception: it marks the points where numpy would produce `inf`/`nan`. -/
inductive PyErr where
  | valueError
  | keyError
  | indexError
  | typeError
  | attributeError
  | nameError
  | unboundLocalError
  | zeroDivisionError
  | notEnoughInputArguments      -- exceptions.py:9
  | toManyOptionalArguments      -- exceptions.py:14
  | notSameAmountOfLanesError    -- exceptions.py:4
  | undefinedRoadNetwork         -- exceptions.py:19
  | roadsAndLanesNotAdjusted     -- exceptions.py:24
  | nonFinite
  | expatError                   -- xml.parsers.expat.ExpatError
  | unicodeEncodeError
  deriving DecidableEq, Repr

/-- The arithmetic used by pyodrx on floats (builtin operators, `numpy`, `scipy`).
No laws are assumed: a theorem stated for every `PyFloat F` uses no property of arithmetic. -/
class PyFloat (F : Type) where
  /-- an integer literal or a Python `int` used in float arithmetic -/
  ofInt : Int → F
  add : F → F → F
  sub : F → F → F
  mul : F → F → F
  /-- division by a non-zero value (the model checks the divisor first where it can be zero) -/
  div : F → F → F
  neg : F → F
  abs : F → F
  /-- `np.maximum` -/
  max : F → F → F
  /-- `np.sign` -/
  sign : F → F
  sin : F → F
  cos : F → F
  sqrt : F → F
  /-- `np.arctan2 y x` -/
  arctan2 : F → F → F
  /-- `np.pi` -/
  pi : F
  /-- first component of `scipy.special.fresnel` -/
  fresnelS : F → F
  /-- second component of `scipy.special.fresnel` -/
  fresnelC : F → F
  /-- first component of `scipy.integrate.quad f a b` -/
  quad : (F → F) → F → F → F
  /-- `x == 0` -/
  isZero : F → Bool
  /-- `x < y` -/
  lt : F → F → Bool

namespace PyFloat
scoped infixl:65 " +. " => PyFloat.add
scoped infixl:65 " -. " => PyFloat.sub
scoped infixl:70 " *. " => PyFloat.mul
scoped infixl:70 " /. " => PyFloat.div

variable {F : Type} [PyFloat F]

/-- Python truthiness of an optional number: `None` and `0` are falsy. -/
def truthy : Option F → Bool
  | none => false
  | some x => !isZero x

/-- Python `a or b` where `a` is an optional number. -/
def orElse (a : Option F) (b : F) : F :=
  match a with
  | none => b
  | some x => if isZero x then b else x

end PyFloat

/-- Identifiers of roads, junctions, signals: Python `int` or `str`.
`1 == "1"` is false in Python although `str(1) == "1"`. -/
inductive PyId where
  | int (i : Int)
  | str (s : String)
  deriving DecidableEq, Repr

/-- Python `str(i)` of an integer. -/
def strInt (i : Int) : String := i.repr

/-- Python `str(id)`. -/
def PyId.toStr : PyId → String
  | .int i => strInt i
  | .str s => s

/-- A value about to be turned into text by `str(...)` for an XML attribute.
Simplification: numbers are kept as numbers instead of being rendered. -/
inductive Val (F : Type) where
  | num (x : F)
  | int (i : Int)
  | str (s : String)
  /-- Python's `None`, rendered as the text `None` -/
  | pyNone

namespace Val
variable {F : Type}
/-- `str(x)` of an optional number. -/
def ofOpt : Option F → Val F
  | none => .pyNone
  | some x => .num x
/-- `str(id)`. -/
def ofId : PyId → Val F
  | .int i => .int i
  | .str s => .str s
/-- `str(id)` of an optional id. -/
def ofOptId : Option PyId → Val F
  | none => .pyNone
  | some i => ofId i
/-- `str(s)` of an optional string. -/
def ofOptStr : Option String → Val F
  | none => .pyNone
  | some s => .str s
end Val

/-- Python list indexing `l[i]`, including negative indices; `none` is `IndexError`. -/
def pyGet? {α : Type} (l : List α) (i : Int) : Option α :=
  if 0 ≤ i then l[i.toNat]?
  else if (-i).toNat ≤ l.length then l[l.length - (-i).toNat]? else none

/-- Insertion-ordered Python `dict` with string keys. -/
abbrev Dict (α : Type) := List (String × α)

namespace Dict
variable {α : Type}

/-- `d.get(k)`. -/
def get? : Dict α → String → Option α
  | [], _ => none
  | (k', v) :: d, k => if k' = k then some v else get? d k

/-- `d[k] = v`: replaces in place, or appends at the end. -/
def set : Dict α → String → α → Dict α
  | [], k, v => [(k, v)]
  | (k', v') :: d, k, v => if k' = k then (k', v) :: d else (k', v') :: set d k v

/-- `list(d)`. -/
def keys (d : Dict α) : List String := d.map Prod.fst

end Dict

/-- A heap of Python objects of one class. `cell r` is the object referenced by `r`;
references `≥ next` have not been allocated yet. -/
structure Store (α : Type) where
  cell : Nat → α
  next : Nat

namespace Store
variable {α : Type}

/-- Mutate the object `r`. -/
def modify (st : Store α) (r : Nat) (f : α → α) : Store α :=
  { st with cell := fun i => if i = r then f (st.cell r) else st.cell i }

/-- Overwrite the object `r`. -/
def put (st : Store α) (r : Nat) (a : α) : Store α := st.modify r (fun _ => a)

/-- Create a new object; returns its reference. -/
def alloc (st : Store α) (a : α) : Store α × Nat :=
  ({ cell := fun i => if i = st.next then a else st.cell i, next := st.next + 1 }, st.next)

end Store

/-- `itertools.combinations(l, 2)`. -/
def combinations2 {α : Type} : List α → List (α × α)
  | [] => []
  | a :: l => l.map (fun b => (a, b)) ++ combinations2 l

/-- Raise with the current state. -/
def raise {σ α : Type} (e : PyErr) : EStateM PyErr σ α := fun s => .error e s

/-- Use an optional result, raising `e` when it is absent. -/
def orRaise {σ α : Type} (e : PyErr) : Option α → EStateM PyErr σ α
  | some a => pure a
  | none => raise e

end Pyodrx
