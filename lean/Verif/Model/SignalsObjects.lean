import Verif.Model.Links
import Std.Data.String.ToNat

/-! # `pyodrx/signals_objects.py` -/

namespace Pyodrx
open PyFloat

variable {F : Type}

/-- `Type` of a signal or object: an `ObjectType` or a string. -/
inductive SOType where
  | obj (t : ObjectType)
  | str (s : String)
  deriving DecidableEq, Repr

/-- `_SignalObjectBase` attributes, signals_objects.py:88-100 -/
structure SOBase (F : Type) where
  s : F
  t : F
  id : Option PyId
  typ : SOType
  subtype : Option String
  dynamic : Dynamic
  name : Option String
  zOffset : F
  orientation : Orientation
  pitch : F
  roll : F
  width : Option F
  height : Option F

/-! ## The id registry: class attributes `_usedIDs`, `_IDCounter`, signals_objects.py:53-54 -/

/-- used ids and counter of one class. The two dicts always have the same keys. -/
structure ClassReg where
  used : List String
  counter : Nat
  deriving DecidableEq, Repr

/-- both dicts, keyed by class name -/
abbrev Registry := Dict ClassReg

/-- `str(id)` of an optional id. -/
def optIdText : Option PyId → String
  | none => "None"
  | some i => i.toStr

/-- used ids that are not the text of a number below `c` -/
def usedFrom (used : List String) (c : Nat) : List String :=
  used.filter fun s => !((List.range c).map Nat.repr).contains s

theorem mem_usedFrom {used : List String} {c : Nat} {s : String} :
    s ∈ usedFrom used c ↔ s ∈ used ∧ ∀ n, n < c → Nat.repr n ≠ s := by
  simp [usedFrom]

theorem usedFrom_lt (used : List String) (c : Nat) (h : Nat.repr c ∈ used) :
    (usedFrom used (c + 1)).length < (usedFrom used c).length := by
  have key : usedFrom used (c + 1) = (usedFrom used c).filter (fun s => s != Nat.repr c) := by
    unfold usedFrom
    rw [List.filter_filter]
    congr 1
    funext s
    rw [List.range_succ, List.map_append, Bool.eq_iff_iff]
    simp only [List.map_cons, List.map_nil, List.contains_eq_mem, Bool.not_eq_true',
      decide_eq_false_iff_not, List.mem_append, List.mem_cons, List.not_mem_nil, or_false,
      not_or, Bool.and_eq_true, bne_iff_ne, ne_eq, and_comm]
  rw [key]
  have hm : Nat.repr c ∈ usedFrom used c := by
    rw [mem_usedFrom]
    exact ⟨h, fun n hn e => by have := Nat.repr_inj.mp e; omega⟩
  exact List.length_filter_lt_length_iff_exists.mpr ⟨_, hm, by simp⟩

/-- The loop `while str(counter) in used: counter += 1`, signals_objects.py:114-115.
That Lean accepts this recursion is the proof that the loop terminates. -/
def freeCounter (used : List String) (c : Nat) : Nat :=
  if h : Nat.repr c ∈ used then freeCounter used (c + 1) else c
termination_by (usedFrom used c).length
decreasing_by exact usedFrom_lt used c h

/-- `_SignalObjectBase._update_id`, signals_objects.py:102-118, for an object of class `cls` with
current id `id`; returns the new id. -/
def updateId (cls : String) (id : Option PyId) (reg : Registry) : PyId × Registry :=
  -- `except KeyError`: first object of the class
  let cr : ClassReg := (reg.get? cls).getD ⟨[], 0⟩
  match id with
  | some i =>
    if i.toStr ∈ cr.used then
      let c := freeCounter cr.used cr.counter
      (.str (Nat.repr c), reg.set cls ⟨cr.used ++ [Nat.repr c], c⟩)
    else (i, reg.set cls ⟨cr.used ++ [i.toStr], cr.counter⟩)
  | none =>
    let c := freeCounter cr.used cr.counter
    (.str (Nat.repr c), reg.set cls ⟨cr.used ++ [Nat.repr c], c⟩)

section
variable [PyFloat F]

/-- attribute emitted only `if self.x:` (non-zero) -/
def attrIfNonzero (k : String) (x : F) : Dict (Val F) :=
  if isZero x then [] else [(k, .num x)]

end

/-- attribute emitted only if not `None` -/
def attrIfSome (k : String) (x : Option F) : Dict (Val F) :=
  match x with | some v => [(k, .num v)] | none => []

section
variable [PyFloat F]

/-- `get_common_attributes`, signals_objects.py:122-154 -/
def SOBase.commonAttributes (o : SOBase F) : Dict (Val F) :=
  [("id", .ofOptId o.id), ("s", .num o.s), ("t", .num o.t), ("subtype", .ofOptStr o.subtype),
   ("dynamic", .str (enum2strName o.dynamic.name)), ("zOffset", .num o.zOffset)] ++
  attrIfNonzero "pitch" o.pitch ++ attrIfNonzero "roll" o.roll ++
  attrIfSome "width" o.width ++ attrIfSome "height" o.height ++
  (match o.name with | some n => [("name", .str n)] | none => []) ++
  [("type", match o.typ with | .obj t => .str (enum2strName t.name) | .str s => .str s)] ++
  [("orientation", match o.orientation with
     | .positive => .str "+" | .negative => .str "-" | .none => .str (enum2strName Orientation.none.name))]

/-! ## Signal -/

/-- `Signal`, signals_objects.py:189-245. `Signal.type` is the string form of `Type`. -/
structure Signal (F : Type) where
  base : SOBase F
  country : String
  type : String
  value : Option F
  unit : Option String
  hOffset : F

/-- `Signal.__init__`, signals_objects.py:189-245. Simplification: `Type` and `subtype` are strings. -/
def Signal.new (s t : F) (country type subtype : String) (id : Option PyId) (name : Option String)
    (dynamic : Dynamic) (value : Option F) (unit : Option String) (zOffset : F)
    (orientation : Orientation) (hOffset pitch roll : F) (height width : Option F) : Signal F :=
  { base := { s, t, id, typ := .str type, subtype := some subtype, dynamic, name, zOffset,
              orientation, pitch, roll, width, height }
    country, type, value, unit, hOffset }

/-- `Signal.get_attributes`, signals_objects.py:249-260. `upper()` on ASCII letters. -/
def Signal.getAttributes (g : Signal F) : Dict (Val F) :=
  let d := g.base.commonAttributes
  let d := d.set "country" (.str (g.country.map Char.toUpper))
  let d := d.set "type" (.str g.type)
  let d := d.set "subtype" (.ofOptStr g.base.subtype)
  let d := if isZero g.hOffset then d else d.set "hOffset" (.num g.hOffset)
  match g.value with
  | some v => (d.set "value" (.num v)).set "unit" (.ofOptStr g.unit)
  | none => d

/-- `Signal.get_element`, signals_objects.py:262-264 -/
def Signal.getElement (g : Signal F) : Xml F := .elem "signal" g.getAttributes []

/-! ## Dependency -/

/-- `Dependency`, signals_objects.py:267-299 -/
def Dependency.getElement (id type : String) : Xml F :=
  .elem "dependency" [("id", .str id), ("type", .str type)] []

/-! ## Object -/

/-- `Object`, signals_objects.py:403-413 -/
structure Obj (F : Type) where
  base : SOBase F
  validLength : Option F
  length : Option F
  hdg : F
  radius : Option F
  repeats : List (Dict (Val F))

/-- `Object.__init__`, signals_objects.py:362-427 -/
def Obj.new (s t : F) (typ : SOType) (subtype : Option String) (id : Option PyId)
    (name : Option String) (dynamic : Dynamic) (zOffset : F) (orientation : Orientation)
    (hdg pitch roll : F) (width length height radius validLength : Option F) : Obj F :=
  let base : SOBase F := { s, t, id, typ, subtype, dynamic, name, zOffset, orientation, pitch,
                           roll, width, height }
  let o : Obj F := { base, validLength, length, hdg, radius, repeats := [] }
  if radius.isSome && (width.isSome || length.isSome) then
    { o with base := { base with width := none }, length := none }
  else if width.isSome && length.isNone then { o with length := some (ofInt 0) }
  else if length.isSome && width.isNone then
    { o with base := { base with width := some (ofInt 0) } }
  else o

/-- the optional arguments of `Object.repeat` -/
structure RepeatArgs (F : Type) where
  sStart : Option F := none
  tStart : Option F := none
  tEnd : Option F := none
  heightStart : Option F := none
  heightEnd : Option F := none
  zOffsetStart : Option F := none
  zOffsetEnd : Option F := none
  widthStart : Option F := none
  widthEnd : Option F := none
  lengthStart : Option F := none
  lengthEnd : Option F := none
  radiusStart : Option F := none
  radiusEnd : Option F := none

/-- `heightStart`/`heightEnd`: signals_objects.py:457-466.
`if given == None and self.height != None: str(self.height) else: str(given)` -/
def repeatHeight (given height : Option F) : Val F :=
  match given, height with
  | none, some h => .num h
  | g, _ => .ofOpt g

/-- `Object.repeat`, signals_objects.py:429-491 -/
def Obj.repeat (o : Obj F) (repeatLength repeatDistance : F) (a : RepeatArgs F) : Obj F :=
  let d : Dict (Val F) :=
    [("length", .num repeatLength), ("distance", .num repeatDistance),
     ("s", .num (a.sStart.getD o.base.s)), ("tStart", .num (a.tStart.getD o.base.t)),
     ("tEnd", .num (a.tEnd.getD o.base.t)),
     ("heightStart", repeatHeight a.heightStart o.base.height),
     ("heightEnd", repeatHeight a.heightEnd o.base.height),
     ("zOffsetStart", .num (a.zOffsetStart.getD o.base.zOffset)),
     ("zOffsetEnd", .num (a.zOffsetEnd.getD o.base.zOffset))] ++
    attrIfSome "widthStart" a.widthStart ++ attrIfSome "widthEnd" a.widthEnd ++
    attrIfSome "lengthStart" a.lengthStart ++ attrIfSome "lengthEnd" a.lengthEnd ++
    attrIfSome "radiusStart" a.radiusStart ++ attrIfSome "radiusEnd" a.radiusEnd
  { o with repeats := o.repeats ++ [d] }

/-- `Object.get_attributes`, signals_objects.py:493-508 -/
def Obj.getAttributes (o : Obj F) : Dict (Val F) :=
  let d := o.base.commonAttributes
  let d := match o.validLength with | some v => d.set "validLength" (.num v) | none => d
  let d := d.set "hdg" (.num o.hdg)
  match o.radius with
  | some r => d.set "radius" (.num r)
  | none =>
    match o.length, o.base.width with
    | some l, some w => (d.set "length" (.num l)).set "width" (.num w)
    | _, _ => d

/-- `Object.get_element`, signals_objects.py:510-518 -/
def Obj.getElement (o : Obj F) : Xml F :=
  .elem "object" o.getAttributes (o.repeats.map fun r => .elem "repeat" r [])

end

end Pyodrx
