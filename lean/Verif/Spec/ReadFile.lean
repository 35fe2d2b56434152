import Verif.Spec.Read
import Verif.XmlParser

/-! # Specification: reading an OpenDRIVE file

The text is read as XML; each attribute is understood as a number, an integer or a text as OpenDRIVE
prescribes; the result is read as a document. -/

namespace Pyodrx.Spec

variable {F : Type}

/-- What an attribute is. -/
inductive Kind where
  | number
  | integer
  | text
  deriving DecidableEq

/-- The attributes that are integers, with their elements. -/
def integerAttributes : List (String × String) :=
  [("lane", "id"), ("road", "junction"), ("laneLink", "from"), ("laneLink", "to")]

/-- The attributes that are numbers. -/
def numberAttributes : List String :=
  ["s", "t", "x", "y", "hdg", "length", "width", "height", "zOffset", "pitch", "roll", "hOffset", "value",
   "validLength", "radius", "a", "b", "c", "d", "sOffset", "tOffset", "space", "curvStart", "curvEnd",
   "curvature", "aU", "bU", "cU", "dU", "aV", "bV", "cV", "dV", "distance", "tStart", "tEnd", "heightStart",
   "heightEnd", "zOffsetStart", "zOffsetEnd", "widthStart", "widthEnd", "lengthStart", "lengthEnd",
   "radiusStart", "radiusEnd"]

/-- The kind of an attribute of an element. -/
def kindOf (tag key : String) : Kind :=
  if (tag, key) ∈ integerAttributes then .integer
  else if key ∈ numberAttributes then .number
  else .text

/-- The value of an attribute; a text that is not a number where a number is expected is no value. -/
def decodeVal (readNum : String → Option F) (k : Kind) (v : String) : Val F :=
  match k with
  | .number => match readNum v with
    | some x => .num x
    | none => .pyNone
  | .integer => match v.toInt? with
    | some i => .int i
    | none => .pyNone
  | .text => .str v

/-- The tree with its values understood. -/
def decode (readNum : String → Option F) : Node → Xml F
  | .elem t as cs => .elem t (as.map fun p => (p.1, decodeVal readNum (kindOf t p.1) p.2))
      (cs.attach.map fun ⟨c, _⟩ => decode readNum c)

/-- Read the text of a file. `readNum` reads a number. -/
def readFile (readNum : String → Option F) (text : List Char) : Option (RDocument F) :=
  (XmlParser.parse text).bind fun n => readDocument (decode readNum n)

/-- The value occurs in the tree. -/
inductive Occurs (v : Val F) : Xml F → Prop
  | here (t : String) (as : Dict (Val F)) (cs : List (Xml F)) (k : String) : (k, v) ∈ as → Occurs v (.elem t as cs)
  | child (t : String) (as : Dict (Val F)) (cs : List (Xml F)) (c : Xml F) : c ∈ cs → Occurs v c →
      Occurs v (.elem t as cs)

end Pyodrx.Spec
