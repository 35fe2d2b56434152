import Verif.Xml

/-! # Reading XML text

What a conforming XML 1.0 processor does with a document that consists of elements and attributes only
(no character data but white space, no comments, no CDATA, no DTD; a processing instruction or XML
declaration is skipped). It stands for the parser behind `xml.dom.minidom.parseString` in the model, and
for the reader of the written file in the specifications. Rejected are: unbalanced tags, names that are
no names, missing quotes, duplicate attributes, `<` in attribute values, unknown references,
characters that XML does not allow. Names are restricted to ASCII.

It is an automaton that eats one character after the other. -/

namespace Pyodrx

/-- An element with its attribute values as text. -/
inductive Node where
  | elem (tag : String) (attrs : List (String × String)) (children : List Node)

namespace XmlParser

/-- `Char` of XML 1.0 (production 2). -/
def isXmlChar (c : Char) : Bool :=
  c = '\t' || c = '\n' || c = '\r' || (' ' ≤ c && c ≠ '\uFFFE' && c ≠ '\uFFFF')

/-- `S` (production 3) -/
def isSpace (c : Char) : Bool := c = ' ' || c = '\t' || c = '\n' || c = '\r'

/-- `NameStartChar` (production 4), ASCII part -/
def isNameStart (c : Char) : Bool := c.isAlpha || c = '_' || c = ':'

/-- `NameChar` (production 4a), ASCII part -/
def isNameChar (c : Char) : Bool := isNameStart c || c.isDigit || c = '-' || c = '.'

/-- End-of-line handling (section 2.11): a carriage return, with or without a line feed after it, is
read as one line feed. -/
def eol : List Char → List Char
  | [] => []
  | '\r' :: '\n' :: l => '\n' :: eol l
  | '\r' :: l => '\n' :: eol l
  | c :: l => c :: eol l

/-- The value of a digit. -/
def digitValue (base : Nat) (c : Char) : Option Nat :=
  let d := if c.isDigit then some (c.toNat - '0'.toNat)
    else if 'a' ≤ c ∧ c ≤ 'f' then some (c.toNat - 'a'.toNat + 10)
    else if 'A' ≤ c ∧ c ≤ 'F' then some (c.toNat - 'A'.toNat + 10)
    else none
  d.bind fun v => if v < base then some v else none

/-- A number in the given base, at least one digit. -/
def number (base : Nat) : List Char → Option Nat
  | [] => none
  | l => l.foldl (fun acc c => acc.bind fun n => (digitValue base c).map fun v => base * n + v) (some 0)

/-- The character with this code point. -/
def charOf (n : Nat) : Option Char :=
  if h : n.isValidChar then
    let c := Char.ofNatAux n h
    if isXmlChar c then some c else none
  else none

/-- What the reference `&name;` stands for (sections 4.1 and 4.6). -/
def reference (name : List Char) : Option Char :=
  if name = ['a', 'm', 'p'] then some '&'
  else if name = ['l', 't'] then some '<'
  else if name = ['g', 't'] then some '>'
  else if name = ['q', 'u', 'o', 't'] then some '"'
  else if name = ['a', 'p', 'o', 's'] then some '\''
  else match name with
    | '#' :: 'x' :: l => (number 16 l).bind charOf
    | '#' :: l => (number 10 l).bind charOf
    | _ => none

/-- Where in the text the reader is. Texts read so far are kept in reverse. -/
inductive Mode where
  /-- between tags -/
  | content
  /-- behind `<` -/
  | open
  /-- in `<?...?>`; whether the last character was `?` -/
  | skip (q : Bool)
  /-- in the name of a start tag -/
  | tag (name : List Char)
  /-- in a start tag; whether a name may follow (behind white space) -/
  | attrs (tag : String) (as : List (String × String)) (sep : Bool)
  /-- in the name of an attribute -/
  | attrName (tag : String) (as : List (String × String)) (name : List Char)
  /-- behind `=` -/
  | equals (tag : String) (as : List (String × String)) (name : String)
  /-- in the value of an attribute -/
  | value (tag : String) (as : List (String × String)) (name : String) (quote : Char) (v : List Char)
  /-- in a reference in the value of an attribute -/
  | ref (tag : String) (as : List (String × String)) (name : String) (quote : Char) (v : List Char)
      (r : List Char)
  /-- behind `/` in a start tag -/
  | slash (tag : String) (as : List (String × String))
  /-- in the name of an end tag, behind it if `done` -/
  | close (name : List Char) (done : Bool)

/-- The state of the reader: the open elements, each with its preceding siblings in reverse; the
children of the innermost one so far, in reverse. -/
structure State where
  mode : Mode
  stack : List (String × List (String × String) × List Node)
  done : List Node

/-- An empty element, or the start tag of an element, has been read. -/
def State.start (s : State) (tag : String) (as : List (String × String)) : State :=
  ⟨.content, (tag, as, s.done) :: s.stack, []⟩
def State.empty (s : State) (tag : String) (as : List (String × String)) : State :=
  ⟨.content, s.stack, .elem tag as [] :: s.done⟩

/-- An end tag has been read. -/
def State.end (s : State) (tag : String) : Option State :=
  match s.stack with
  | (t, as, prev) :: stack =>
    if t = tag then some ⟨.content, stack, .elem t as s.done.reverse :: prev⟩ else none
  | [] => none

/-- Read one character. -/
def step (s : State) (c : Char) : Option State :=
  if isXmlChar c = false then none else
  match s.mode with
  | .content =>
    if c = '<' then some { s with mode := .open } else if isSpace c then some s else none
  | .open =>
    if c = '/' then some { s with mode := .close [] false }
    else if c = '?' then some { s with mode := .skip false }
    else if isNameStart c then some { s with mode := .tag [c] } else none
  | .skip q =>
    if q && c = '>' then some { s with mode := .content } else some { s with mode := .skip (c = '?') }
  | .tag n =>
    if isNameChar c then some { s with mode := .tag (c :: n) }
    else
      let t := String.ofList n.reverse
      if isSpace c then some { s with mode := .attrs t [] true }
      else if c = '>' then some (s.start t [])
      else if c = '/' then some { s with mode := .slash t [] } else none
  | .attrs t as sep =>
    if isSpace c then some { s with mode := .attrs t as true }
    else if c = '>' then some (s.start t as)
    else if c = '/' then some { s with mode := .slash t as }
    else if sep && isNameStart c then some { s with mode := .attrName t as [c] } else none
  | .attrName t as n =>
    if isNameChar c then some { s with mode := .attrName t as (c :: n) }
    else if c = '=' then
      let name := String.ofList n.reverse
      if name ∈ as.map Prod.fst then none else some { s with mode := .equals t as name }
    else none
  | .equals t as n =>
    if c = '"' || c = '\'' then some { s with mode := .value t as n c [] } else none
  | .value t as n q v =>
    if c = q then some { s with mode := .attrs t (as ++ [(n, String.ofList v.reverse)]) false }
    else if c = '<' then none
    else if c = '&' then some { s with mode := .ref t as n q v [] }
    else some { s with mode := .value t as n q ((if isSpace c then ' ' else c) :: v) }
  | .ref t as n q v r =>
    if c = ';' then (reference r.reverse).map fun x => { s with mode := .value t as n q (x :: v) }
    else some { s with mode := .ref t as n q v (c :: r) }
  | .slash t as => if c = '>' then some (s.empty t as) else none
  | .close n d =>
    if c = '>' then s.end (String.ofList n.reverse)
    else if isSpace c then some { s with mode := .close n true }
    else if d = false && (if n = [] then isNameStart c else isNameChar c) then
      some { s with mode := .close (c :: n) false }
    else none

/-- Read some characters. -/
def run (s : State) : List Char → Option State
  | [] => some s
  | c :: l => (step s c).bind fun s' => run s' l

/-- Read a whole document: one element. -/
def parse (text : List Char) : Option Node :=
  (run ⟨.content, [], []⟩ (eol text)).bind fun s =>
    match s with
    | ⟨.content, [], [n]⟩ => some n
    | _ => none

end XmlParser

end Pyodrx
