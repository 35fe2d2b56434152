import Verif.XmlParser
import Verif.Model.OpenDrive

/-! # `pyodrx/helpers.py` (`printToFile`) and `OpenDrive.write_xml`

with the parts of Python's standard library they use (version 3.11), character by character. For the encoding
of the text into bytes see `Model/File.lean`; here only the character references that replace the characters
outside ASCII in a plain file. -/

namespace Pyodrx

variable {F : Type}

/-- The text of an attribute value. pyodrx calls `str(...)` on the values itself; `show` is what Python
prints for a float. -/
def Val.text (show' : F → String) : Val F → String
  | .num x => show' x
  | .int i => strInt i
  | .str s => s
  | .pyNone => "None"

/-- An element tree as the `ElementTree` library sees it. -/
def Xml.render (show' : F → String) : Xml F → Node
  | .elem t as cs => .elem t (as.map fun p => (p.1, p.2.text show')) (cs.attach.map fun ⟨c, _⟩ => c.render show')

/-- `text.replace(c, s)` for a single character `c` -/
def replaceChar (c : Char) (s : String) (l : List Char) : List Char :=
  l.flatMap fun x => if x = c then s.toList else [x]

/-- `xml.etree.ElementTree._escape_attrib` (Python 3.11), in the order of its replacements -/
def escapeAttrib (v : List Char) : List Char :=
  let v := replaceChar '&' "&amp;" v
  let v := replaceChar '<' "&lt;" v
  let v := replaceChar '>' "&gt;" v
  let v := replaceChar '"' "&quot;" v
  let v := replaceChar '\r' "&#13;" v
  let v := replaceChar '\n' "&#10;" v
  replaceChar '\t' "&#09;" v

/-- The attributes of a start tag: `write(" %s=\"%s\"" % (k, v))` for each, with the given escaping. -/
def writeAttrs (escape : List Char → List Char) (as : List (String × String)) : List Char :=
  as.flatMap fun p => " ".toList ++ p.1.toList ++ "=\"".toList ++ escape p.2.toList ++ "\"".toList

/-- `xml.etree.ElementTree._serialize_xml` for elements without text, tail and namespaces -/
def serialize : Node → List Char
  | .elem t as cs =>
    "<".toList ++ t.toList ++ writeAttrs escapeAttrib as ++
    (if cs.isEmpty then " />".toList
     else ">".toList ++ (cs.attach.flatMap fun ⟨c, _⟩ => serialize c) ++ "</".toList ++ t.toList ++
       ">".toList)

/-- The error handler `xmlcharrefreplace` when the file is encoded in `us-ascii` -/
def charRefs (l : List Char) : List Char :=
  l.flatMap fun c =>
    if c.toNat < 128 then [c] else "&#".toList ++ Nat.toDigits 10 c.toNat ++ ";".toList

/-- `xml.dom.minidom._write_data` (Python 3.11) -/
def escapeData (v : List Char) : List Char :=
  let v := replaceChar '&' "&amp;" v
  let v := replaceChar '<' "&lt;" v
  let v := replaceChar '"' "&quot;" v
  replaceChar '>' "&gt;" v

/-- `xml.dom.minidom.Element.writexml` with `addindent="\t"` and `newl="\n"`, for elements without text -/
def prettyElement (indent : List Char) : Node → List Char
  | .elem t as cs =>
    indent ++ "<".toList ++ t.toList ++ writeAttrs escapeData as ++
    (if cs.isEmpty then "/>".toList ++ "\n".toList
     else ">".toList ++ "\n".toList ++
       (cs.attach.flatMap fun ⟨c, _⟩ => prettyElement (indent ++ "\t".toList) c) ++
       indent ++ "</".toList ++ t.toList ++ ">".toList ++ "\n".toList)

/-- `xml.dom.minidom.Document.toprettyxml(indent="\t")` -/
def toPrettyXml (n : Node) : List Char :=
  "<?xml version=\"1.0\" ?>".toList ++ "\n".toList ++ prettyElement [] n

/-- What `printToFile` writes, helpers.py:55-76. Without pretty printing the tree is serialised; otherwise
the text is parsed again and printed with indentation. -/
def printToFile (element : Node) (prettyprint : Bool) : Except PyErr (List Char) :=
  if prettyprint then
    let rough := (serialize element).filter (· ≠ '\n') |>.filter (· ≠ '\t')
    match XmlParser.parse rough with
    | none => .error .expatError
    | some reparsed => .ok (toPrettyXml reparsed)
  else .ok (charRefs (serialize element))

/-- `OpenDrive.write_xml`, opendrive.py:579-592: the name of the file and its text. `date` is the time
that `_Header` takes from the clock. -/
def OpenDrive.writeXml [PyFloat F] (show' : F → String) (hp : Heap F) (date : String) (o : OpenDrive F)
    (filename : Option String) (prettyprint : Bool) : Except PyErr (String × List Char) := do
  let filename := match filename with
    | none => o.name ++ ".xodr"
    | some f => f
  let element ← o.getElement hp date
  let text ← printToFile (element.render show') prettyprint
  pure (filename, text)

end Pyodrx
