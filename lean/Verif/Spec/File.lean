import Verif.Model.File
import Verif.Spec.ReadFile

/-! # Specification: reading the bytes of a file -/

namespace Pyodrx.Spec

variable {F : Type}

/-- The text that an XML reader finds in a file without encoding declaration: the bytes are UTF-8. -/
def textOfFile (b : ByteArray) : Option (List Char) := b.utf8Decode?.map Array.toList

/-- The element tree that an XML reader finds in a file. -/
def treeOfFile (b : ByteArray) : Option Node := (textOfFile b).bind XmlParser.parse

/-- The document that a reader of OpenDRIVE finds in a file. -/
def documentOfFile (readNum : String → Option F) (b : ByteArray) : Option (RDocument F) := (textOfFile b).bind (readFile readNum)

/-- The platform writes these characters as UTF-8 does. -/
def WritesUtf8 (pl : Platform) (text : List Char) : Prop := ∀ c ∈ text, pl.encode c = some (String.utf8EncodeChar c)

/-- A line break is written as on Unix or as on Windows. -/
def UsualLinesep (pl : Platform) : Prop := pl.linesep = ['\n'] ∨ pl.linesep = ['\r', '\n']

/-- The encoding ISO 8859-1: one byte for each character up to 255. -/
def latin1 (c : Char) : Option (List UInt8) := if c.toNat < 256 then some [c.toNat.toUInt8] else none

end Pyodrx.Spec
