import Verif.Model.Write

/-! # The file written by `OpenDrive.write_xml`: bytes, and the states of the disk while it is written -/

namespace Pyodrx

variable {F : Type}

/-- The files on the disk: their contents by name. -/
abbrev Disk := String → Option ByteArray

/-- The disk with one file replaced. -/
def Disk.put (d : Disk) (name : String) (b : ByteArray) : Disk := fun n => if n = name then some b else d n

/-- What `open(filename,'w')` takes from the platform: the encoding of the locale (`none`: the character does not exist in
it), and how a line break is written. -/
structure Platform where
  encode : Char → Option (List UInt8)
  linesep : List Char

/-- Bytes in a file. -/
def bytesOf (l : List UInt8) : ByteArray := l.toByteArray

/-- `TextIOWrapper.write` encodes the whole text before it gives the bytes to the file; `none` is a `UnicodeEncodeError`. -/
def encodeText (pl : Platform) (text : List Char) : Option (List UInt8) :=
  ((text.flatMap fun c => if c = '\n' then pl.linesep else [c]).mapM pl.encode).map List.flatten

/-- The bytes of the text: helpers.py:71 (`open(filename,"w")`, pretty printed) and helpers.py:76 (`tree.write(file_handle)`
to a file opened with `"wb"`; the text is ASCII, see `charRefs`). -/
def fileBytes (pl : Platform) (prettyprint : Bool) (text : List Char) : Option (List UInt8) :=
  if prettyprint then encodeText pl text else some (text.map fun c => c.toNat.toUInt8)

/-- The disk after `open` and after each further byte. Simplification: the bytes reach the disk in order; `flush` may
write many at a time. -/
def writing (d : Disk) (name : String) (bytes : List UInt8) : List Disk :=
  (List.range (bytes.length + 1)).map fun k => d.put name (bytesOf (bytes.take k))

/-- `OpenDrive.write_xml` with its effect on the disk, opendrive.py:579-592 and helpers.py:55-76: the states of the disk one
after the other, without the first one, and what the call returns or raises. `get_element` and, for pretty printing, the
parser run before the file is opened; `open` empties the file. Simplification: the directory exists and the disk is not
full. -/
def OpenDrive.writeFile [PyFloat F] (pl : Platform) (show' : F → String) (hp : Heap F) (date : String) (o : OpenDrive F)
    (filename : Option String) (prettyprint : Bool) (d : Disk) : List Disk × Except PyErr Unit :=
  match o.writeXml show' hp date filename prettyprint with
  | .error e => ([], .error e)
  | .ok (name, text) =>
    match fileBytes pl prettyprint text with
    | none => ([d.put name (bytesOf [])], .error .unicodeEncodeError)
    | some bytes => (writing d name bytes, .ok ())

end Pyodrx
