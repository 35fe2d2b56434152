import Verif.Spec.Read

/-! # Specification: what a reader should see of each pyodrx object

The values given by the user, field by field. -/

namespace Pyodrx.Spec

variable {F : Type}

/-- A link is shown with all its fields; ids as text. The direction of a link is shown for
neighbours only, and only if no contact point is given. -/
def shownLink (l : Link) : RLink :=
  ⟨l.kind.text, l.elementId.toStr, l.elementType, l.contactPoint,
   if l.contactPoint = none ∧ l.kind = .neighbor then l.direction else none⟩

/-- The links of a road or lane are shown in order; links of the type `None` are not shown. -/
def shownLinks (ls : List Link) : List RLink := (ls.filter (·.kind ≠ .pyNone)).map shownLink

/-- The text of a connection id; a connection that was never added to a junction may have none. -/
def connectionIdText : Option Int → String
  | some i => strInt i
  | none => "None"

def shownConnection (c : Connection) : RConnection :=
  ⟨connectionIdText c.id, c.incomingRoad.toStr, c.connectingRoad.toStr, c.contactPoint, c.links⟩

def shownJunction (j : Junction) : RJunction :=
  ⟨j.name, j.id.toStr, j.connections.map shownConnection⟩

def shownLine (l : RoadLine F) : RLine F :=
  ⟨l.length, l.space, l.toffset, l.width, l.soffset, l.rule⟩

/-- A mark with a line is shown with a `<type>` of its width `w`. -/
def shownMark (m : RoadMark F) : RMark F :=
  ⟨m.soffset, m.markingType, m.markingWeight, m.color, m.height, m.width, m.laneChange,
   match m.line, m.width with
   | some l, some w => some ⟨m.markingType, w, [shownLine l]⟩
   | _, _ => none⟩

def shownLane (l : Lane F) (id : Int) : RLane F :=
  ⟨id, l.laneType, false, shownLinks l.links, l.a, l.b, l.c, l.d, l.soffset, l.roadmark.map shownMark⟩

/-- A text that is left out when it is empty. -/
def nonempty (s : Option String) : Option String := s.bind fun t => if t = "" then none else some t

section
variable [PyFloat F]

/-- A value that is left out when it is zero. -/
def nonzero (x : F) : Option F := if PyFloat.isZero x then none else some x

def shownPlaced (o : SOBase F) : RPlaced F :=
  ⟨optIdText o.id, o.s, o.t, match o.typ with | .obj t => enum2strName t.name | .str s => s,
   o.subtype.getD "None", o.dynamic, o.zOffset, o.orientation, nonzero o.pitch, nonzero o.roll,
   o.width, o.height, o.name⟩

/-- The country code is shown in capitals. -/
def shownSignal (g : Signal F) : RSignal F :=
  ⟨{ shownPlaced g.base with type := g.type }, g.country.map Char.toUpper, nonzero g.hOffset,
   g.value, g.value.map fun _ => g.unit.getD "None"⟩

/-- Without radius, length and width are shown only if both are there. -/
def shownObject (o : Obj F) : RObject F :=
  ⟨shownPlaced o.base, o.hdg,
   if o.radius.isNone ∧ o.base.width.isSome then o.length else none, o.radius, o.validLength,
   o.repeats⟩

end

end Pyodrx.Spec
