import Verif.Xml
import Verif.Enums

/-! # `pyodrx/links.py`: _Link, _Links, Connection, Junction -/

namespace Pyodrx

variable {F : Type}

/-- The `link_type` strings used by pyodrx: `'successor'`, `'predecessor'`, `'neighbor'`.
`pyNone` is the value `None` that `_get_related_lanesection` can return as link type, see `Links.getElement`. -/
inductive LinkKind where
  | successor
  | predecessor
  | neighbor
  | pyNone
  deriving DecidableEq, Repr

/-- The text of the link type. -/
def LinkKind.text : LinkKind → String
  | .successor => "successor"
  | .predecessor => "predecessor"
  | .neighbor => "neighbor"
  | .pyNone => "None"

/-- `_Link` attributes, links.py:184-188 -/
structure Link where
  kind : LinkKind
  elementId : PyId
  elementType : Option ElementType
  contactPoint : Option ContactPoint
  direction : Option Direction
  deriving DecidableEq, Repr

/-- `_Link.__init__`, links.py:160-188 -/
def Link.new (kind : LinkKind) (elementId : PyId) (elementType : Option ElementType)
    (contactPoint : Option ContactPoint) (direction : Option Direction) : Except PyErr Link :=
  if kind = .neighbor ∧ direction = none then .error .valueError
  else .ok ⟨kind, elementId, elementType, contactPoint, direction⟩

/-- `_Link.get_attributes`, links.py:190-205. `enum2str(None)` is an `AttributeError`, which
cannot happen because `_Link.__init__` refuses a neighbor without direction. -/
def Link.getAttributes (l : Link) : Dict (Val F) :=
  (match l.elementType with
   | none => [("id", Val.ofId l.elementId)]
   | some t => [("elementType", .str (enum2strName t.name)), ("elementId", .ofId l.elementId)]) ++
  (match l.contactPoint with
   | some c => [("contactPoint", .str (enum2strName c.name))]
   | none =>
     if l.kind = .neighbor then
       match l.direction with
       | some d => [("direction", .str (enum2strName d.name))]
       | none => []
     else [])

/-- `_Link.get_element`, links.py:207-212 -/
def Link.getElement (l : Link) : Xml F := .elem l.kind.text l.getAttributes []

/-! `_Links`, links.py:7-117: the list of links added so far. The six getters run through all
links and keep the last match. -/

/-- the common loop of the getters, e.g. links.py:48-52 -/
def lastOfKind {β : Type} (k : LinkKind) (f : Link → β) : List Link → Option β → Option β
  | [], acc => acc
  | l :: ls, acc => lastOfKind k f ls (if l.kind = k then some (f l) else acc)

/-- `_Links.get_predecessor_contact_point`, links.py:42-52 -/
def Links.getPredecessorContactPoint (ls : List Link) : Option ContactPoint :=
  (lastOfKind .predecessor (·.contactPoint) ls none).join
/-- `_Links.get_successor_contact_point`, links.py:53-63 -/
def Links.getSuccessorContactPoint (ls : List Link) : Option ContactPoint :=
  (lastOfKind .successor (·.contactPoint) ls none).join
/-- `_Links.get_predecessor_type`, links.py:64-74 -/
def Links.getPredecessorType (ls : List Link) : Option ElementType :=
  (lastOfKind .predecessor (·.elementType) ls none).join
/-- `_Links.get_successor_type`, links.py:75-85 -/
def Links.getSuccessorType (ls : List Link) : Option ElementType :=
  (lastOfKind .successor (·.elementType) ls none).join
/-- `_Links.get_predecessor_id`, links.py:86-96 -/
def Links.getPredecessorId (ls : List Link) : Option PyId :=
  lastOfKind .predecessor (·.elementId) ls none
/-- `_Links.get_successor_id`, links.py:98-108 -/
def Links.getSuccessorId (ls : List Link) : Option PyId :=
  lastOfKind .successor (·.elementId) ls none

/-- `_Links.get_element`, links.py:109-117. Simplification: a link of type `None` becomes an element whose tag
is `None`; both ways of printing (`ElementTree.write` and `tostring`) leave such an element out, and so does
this definition. -/
def Links.getElement (ls : List Link) : Xml F :=
  .elem "link" [] ((ls.filter (·.kind ≠ .pyNone)).map Link.getElement)

/-! ## Connection and Junction -/

/-- `Connection` attributes, links.py:313-317. Simplification: ids of connections are integers;
a connection is a value (one `Connection` object is added to one junction once). -/
structure Connection where
  incomingRoad : PyId
  connectingRoad : PyId
  contactPoint : ContactPoint
  id : Option Int
  links : List (Int × Int)
  deriving DecidableEq, Repr

/-- `Connection.__init__`, links.py:299-317 -/
def Connection.new (incoming connecting : PyId) (cp : ContactPoint) (id : Option Int) :
    Connection := ⟨incoming, connecting, cp, id, []⟩

/-- `Connection._set_id`, links.py:319-327 -/
def Connection.setId (c : Connection) (id : Int) : Connection :=
  match c.id with
  | none => { c with id := some id }
  | some _ => c

/-- `Connection.add_lanelink`, links.py:329-338 -/
def Connection.addLanelink (c : Connection) (inLane outLane : Int) : Connection :=
  { c with links := c.links ++ [(inLane, outLane)] }

/-- `Connection.get_attributes`, `get_element`, links.py:339-357 -/
def Connection.getElement (c : Connection) : Xml F :=
  .elem "connection"
    [("incomingRoad", .ofId c.incomingRoad),
     ("id", match c.id with | some i => .int i | none => .pyNone),
     ("contactPoint", .str (enum2strName c.contactPoint.name)),
     ("connectingRoad", .ofId c.connectingRoad)]
    (c.links.map fun l => .elem "laneLink" [("from", .int l.1), ("to", .int l.2)] [])

/-- `Junction` attributes, links.py:399-402 -/
structure Junction where
  name : String
  id : PyId
  connections : List Connection
  idCounter : Int

/-- `Junction.__init__`, links.py:390-402 -/
def Junction.new (name : String) (id : PyId) : Junction := ⟨name, id, [], 0⟩

/-- `Junction.add_connection`, links.py:404-414 -/
def Junction.addConnection (j : Junction) (c : Connection) : Junction :=
  { j with
    connections := j.connections ++ [c.setId j.idCounter]
    idCounter := j.idCounter + 1 }

/-- `Junction.get_attributes`, `get_element`, links.py:416-432 -/
def Junction.getElement (j : Junction) : Xml F :=
  .elem "junction" [("name", .str j.name), ("id", .ofId j.id)]
    (j.connections.map Connection.getElement)

end Pyodrx
