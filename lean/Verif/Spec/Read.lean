import Verif.Model.OpenDrive

/-! # Specification: reading an OpenDRIVE document

What a consumer of the emitted document sees. The readers below know the OpenDRIVE element and
attribute names and nothing about how pyodrx produces them. Each reader returns `none` for an
element that is not of the expected form (missing or non-numeric attribute, unknown enumeration
text, wrong tag). -/

namespace Pyodrx.Spec

variable {F : Type}

/-! ## Attribute values -/

/-- A number. -/
def numOf : Val F → Option F
  | .num x => some x
  | _ => none

/-- An integer. -/
def intOf : Val F → Option Int
  | .int i => some i
  | _ => none

/-- A text (ids are texts in OpenDRIVE). -/
def textOf : Val F → Option String
  | .str s => some s
  | .int i => some (strInt i)
  | .pyNone => some "None"
  | .num _ => none

/-- A mandatory attribute, understood by `f`. -/
def need {β : Type} (f : Val F → Option β) (x : Xml F) (name : String) : Option β :=
  (x.attr name).bind f

/-- An optional attribute: fails only if it is present and not understood. -/
def may {β : Type} (f : Val F → Option β) (x : Xml F) (name : String) : Option (Option β) :=
  match x.attr name with
  | none => some none
  | some v => (f v).map some

/-- The only child with this tag, if any; fails if there are several. -/
def childWith (x : Xml F) (tag : String) : Option (Option (Xml F)) :=
  match x.children.filter (fun c => c.tag = tag) with
  | [] => some none
  | [c] => some (some c)
  | _ => none

/-! ## Enumerations, by the texts of the OpenDRIVE standard -/

def elementTypes : List (String × ElementType) := [("road", .road), ("junction", .junction)]
def contactPoints : List (String × ContactPoint) := [("start", .start), ("end", .end)]
def directions : List (String × Direction) := [("same", .same), ("opposite", .opposite)]
def markRules : List (String × MarkRule) :=
  [("no passing", .no_passing), ("caution", .caution), ("none", .none)]
def laneTypes : List (String × LaneType) :=
  [("none", .none), ("driving", .driving), ("stop", .stop), ("shoulder", .shoulder),
   ("biking", .biking), ("sidewalk", .sidewalk), ("border", .border), ("restricted", .restricted),
   ("parking", .parking), ("bidirectional", .bidirectional), ("median", .median),
   ("special1", .special1), ("special2", .special2), ("special3", .special3),
   ("roadWorks", .roadWorks), ("tram", .tram), ("rail", .rail), ("entry", .entry), ("exit", .exit),
   ("offRamp", .offRamp), ("onRamp", .onRamp), ("connectingRamp", .connectingRamp), ("bus", .bus),
   ("taxi", .taxi), ("HOV", .HOV), ("mwyEntry", .mwyEntry), ("mwyExit", .mwyExit)]
def markTypes : List (String × RoadMarkType) :=
  [("none", .none), ("solid", .solid), ("broken", .broken), ("solid solid", .solid_solid),
   ("solid broken", .solid_broken), ("broken solid", .broken_solid),
   ("broken broken", .broken_broken), ("botts dots", .botts_dots), ("grass", .grass),
   ("curb", .curb), ("custom", .custom), ("edge", .edge)]
def markWeights : List (String × RoadMarkWeight) := [("standard", .standard), ("bold", .bold)]
def markColors : List (String × RoadMarkColor) :=
  [("standard", .standard), ("blue", .blue), ("green", .green), ("red", .red), ("white", .white),
   ("yellow", .yellow), ("orange", .orange)]
def laneChanges : List (String × LaneChange) :=
  [("increase", .increase), ("decrease", .decrease), ("both", .both), ("none", .none)]
def dynamics : List (String × Dynamic) := [("yes", .yes), ("no", .no)]
def orientations : List (String × Orientation) :=
  [("+", .positive), ("-", .negative), ("none", .none)]

def yesNo : List (String × Bool) := [("true", true), ("false", false)]
def objectTypes : List (String × ObjectType) :=
  [("none", .none), ("obstacle", .obstacle), ("pole", .pole), ("tree", .tree),
   ("vegetation", .vegetation), ("barrier", .barrier), ("building", .building),
   ("parkingSpace", .parkingSpace), ("patch", .patch), ("railing", .railing),
   ("trafficIsland", .trafficIsland), ("crosswalk", .crosswalk), ("streetLamp", .streetLamp),
   ("gantry", .gantry), ("soundBarrier", .soundBarrier), ("roadMark", .roadMark)]

/-- An enumeration text. -/
def enumOf {β : Type} (table : List (String × β)) (v : Val F) : Option β :=
  (textOf v).bind fun s => (table.find? fun e => e.1 = s).map (·.2)

/-! ## Links and junctions -/

/-- A `<predecessor>`, `<successor>` or `<neighbor>` element of a road or lane. -/
structure RLink where
  tag : String
  id : String
  elementType : Option ElementType
  contactPoint : Option ContactPoint
  direction : Option Direction
  deriving DecidableEq

/-- Road links carry `elementType` and `elementId`, lane links `id`. -/
def readLink (x : Xml F) : Option RLink := do
  let et ← may (enumOf elementTypes) x "elementType"
  let id ← need textOf x (if et.isSome then "elementId" else "id")
  let cp ← may (enumOf contactPoints) x "contactPoint"
  let dir ← may (enumOf directions) x "direction"
  pure ⟨x.tag, id, et, cp, dir⟩

/-- The `<link>` child of a road or lane. -/
def readLinks (x : Xml F) : Option (List RLink) := do
  let c ← (← childWith x "link")
  c.children.mapM readLink

/-- A `<connection>` of a junction. -/
structure RConnection where
  id : String
  incomingRoad : String
  connectingRoad : String
  contactPoint : ContactPoint
  laneLinks : List (Int × Int)
  deriving DecidableEq

/-- A `<laneLink>`. -/
def readLaneLink (x : Xml F) : Option (Int × Int) :=
  if x.tag = "laneLink" then do pure (← need intOf x "from", ← need intOf x "to") else none

def readConnection (x : Xml F) : Option RConnection :=
  if x.tag = "connection" then do
    pure ⟨← need textOf x "id", ← need textOf x "incomingRoad", ← need textOf x "connectingRoad",
      ← need (enumOf contactPoints) x "contactPoint", ← x.children.mapM readLaneLink⟩
  else none

/-- A `<junction>`. -/
structure RJunction where
  name : String
  id : String
  connections : List RConnection

def readJunction (x : Xml F) : Option RJunction :=
  if x.tag = "junction" then do
    pure ⟨← need textOf x "name", ← need textOf x "id", ← x.children.mapM readConnection⟩
  else none

/-! ## Lanes -/

/-- A `<line>` of a road mark. -/
structure RLine (F : Type) where
  length : F
  space : F
  tOffset : F
  width : F
  sOffset : F
  rule : Option MarkRule

def readLine (x : Xml F) : Option (RLine F) :=
  if x.tag = "line" then do
    pure ⟨← need numOf x "length", ← need numOf x "space", ← need numOf x "tOffset",
      ← need numOf x "width", ← need numOf x "sOffset", ← may (enumOf markRules) x "rule"⟩
  else none

/-- The `<type>` of a road mark: its name, width and lines. -/
structure RMarkType (F : Type) where
  name : RoadMarkType
  width : F
  lines : List (RLine F)

def readMarkType (x : Xml F) : Option (RMarkType F) := do
  pure ⟨← need (enumOf markTypes) x "name", ← need numOf x "width", ← x.children.mapM readLine⟩

/-- A `<roadMark>`. -/
structure RMark (F : Type) where
  sOffset : F
  type : RoadMarkType
  weight : RoadMarkWeight
  color : RoadMarkColor
  height : F
  width : Option F
  laneChange : Option LaneChange
  explicit : Option (RMarkType F)

def readMark (x : Xml F) : Option (RMark F) := do
  let t ← childWith x "type"
  let e ← match t with
    | none => some none
    | some t => (readMarkType t).map some
  pure ⟨← need numOf x "sOffset", ← need (enumOf markTypes) x "type",
    ← need (enumOf markWeights) x "weight", ← need (enumOf markColors) x "color",
    ← need numOf x "height", ← may numOf x "width", ← may (enumOf laneChanges) x "laneChange", e⟩

/-- A `<lane>`. The width at distance `ds` is `a + b*ds + c*ds^2 + d*ds^3`. -/
structure RLane (F : Type) where
  id : Int
  type : LaneType
  level : Bool
  links : List RLink
  a : F
  b : F
  c : F
  d : F
  sOffset : F
  mark : Option (RMark F)

def readLane (x : Xml F) : Option (RLane F) :=
  if x.tag = "lane" then do
    let w ← (← childWith x "width")
    let m ← childWith x "roadMark"
    let m ← match m with
      | none => some none
      | some m => (readMark m).map some
    pure ⟨← need intOf x "id", ← need (enumOf laneTypes) x "type",
      ← need (enumOf yesNo) x "level", ← readLinks x,
      ← need numOf w "a", ← need numOf w "b", ← need numOf w "c", ← need numOf w "d",
      ← need numOf w "sOffset", m⟩
  else none

/-- The lanes of one side of a lane section; no element means no lanes. -/
def readSide (x : Xml F) (tag : String) : Option (List (RLane F)) := do
  match ← childWith x tag with
  | none => pure []
  | some c => c.children.mapM readLane

/-- A `<laneSection>`. -/
structure RSection (F : Type) where
  s : F
  left : List (RLane F)
  center : List (RLane F)
  right : List (RLane F)

def readSection (x : Xml F) : Option (RSection F) :=
  if x.tag = "laneSection" then do
    pure ⟨← need numOf x "s", ← readSide x "left", ← readSide x "center", ← readSide x "right"⟩
  else none

/-! ## Signals and objects -/

/-- The attributes common to `<signal>` and `<object>`. -/
structure RPlaced (F : Type) where
  id : String
  s : F
  t : F
  type : String
  subtype : String
  dynamic : Dynamic
  zOffset : F
  orientation : Orientation
  pitch : Option F
  roll : Option F
  width : Option F
  height : Option F
  name : Option String

def readPlaced (x : Xml F) : Option (RPlaced F) := do
  pure ⟨← need textOf x "id", ← need numOf x "s", ← need numOf x "t", ← need textOf x "type",
    ← need textOf x "subtype", ← need (enumOf dynamics) x "dynamic", ← need numOf x "zOffset",
    ← need (enumOf orientations) x "orientation", ← may numOf x "pitch", ← may numOf x "roll",
    ← may numOf x "width", ← may numOf x "height", ← may textOf x "name"⟩

/-- A `<signal>`. -/
structure RSignal (F : Type) where
  placed : RPlaced F
  country : String
  hOffset : Option F
  value : Option F
  unit : Option String

def readSignal (x : Xml F) : Option (RSignal F) :=
  if x.tag = "signal" then do
    pure ⟨← readPlaced x, ← need textOf x "country", ← may numOf x "hOffset",
      ← may numOf x "value", ← may textOf x "unit"⟩
  else none

/-- A `<dependency>`: the id of the controlled signal and the type. -/
def readDependency (x : Xml F) : Option (String × String) :=
  if x.tag = "dependency" then do
    pure (← need textOf x "id", ← need textOf x "type")
  else none

/-- An `<object>`. -/
structure RObject (F : Type) where
  placed : RPlaced F
  hdg : F
  length : Option F
  radius : Option F
  validLength : Option F
  repeats : List (Dict (Val F))

def readObject (x : Xml F) : Option (RObject F) :=
  if x.tag = "object" then do
    pure ⟨← readPlaced x, ← need numOf x "hdg", ← may numOf x "length", ← may numOf x "radius",
      ← may numOf x "validLength",
      ← x.children.mapM fun c => if c.tag = "repeat" then some c.attrs else none⟩
  else none

/-! ## Geometry -/

/-- The child of a `<geometry>` element. -/
inductive RCurve (F : Type) where
  | line
  | spiral (curvStart curvEnd : F)
  | arc (curvature : F)
  | paramPoly3 (aU bU cU dU aV bV cV dV : F) (normalized : Bool)

/-- The two ranges of a `paramPoly3` known to OpenDRIVE. -/
def readRange (v : Val F) : Option Bool :=
  (textOf v).bind fun s =>
    if s = "normalized" then some true else if s = "arcLength" then some false else none

def readCurve (x : Xml F) : Option (RCurve F) :=
  if x.tag = "line" then some .line
  else if x.tag = "spiral" then do
    pure (.spiral (← need numOf x "curvStart") (← need numOf x "curvEnd"))
  else if x.tag = "arc" then do pure (.arc (← need numOf x "curvature"))
  else if x.tag = "paramPoly3" then do
    pure (.paramPoly3 (← need numOf x "aU") (← need numOf x "bU") (← need numOf x "cU")
      (← need numOf x "dU") (← need numOf x "aV") (← need numOf x "bV") (← need numOf x "cV")
      (← need numOf x "dV") (← need readRange x "pRange"))
  else none

/-- A `<geometry>`. -/
structure RGeometry (F : Type) where
  s : F
  x : F
  y : F
  hdg : F
  length : F
  curve : RCurve F

def readGeometry (x : Xml F) : Option (RGeometry F) :=
  match x.children with
  | [c] =>
    if x.tag = "geometry" then do
      pure ⟨← need numOf x "s", ← need numOf x "x", ← need numOf x "y", ← need numOf x "hdg",
        ← need numOf x "length", ← readCurve c⟩
    else none
  | _ => none

/-- The geometries of a `<planView>`. -/
def readPlanView (x : Xml F) : Option (List (RGeometry F)) :=
  if x.tag = "planView" then x.children.mapM readGeometry else none

/-! ## Roads and documents -/

/-- A `<road>`. -/
structure RRoad (F : Type) where
  id : String
  junction : Int
  length : F
  name : Option String
  rule : Option String
  links : List RLink
  planView : List (RGeometry F)
  sections : List (RSection F)
  signals : List (RSignal F)
  objects : List (RObject F)

/-- The children of an optional container such as `<signals>`. -/
def readMany {β : Type} (f : Xml F → Option β) (x : Xml F) (tag : String) : Option (List β) := do
  match ← childWith x tag with
  | none => pure []
  | some c => c.children.mapM f

def readRoad (x : Xml F) : Option (RRoad F) :=
  if x.tag = "road" then do
    let pv ← (← childWith x "planView")
    let ls ← (← childWith x "lanes")
    pure ⟨← need textOf x "id", ← need intOf x "junction", ← need numOf x "length",
      ← may textOf x "name", ← may textOf x "rule", ← readLinks x, ← readPlanView pv,
      ← ls.children.mapM readSection, ← readMany readSignal x "signals",
      ← readMany readObject x "objects"⟩
  else none

/-- The `<header>`. -/
structure RHeader where
  name : String
  revMajor : String
  revMinor : String
  date : String
  north : String
  south : String
  east : String
  west : String
  deriving DecidableEq

def readHeader (x : Xml F) : Option RHeader := do
  let h ← (← childWith x "header")
  pure ⟨← need textOf h "name", ← need textOf h "revMajor", ← need textOf h "revMinor", ← need textOf h "date",
    ← need textOf h "north", ← need textOf h "south", ← need textOf h "east", ← need textOf h "west"⟩

/-- An OpenDRIVE document. -/
structure RDocument (F : Type) where
  name : String
  roads : List (RRoad F)
  junctions : List RJunction

def readDocument (x : Xml F) : Option (RDocument F) :=
  if x.tag = "OpenDRIVE" then do
    let h ← (← childWith x "header")
    pure ⟨← need textOf h "name", ← (x.children.filter (fun c => c.tag = "road")).mapM readRoad,
      ← (x.children.filter (fun c => c.tag = "junction")).mapM readJunction⟩
  else none

end Pyodrx.Spec
