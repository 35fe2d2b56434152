import Verif.Model.Examples

/-! # Programs like `examples/road_split.py`, `road_merge.py` and `highway_example.py`

They make roads with `create_road`, link them with `add_predecessor` and `add_successor`, describe the junctions with
`create_junction`, add all roads to an `OpenDrive` and call `adjust_roads_and_lanes`. -/

namespace Pyodrx
open PyFloat

variable {F : Type}

/-- The arguments of one `add_predecessor` or `add_successor`, opendrive.py:155-190. Simplification: the id is an
integer. -/
structure LinkCall where
  elementType : ElementType
  id : Int
  contact : Option ContactPoint
  offset : Int

/-- The arguments of `Lane(...)`, lane.py:229, and the road mark given to it by `add_roadmark`, if any. -/
structure LaneCall (F : Type) where
  type : LaneType
  a : F
  b : F
  c : F
  d : F
  soffset : F
  mark : Option (RoadMark F)

/-- What a program says about one lane section: the arguments of `LaneSection(...)` and the lanes given to it by
`add_left_lane` and `add_right_lane` (examples/lane_number_change_merge.py:20-29). -/
structure SectionCall (F : Type) where
  s : F
  left : List (LaneCall F)
  right : List (LaneCall F)

/-- A lane of the road, in the program a variable: the place of its section and its number in it. -/
abbrev LaneName := Nat × Int

/-- How the lanes of a road are given: by the arguments of `create_road`, generators.py:41 (simplification: the centre line
has its default mark), or by hand, as in examples/lane_number_change_merge.py:16-61 and two_roads.py:9-35: the place where
the road starts, if `PlanView(...)` is given one, the centre lane (which is the same in all sections), the sections, and the
arguments of the calls of `LaneLinker.add_link`. -/
inductive LanesCall (F : Type) where
  | made (left right : Nat) (width : F)
  | drawn (start : Option (Pose F)) (center : LaneCall F) (sections : List (SectionCall F)) (links : List (LaneName × LaneName))

/-- What such a program says about one road: the arguments of `create_road` or `Road(...)`, and of the calls of
`add_predecessor` and `add_successor` on it (examples/road_split.py:6-25). The geometry objects are made for this road, as
in the examples. -/
structure RoadCall (F : Type) where
  geometry : List (Geom F)
  id : Int
  lanes : LanesCall F
  roadType : Int
  pred : Option LinkCall
  succ : Option LinkCall

/-- What such a program says about one junction, examples/road_split.py:28: the arguments of `create_junction`,
generators.py:336; the roads are given by their places in the list `roads` of the program. -/
structure JunctionCall where
  connecting : List Nat
  id : Int
  roads : List Nat

/-- The arguments of `Connection(...)`, links.py:299, and of the calls of `add_lanelink` on it
(examples/junction_trippel_twoway.py:94-95). Simplification: the ids are integers. -/
structure ConnectionCall where
  incoming : Int
  connecting : Int
  contact : ContactPoint
  id : Option Int
  laneLinks : List (Int × Int)

/-- What a program says about a junction made by hand: the arguments of `Junction(...)`, links.py:390, and the connections
given to it by `add_connection` (examples/junction_trippel_twoway.py:93-113). -/
structure DrawnJunction where
  name : String
  id : Int
  connections : List ConnectionCall

/-- A junction of the program. -/
inductive AnyJunction where
  | create (j : JunctionCall)
  | drawn (j : DrawnJunction)

section
variable [PyFloat F]

/-- Create the geometry objects of a road. -/
def newGeoms : List (Geom F) → EStateM PyErr (GenState F) (List Nat)
  | [] => pure []
  | g :: gs => do
    let r ← newGeom g
    let rs ← newGeoms gs
    pure (r :: rs)

/-- `lane = pyodrx.Lane(...)`, `lane.add_roadmark(...)`, examples/lane_number_change_merge.py:22-23 -/
def LaneCall.lane (c : LaneCall F) : Lane F :=
  match c.mark with
  | none => Lane.new c.type c.a c.b c.c c.d c.soffset
  | some m => (Lane.new c.type c.a c.b c.c c.d c.soffset).addRoadmark m

/-- Create lanes and add them to a section, examples/lane_number_change_merge.py:21-29; `add` is `add_left_lane` or
`add_right_lane`. -/
def drawLanes (add : LaneSection F → Nat → EStateM PyErr (GenState F) (LaneSection F)) :
    List (LaneCall F) → LaneSection F → EStateM PyErr (GenState F) (LaneSection F)
  | [], sec => pure sec
  | c :: cs, sec => do
    let x ← newLane c.lane
    let sec ← add sec x
    drawLanes add cs sec

/-- `lanesec = pyodrx.LaneSection(s,centerlane)` and its lanes, examples/lane_number_change_merge.py:20-29. Simplification:
first the lanes on the left; the two sides do not interfere. -/
def SectionCall.draw (center : Nat) (c : SectionCall F) : EStateM PyErr (GenState F) (LaneSection F) := do
  let sec ← newSection c.s center
  let sec ← drawLanes genAddLeft c.left sec
  drawLanes genAddRight c.right sec

/-- All sections. -/
def drawSections (center : Nat) : List (SectionCall F) → EStateM PyErr (GenState F) (List (LaneSection F))
  | [] => pure []
  | c :: cs => do
    let sec ← c.draw center
    let secs ← drawSections center cs
    pure (sec :: secs)

/-- The lane object of that name. -/
def laneOf (secs : List (LaneSection F)) (n : LaneName) : Option Nat :=
  match secs[n.1]? with
  | none => none
  | some sec => if 0 < n.2 then sec.left[(n.2 - 1).toNat]? else if n.2 < 0 then sec.right[(-n.2 - 1).toNat]? else none

/-- `lanelinker.add_link(predlane=...,succlane=...)`, examples/lane_number_change_merge.py:50-53 (a variable that does not
exist is a NameError in Python, here reported as `keyError`) -/
def orderLinks (secs : List (LaneSection F)) : List (LaneName × LaneName) → List LaneLink → Except PyErr (List LaneLink)
  | [], links => .ok links
  | (p, s) :: ls, links =>
    match laneOf secs p, laneOf secs s with
    | some x, some y => orderLinks secs ls (LaneLinker.addLink links x y)
    | _, _ => .error .keyError

/-- `lanes.add_lanesection(lanesec,lanelinker)` for every section, examples/lane_number_change_merge.py:56-59; there is one
linker, number 0. -/
def addSections : List (LaneSection F) → List (LaneSection F) × Store (List LaneLink) × Store (Lane F) →
    List (LaneSection F) × Store (List LaneLink) × Store (Lane F)
  | [], st => st
  | sec :: secs, st => addSections secs (Lanes.addLanesection st.1 sec [0] st.2.1 st.2.2)

/-- The road with these lanes, examples/lane_number_change_merge.py:4-62, or made by `create_road`,
examples/road_split.py:6-10. -/
def RoadCall.make (c : RoadCall F) : EStateM PyErr (GenState F) (Road F) := do
  let gs ← newGeoms c.geometry
  match c.lanes with
  | .made left right width => createRoad gs (.int c.id) left right c.roadType stdSolid width
  | .drawn start center sections links =>
    let pv ← liftExcept (PlanView.new (start.map (·.x)) (start.map (·.y)) (start.map (·.h)))
    let pv := gs.foldl (fun pv g => PlanView.addGeometry pv g none) pv
    let lc ← newLane center.lane
    let secs ← drawSections lc sections
    let ls ← liftExcept (orderLinks secs links [])
    fun st =>
      let r := addSections secs ([], ⟨fun _ => ls, 1⟩, st.lanes)
      .ok (Road.new (.int c.id) pv r.1 c.roadType none none) { st with lanes := r.2.2 }

/-- All of them. -/
def makeRoads : List (RoadCall F) → EStateM PyErr (GenState F) (List (Road F))
  | [] => pure []
  | c :: cs => do
    let r ← c.make
    let rs ← makeRoads cs
    pure (r :: rs)

end

/-- `roads[i].add_predecessor(...)` (`e = start`) or `roads[i].add_successor(...)`, if the program calls it,
examples/road_split.py:13-25 -/
def LinkCall.add (e : ContactPoint) (l : Option LinkCall) (r : Road F) : Except PyErr (Road F) :=
  match l with
  | none => .ok r
  | some l =>
    match e with
    | .start =>
      match Road.addPredecessor l.elementType (.int l.id) l.contact l.offset r with
      | .ok _ r' => .ok r'
      | .error x _ => .error x
    | .end =>
      match Road.addSuccessor l.elementType (.int l.id) l.contact l.offset r with
      | .ok _ r' => .ok r'
      | .error x _ => .error x

/-- The links of all roads, examples/road_split.py:13-25. Simplification: road by road, first the predecessor; the
calls on different roads do not interfere. -/
def connectRoads : List (RoadCall F) → List (Road F) → Except PyErr (List (Road F))
  | c :: cs, r :: rs => do
    let r ← LinkCall.add .start c.pred r
    let r ← LinkCall.add .end c.succ r
    let rs ← connectRoads cs rs
    .ok (r :: rs)
  | _, _ => .ok []

/-- `[roads[i] for i in l]` (for indices that are not negative) -/
def pickRoads (roads : List (Road F)) : List Nat → Except PyErr (List (Road F))
  | [] => .ok []
  | i :: l =>
    match roads[i]? with
    | none => .error .indexError
    | some r => do
      let rs ← pickRoads roads l
      .ok (r :: rs)

/-- `con1 = pyodrx.Connection(...)`, `con1.add_lanelink(...)`, examples/junction_trippel_twoway.py:94-95 -/
def ConnectionCall.make (c : ConnectionCall) : Connection :=
  c.laneLinks.foldl (fun x l => x.addLanelink l.1 l.2) (Connection.new (.int c.incoming) (.int c.connecting) c.contact c.id)

/-- `junction = pyodrx.Junction(...)`, `junction.add_connection(...)`, examples/junction_trippel_twoway.py:93-113 -/
def DrawnJunction.make (j : DrawnJunction) : Junction :=
  j.connections.foldl (fun x c => x.addConnection c.make) (Junction.new j.name (.int j.id))

/-- `pyodrx.create_junction(...)`, examples/road_split.py:28, or a junction made by hand. -/
def AnyJunction.make (roads : List (Road F)) : AnyJunction → Except PyErr Junction
  | .create j => do
    let cs ← pickRoads roads j.connecting
    let rs ← pickRoads roads j.roads
    createJunction cs (.int j.id) rs
  | .drawn j => .ok j.make

/-- All junctions. -/
def makeJunctions (roads : List (Road F)) : List AnyJunction → Except PyErr (List Junction)
  | [] => .ok []
  | j :: js => do
    let x ← j.make roads
    let xs ← makeJunctions roads js
    .ok (x :: xs)

/-- What the program has built when it comes to `write_xml`. -/
structure NetworkProgram (F : Type) where
  junctions : List Junction
  world : World F

/-- The whole program up to `write_xml`, examples/road_split.py:4-36. `add_junction` only stores the junctions. -/
def networkProgram [PyFloat F] (calls : List (RoadCall F)) (junctions : List AnyJunction) (st : GenState F) :
    Except PyErr (NetworkProgram F) :=
  match makeRoads calls st with
  | .error e _ => .error e
  | .ok roads st' =>
    match connectRoads calls roads with
    | .error e => .error e
    | .ok roads =>
      match makeJunctions roads junctions with
      | .error e => .error e
      | .ok js =>
        match World.adjustRoadsAndLanes ⟨⟨roads.foldl addRoad [], st'.geoms⟩, st'.lanes⟩ with
        | .error e _ => .error e
        | .ok _ w => .ok ⟨js, w⟩

end Pyodrx
