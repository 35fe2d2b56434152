import Verif.Model.Shared

/-! # Programs that use the API in any order: every object is a reference

The other models store parts of objects as values (a `Road` contains its `PlanView` and its lane sections, a `Junction`
its connections, an `OpenDrive` its roads). In Python these attributes are references, and a program may go on changing
a part after it was put into the whole (`odr.add_road(road)` before `road.add_successor(…)`). Here every object is in a
store, and its reference is the variable (a number) that the program assigned it to. -/

namespace Pyodrx
open PyFloat

variable {F : Type}

/-- A `Road` object, opendrive.py:139-153, whose attributes `planview` and `lanes` are the references `pv` and `lanes`.
`attrs` has the other attributes; its fields `planview` and `lanesections` are not used. -/
structure RoadRef (F : Type) where
  attrs : Road F
  pv : Nat
  lanes : Nat

/-- A `Junction` object, links.py:399-402; its connections are references. -/
structure JunctionRef where
  name : String
  id : PyId
  connections : List Nat
  idCounter : Int

/-- An `OpenDrive` object, opendrive.py:376-379; its roads and junctions are references. -/
structure OpenDriveRef where
  name : String
  roads : Dict Nat
  junctions : List Nat

/-- All objects of a program, and the class attributes `_usedIDs` and `_IDCounter` (signals_objects.py:53-54). A `Lanes`
object is the list of its lane sections (lane.py:27), a `LaneLinker` that of its links (links.py:235). -/
structure Session (F : Type) where
  geoms : Store (Geom F)
  planviews : Store (PlanView F)
  laneObjs : Store (Lane F)
  sections : Store (LaneSection F)
  linkers : Store (List LaneLink)
  lanesObjs : Store (List Nat)
  roads : Store (RoadRef F)
  connections : Store Connection
  junctions : Store JunctionRef
  openDrives : Store OpenDriveRef
  objs : Store (Obj F)
  sigs : Store (Signal F)
  reg : Registry

/-- The calls of the API that construct or change objects. The first argument of a constructor is the variable that the
new object is assigned to. Geometries, signals and objects are given as the values that their constructors return
(Model/Geometry.lean, Model/SignalsObjects.lean): the constructors depend on their arguments only. Not here:
`Road.add_object_roadside` (Model/Road.lean) and the generators, which are sequences of these calls. -/
inductive Call (F : Type) where
  | geometry (v : Nat) (g : Geom F)
  | planView (v : Nat) (x y h : Option F)
  | addGeometry (pv g : Nat) (heading : Option F)
  | setStartPoint (pv : Nat) (p : Pose F)
  | lane (v : Nat) (type : LaneType) (a b c d soffset : F)
  | addRoadmark (lane : Nat) (m : RoadMark F)
  | addLaneLink (lane : Nat) (kind : LinkKind) (id : String)
  | laneSection (v : Nat) (s : F) (center : Nat)
  | addLeftLane (sec lane : Nat)
  | addRightLane (sec lane : Nat)
  | laneLinker (v : Nat)
  | linkLanes (linker pred succ : Nat)
  | lanes (v : Nat)
  | addLanesection (lanes sec : Nat) (linkers : List Nat)
  | road (v : Nat) (id : PyId) (pv lanes : Nat) (type : Int) (name rule : Option String)
  | addSuccessor (road : Nat) (et : ElementType) (id : PyId) (cp : Option ContactPoint) (offset : Int)
  | addPredecessor (road : Nat) (et : ElementType) (id : PyId) (cp : Option ContactPoint) (offset : Int)
  | addNeighbor (road : Nat) (et : ElementType) (id : PyId) (dir : Option Direction)
  | object (v : Nat) (o : Obj F)
  | repeatObject (object : Nat) (len dist : F) (args : RepeatArgs F)
  | addObject (road : Nat) (objects : List Nat)
  | signal (v : Nat) (g : Signal F)
  | addSignal (road : Nat) (signals : List Nat)
  | connection (v : Nat) (incoming connecting : PyId) (cp : ContactPoint) (id : Option Int)
  | addLanelink (connection : Nat) (inLane outLane : Int)
  | junction (v : Nat) (name : String) (id : PyId)
  | addConnection (junction connection : Nat)
  | openDrive (v : Nat) (name : String)
  | addRoad (odr road : Nat)
  | addJunction (odr junction : Nat)
  | adjust (odr : Nat)

/-- The attributes of a road as Python reads them through the references, opendrive.py:139-153, lane.py:27. -/
def Session.readRoad (s : Session F) (r : RoadRef F) : Road F :=
  { r.attrs with
    planview := s.planviews.cell r.pv
    lanesections := (s.lanesObjs.cell r.lanes).map s.sections.cell }

/-- The attributes of a junction as Python reads them through the references, links.py:399-402. -/
def Session.readJunction (s : Session F) (j : JunctionRef) : Junction :=
  ⟨j.name, j.id, j.connections.map s.connections.cell, j.idCounter⟩

/-- The attributes of an `OpenDrive` as Python reads them through the references, opendrive.py:376-379. -/
def Session.readOpenDrive (s : Session F) (o : OpenDriveRef) : OpenDrive F :=
  ⟨o.name, o.roads.map fun kv => (kv.1, s.readRoad (s.roads.cell kv.2)),
    o.junctions.map fun j => s.readJunction (s.junctions.cell j)⟩

/-- The objects that the emission of a document reads. -/
def Session.heap (s : Session F) : Heap F := ⟨s.geoms, s.laneObjs, s.objs, s.sigs, s.reg⟩

/-- The network of the `OpenDrive` object `o` with its PlanView objects. -/
def Session.net (s : Session F) (o : Nat) : SharedNet F :=
  ⟨(s.openDrives.cell o).roads.map fun kv => (kv.1, ⟨s.readRoad (s.roads.cell kv.2), (s.roads.cell kv.2).pv⟩),
    s.planviews, s.geoms⟩

/-- Call a method of the road `r` that changes the road only. -/
def withRoad (r : Nat) (f : EStateM PyErr (Road F) Unit) : EStateM PyErr (Session F) Unit := fun s =>
  match f (s.roads.cell r).attrs with
  | .ok _ a => .ok () { s with roads := s.roads.modify r fun x => { x with attrs := a } }
  | .error e a => .error e { s with roads := s.roads.modify r fun x => { x with attrs := a } }

section
variable [PyFloat F]

/-- The unused fields of `RoadRef.attrs`. -/
def PlanView.blank : PlanView F :=
  { present := ⟨ofInt 0, ofInt 0, ofInt 0⟩, presentS := ofInt 0, fixed := false, start := none, stop := none, raw := [],
    adjGeoms := [], overridden := [], adjusted := false }

/-- `OpenDrive.adjust_roads_and_lanes`, opendrive.py:396-409: the planviews of the roads are changed where they are
(Model/Shared.lean), and so are the lanes (Model/OpenDrive.lean; it is not looked at the planviews any more). -/
def Session.adjust (o : Nat) : EStateM PyErr (Session F) Unit := fun s =>
  match SharedNet.adjustStartpoints (s.net o) with
  | .error e n => .error e { s with planviews := n.pvs, geoms := n.geoms }
  | .ok _ n =>
    let s := { s with planviews := n.pvs, geoms := n.geoms }
    let roads := (s.readOpenDrive (s.openDrives.cell o)).roads
    match World.linkPairs (combinations2 roads.keys) ⟨⟨roads, s.geoms⟩, s.laneObjs⟩ with
    | .ok _ w => .ok () { s with laneObjs := w.lanes }
    | .error e w => .error e { s with laneObjs := w.lanes }

/-- What a call does. Constructors: lane.py:23-27, 98-113, 229-262; links.py:228-235, 299-317, 390-402; geometry.py:148-177;
opendrive.py:120-153, 368-379. Methods: geometry.py:179-212; lane.py:28-53, 116-136, 266-291; links.py:237-249, 329-338,
404-414; opendrive.py:155-224, 279-290, 382-409, 553-561; signals_objects.py:429-479. -/
def Call.run : Call F → EStateM PyErr (Session F) Unit
  | .geometry v g => fun s => .ok () { s with geoms := s.geoms.put v g }
  | .planView v x y h => fun s =>
    match PlanView.new x y h with
    | .ok pv => .ok () { s with planviews := s.planviews.put v pv }
    | .error e => .error e s
  | .addGeometry pv g heading => fun s =>
    .ok () { s with planviews := s.planviews.modify pv fun p => p.addGeometry g heading }
  | .setStartPoint pv p => fun s => .ok () { s with planviews := s.planviews.modify pv fun q => q.setStartPoint p }
  | .lane v type a b c d soffset => fun s => .ok () { s with laneObjs := s.laneObjs.put v (Lane.new type a b c d soffset) }
  | .addRoadmark x m => fun s => .ok () { s with laneObjs := s.laneObjs.modify x fun l => l.addRoadmark m }
  | .addLaneLink x kind id => fun s => .ok () { s with laneObjs := s.laneObjs.modify x fun l => l.addLink kind id }
  | .laneSection v sc center => fun s =>
    .ok () { s with
      sections := s.sections.put v (LaneSection.new sc center s.laneObjs).1
      laneObjs := (LaneSection.new sc center s.laneObjs).2 }
  | .addLeftLane sec x => fun s =>
    .ok () { s with
      sections := s.sections.put sec ((s.sections.cell sec).addLeftLane x s.laneObjs).1
      laneObjs := ((s.sections.cell sec).addLeftLane x s.laneObjs).2 }
  | .addRightLane sec x => fun s =>
    .ok () { s with
      sections := s.sections.put sec ((s.sections.cell sec).addRightLane x s.laneObjs).1
      laneObjs := ((s.sections.cell sec).addRightLane x s.laneObjs).2 }
  | .laneLinker v => fun s => .ok () { s with linkers := s.linkers.put v [] }
  | .linkLanes linker pred succ => fun s =>
    .ok () { s with linkers := s.linkers.modify linker fun l => LaneLinker.addLink l pred succ }
  | .lanes v => fun s => .ok () { s with lanesObjs := s.lanesObjs.put v [] }
  | .addLanesection x sec ls => fun s =>
    .ok () { s with
      lanesObjs := s.lanesObjs.modify x fun l => l ++ [sec]
      linkers := (Lanes.applyLinkers ls s.linkers s.laneObjs).1
      laneObjs := (Lanes.applyLinkers ls s.linkers s.laneObjs).2 }
  | .road v id pv x type name rule => fun s =>
    .ok () { s with roads := s.roads.put v ⟨Road.new id PlanView.blank [] type name rule, pv, x⟩ }
  | .addSuccessor r et id cp off => withRoad r (Road.addSuccessor et id cp off)
  | .addPredecessor r et id cp off => withRoad r (Road.addPredecessor et id cp off)
  | .addNeighbor r et id dir => withRoad r (Road.addNeighbor et id dir)
  | .object v o => fun s => .ok () { s with objs := s.objs.put v o }
  | .repeatObject o len dist args => fun s => .ok () { s with objs := s.objs.modify o fun x => x.repeat len dist args }
  | .addObject r os => fun s =>
    let x := (s.roads.cell r).attrs.addObject os ⟨s.objs, s.sigs, s.reg⟩
    .ok () { s with roads := s.roads.modify r fun y => { y with attrs := x.1 }, objs := x.2.objs, reg := x.2.reg }
  | .signal v g => fun s => .ok () { s with sigs := s.sigs.put v g }
  | .addSignal r os => fun s =>
    let x := (s.roads.cell r).attrs.addSignal os ⟨s.objs, s.sigs, s.reg⟩
    .ok () { s with roads := s.roads.modify r fun y => { y with attrs := x.1 }, sigs := x.2.sigs, reg := x.2.reg }
  | .connection v inc con cp id => fun s =>
    .ok () { s with connections := s.connections.put v (Connection.new inc con cp id) }
  | .addLanelink c a b => fun s => .ok () { s with connections := s.connections.modify c fun x => x.addLanelink a b }
  | .junction v name id => fun s => .ok () { s with junctions := s.junctions.put v ⟨name, id, [], 0⟩ }
  | .addConnection j c => fun s =>
    .ok () { s with
      connections := s.connections.modify c fun x => x.setId (s.junctions.cell j).idCounter
      junctions := s.junctions.modify j fun x =>
        { x with connections := x.connections ++ [c], idCounter := x.idCounter + 1 } }
  | .openDrive v name => fun s => .ok () { s with openDrives := s.openDrives.put v ⟨name, [], []⟩ }
  | .addRoad o r => fun s =>
    .ok () { s with openDrives := s.openDrives.modify o fun x =>
      { x with roads := x.roads.set (s.roads.cell r).attrs.id.toStr r } }
  | .addJunction o j => fun s =>
    .ok () { s with openDrives := s.openDrives.modify o fun x => { x with junctions := x.junctions ++ [j] } }
  | .adjust o => Session.adjust o

/-- `try: call except: …`: what the call raised (or `none`), and the objects afterwards. -/
def Call.step (c : Call F) (s : Session F) : Option PyErr × Session F :=
  match c.run s with
  | .ok _ s' => (none, s')
  | .error e s' => (some e, s')

/-- Run a program in which every exception is caught where it was raised; returns for each call what it raised. -/
def runCalls : List (Call F) → Session F → List (Call F × Option PyErr) × Session F
  | [], s => ([], s)
  | c :: cs, s => ((c, (c.step s).1) :: (runCalls cs (c.step s).2).1, (runCalls cs (c.step s).2).2)

/-- `odr.get_element()`, opendrive.py:563-575. -/
def Session.getElement (s : Session F) (o : Nat) (date : String) : Except PyErr (Xml F) :=
  (s.readOpenDrive (s.openDrives.cell o)).getElement s.heap date

end

end Pyodrx
