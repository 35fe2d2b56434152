import Verif.Model.Program

/-! # Programs that give signals and objects to the roads of a network

As examples/junction_with_signals.py (signals are added when the roads are made) and
examples/multiple_geometries_one_road_with_objects.py (objects are added after `adjust_roads_and_lanes`). -/

namespace Pyodrx

variable {F : Type}

/-- One call that gives signals or objects to a road: `road.add_signal(l)` and `road.add_object(l)` with new signals or
objects (examples/junction_with_signals.py:17, multiple_geometries_one_road_with_objects.py:67-73; an object carries the
repeats given to it by `repeat` before), or `road.add_object_roadside(...)` with a new object
(multiple_geometries_one_road_with_objects.py:58-62). -/
inductive FurnishCall (F : Type) where
  | signals (l : List (Signal F))
  | objects (l : List (Obj F))
  | roadside (object : Obj F) (repeatDistance sOffset tOffset : F) (side : RoadSide)

section
variable [PyFloat F]

/-- The signals or objects are created and given to the road, signals_objects.py:189-245, 362-427, opendrive.py:210-290 -/
def FurnishCall.run (lanes : Store (Lane F)) (c : FurnishCall F) (r : Road F) (st : SOState F) :
    Except PyErr (Road F × SOState F) :=
  match c with
  | .signals l =>
    let a := allocAll st.sigs l
    .ok (r.addSignal a.2 { st with sigs := a.1 })
  | .objects l =>
    let a := allocAll st.objs l
    .ok (r.addObject a.2 { st with objs := a.1 })
  | .roadside object repeatDistance sOffset tOffset side =>
    let a := st.objs.alloc object
    match Road.addObjectRoadside lanes a.2 repeatDistance sOffset tOffset side (r, { st with objs := a.1 }) with
    | .ok _ x => .ok x
    | .error e _ => .error e

/-- The call for the road with the id `k` (in the program: for a variable; here a missing road is reported as `keyError`). -/
def furnishRoad (lanes : Store (Lane F)) (k : Int) (c : FurnishCall F) :
    List (Road F) → SOState F → Except PyErr (List (Road F) × SOState F)
  | [], _ => .error .keyError
  | r :: rs, st =>
    if r.id = .int k then do
      let x ← c.run lanes r st
      .ok (x.1 :: rs, x.2)
    else do
      let x ← furnishRoad lanes k c rs st
      .ok (r :: x.1, x.2)

/-- Calls before the roads are adjusted, examples/junction_with_signals.py:10-19. -/
def furnishRoads (lanes : Store (Lane F)) : List (Int × FurnishCall F) → List (Road F) → SOState F →
    Except PyErr (List (Road F) × SOState F)
  | [], rs, st => .ok (rs, st)
  | c :: cs, rs, st => do
    let x ← furnishRoad lanes c.1 c.2 rs st
    furnishRoads lanes cs x.1 x.2

/-- Calls after the roads are adjusted, examples/multiple_geometries_one_road_with_objects.py:57-73; the roads are those of the
`OpenDrive`. -/
def furnishDict (lanes : Store (Lane F)) : List (Int × FurnishCall F) → Dict (Road F) → SOState F →
    Except PyErr (Dict (Road F) × SOState F)
  | [], d, st => .ok (d, st)
  | c :: cs, d, st =>
    match d.get? (strInt c.1) with
    | none => .error .keyError
    | some r => do
      let x ← c.2.run lanes r st
      furnishDict lanes cs (d.set (strInt c.1) x.1) x.2

/-- What the program has built when it comes to `write_xml`. -/
structure FurnishedProgram (F : Type) where
  junctions : List Junction
  world : World F
  so : SOState F

/-- The end of a program: some signals and objects are given to the roads, all roads are added to an `OpenDrive`, which is
adjusted, and more signals and objects are given to the roads. -/
def finishProgram (roads : List (Road F)) (junctions : List Junction) (before after : List (Int × FurnishCall F))
    (geoms : Store (Geom F)) (lanes : Store (Lane F)) (so : SOState F) : Except PyErr (FurnishedProgram F) := do
  let x ← furnishRoads lanes before roads so
  match World.adjustRoadsAndLanes ⟨⟨x.1.foldl addRoad [], geoms⟩, lanes⟩ with
  | .error e _ => .error e
  | .ok _ w =>
    let y ← furnishDict w.lanes after w.net.roads x.2
    .ok ⟨junctions, ⟨⟨y.1, w.net.geoms⟩, w.lanes⟩, y.2⟩

/-- A network program (`networkProgram`) with such calls. Simplification: those that come before `adjust_roads_and_lanes` follow
the links and junctions, which do not look at signals and objects (`C79_junctions`). -/
def furnishedNetwork (calls : List (RoadCall F)) (junctions : List AnyJunction) (before after : List (Int × FurnishCall F))
    (st : GenState F) (so : SOState F) : Except PyErr (FurnishedProgram F) :=
  match makeRoads calls st with
  | .error e _ => .error e
  | .ok roads st' => do
    let roads ← connectRoads calls roads
    let js ← makeJunctions roads junctions
    finishProgram roads js before after st'.geoms st'.lanes so

/-- A junction program (`junctionProgram`) with such calls, examples/junction_with_signals.py: those before the adjustment
come before `create_junction_roads`. -/
def furnishedJunction (roads : List (Road F)) (angles : List F) (r : F) (junction : Int) (spiralPart arcPart : F)
    (startnum : Int) (before after : List (Int × FurnishCall F)) (st : GenState F) (so : SOState F) :
    Except PyErr (FurnishedProgram F) := do
  let x ← furnishRoads st.lanes before roads so
  match createJunctionRoads angles r junction spiralPart arcPart startnum (x.1, st) with
  | .error e _ => .error e
  | .ok jrs (roads', st') => do
    let j ← createJunction jrs (.int junction) roads'
    finishProgram (roads' ++ jrs) [j] [] after st'.geoms st'.lanes x.2

end

end Pyodrx
