import Verif.Model.OpenDrive

/-! # `pyodrx/generators.py` -/

namespace Pyodrx
open PyFloat

variable {F : Type}

/-- The heaps the generators allocate in. -/
structure GenState (F : Type) where
  geoms : Store (Geom F)
  lanes : Store (Lane F)

section
variable [PyFloat F]

/-- The defaults of `RoadMark`'s optional arguments, lane.py:477-478. -/
def stdRoadmark (t : RoadMarkType) : RoadMark F :=
  RoadMark.new t (some (ofInt 2 /. ofInt 10)) none none none (ofInt 0) none .standard .standard
    (ofInt 2 /. ofInt 100) none

/-- `STD_ROADMARK_SOLID`, generators.py:18 -/
def stdSolid : RoadMark F := stdRoadmark .solid
/-- `STD_ROADMARK_BROKEN`, generators.py:19 -/
def stdBroken : RoadMark F := stdRoadmark .broken
/-- `STD_START_CLOTH`, generators.py:20 -/
def stdStartCloth : F := ofInt 1 /. ofInt 1000000000

/-- `standard_lane`, generators.py:21-38. `Lane(a=offset)` has type driving. -/
def standardLane (offset : F) (rm : RoadMark F) : Lane F :=
  (Lane.new .driving offset (ofInt 0) (ofInt 0) (ofInt 0) (ofInt 0)).addRoadmark rm

/-- Create a lane object. -/
def newLane (l : Lane F) : EStateM PyErr (GenState F) Nat := fun st =>
  let r := st.lanes.alloc l
  .ok r.2 { st with lanes := r.1 }

/-- Create a geometry object. -/
def newGeom (g : Geom F) : EStateM PyErr (GenState F) Nat := fun st =>
  let r := st.geoms.alloc g
  .ok r.2 { st with geoms := r.1 }

/-- `LaneSection(s, lane)` -/
def newSection (s : F) (center : Nat) : EStateM PyErr (GenState F) (LaneSection F) := fun st =>
  let r := LaneSection.new s center st.lanes
  .ok r.1 { st with lanes := r.2 }

/-- `lsec.add_left_lane(lane)` -/
def genAddLeft (sec : LaneSection F) (lane : Nat) : EStateM PyErr (GenState F) (LaneSection F) :=
  fun st =>
  let r := sec.addLeftLane lane st.lanes
  .ok r.1 { st with lanes := r.2 }

/-- `lsec.add_right_lane(lane)` -/
def genAddRight (sec : LaneSection F) (lane : Nat) : EStateM PyErr (GenState F) (LaneSection F) :=
  fun st =>
  let r := sec.addRightLane lane st.lanes
  .ok r.1 { st with lanes := r.2 }

/-- An empty `PlanView()`. -/
def emptyPlanView : PlanView F :=
  { present := ⟨ofInt 0, ofInt 0, ofInt 0⟩, presentS := ofInt 0, fixed := false,
    start := none, stop := none, raw := [], adjGeoms := [], overridden := [], adjusted := false }

/-- The attribute `length` of a geometry object. -/
def Geom.length : Geom F → Option F
  | .line l => some l.length
  | .spiral s => s.length
  | .arc a => a.length
  | .poly g => g.length

/-- The loop `for g in geometry: pv.add_geometry(g); raw_length += g.length`,
generators.py:67-75. `raw_length` is not used afterwards, but adding `None` is a `TypeError`. -/
def addGeometries : List Nat → PlanView F → EStateM PyErr (GenState F) (PlanView F)
  | [], pv => pure pv
  | g :: gs, pv => do
    let pv := pv.addGeometry g none
    let st ← get
    match (st.geoms.cell g).length with
    | none => raise .typeError
    | some _ => addGeometries gs pv

/-- The lane loops of `create_road`, generators.py:83-95; the first argument counts the lanes still to do. -/
def createRoadSide (add : LaneSection F → Nat → EStateM PyErr (GenState F) (LaneSection F))
    (width : F) : Nat → LaneSection F → EStateM PyErr (GenState F) (LaneSection F)
  | 0, sec => pure sec
  | todo + 1, sec => do
    -- `if i == n-1`: the last lane is solid
    let l ← newLane (standardLane width (if todo = 0 then stdSolid else stdBroken))
    let sec ← add sec l
    createRoadSide add width todo sec

/-- `create_road`, generators.py:41-101. A single geometry is a list of one.
Negative lane numbers behave like 0 (`range`). -/
def createRoad (geometry : List Nat) (id : PyId) (left right : Nat) (roadType : Int)
    (centerMark : RoadMark F) (width : F) : EStateM PyErr (GenState F) (Road F) := do
  let pv ← addGeometries geometry emptyPlanView
  let lc ← newLane
    ((Lane.new .driving (ofInt 0) (ofInt 0) (ofInt 0) (ofInt 0) (ofInt 0)).addRoadmark centerMark)
  let sec ← newSection (ofInt 0) lc
  let sec ← createRoadSide genAddLeft width left sec
  let sec ← createRoadSide genAddRight width right sec
  pure (Road.new id pv [sec] roadType none none)

/-- The loop of generators.py:128-130 and 183-185. -/
def straightLanes (width : F) : Nat → LaneSection F →
    EStateM PyErr (GenState F) (LaneSection F)
  | 0, sec => pure sec
  | n + 1, sec => do
    let r ← newLane (standardLane width stdBroken)
    let sec ← genAddRight sec r
    let l ← newLane (standardLane width stdBroken)
    let sec ← genAddLeft sec l
    straightLanes width n sec

/-- `create_straight_road`, generators.py:103-137 -/
def createStraightRoad (id : PyId) (length : F) (junction : Int) (n : Nat) (width : F) :
    EStateM PyErr (GenState F) (Road F) := do
  let g ← newGeom (.line ⟨length⟩)
  let pv := (emptyPlanView (F := F)).addGeometry g none
  let c ← newLane (standardLane (ofInt 3) stdBroken)
  let sec ← newSection (ofInt 0) c
  let sec ← straightLanes width n sec
  pure (Road.new id pv [sec] junction none none)

/-- `create_cloth_arc_cloth`, generators.py:140-190 -/
def createClothArcCloth (arcCurv arcAngle clothAngle : F) (id : PyId) (junction : Int)
    (clothStart : F) (n : Nat) (width : F) : EStateM PyErr (GenState F) (Road F) := do
  let flip := lt clothAngle (ofInt 0) && lt (ofInt 0) arcCurv
  let clothAngle' := if flip then neg clothAngle else clothAngle
  let arcCurv' := if flip then neg arcCurv else arcCurv
  let clothStart' := if flip then neg clothStart else clothStart
  let arcAngle' := if flip then neg arcAngle else arcAngle
  let s1 ← liftExcept (Spiral.new clothStart' arcCurv' none (some clothAngle') none)
  let g1 ← newGeom (.spiral s1)
  let a ← liftExcept (Arc.new arcCurv' none (some arcAngle'))
  let g2 ← newGeom (.arc a)
  let s2 ← liftExcept (Spiral.new arcCurv' clothStart' none (some clothAngle') none)
  let g3 ← newGeom (.spiral s2)
  let pv := (((emptyPlanView (F := F)).addGeometry g1 none).addGeometry g2 none).addGeometry g3 none
  let c ← newLane (standardLane (ofInt 3) stdBroken)
  let sec ← newSection (ofInt 0) c
  let sec ← straightLanes width n sec
  pure (Road.new id pv [sec] junction none none)

/-- `get_lanes_offset`, generators.py:192-220. `NotSameAmountOfLanesError` is not imported in
generators.py, so the `raise` is a `NameError`. -/
def getLanesOffset (r1 r2 : Road F) (cp : ContactPoint) :
    EStateM PyErr (GenState F) (Nat × F) := do
  let s1 ← liftExcept (secAt r1 (some (if cp = .end then 0 else -1)))
  let s2 ← liftExcept (secAt r2 (some 0))
  if s1.left.length = s2.left.length ∧ s1.right.length = s2.right.length then
    let l ← orRaise .indexError s1.left.head?
    let st ← get
    pure (s1.left.length, (st.lanes.cell l).a)
  else raise .nameError

/-- Run a state change on one road of the list `roads`; `IndexError` when absent. -/
def onRoad (i : Nat) (f : EStateM PyErr (Road F) Unit) :
    EStateM PyErr (List (Road F) × GenState F) Unit := fun (rs, st) =>
  match rs[i]? with
  | none => .error .indexError (rs, st)
  | some r => match f r with
    | .ok _ r' => .ok () (rs.set i r', st)
    | .error e r' => .error e (rs.set i r', st)

/-- Run a generator that does not touch the list of roads. -/
def onGen {α : Type} (f : EStateM PyErr (GenState F) α) :
    EStateM PyErr (List (Road F) × GenState F) α := fun (rs, st) =>
  match f st with
  | .ok a st' => .ok a (rs, st')
  | .error e st' => .error e (rs, st')

/-- Run a state change on a road object not in the list. -/
def onNewRoad (f : EStateM PyErr (Road F) Unit) (r : Road F) :
    EStateM PyErr (List (Road F) × GenState F) (Road F) := fun s =>
  match f r with
  | .ok _ r' => .ok r' s
  | .error e _ => .error e s

/-- `linelength`, generators.py:258-267 -/
def junctionLineLength (r spiralPart : F) : Except PyErr F := do
  let angleCloth := pi /. ofInt 2 *. spiralPart
  let spiralLength := ofInt 2 *. abs (angleCloth *. r)
  if isZero r then .error .zeroDivisionError
  let gamma ← EulerSpiral.create (some spiralLength) stdStartCloth (ofInt 1 /. r)
  let p := EulerSpiral.calc gamma spiralLength (ofInt 0) (ofInt 0) stdStartCloth (ofInt 0)
  let x0 := p.x -. r *. sin angleCloth
  let y0 := p.y -. r *. (ofInt 1 -. cos angleCloth)
  pure (ofInt 2 *. (x0 +. r +. y0))

/-- The body of the inner loop, generators.py:281-306. The assignment to `an1` at line 290-291 has
no effect (it is not read afterwards). -/
def junctionRoad (i j : Nat) (cp : ContactPoint) (angles : List F) (r : F) (junction : Int)
    (spiralPart arcPart linelength : F) (num : Int) :
    EStateM PyErr (List (Road F) × GenState F) (Road F) := do
  let aj ← orRaise .indexError angles[j]?
  let ai ← orRaise .indexError angles[i]?
  let an1 := aj -. ai -. pi
  let an := sign an1
  let angleArc := an1 *. arcPart
  let angleCloth := an1 *. spiralPart
  let (rs, _) ← get
  let ri ← orRaise .indexError rs[i]?
  let rj ← orRaise .indexError rs[j]?
  let (n, w) ← onGen (getLanesOffset ri rj cp)
  let jr ←
    if isZero an then onGen (createStraightRoad (.int num) linelength junction n w)
    else onGen (createClothArcCloth (ofInt 1 /. r) angleArc angleCloth (.int num) junction
      stdStartCloth n w)
  let jr ← onNewRoad (Road.addPredecessor .road ri.id (some cp) 0) jr
  onNewRoad (Road.addSuccessor .road rj.id (some .start) 0) jr

/-- The inner loop `for j in range(j, j+m)`. -/
def junctionInner (i : Nat) (cp : ContactPoint) (angles : List F) (r : F) (junction : Int)
    (spiralPart arcPart linelength : F) :
    Nat → Nat → Int → EStateM PyErr (List (Road F) × GenState F) (List (Road F))
  | _, 0, _ => pure []
  | j, m + 1, num => do
    let jr ← junctionRoad i j cp angles r junction spiralPart arcPart linelength num
    let jrs ← junctionInner i cp angles r junction spiralPart arcPart linelength (j + 1) m (num + 1)
    pure (jr :: jrs)

/-- The outer loop `for i in range(i, i+m)` over `total` roads, generators.py:272-306. -/
def junctionOuter (total : Nat) (angles : List F) (r : F) (junction : Int)
    (spiralPart arcPart linelength : F) :
    Nat → Nat → Int → EStateM PyErr (List (Road F) × GenState F) (List (Road F))
  | _, 0, _ => pure []
  | i, m + 1, num => do
    let cp : ContactPoint := if i = 0 then .end else .start
    if i = 0 then onRoad i (Road.addSuccessor .junction (.int junction) none 0)
    else onRoad i (Road.addPredecessor .junction (.int junction) none 0)
    let inner ← junctionInner i cp angles r junction spiralPart arcPart linelength (i + 1)
      (total - (i + 1)) num
    let rest ← junctionOuter total angles r junction spiralPart arcPart linelength (i + 1) m
      (num + (total - (i + 1) : Nat))
    pure (inner ++ rest)

/-- `create_junction_roads`, generators.py:225-311. The roads given are threaded as a list
(simplification: they are distinct objects). -/
def createJunctionRoads (angles : List F) (r : F) (junction : Int) (spiralPart arcPart : F)
    (startnum : Int) : EStateM PyErr (List (Road F) × GenState F) (List (Road F)) := do
  let linelength ← liftExcept (junctionLineLength r spiralPart)
  let (rs, _) ← get
  let jrs ← junctionOuter rs.length angles r junction spiralPart arcPart linelength 0
    (rs.length - 1) startnum
  -- `roads[-1]`
  if rs.length = 0 then raise .indexError
  onRoad (rs.length - 1) (Road.addPredecessor .junction (.int junction) none 0)
  pure jrs

end

/-- `_create_junction_links`, generators.py:313-333 -/
def createJunctionLinks (c : Connection) (n : Nat) (rOrL sign fromOffset toOffset : Int) :
    Connection :=
  (List.range n).foldl
    (fun c (i : Nat) => c.addLanelink (rOrL * ((i : Int) + 1) + fromOffset)
      (rOrL * sign * ((i : Int) + 1) + toOffset)) c

/-- `get_road_by_id`, generators.py:375-389 -/
def getRoadById (roads : List (Road F)) (id : PyId) : Option (Road F) :=
  roads.find? fun r => r.id = id

/-- `_, sign, _ = _get_related_lanesection(jr, get_road_by_id(roads, id))`, generators.py:361, 369.
A missing road is `None`, whose attribute access is an `AttributeError`. -/
def junctionSign (jr : Road F) (roads : List (Road F)) (id : PyId) : Except PyErr (Option Int) :=
  match getRoadById roads id with
  | none => .error .attributeError
  | some r => (getRelatedLanesection jr r).map (·.sign)

/-- `r_or_l*sign*i` with `sign = None` is a `TypeError` (only evaluated if there is a lane) -/
def createJunctionLinks? (c : Connection) (n : Nat) (rOrL : Int) (sign : Option Int)
    (fromOffset toOffset : Int) : Except PyErr Connection :=
  match sign with
  | some s => .ok (createJunctionLinks c n rOrL s fromOffset toOffset)
  | none => if n = 0 then .ok c else .error .typeError

/-- The body of the loop of `create_junction`, generators.py:358-372 -/
def junctionConnections (jr : Road F) (roads : List (Road F)) (j : Junction) :
    Except PyErr Junction := do
  match jr.successor with
  | none => .error .attributeError
  | some s =>
    let c1 := Connection.new s.elementId jr.id .end none
    let sign ← junctionSign jr roads s.elementId
    let sec ← secAt jr (some (-1))
    let c1 ← createJunctionLinks? c1 sec.right.length (-1) sign 0 jr.laneOffsetSuc
    let c1 ← createJunctionLinks? c1 sec.left.length 1 sign 0 jr.laneOffsetSuc
    let j := j.addConnection c1
    match jr.predecessor with
    | none => .error .attributeError
    | some p =>
      let c2 := Connection.new p.elementId jr.id .start none
      let sign ← junctionSign jr roads p.elementId
      let sec ← secAt jr (some 0)
      let c2 ← createJunctionLinks? c2 sec.right.length (-1) sign jr.laneOffsetPred 0
      let c2 ← createJunctionLinks? c2 sec.left.length 1 sign jr.laneOffsetPred 0
      pure (j.addConnection c2)

/-- `create_junction`, generators.py:336-373 -/
def createJunction (jrs : List (Road F)) (id : PyId) (roads : List (Road F)) :
    Except PyErr Junction :=
  jrs.foldlM (fun j jr => junctionConnections jr roads j) (Junction.new "my junction" id)

end Pyodrx
