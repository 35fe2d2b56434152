import Verif.Model.LaneLinks

/-! # `pyodrx/opendrive.py`: OpenDrive -/

namespace Pyodrx
open PyFloat

variable {F : Type}

/-- The roads of an `OpenDrive` (a dict keyed by `str(road.id)`) and the heap of geometry objects. -/
structure Net (F : Type) where
  roads : Dict (Road F)
  geoms : Store (Geom F)

/-- `OpenDrive.add_road`, opendrive.py:382-393. The `ValueError` of opendrive.py:391-392 is
constructed but not raised. -/
def addRoad (roads : Dict (Road F)) (r : Road F) : Dict (Road F) := roads.set r.id.toStr r

/-- `self.roads[key]` -/
def Net.road (key : String) : EStateM PyErr (Net F) (Road F) := fun net =>
  match net.roads.get? key with
  | some r => .ok r net
  | none => .error .keyError net

section
variable [PyFloat F]

/-- `self.roads[key].planview.adjust_geometries(from_end)` -/
def Net.adjustPlanview (key : String) (fromEnd : Bool) : EStateM PyErr (Net F) Unit := fun net =>
  match net.roads.get? key with
  | none => .error .keyError net
  | some r =>
    match PlanView.adjustGeometries fromEnd ⟨r.planview, net.geoms⟩ with
    | .ok _ st => .ok () ⟨net.roads.set key { r with planview := st.pv }, st.geoms⟩
    | .error e st => .error e ⟨net.roads.set key { r with planview := st.pv }, st.geoms⟩

/-- `self.roads[key].planview.set_start_point(x,y,h)` -/
def Net.setStartPoint (key : String) (p : Pose F) : EStateM PyErr (Net F) Unit := fun net =>
  match net.roads.get? key with
  | none => .error .keyError net
  | some r =>
    .ok () { net with roads := net.roads.set key { r with planview := r.planview.setStartPoint p } }

/-- The reference pose taken from the neighbour, opendrive.py:430-434 and 445-449.
A contact point that is neither start nor end leaves `x, y, h` unassigned, so the next use is an
`UnboundLocalError`; the start/end of an unadjusted neighbour is `None` and using it a `TypeError`. -/
def neighbourPose (neighbour : Road F) (cp : ContactPoint) : Except PyErr (Pose F) :=
  match cp with
  | .start => match neighbour.planview.start with
    | some p => .ok { p with h := p.h +. pi }
    | none => .error .typeError
  | .end => match neighbour.planview.stop with
    | some p => .ok p
    | none => .error .typeError

/-- The lane-offset shift, opendrive.py:435-437 (predecessor) and 450-452 (successor); the lane
width 3 is hard-coded. -/
def offsetPose (asPredecessor : Bool) (n : Int) (p : Pose F) : Pose F :=
  if asPredecessor then
    { p with x := ofInt (-n * 3) *. sin p.h +. p.x, y := ofInt (n * 3) *. cos p.h +. p.y }
  else
    { p with x := ofInt (n * 3) *. sin p.h +. p.x, y := ofInt (-n * 3) *. cos p.h +. p.y }

/-- `OpenDrive.adjust_road_wrt_neighbour`, opendrive.py:412-458. `asPredecessor` is
`neighbour_type == 'predecessor'` (the other value used is `'successor'`). -/
def Net.adjustRoadWrtNeighbour (roadId neighbourId : PyId) (cp : Option ContactPoint)
    (asPredecessor : Bool) : EStateM PyErr (Net F) Unit := do
  let main ← Net.road roadId.toStr
  let cp ← orRaise .unboundLocalError cp
  let nb ← Net.road neighbourId.toStr
  let p ← liftExcept (neighbourPose nb cp)
  let n := if asPredecessor then main.laneOffsetPred else main.laneOffsetSuc
  Net.setStartPoint roadId.toStr (offsetPose asPredecessor n p)
  Net.adjustPlanview roadId.toStr (!asPredecessor)

/-- `link is not None and self.roads[str(link.element_id)].planview.adjusted is True and
link.element_type is not ElementType.junction`, opendrive.py:501-503 and 524-526.
The road is looked up before the element type is tested. -/
def Net.usable (link : Option Link) : EStateM PyErr (Net F) Bool := do
  match link with
  | none => pure false
  | some l =>
    let nb ← Net.road l.elementId.toStr
    pure (nb.planview.adjusted && !(l.elementType = some .junction))

/-- `self.roads[k].road_type != -1 and link is not None and
self.roads[str(link.element_id)].planview.adjusted is False`, opendrive.py:511 and 534. -/
def Net.danglingOther (roadType : Int) (link : Option Link) : EStateM PyErr (Net F) Bool := do
  if roadType = -1 then pure false
  else match link with
    | none => pure false
    | some l =>
      let nb ← Net.road l.elementId.toStr
      pure (!nb.planview.adjusted)

/-- The body of the `for k in self.roads` loop, opendrive.py:498-542; returns the number of roads
adjusted. Simplification: `self.roads[k]` is read once for the fields that the called functions do
not modify (links, road type). -/
def Net.visit (k : String) : EStateM PyErr (Net F) Nat := do
  let r ← Net.road k
  if r.planview.adjusted then pure 0
  else
    let usePred ← Net.usable r.predecessor
    match usePred, r.predecessor with
    | true, some p =>
      Net.adjustRoadWrtNeighbour (.str k) p.elementId p.contactPoint true
      let other ← Net.danglingOther r.roadType r.successor
      match other, r.successor with
      | true, some s =>
        -- the connecting road's successor is attached to the end of `k`
        Net.adjustRoadWrtNeighbour s.elementId (.str k) (some .end)
          (s.contactPoint = some .start)
        pure 2
      | _, _ => pure 1
    | _, _ =>
      let useSuc ← Net.usable r.successor
      match useSuc, r.successor with
      | true, some s =>
        Net.adjustRoadWrtNeighbour (.str k) s.elementId s.contactPoint false
        let other ← Net.danglingOther r.roadType r.predecessor
        match other, r.predecessor with
        | true, some p =>
          Net.adjustRoadWrtNeighbour p.elementId (.str k) (some .start)
            (p.contactPoint = some .start)
          pure 2
        | _, _ => pure 1
      | _, _ => pure 0

/-- One pass of the `while` loop over the given keys, opendrive.py:496-542 -/
def Net.pass : List String → EStateM PyErr (Net F) Nat
  | [] => pure 0
  | k :: ks => do
    let c ← Net.visit k
    let cs ← Net.pass ks
    pure (c + cs)

/-- The `while` loop, opendrive.py:492-548, with `total` roads adjusted so far and `n` roads
(the set of keys does not change during the loop).
That Lean accepts this recursion is the proof that the loop terminates. -/
def Net.passes (n total : Nat) (keys : List String) : EStateM PyErr (Net F) Unit :=
  if _h : total < n then do
    let c ← Net.pass keys
    if _h2 : total + c ≠ n ∧ c = 0 then raise .undefinedRoadNetwork
    else Net.passes n (total + c) keys
  else pure ()
termination_by n - total
decreasing_by omega

/-- The first loop: adjust every fixed road, opendrive.py:477-482; returns the number of them. -/
def Net.adjustFixed : List String → EStateM PyErr (Net F) Nat
  | [] => pure 0
  | k :: ks => do
    let r ← Net.road k
    if r.planview.fixed then
      Net.adjustPlanview k false
      let c ← Net.adjustFixed ks
      pure (c + 1)
    else Net.adjustFixed ks

/-- `OpenDrive.adjust_startpoints`, opendrive.py:461-548. -/
def Net.adjustStartpoints : EStateM PyErr (Net F) Unit := do
  let net ← get
  let keys := net.roads.keys
  let c ← Net.adjustFixed keys
  let c ← (if c = 0 then do
      -- `list(self.roads.keys())[0]` on an empty dict is an `IndexError`
      let k ← orRaise .indexError keys.head?
      Net.adjustPlanview k false
      pure 1
    else pure c)
  Net.passes keys.length c keys

/-- The state of `adjust_roads_and_lanes`. -/
structure World (F : Type) where
  net : Net F
  lanes : Store (Lane F)

/-- `create_lane_links(self.roads[k1], self.roads[k2])` -/
def World.linkPair (k : String × String) : EStateM PyErr (World F) Unit := fun w =>
  match w.net.roads.get? k.1, w.net.roads.get? k.2 with
  | some r1, some r2 =>
    match createLaneLinks r1 r2 w.lanes with
    | .ok _ l => .ok () { w with lanes := l }
    | .error e l => .error e { w with lanes := l }
  | _, _ => .error .keyError w

/-- The loop over all pairs, opendrive.py:407-409 -/
def World.linkPairs : List (String × String) → EStateM PyErr (World F) Unit
  | [] => pure ()
  | k :: ks => do
    World.linkPair k
    World.linkPairs ks

/-- `OpenDrive.adjust_roads_and_lanes`, opendrive.py:396-409 -/
def World.adjustRoadsAndLanes : EStateM PyErr (World F) Unit := fun w =>
  match Net.adjustStartpoints w.net with
  | .error e net => .error e { w with net := net }
  | .ok _ net => World.linkPairs (combinations2 net.roads.keys) { w with net := net }

/-- `_Header.get_attributes`, `get_element`, opendrive.py:45-66; the current date is a parameter. -/
def headerElement (name date : String) : Xml F :=
  .elem "header" [("name", .str name), ("revMajor", .str "1"), ("revMinor", .str "5"),
    ("date", .str date), ("north", .str "0.0"), ("south", .str "0.0"), ("east", .str "0.0"),
    ("west", .str "0.0")] []

/-- `OpenDrive` attributes other than the header, opendrive.py:376-379; `add_junction` appends
(opendrive.py:553-561). -/
structure OpenDrive (F : Type) where
  name : String
  roads : Dict (Road F)
  junctions : List Junction

/-- `OpenDrive.__init__`, opendrive.py:368-379 -/
def OpenDrive.new (name : String) : OpenDrive F := ⟨name, [], []⟩

/-- `OpenDrive.add_road`, opendrive.py:382-393 -/
def OpenDrive.addRoad (o : OpenDrive F) (r : Road F) : OpenDrive F :=
  { o with roads := Pyodrx.addRoad o.roads r }

/-- `OpenDrive.add_junction`, opendrive.py:553-561 -/
def OpenDrive.addJunction (o : OpenDrive F) (j : Junction) : OpenDrive F :=
  { o with junctions := o.junctions ++ [j] }

/-- `OpenDrive.get_element`, opendrive.py:563-575 -/
def OpenDrive.getElement (hp : Heap F) (date : String) (o : OpenDrive F) :
    Except PyErr (Xml F) := do
  let rs ← o.roads.mapM fun kv => kv.2.getElement hp
  pure (.elem "OpenDRIVE" []
    ([headerElement o.name date] ++ rs ++ o.junctions.map Junction.getElement))

end

end Pyodrx
