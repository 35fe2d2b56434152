import Verif.Model.OpenDrive

/-! # `pyodrx/opendrive.py`: adjust_startpoints with PlanView objects that roads may share

`Net` (Model/OpenDrive.lean) stores the planview of a road in the road. In Python `Road.planview` is a reference, and a
program can give one PlanView object to several roads. Here PlanViews are objects in a store. The functions are those
of Model/OpenDrive.lean, line by line, on this state. -/

namespace Pyodrx
open PyFloat

variable {F : Type}

/-- A `Road` object, opendrive.py:139-153, whose attribute `planview` is the reference `pv`. `attrs` has the other
attributes; its field `planview` is not used. -/
structure RoadObj (F : Type) where
  attrs : Road F
  pv : Nat

/-- The roads of an `OpenDrive`, the PlanView objects and the geometry objects. -/
structure SharedNet (F : Type) where
  roads : Dict (RoadObj F)
  pvs : Store (PlanView F)
  geoms : Store (Geom F)

/-- The attributes of a road as Python reads them, opendrive.py:139-153. -/
def RoadObj.read (pvs : Store (PlanView F)) (r : RoadObj F) : Road F := { r.attrs with planview := pvs.cell r.pv }

/-- `self.roads[key]` -/
def SharedNet.road (key : String) : EStateM PyErr (SharedNet F) (Road F) := fun net =>
  match net.roads.get? key with
  | some r => .ok (r.read net.pvs) net
  | none => .error .keyError net

section
variable [PyFloat F]

/-- `self.roads[key].planview.adjust_geometries(from_end)`: mutates the PlanView object, geometry.py:241-295 -/
def SharedNet.adjustPlanview (key : String) (fromEnd : Bool) : EStateM PyErr (SharedNet F) Unit := fun net =>
  match net.roads.get? key with
  | none => .error .keyError net
  | some r =>
    match PlanView.adjustGeometries fromEnd ⟨net.pvs.cell r.pv, net.geoms⟩ with
    | .ok _ st => .ok () { net with pvs := net.pvs.put r.pv st.pv, geoms := st.geoms }
    | .error e st => .error e { net with pvs := net.pvs.put r.pv st.pv, geoms := st.geoms }

/-- `self.roads[key].planview.set_start_point(x,y,h)`, geometry.py:194-212 -/
def SharedNet.setStartPoint (key : String) (p : Pose F) : EStateM PyErr (SharedNet F) Unit := fun net =>
  match net.roads.get? key with
  | none => .error .keyError net
  | some r => .ok () { net with pvs := net.pvs.modify r.pv fun pv => pv.setStartPoint p }

/-- `OpenDrive.adjust_road_wrt_neighbour`, opendrive.py:412-458 -/
def SharedNet.adjustRoadWrtNeighbour (roadId neighbourId : PyId) (cp : Option ContactPoint)
    (asPredecessor : Bool) : EStateM PyErr (SharedNet F) Unit := do
  let main ← SharedNet.road roadId.toStr
  let cp ← orRaise .unboundLocalError cp
  let nb ← SharedNet.road neighbourId.toStr
  let p ← liftExcept (neighbourPose nb cp)
  let n := if asPredecessor then main.laneOffsetPred else main.laneOffsetSuc
  SharedNet.setStartPoint roadId.toStr (offsetPose asPredecessor n p)
  SharedNet.adjustPlanview roadId.toStr (!asPredecessor)

/-- The conditions of opendrive.py:501-503 and 524-526 -/
def SharedNet.usable (link : Option Link) : EStateM PyErr (SharedNet F) Bool := do
  match link with
  | none => pure false
  | some l =>
    let nb ← SharedNet.road l.elementId.toStr
    pure (nb.planview.adjusted && !(l.elementType = some .junction))

/-- The conditions of opendrive.py:511 and 534 -/
def SharedNet.danglingOther (roadType : Int) (link : Option Link) : EStateM PyErr (SharedNet F) Bool := do
  if roadType = -1 then pure false
  else match link with
    | none => pure false
    | some l =>
      let nb ← SharedNet.road l.elementId.toStr
      pure (!nb.planview.adjusted)

/-- The body of the `for k in self.roads` loop, opendrive.py:498-542 -/
def SharedNet.visit (k : String) : EStateM PyErr (SharedNet F) Nat := do
  let r ← SharedNet.road k
  if r.planview.adjusted then pure 0
  else
    let usePred ← SharedNet.usable r.predecessor
    match usePred, r.predecessor with
    | true, some p =>
      SharedNet.adjustRoadWrtNeighbour (.str k) p.elementId p.contactPoint true
      let other ← SharedNet.danglingOther r.roadType r.successor
      match other, r.successor with
      | true, some s =>
        SharedNet.adjustRoadWrtNeighbour s.elementId (.str k) (some .end)
          (s.contactPoint = some .start)
        pure 2
      | _, _ => pure 1
    | _, _ =>
      let useSuc ← SharedNet.usable r.successor
      match useSuc, r.successor with
      | true, some s =>
        SharedNet.adjustRoadWrtNeighbour (.str k) s.elementId s.contactPoint false
        let other ← SharedNet.danglingOther r.roadType r.predecessor
        match other, r.predecessor with
        | true, some p =>
          SharedNet.adjustRoadWrtNeighbour p.elementId (.str k) (some .start)
            (p.contactPoint = some .start)
          pure 2
        | _, _ => pure 1
      | _, _ => pure 0

/-- One pass of the `while` loop, opendrive.py:496-542 -/
def SharedNet.pass : List String → EStateM PyErr (SharedNet F) Nat
  | [] => pure 0
  | k :: ks => do
    let c ← SharedNet.visit k
    let cs ← SharedNet.pass ks
    pure (c + cs)

/-- The `while` loop, opendrive.py:492-548 -/
def SharedNet.passes (n total : Nat) (keys : List String) : EStateM PyErr (SharedNet F) Unit :=
  if _h : total < n then do
    let c ← SharedNet.pass keys
    if _h2 : total + c ≠ n ∧ c = 0 then raise .undefinedRoadNetwork
    else SharedNet.passes n (total + c) keys
  else pure ()
termination_by n - total
decreasing_by omega

/-- The first loop, opendrive.py:477-482 -/
def SharedNet.adjustFixed : List String → EStateM PyErr (SharedNet F) Nat
  | [] => pure 0
  | k :: ks => do
    let r ← SharedNet.road k
    if r.planview.fixed then
      SharedNet.adjustPlanview k false
      let c ← SharedNet.adjustFixed ks
      pure (c + 1)
    else SharedNet.adjustFixed ks

/-- `OpenDrive.adjust_startpoints`, opendrive.py:461-548 -/
def SharedNet.adjustStartpoints : EStateM PyErr (SharedNet F) Unit := do
  let net ← get
  let keys := net.roads.keys
  let c ← SharedNet.adjustFixed keys
  let c ← (if c = 0 then do
      let k ← orRaise .indexError keys.head?
      SharedNet.adjustPlanview k false
      pure 1
    else pure c)
  SharedNet.passes keys.length c keys

end

end Pyodrx
