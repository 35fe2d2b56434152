import Verif.Model.PlanView
import Verif.Model.Lane
import Verif.Model.SignalsObjects

/-! # `pyodrx/opendrive.py`: Road -/

namespace Pyodrx
open PyFloat

variable {F : Type}

/-- `Road` attributes, opendrive.py:139-153. `lanesections` is `self.lanes.lanesections`;
`objects`, `signals` are references. Simplification: the attribute `adjusted` (opendrive.py:151) is
never read by pyodrx and is left out; `rule` is a string. -/
structure Road (F : Type) where
  id : PyId
  planview : PlanView F
  lanesections : List (LaneSection F)
  roadType : Int
  name : Option String
  rule : Option String
  links : List Link
  neighborAdded : Nat
  successor : Option Link
  predecessor : Option Link
  laneOffsetSuc : Int
  laneOffsetPred : Int
  objects : List Nat
  signals : List Nat

/-- `Road.__init__`, opendrive.py:120-153 -/
def Road.new (id : PyId) (planview : PlanView F) (lanesections : List (LaneSection F))
    (roadType : Int) (name rule : Option String) : Road F :=
  { id, planview, lanesections, roadType, name, rule, links := [], neighborAdded := 0,
    successor := none, predecessor := none, laneOffsetSuc := 0, laneOffsetPred := 0,
    objects := [], signals := [] }

/-- `Road.add_successor`, opendrive.py:155-171. Simplification: lane offsets are integers. -/
def Road.addSuccessor (et : ElementType) (eid : PyId) (cp : Option ContactPoint)
    (laneOffset : Int) : EStateM PyErr (Road F) Unit := fun r =>
  if r.successor.isSome then .error .valueError r
  else match Link.new .successor eid (some et) cp none with
    | .error e => .error e r
    | .ok l => .ok () { r with successor := some l, links := r.links ++ [l],
                               laneOffsetSuc := laneOffset }

/-- `Road.add_predecessor`, opendrive.py:174-190 -/
def Road.addPredecessor (et : ElementType) (eid : PyId) (cp : Option ContactPoint)
    (laneOffset : Int) : EStateM PyErr (Road F) Unit := fun r =>
  if r.predecessor.isSome then .error .valueError r
  else match Link.new .predecessor eid (some et) cp none with
    | .error e => .error e r
    | .ok l => .ok () { r with predecessor := some l, links := r.links ++ [l],
                               laneOffsetPred := laneOffset }

/-- `Road.add_neighbor`, opendrive.py:193-209. A `None` direction is refused by `_Link`. -/
def Road.addNeighbor (et : ElementType) (eid : PyId) (dir : Option Direction) :
    EStateM PyErr (Road F) Unit := fun r =>
  if r.neighborAdded > 1 then .error .valueError r
  else match Link.new .neighbor eid (some et) none dir with
    | .error e => .error e r
    | .ok l => .ok () { r with links := r.links ++ [l], neighborAdded := r.neighborAdded + 1 }

/-! ## Objects and signals -/

/-- The heap of signals and objects and the class-level id registry. -/
structure SOState (F : Type) where
  objs : Store (Obj F)
  sigs : Store (Signal F)
  reg : Registry

/-- `single_object._update_id()` on an `Object` -/
def SOState.updateObjId (st : SOState F) (o : Nat) : SOState F :=
  let r := updateId "Object" (st.objs.cell o).base.id st.reg
  { st with
    objs := st.objs.modify o fun ob => { ob with base := { ob.base with id := some r.1 } }
    reg := r.2 }

/-- `single_signal._update_id()` on a `Signal` -/
def SOState.updateSigId (st : SOState F) (o : Nat) : SOState F :=
  let r := updateId "Signal" (st.sigs.cell o).base.id st.reg
  { st with
    sigs := st.sigs.modify o fun ob => { ob with base := { ob.base with id := some r.1 } }
    reg := r.2 }

/-- `Road.add_object`, opendrive.py:210-224, with a list (a single object is a list of one:
`_update_id` then append, in both branches). -/
def Road.addObject (r : Road F) (os : List Nat) (st : SOState F) : Road F × SOState F :=
  ({ r with objects := r.objects ++ os }, os.foldl SOState.updateObjId st)

/-- `Road.add_signal`, opendrive.py:279-290 -/
def Road.addSignal (r : Road F) (os : List Nat) (st : SOState F) : Road F × SOState F :=
  ({ r with signals := r.signals ++ os }, os.foldl SOState.updateSigId st)

section
variable [PyFloat F]

/-- `total_widths[-1] = total_widths[-1] + lane.a` over the lanes of one side,
opendrive.py:259-260, 266-267 -/
def sumWidths (lanes : Store (Lane F)) (l : List Nat) : F :=
  l.foldl (fun w r => w +. (lanes.cell r).a) (ofInt 0)

/-- One entry of the lists `s_lanesections`, `hdg_factors`, `total_widths`. -/
structure RoadsideEntry (F : Type) where
  s : F
  factor : Int
  width : F

/-- The entries produced by one lane section, opendrive.py:253-267 -/
def roadsideEntries (lanes : Store (Lane F)) (side : RoadSide) (sec : LaneSection F) :
    List (RoadsideEntry F) :=
  (if side ≠ .right then [⟨sec.s, 1, sumWidths lanes sec.left⟩] else []) ++
  (if side ≠ .left then [⟨sec.s, -1, sumWidths lanes sec.right⟩] else [])

/-- The copy made for one entry, opendrive.py:269-273 -/
def roadsideObject (proto : Obj F) (total repeatDistance sOffset tOffset : F)
    (e : RoadsideEntry F) : Obj F :=
  let o : Obj F := { proto with
    base := { proto.base with
      t := (e.width +. tOffset) *. ofInt e.factor
      s := sOffset +. e.s }
    hdg := pi *. ofInt (1 + e.factor) /. ofInt 2 }
  o.repeat (total -. sOffset -. e.s) repeatDistance {}

/-- Allocate all copies; returns the references in order. -/
def allocAll {α : Type} (st : Store α) : List α → Store α × List Nat
  | [] => (st, [])
  | a :: l =>
    let r := st.alloc a
    let rs := allocAll r.1 l
    (rs.1, r.2 :: rs.2)

/-- `Road.add_object_roadside`, opendrive.py:226-277. Simplification: the deep copies are
allocated after their attributes are computed instead of before. -/
def Road.addObjectRoadside (lanes : Store (Lane F)) (proto : Nat)
    (repeatDistance sOffset tOffset : F) (side : RoadSide) :
    EStateM PyErr (Road F × SOState F) Unit := fun (r, st) =>
  if r.planview.adjusted = false then .error .roadsAndLanesNotAdjusted (r, st)
  else
    let entries := r.lanesections.flatMap (roadsideEntries lanes side)
    let objs := entries.map
      (roadsideObject (st.objs.cell proto) r.planview.getTotalLength repeatDistance sOffset tOffset)
    let a := allocAll st.objs objs
    .ok () (r.addObject a.2 { st with objs := a.1 })

/-- `Road.get_end_point`, opendrive.py:294-304: the current position of the planview. -/
def Road.getEndPoint (r : Road F) : Pose F := r.planview.present

/-- attribute emitted only `if self.x:` for an optional string (`None` and `''` are falsy) -/
def attrIfText (k : String) (x : Option String) : Dict (Val F) :=
  match x with
  | some v => if v = "" then [] else [(k, .str v)]
  | none => []

/-- `Road.get_attributes`, opendrive.py:305-317 -/
def Road.getAttributes (r : Road F) : Dict (Val F) :=
  attrIfText "name" r.name ++ attrIfText "rule" r.rule ++
  [("id", Val.ofId r.id), ("junction", .int r.roadType), ("length", .num r.planview.getTotalLength)]

/-- The heaps read when a document is emitted. -/
structure Heap (F : Type) where
  geoms : Store (Geom F)
  lanes : Store (Lane F)
  so : SOState F

/-- `Road.get_element`, opendrive.py:319-336 -/
def Road.getElement (hp : Heap F) (r : Road F) : Except PyErr (Xml F) := do
  let lanes ← Lanes.getElement hp.lanes r.lanesections
  pure (.elem "road" r.getAttributes
    ([Links.getElement r.links, r.planview.getElement hp.geoms, lanes] ++
     (if r.signals.isEmpty then []
      else [.elem "signals" [] (r.signals.map fun i => (hp.so.sigs.cell i).getElement)]) ++
     (if r.objects.isEmpty then []
      else [.elem "objects" [] (r.objects.map fun i => (hp.so.objs.cell i).getElement)])))

end

end Pyodrx
