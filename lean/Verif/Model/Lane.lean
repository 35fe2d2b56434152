import Verif.Model.Links

/-! # `pyodrx/lane.py` -/

namespace Pyodrx
open PyFloat

variable {F : Type}

/-- `RoadLine` attributes, lane.py:394-400 -/
structure RoadLine (F : Type) where
  width : F
  length : F
  space : F
  toffset : F
  soffset : F
  rule : Option MarkRule
  color : Option RoadMarkColor

/-- `RoadLine.get_attributes`, `get_element`, lane.py:406-427 -/
def RoadLine.getElement (l : RoadLine F) : Xml F :=
  .elem "line"
    ([("length", .num l.length), ("space", .num l.space), ("tOffset", .num l.toffset),
      ("width", .num l.width), ("sOffset", .num l.soffset)] ++
     (match l.rule with
      | some r => [("rule", .str (enum2strName r.name))]
      | none => [])) []

/-- `RoadMark` attributes, lane.py:507-525 -/
structure RoadMark (F : Type) where
  markingType : RoadMarkType
  markingWeight : RoadMarkWeight
  color : RoadMarkColor
  soffset : F
  height : F
  laneChange : Option LaneChange
  width : Option F
  length : Option F
  space : Option F
  toffset : Option F
  rule : Option MarkRule
  line : Option (RoadLine F)

section
variable [PyFloat F]

/-- `RoadMark.__init__`, lane.py:477-546 -/
def RoadMark.new (markingType : RoadMarkType) (width length space toffset : Option F)
    (soffset : F) (rule : Option MarkRule) (color : RoadMarkColor) (weight : RoadMarkWeight)
    (height : F) (laneChange : Option LaneChange) : RoadMark F :=
  let base : RoadMark F :=
    { markingType, markingWeight := weight, color, soffset, height, laneChange, width, length,
      space, toffset, rule, line := none }
  -- `any([length, space, toffset, rule])`, lane.py:527
  if truthy length || truthy space || truthy toffset || rule.isSome then
    let length' : F := match markingType with
      | .broken => orElse length (ofInt 3)
      | .solid => orElse length (ofInt 3)
      | _ => orElse length (ofInt 0)
    let space' : F := match markingType with
      | .broken => orElse space (ofInt 3)
      | .solid => orElse space (ofInt 0)
      | _ => orElse length (ofInt 0)          -- lane.py:540: `length or 0`
    let width' : F := orElse width (ofInt 2 /. ofInt 10)
    let toffset' : F := orElse toffset (ofInt 0)
    let rule' : MarkRule := rule.getD .none
    { base with
      length := some length', space := some space', width := some width',
      toffset := some toffset', rule := some rule',
      line := some ⟨width', length', space', toffset', soffset, some rule', some color⟩ }
  else base

end

/-- `RoadMark.get_attributes`, `get_element`, lane.py:548-572 -/
def RoadMark.getElement (m : RoadMark F) : Xml F :=
  .elem "roadMark"
    ([("sOffset", .num m.soffset), ("type", .str (enum2strName m.markingType.name)),
      ("weight", .str (enum2strName m.markingWeight.name)),
      ("color", .str (enum2strName m.color.name)), ("height", .num m.height)] ++
     (match m.width with | some w => [("width", .num w)] | none => []) ++
     (match m.laneChange with
      | some c => [("laneChange", .str (enum2strName c.name))] | none => []))
    (match m.line with
     | some l => [.elem "type" [("name", .str (enum2strName m.markingType.name)),
                                ("width", .ofOpt m.width)] [l.getElement]]
     | none => [])

/-- `Lane` attributes, lane.py:254-262 -/
structure Lane (F : Type) where
  laneId : Option Int
  laneType : LaneType
  a : F
  b : F
  c : F
  d : F
  soffset : F
  roadmark : Option (RoadMark F)
  links : List Link

/-- `Lane.__init__`, lane.py:229-262 -/
def Lane.new (laneType : LaneType) (a b c d soffset : F) : Lane F :=
  ⟨none, laneType, a, b, c, d, soffset, none, []⟩

/-- `Lane.add_link(link_type, id)`, lane.py:266-275: `id` is already text. Only called by pyodrx
with the link types successor, predecessor (or `None`), for which `_Link.__init__` cannot raise. -/
def Lane.addLink (l : Lane F) (kind : LinkKind) (id : String) : Lane F :=
  { l with links := l.links ++ [⟨kind, .str id, none, none, none⟩] }

/-- `Lane._set_lane_id`, lane.py:277-281 -/
def Lane.setLaneId (l : Lane F) (i : Int) : Lane F := { l with laneId := some i }

/-- `Lane.add_roadmark`, lane.py:283-291 -/
def Lane.addRoadmark (l : Lane F) (m : RoadMark F) : Lane F := { l with roadmark := some m }

/-- `Lane.get_attributes`, `get_element`, lane.py:294-323 -/
def Lane.getElement (l : Lane F) : Except PyErr (Xml F) :=
  match l.laneId with
  | none => .error .valueError
  | some i => .ok (.elem "lane"
      [("id", .int i), ("type", .str (enum2strName l.laneType.name)), ("level", .str "false")]
      ([Links.getElement l.links,
        .elem "width" [("a", .num l.a), ("b", .num l.b), ("c", .num l.c), ("d", .num l.d),
          ("sOffset", .num l.soffset)] []] ++
       (match l.roadmark with | some m => [m.getElement] | none => [])))

/-- `LaneSection` attributes, lane.py:107-113. Lanes are references into the lane heap. -/
structure LaneSection (F : Type) where
  s : F
  center : Nat
  left : List Nat
  right : List Nat
  leftId : Int
  rightId : Int

/-- `LaneSection.__init__`, lane.py:98-113 -/
def LaneSection.new (s : F) (center : Nat) (lanes : Store (Lane F)) :
    LaneSection F × Store (Lane F) :=
  (⟨s, center, [], [], 1, -1⟩, lanes.modify center (·.setLaneId 0))

/-- `LaneSection.add_left_lane`, lane.py:116-125 -/
def LaneSection.addLeftLane (sec : LaneSection F) (lane : Nat) (lanes : Store (Lane F)) :
    LaneSection F × Store (Lane F) :=
  ({ sec with left := sec.left ++ [lane], leftId := sec.leftId + 1 },
   lanes.modify lane (·.setLaneId sec.leftId))

/-- `LaneSection.add_right_lane`, lane.py:127-136 -/
def LaneSection.addRightLane (sec : LaneSection F) (lane : Nat) (lanes : Store (Lane F)) :
    LaneSection F × Store (Lane F) :=
  ({ sec with right := sec.right ++ [lane], rightId := sec.rightId - 1 },
   lanes.modify lane (·.setLaneId sec.rightId))

/-- `LaneSection.get_attributes`, `get_element`, lane.py:138-166 -/
def LaneSection.getElement (lanes : Store (Lane F)) (sec : LaneSection F) :
    Except PyErr (Xml F) := do
  let ls ← sec.left.mapM fun r => (lanes.cell r).getElement
  let c ← (lanes.cell sec.center).getElement
  let rs ← sec.right.mapM fun r => (lanes.cell r).getElement
  pure (.elem "laneSection" [("s", .num sec.s)]
    ((if sec.left.isEmpty then [] else [.elem "left" [] ls]) ++
     [.elem "center" [] [c]] ++
     (if sec.right.isEmpty then [] else [.elem "right" [] rs])))

/-! ## LaneLinker (links.py:214-259) and `Lanes.add_lanesection` -/

/-- `_lanelink`, links.py:251-259 (`connecting_road` is never read) -/
structure LaneLink where
  predecessor : Nat
  successor : Nat
  used : Bool
  deriving DecidableEq, Repr

/-- `LaneLinker.add_link`, links.py:237-249 -/
def LaneLinker.addLink (links : List LaneLink) (pred succ : Nat) : List LaneLink :=
  links ++ [⟨pred, succ, false⟩]

/-- `str(lane.lane_id)`; `None` is rendered `None`. -/
def laneIdText : Option Int → String
  | some i => strInt i
  | none => "None"

/-- One iteration of the inner loop of `Lanes.add_lanesection`, lane.py:45-51. -/
def LaneLink.apply (lk : LaneLink) (lanes : Store (Lane F)) : LaneLink × Store (Lane F) :=
  if lk.used then (lk, lanes)
  else
    let lanes := lanes.modify lk.predecessor
      (·.addLink .successor (laneIdText (lanes.cell lk.successor).laneId))
    let lanes := lanes.modify lk.successor
      (·.addLink .predecessor (laneIdText (lanes.cell lk.predecessor).laneId))
    ({ lk with used := true }, lanes)

/-- The loop over the links of one linker. -/
def LaneLinker.applyAll : List LaneLink → Store (Lane F) → List LaneLink × Store (Lane F)
  | [], lanes => ([], lanes)
  | lk :: lks, lanes =>
    let r := lk.apply lanes
    let rs := applyAll lks r.2
    (r.1 :: rs.1, rs.2)

/-- The loop of `Lanes.add_lanesection` over the linkers of one call, lane.py:43-51. A
`LaneLinker` is a mutable object; `linkers` is the heap of all of them. -/
def Lanes.applyLinkers : List Nat → Store (List LaneLink) → Store (Lane F) →
    Store (List LaneLink) × Store (Lane F)
  | [], linkers, lanes => (linkers, lanes)
  | l :: ls, linkers, lanes =>
    let r := LaneLinker.applyAll (linkers.cell l) lanes
    applyLinkers ls (linkers.put l r.1) r.2

/-- `Lanes.add_lanesection(lanesection, lanelinks)`, lane.py:28-53; `lanelinks` given as a list of
linkers (empty for `None`). -/
def Lanes.addLanesection (secs : List (LaneSection F)) (sec : LaneSection F) (lanelinks : List Nat)
    (linkers : Store (List LaneLink)) (lanes : Store (Lane F)) :
    List (LaneSection F) × Store (List LaneLink) × Store (Lane F) :=
  let r := Lanes.applyLinkers lanelinks linkers lanes
  (secs ++ [sec], r.1, r.2)

/-- `Lanes.get_element`, lane.py:55-62 -/
def Lanes.getElement (lanes : Store (Lane F)) (secs : List (LaneSection F)) :
    Except PyErr (Xml F) := do
  let cs ← secs.mapM (LaneSection.getElement lanes)
  pure (.elem "lanes" [] cs)

end Pyodrx
