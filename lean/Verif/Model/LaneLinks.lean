import Verif.Model.Road

/-! # `pyodrx/links.py`: automatic lane linking -/

namespace Pyodrx

variable {F : Type}

/-- `are_roads_consecutive`, links.py:437-444. Ids are compared with `==`, not as text. -/
def areRoadsConsecutive (r1 r2 : Road F) : Bool :=
  match r1.successor, r2.predecessor with
  | some s, some p =>
    s.elementType = some .road && p.elementType = some .road &&
    s.elementId = r2.id && p.elementId = r1.id
  | _, _ => false

/-- The value returned by `_get_related_lanesection`: link type, sign, lane section index. -/
structure Related where
  linktype : LinkKind
  sign : Option Int
  sec : Option Int
  deriving DecidableEq, Repr

/-- First part of `_get_related_lanesection`, links.py:530-548. -/
def relatedOwn (road connected : Road F) : Related :=
  match road.successor with
  | some s =>
    if s.elementId = connected.id then
      ⟨.successor, some (if s.contactPoint = some .start then 1 else -1), some (-1)⟩
    else predBranch
  | none => predBranch
where
  predBranch : Related :=
    match road.predecessor with
    | some p =>
      if p.elementId = connected.id then
        ⟨.predecessor, some (if p.contactPoint = some .start then -1 else 1), some 0⟩
      else ⟨.pyNone, none, none⟩
    | none => ⟨.pyNone, none, none⟩

/-- `_get_related_lanesection`, links.py:513-567. In the second part (links.py:550-565) the test
`connected_road.predecessor.link_type == ContactPoint.start` compares the string `'predecessor'`
with an enum member and is always false. A missing predecessor (or successor) of a connecting road
is an `AttributeError`. -/
def getRelatedLanesection (road connected : Road F) : Except PyErr Related :=
  let own := relatedOwn road connected
  if connected.roadType ≠ -1 then
    match connected.predecessor with
    | none => .error .attributeError
    | some p =>
      if p.elementId = road.id then .ok { own with sec := some 0, sign := some 1 }
      else match connected.successor with
        | none => .error .attributeError
        | some s =>
          if s.elementId = road.id then .ok { own with sec := some (-1), sign := some (-1) }
          else .ok own
  else .ok own

/-- `road.lanes.lanesections[i]`, where `i` may be `None` (`TypeError`). -/
def secAt (r : Road F) (i : Option Int) : Except PyErr (LaneSection F) :=
  match i with
  | none => .error .typeError
  | some i => match pyGet? r.lanesections i with
    | some s => .ok s
    | none => .error .indexError

/-- Lift a pure, possibly raising, computation. -/
def liftExcept {σ α : Type} (x : Except PyErr α) : EStateM PyErr σ α :=
  match x with
  | .ok a => pure a
  | .error e => raise e

/-- `lane.add_link(linktype, linkid)` with an integer id (turned into text), lane.py:266-275 -/
def addLaneLink (r : Nat) (kind : LinkKind) (id : Int) : EStateM PyErr (Store (Lane F)) Unit :=
  fun lanes => .ok () (lanes.modify r (·.addLink kind (strInt id)))

/-- `lane.lane_id * sign`; `None` on either side is a `TypeError`. -/
def laneIdTimes (r : Nat) (sign : Option Int) : EStateM PyErr (Store (Lane F)) Int := fun lanes =>
  match (lanes.cell r).laneId, sign with
  | some i, some s => .ok (i * s) lanes
  | _, _ => .error .typeError lanes

/-- One iteration of the loops in `_create_links_connecting_road`, links.py:492-498, 503-509:
`roadSide` and `connSide` are the lane lists of the side being treated. -/
def connectingStep (kind : LinkKind) (sign : Option Int) (offPred offSuc : Int)
    (roadSide connSide : List Nat) (i : Nat) : EStateM PyErr (Store (Lane F)) Unit := do
  let rl ← orRaise .indexError roadSide[i]?
  let linkid ← laneIdTimes rl sign
  let linkid := if kind = .predecessor then linkid + offPred else linkid + offSuc
  let cl ← orRaise .indexError connSide[i]?
  addLaneLink cl kind linkid

/-- The loop `for i in range(i, i+n)`. -/
def connectingLoop (kind : LinkKind) (sign : Option Int) (offPred offSuc : Int)
    (roadSide connSide : List Nat) : Nat → Nat → EStateM PyErr (Store (Lane F)) Unit
  | _, 0 => pure ()
  | i, n + 1 => do
    connectingStep kind sign offPred offSuc roadSide connSide i
    connectingLoop kind sign offPred offSuc roadSide connSide (i + 1) n

/-- `_create_links_connecting_road`, links.py:478-510. The left loop runs over the left lanes of the
*connecting* road's section `road_lanesection_id` (links.py:491). Simplification: section lookups
inside the loops are done once before them (they cannot raise if the loop body is reached and their
own first use does not). -/
def createLinksConnectingRoad (connecting road : Road F) :
    EStateM PyErr (Store (Lane F)) Unit := do
  let rel ← liftExcept (getRelatedLanesection connecting road)
  let rel2 ← liftExcept (getRelatedLanesection road connecting)
  match rel.sec with
  | none => pure ()
  | some _ =>
    let csec ← liftExcept (secAt connecting rel.sec)
    if csec.left.isEmpty = false then
      let cnt ← liftExcept (secAt connecting rel2.sec)
      if cnt.left.length = 0 then pure () else
        let rsec ← liftExcept (secAt road rel2.sec)
        connectingLoop rel.linktype rel.sign connecting.laneOffsetPred connecting.laneOffsetSuc
          rsec.left csec.left 0 cnt.left.length
    if csec.right.isEmpty = false then
      let rsec ← liftExcept (secAt road rel2.sec)
      connectingLoop rel.linktype rel.sign connecting.laneOffsetPred connecting.laneOffsetSuc
        rsec.right csec.right 0 csec.right.length

/-- One iteration of the left loop of `_create_links_roads`, links.py:582-587 -/
def leftStep (pk sk : LinkKind) (sign : Option Int) (pre suc : List Nat) (i : Nat) :
    EStateM PyErr (Store (Lane F)) Unit := do
  let pl ← orRaise .indexError pre[i]?
  let linkid ← laneIdTimes pl sign
  addLaneLink pl pk linkid
  let sl ← orRaise .indexError suc[i]?
  match sign with
  | some s => addLaneLink sl sk (linkid * s)
  | none => raise .typeError

/-- The left loop from index `i`, `n` iterations. -/
def leftLoop (pk sk : LinkKind) (sign : Option Int) (pre suc : List Nat) :
    Nat → Nat → EStateM PyErr (Store (Lane F)) Unit
  | _, 0 => pure ()
  | i, n + 1 => do
    leftStep pk sk sign pre suc i
    leftLoop pk sk sign pre suc (i + 1) n

/-- One iteration of the right loop, links.py:593-596: the id is *not* multiplied by the sign and
is passed to `add_link` as it is (`None` becomes the text `None`). -/
def rightStep (pk sk : LinkKind) (pre suc : List Nat) (i : Nat) :
    EStateM PyErr (Store (Lane F)) Unit := do
  let pl ← orRaise .indexError pre[i]?
  let lanes ← get
  let txt := laneIdText (lanes.cell pl).laneId
  modify fun lanes => lanes.modify pl (·.addLink pk txt)
  let sl ← orRaise .indexError suc[i]?
  modify fun lanes => lanes.modify sl (·.addLink sk txt)

/-- The right loop from index `i`, `n` iterations. -/
def rightLoop (pk sk : LinkKind) (pre suc : List Nat) :
    Nat → Nat → EStateM PyErr (Store (Lane F)) Unit
  | _, 0 => pure ()
  | i, n + 1 => do
    rightStep pk sk pre suc i
    rightLoop pk sk pre suc (i + 1) n

/-- `_create_links_roads`, links.py:569-599. The lane counts are compared with the *last* section of
the successor road (links.py:580, 592). -/
def createLinksRoads (pre suc : Road F) : EStateM PyErr (Store (Lane F)) Unit := do
  let rp ← liftExcept (getRelatedLanesection pre suc)
  let rs ← liftExcept (getRelatedLanesection suc pre)
  let psec ← liftExcept (secAt pre rp.sec)
  let lastsec ← liftExcept (secAt suc (some (-1)))
  if psec.left.length = lastsec.left.length then
    if psec.left.length = 0 then pure () else
      let ssec ← liftExcept (secAt suc rs.sec)
      leftLoop rp.linktype rs.linktype rp.sign psec.left ssec.left 0 psec.left.length
  else raise .notSameAmountOfLanesError
  if psec.right.length = lastsec.right.length then
    if psec.right.length = 0 then pure () else
      let ssec ← liftExcept (secAt suc rs.sec)
      rightLoop rp.linktype rs.linktype psec.right ssec.right 0 psec.right.length
  else raise .notSameAmountOfLanesError

/-- `create_lane_links`, links.py:446-473 -/
def createLaneLinks (r1 r2 : Road F) : EStateM PyErr (Store (Lane F)) Unit :=
  if r1.roadType = -1 ∧ r2.roadType = -1 then
    if areRoadsConsecutive r1 r2 then createLinksRoads r1 r2
    else if areRoadsConsecutive r2 r1 then createLinksRoads r2 r1
    else pure ()
  else if r1.roadType ≠ -1 then createLinksConnectingRoad r1 r2
  else createLinksConnectingRoad r2 r1

end Pyodrx
