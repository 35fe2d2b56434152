import Verif.Model.OpenDrive
import Verif.Model.Examples

/-! # The project's own tests of the network code, run on the model

Not proofs but a check of the model: each `example` is one test function of /repo/tests, with its assertions, evaluated
by the kernel. The lane links do not depend on the numbers, so the numbers are replaced by a one-element type in which
every value counts as not zero. -/

namespace Pyodrx.Conformance

/-- Numbers that are never looked at. -/
instance : PyFloat Unit where
  ofInt _ := ()
  add _ _ := ()
  sub _ _ := ()
  mul _ _ := ()
  div _ _ := ()
  neg _ := ()
  abs _ := ()
  max _ _ := ()
  sign _ := ()
  sin _ := ()
  cos _ := ()
  sqrt _ := ()
  arctan2 _ _ := ()
  pi := ()
  fresnelS _ := ()
  fresnelC _ := ()
  quad _ _ _ := ()
  isZero _ := false
  lt _ _ := false

/-- A road of tests/test_links.py:58-98: one geometry, one section with one lane on each side. -/
def testRoad (id : Int) (roadType : Int) (g : EStateM PyErr (GenState Unit) Nat) :
    EStateM PyErr (GenState Unit) (Road Unit) := do
  let g ← g
  let pv := (emptyPlanView (F := Unit)).addGeometry g none
  let c ← newLane (Lane.new .driving () () () () ())
  let l ← newLane (Lane.new .driving () () () () ())
  let r ← newLane (Lane.new .driving () () () () ())
  let sec ← newSection () c
  let sec ← genAddRight sec l
  let sec ← genAddLeft sec r
  pure (Road.new (.int id) pv [sec] roadType none none)

/-- `Line(50)` -/
def testLine : EStateM PyErr (GenState Unit) Nat := newGeom (.line ⟨()⟩)

/-- `Arc(0.01, angle=np.pi/2)` -/
def testArc : EStateM PyErr (GenState Unit) Nat := do
  let a ← liftExcept (Arc.new () none (some ()))
  newGeom (.arc a)

/-- A link to be added: successor or predecessor, element type, id, contact point. -/
abbrev TestLink := Bool × ElementType × Int × Option ContactPoint

/-- `road.add_successor(...)`, `road.add_predecessor(...)` -/
def addLinks : List TestLink → Road Unit → Except PyErr (Road Unit)
  | [], r => .ok r
  | (s, et, i, cp) :: ls, r =>
    match (if s then Road.addSuccessor et (.int i) cp 0 r else Road.addPredecessor et (.int i) cp 0 r) with
    | .ok _ r' => addLinks ls r'
    | .error e _ => .error e

/-- The program common to tests/test_links.py:58-424: three roads (line, arc, line) with the given links, the second
of the given type; `adjust_roads_and_lanes`. The result: the links of the right and the left lane of each road. -/
def laneLinkTest (type2 : Int) (l1 l2 l3 : List TestLink) :
    Except PyErr (List (Option PyId × Option PyId)) := do
  let prog : EStateM PyErr (GenState Unit) (Road Unit × Road Unit × Road Unit) := do
    let r1 ← testRoad 1 (-1) testLine
    let r2 ← testRoad 2 type2 testArc
    let r3 ← testRoad 3 (-1) testLine
    pure (r1, r2, r3)
  match prog ⟨⟨fun _ => .line ⟨()⟩, 0⟩, ⟨fun _ => Lane.new .driving () () () () (), 0⟩⟩ with
  | .error e _ => .error e
  | .ok (r1, r2, r3) st =>
    let r1 ← addLinks l1 r1
    let r2 ← addLinks l2 r2
    let r3 ← addLinks l3 r3
    let roads := addRoad (addRoad (addRoad [] r1) r2) r3
    match World.adjustRoadsAndLanes ⟨⟨roads, st.geoms⟩, st.lanes⟩ with
    | .error e _ => .error e
    | .ok _ w =>
      pure ([r1, r2, r3].flatMap fun r => r.lanesections.flatMap fun s =>
        (s.right ++ s.left).map fun x =>
          (Links.getPredecessorId (w.lanes.cell x).links, Links.getSuccessorId (w.lanes.cell x).links))

/-- The link of a lane: `int(lane.links.get_..._id())` or `None`. -/
def toLane (m : Int) : Option PyId := some (.str (strInt m))

/-- Equality of results, to be evaluated by the kernel. -/
def same (a : Except PyErr (List (Option PyId × Option PyId))) (b : List (Option PyId × Option PyId)) : Bool :=
  match a with
  | .ok l => l = b
  | .error _ => false

/-- tests/test_links.py:58-131, `test_create_lane_links_normalroad1` -/
example : same (laneLinkTest (-1) [(true, .road, 2, some .start)]
    [(false, .road, 1, some .end), (true, .road, 3, some .start)] [(false, .road, 2, some .end)])
    [(none, toLane (-1)), (none, toLane 1), (toLane (-1), toLane (-1)), (toLane 1, toLane 1),
      (toLane (-1), none), (toLane 1, none)] = true := by
  decide +kernel

/-- tests/test_links.py:134-207, `test_create_lane_links_junction1` -/
example : same (laneLinkTest 1 [(true, .junction, 1, none)]
    [(false, .road, 1, some .end), (true, .road, 3, some .start)] [(false, .junction, 1, none)])
    [(none, none), (none, none), (toLane (-1), toLane (-1)), (toLane 1, toLane 1), (none, none), (none, none)] =
    true := by
  decide +kernel

/-- tests/test_links.py:209-279, `test_create_lane_links_junction2` -/
example : same (laneLinkTest 1 [(false, .junction, 1, none)]
    [(false, .road, 1, some .start), (true, .road, 3, some .end)] [(true, .junction, 1, none)])
    [(none, none), (none, none), (toLane 1, toLane 1), (toLane (-1), toLane (-1)), (none, none), (none, none)] =
    true := by
  decide +kernel

/-- tests/test_links.py:281-351, `test_create_lane_links_junction3` -/
example : same (laneLinkTest 1 [(false, .junction, 1, none)]
    [(false, .road, 1, some .start), (true, .road, 3, some .start)] [(false, .junction, 1, none)])
    [(none, none), (none, none), (toLane 1, toLane (-1)), (toLane (-1), toLane 1), (none, none), (none, none)] =
    true := by
  decide +kernel

/-- tests/test_links.py:353-424, `test_create_lane_links_junction4` -/
example : same (laneLinkTest 1 [(true, .junction, 1, none)]
    [(false, .road, 1, some .end), (true, .road, 3, some .end)] [(true, .junction, 1, none)])
    [(none, none), (none, none), (toLane (-1), toLane 1), (toLane 1, toLane (-1)), (none, none), (none, none)] =
    true := by
  decide +kernel

/-- C80_doubled is not vacuous: road 1 is adjusted, road 2 (with road 1 as predecessor) is added, the network is adjusted
again. The number of geometries of the two roads. -/
def growTest : Option (List Nat) :=
  let prog : EStateM PyErr (GenState Unit) (Road Unit × Road Unit) := do
    let r1 ← testRoad 1 (-1) testLine
    let r2 ← testRoad 2 (-1) testLine
    pure (r1, r2)
  match prog ⟨⟨fun _ => .line ⟨()⟩, 0⟩, ⟨fun _ => Lane.new .driving () () () () (), 0⟩⟩ with
  | .error _ _ => none
  | .ok (r1, r2) st =>
    match addLinks [(false, .road, 1, some .end)] r2 with
    | .error _ => none
    | .ok r2 =>
      match Net.adjustStartpoints ⟨addRoad [] r1, st.geoms⟩ with
      | .error _ _ => none
      | .ok _ net =>
        match Net.adjustStartpoints ⟨addRoad net.roads r2, net.geoms⟩ with
        | .error _ _ => none
        | .ok _ net' => some (net'.roads.map fun kv => kv.2.planview.adjGeoms.length)

example : growTest = some [2, 1] := by decide +kernel

end Pyodrx.Conformance
