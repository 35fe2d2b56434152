import Verif.Proofs.Session

/-! # C87: the order in which a program makes and connects its objects -/

namespace Pyodrx.Props
open Pyodrx Pyodrx.Spec

section
variable {F : Type} [PyFloat F]

/-- C87: two programs that consist of the same calls, with the same order of the calls that touch the same object, leave
the same objects, raise the same exceptions in the same calls, and emit the same document for every `OpenDrive` object. In
every arithmetic, from every state, with every exception caught. -/
theorem C87_order (p q : List (Call F)) (h : SameUpToOrder p q) (s : Session F) :
    (runCalls p s).2 = (runCalls q s).2 ∧ (runCalls p s).1.Perm (runCalls q s).1 ∧
      ∀ o date, (runCalls p s).2.getElement o date = (runCalls q s).2.getElement o date := by
  obtain ⟨h1, h2⟩ := runCalls_order p q s h
  exact ⟨h1, h2, fun o date => by rw [h1]⟩

/-- C87: in particular, if one of the programs raises no exception the other one does not either. -/
theorem C87_no_exception (p q : List (Call F)) (h : SameUpToOrder p q) (s : Session F)
    (hp : ∀ x ∈ (runCalls p s).1, x.2 = none) : ∀ x ∈ (runCalls q s).1, x.2 = none :=
  fun x hx => hp x ((runCalls_order p q s h).2.mem_iff.mpr hx)

open Classical in
theorem sameUpToOrder_early (c : Call F) (p q r : List (Call F)) (h : ∀ d ∈ q, ∀ x, Touches c x → ¬ Touches d x) :
    SameUpToOrder (p ++ q ++ c :: r) (p ++ c :: (q ++ r)) := by
  refine ⟨by rw [List.append_assoc]; exact List.Perm.append_left p List.perm_middle, fun x => ?_⟩
  simp only [List.append_assoc, List.filter_append, List.filter_cons]
  split
  · next hx =>
    have : q.filter (fun c => decide (Touches c x)) = [] := by
      rw [List.filter_eq_nil_iff]
      intro d hd
      simpa using h d hd x (by simpa using hx)
    rw [this]
    rfl
  · rfl

/-- C87: `odr.add_road(road)` need not wait until the road is complete. It can be moved to any place after the road and the
`OpenDrive` were made, past all calls but those of other methods of this `OpenDrive` and `adjust_roads_and_lanes` (and past
`add_road` of the same road to another `OpenDrive`): the document is the same. -/
theorem C87_add_road (o r : Nat) (p q rest : List (Call F))
    (hq : ∀ d ∈ q, match d with
      | .openDrive v _ => v ≠ o
      | .addRoad o' r' => o' ≠ o ∧ r' ≠ r
      | .addJunction o' _ => o' ≠ o
      | .road v _ _ _ _ _ _ => v ≠ r
      | .adjust _ => False
      | _ => True) (s : Session F) :
    (runCalls (p ++ q ++ .addRoad o r :: rest) s).2 = (runCalls (p ++ .addRoad o r :: (q ++ rest)) s).2 := by
  refine (runCalls_order _ _ s (sameUpToOrder_early _ p q rest ?_)).1
  intro d hd x hx
  have hd := hq d hd
  rcases hx with rfl | rfl <;> cases d <;> simp_all [Touches, eq_comm]

/-- C87: a road can be made with a PlanView and a Lanes object that are still empty, and geometries and lane sections be added
later: making the road can be moved before everything that is not a method of this road, does not put it into an `OpenDrive`
and is not `adjust_roads_and_lanes`. -/
theorem C87_road (v pv lanes : Nat) (id : PyId) (type : Int) (name rule : Option String) (p q rest : List (Call F))
    (hq : ∀ d ∈ q, match d with
      | .road v' _ _ _ _ _ _ => v' ≠ v
      | .addSuccessor r _ _ _ _ => r ≠ v
      | .addPredecessor r _ _ _ _ => r ≠ v
      | .addNeighbor r _ _ _ => r ≠ v
      | .addObject r _ => r ≠ v
      | .addSignal r _ => r ≠ v
      | .addRoad _ r => r ≠ v
      | .adjust _ => False
      | _ => True) (s : Session F) :
    (runCalls (p ++ q ++ .road v id pv lanes type name rule :: rest) s).2 =
      (runCalls (p ++ .road v id pv lanes type name rule :: (q ++ rest)) s).2 := by
  refine (runCalls_order _ _ s (sameUpToOrder_early _ p q rest ?_)).1
  intro d hd x hx
  have hd := hq d hd
  rcases hx with rfl | rfl <;> cases d <;> simp_all [Touches, eq_comm]

/-! A complete program, with `add_road` at the end and with `add_road` in the middle. -/

/-- A straight road with a lane on its right side, made by hand. -/
def exSessionMake : List (Call F) :=
  [.openDrive 0 "net", .geometry 0 (.line ⟨PyFloat.ofInt 50⟩), .planView 0 none none none,
   .lane 0 .driving (PyFloat.ofInt 0) (PyFloat.ofInt 0) (PyFloat.ofInt 0) (PyFloat.ofInt 0) (PyFloat.ofInt 0),
   .lane 1 .driving (PyFloat.ofInt 3) (PyFloat.ofInt 0) (PyFloat.ofInt 0) (PyFloat.ofInt 0) (PyFloat.ofInt 0),
   .lanes 0, .road 0 (.int 7) 0 0 (-1) none none]

/-- Its parts are filled in. -/
def exSessionFill : List (Call F) :=
  [.addGeometry 0 0 none, .laneSection 0 (PyFloat.ofInt 0) 0, .addRightLane 0 1, .addLanesection 0 0 [],
   .addSuccessor 0 .road (.int 8) (some .start) 0]

example (s : Session F) : (runCalls (exSessionMake ++ exSessionFill ++ [.addRoad 0 0]) s).2 =
    (runCalls (exSessionMake ++ .addRoad 0 0 :: exSessionFill) s).2 := by
  have := C87_add_road 0 0 exSessionMake exSessionFill [] (by
    intro d hd
    simp only [exSessionFill, List.mem_cons, List.not_mem_nil, or_false] at hd
    rcases hd with rfl | rfl | rfl | rfl | rfl <;> trivial) s
  simpa using this

/-- The road is in the document with its geometry, its lane and its link although it was added before them. -/
example (s : Session F) : ((runCalls (exSessionMake ++ .addRoad 0 0 :: exSessionFill) s).2.readOpenDrive
      ((runCalls (exSessionMake ++ .addRoad 0 0 :: exSessionFill) s).2.openDrives.cell 0)).roads.map
        (fun kv => (kv.1, kv.2.planview.raw, kv.2.lanesections.map (·.right), kv.2.links.map (·.elementId))) =
      [("7", [0], [[1]], [.int 8])] := by
  rfl

/-- The order of calls that touch the same object does matter: lanes are numbered in the order of the calls. -/
example (s : Session F) (h : (s.sections.cell 0).rightId = -1) :
    ((runCalls [.addRightLane 0 1, .addRightLane 0 2] s).2.laneObjs.cell 1).laneId = some (-1) ∧
      ((runCalls [.addRightLane 0 2, .addRightLane 0 1] s).2.laneObjs.cell 1).laneId = some (-2) := by
  simp [runCalls, Call.step, Call.run, LaneSection.addRightLane, Store.put, Store.modify, Lane.setLaneId, h]

end

end Pyodrx.Props
