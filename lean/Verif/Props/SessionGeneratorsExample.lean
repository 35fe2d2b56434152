import Verif.Props.SessionGenerators
import Verif.Props.SessionProgramExample

/-! # A program that meets the hypotheses of C93 and C94

The road 0 is made by hand, with two lanes on the left and one on the right; it is put together before its lanes have marks, and
one mark is replaced. The planview 1 is made at a pose and moved; the object 0 is added to the road 1 and then repeated. -/

namespace Pyodrx.Props
open Pyodrx Pyodrx.Spec PyFloat

noncomputable def handObj : Obj (Fl double) :=
  Obj.new (ofInt 10) (ofInt 2) (.str "railing") none none none .no (ofInt 0) .none (ofInt 0) (ofInt 0) (ofInt 0) none none none none none

noncomputable def handProg : List (Call (Fl double)) :=
  [.planView 0 none none none, .lanes 0, .road 0 (.int 1) 0 0 (-1) none none,
   .lane 0 .driving (ofInt 0) (ofInt 0) (ofInt 0) (ofInt 0) (ofInt 0), flLane 11, flLane 12, flLane 21,
   .laneSection 0 (ofInt 0) 0, .addLanesection 0 0 [], .addRightLane 0 21, .addLeftLane 0 11, .addLeftLane 0 12,
   .addRoadmark 11 stdSolid, .addRoadmark 12 stdSolid, .addRoadmark 21 stdSolid, .addRoadmark 11 stdBroken, .addRoadmark 0 stdBroken,
   .geometry 0 (flGeom 0), .geometry 2 (flGeom 2), .addGeometry 0 0 none, .addGeometry 0 2 none,
   .planView 1 (some (ofInt 1)) (some (ofInt 2)) (some (ofInt 0)), .addGeometry 1 2 none,
   .setStartPoint 1 ⟨ofInt 5, ofInt 2, ofInt 0⟩,
   .lanes 1, .road 1 (.int 2) 1 1 (-1) none none, .object 0 handObj, .addObject 1 [0],
   .repeatObject 0 (ofInt 2) (ofInt 1) {}]

theorem handProg_proper : Proper handProg := by
  have := properCheck_sound handProg [] [] (by simp) (by rfl)
  simpa [Proper] using this

theorem handProg_adjust : ∀ o, .adjust o ∉ handProg := by intro o h; simp [handProg, flLane] at h

theorem handProg_linkers : ∀ x sec ls, .addLanesection x sec ls ∈ handProg → ls = [] := by
  intro x sec ls h; simp [handProg, flLane] at h; exact h.2.2

/-- `C93_lane`, `C93_planview` and `C93_object` applied. -/
theorem handProg_contents : ((runCalls handProg flStart).2.laneObjs.cell 11).roadmark = some stdBroken ∧
    ((runCalls handProg flStart).2.planviews.cell 1).present = ⟨ofInt 5, ofInt 2, ofInt 0⟩ ∧
    ((runCalls handProg flStart).2.planviews.cell 1).fixed = true ∧
    ((runCalls handProg flStart).2.planviews.cell 0).raw = [0, 2] ∧
    ((runCalls handProg flStart).2.objs.cell 0).repeats.length = 1 := by
  have l := C93_lane handProg handProg_proper flStart 11 .driving (ofInt 3) (ofInt 0) (ofInt 0) (ofInt 0) (ofInt 0)
    (by simp [handProg, flLane])
  have v := C93_planview handProg handProg_proper handProg_adjust flStart 1 (some (ofInt 1)) (some (ofInt 2)) (some (ofInt 0))
    (by simp [handProg]) (by simp)
  have w := C93_planview handProg handProg_proper handProg_adjust flStart 0 none none none (by simp [handProg]) (by simp)
  have o := C93_object handProg handProg_proper flStart 0 handObj (by simp [handProg])
  refine ⟨?_, ?_, v.2.2.2.1, ?_, ?_⟩
  · rw [l.2.2.2.2.2.2]
    simp [markCalls, handProg, flLane, List.filterMap_cons]
  · rw [v.2.2.1]
    simp [startCalls, handProg, flLane, List.filterMap_cons]
  · rw [w.1]
    simp [geometryCalls, handProg, flLane, List.filterMap_cons]
  · have := congrArg (fun o => o.repeats.length) o
    rw [show repeatCalls 0 handProg = [(ofInt 2, ofInt 1, {})] by simp [repeatCalls, handProg, flLane, List.filterMap_cons]] at this
    exact this

theorem handProg_lane (x : Nat) (w : Fl double) (m : RoadMark (Fl double))
    (h : (x = 0 ∧ w = ofInt 0 ∧ m = stdBroken) ∨ (x = 11 ∧ w = ofInt 3 ∧ m = stdBroken) ∨ (x = 12 ∧ w = ofInt 3 ∧ m = stdSolid) ∨
      (x = 21 ∧ w = ofInt 3 ∧ m = stdSolid)) : HandLane handProg x w m := by
  rcases h with ⟨rfl, rfl, rfl⟩ | ⟨rfl, rfl, rfl⟩ | ⟨rfl, rfl, rfl⟩ | ⟨rfl, rfl, rfl⟩ <;> constructor <;>
    simp [handProg, flLane, markCalls, laneAddLinkCalls, puts, List.filterMap_cons, List.filter_cons]

theorem handProg_left : leftCalls 0 handProg = [11, 12] := by simp [leftCalls, handProg, flLane, List.filterMap_cons]
theorem handProg_right : rightCalls 0 handProg = [21] := by simp [rightCalls, handProg, flLane, List.filterMap_cons]

theorem handProg_road : HandRoad handProg 0 (.int 1) (-1) [0, 2] (ofInt 0) stdBroken (ofInt 3) 2 1
    (fun i => if i + 1 = 2 then stdSolid else stdBroken) (fun i => if i + 1 = 1 then stdSolid else stdBroken) where
  made := by
    refine ⟨0, 0, 0, by simp [handProg], by simp [handProg], ?_, ?_, by simp [handProg], ?_, ?_, ?_, ?_, ?_, ?_⟩
    · simp [geometryCalls, handProg, flLane, List.filterMap_cons]
    · simp [startCalls, handProg, flLane, List.filterMap_cons]
    · simp [sectionCalls, handProg, flLane, List.filterMap_cons]
    · exact ⟨0, by simp [handProg], handProg_lane _ _ _ (by simp)⟩
    · rw [handProg_left]; rfl
    · rw [handProg_right]; rfl
    · rw [handProg_left]
      intro i x h
      match i with
      | 0 => cases h; exact handProg_lane _ _ _ (by simp)
      | 1 => cases h; exact handProg_lane _ _ _ (by simp)
    · rw [handProg_right]
      intro i x h
      match i with
      | 0 => cases h; exact handProg_lane _ _ _ (by simp)
  unlinked := by
    simp [linkCalls, predecessorCalls, successorCalls, neighborCalls, handProg, flLane, List.filterMap_cons]
  bare := by
    simp [objectCalls, signalCalls, handProg, flLane, List.filterMap_cons]

/-- `C94_create_road` applied. -/
theorem handProg_created : ∃ r st', createRoad [0, 2] (.int 1) 2 1 (-1) stdBroken (ofInt 3)
      ⟨(runCalls handProg flStart).2.geoms, (runCalls handProg flStart).2.laneObjs⟩ = .ok r st' ∧
    RoadAlike (runCalls handProg flStart).2.geoms st'.geoms (runCalls handProg flStart).2.laneObjs st'.lanes
      ((runCalls handProg flStart).2.readRoad ((runCalls handProg flStart).2.roads.cell 0)) r := by
  refine C94_create_road handProg handProg_proper handProg_adjust handProg_linkers flStart 0 [0, 2] (.int 1) 2 1 (-1) stdBroken
    (ofInt 3) handProg_road _ (fun _ _ => rfl) (fun g hg => ?_)
  have e : ∀ g, g = 0 ∨ g = 2 → (runCalls handProg flStart).2.geoms.cell g = flGeom g := by
    rintro g (rfl | rfl) <;> exact C93_geometry handProg handProg_proper handProg_adjust flStart _ _ (by simp [handProg])
  simp at hg
  dsimp only
  rw [e g hg]
  rcases hg with rfl | rfl <;> simp [flGeom, Geom.length]

end Pyodrx.Props
