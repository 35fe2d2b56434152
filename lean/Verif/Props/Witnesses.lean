import Verif.Props.NetworkLinks
import Verif.Props.CreateJunction
import Verif.Props.JunctionClosing
import Verif.Props.Objects

/-! # Concrete cases for the hypotheses of theorems in other files

The roads `exLR1` ... `exLR5` and their lanes are those of `NetworkLinks.lean`. -/

namespace Pyodrx.Props
open Pyodrx.Spec

/-! ## Joints of normal roads -/

/-- Road 2 without its right lane. -/
noncomputable def exLR2r : Road ℝ := { exLR2 with lanesections := [exSec [21, 23] []] }

theorem exJoint2r : Joint exLR1 exLR2r (exSec [11, 13] [12]) (exSec [21, 23] []) (exSec [21, 23] []) exLanes :=
  ⟨rfl, rfl, ⟨⟨_, rfl, rfl, rfl⟩, ⟨_, rfl, rfl, rfl⟩⟩, fun l h => by cases h; rfl, fun l h => by cases h; decide,
    rfl, rfl, rfl, exNum1⟩

/-- `C26_single_section` and `C26_partial_effect`: the number of right lanes differs, the call raises, and the outer
left lane of road 1 has got its link all the same. -/
example : ∃ lanes', createLaneLinks exLR1 exLR2r exLanes = .error .notSameAmountOfLanesError lanes' ∧
    (lanes'.cell 13).links = [laneLink .successor 2] ∧ ¬ SameCounts (exSec [11, 13] [12]) (exSec [21, 23] []) := by
  obtain ⟨lanes', h1, h2, _⟩ := C26_partial_effect _ _ _ _ _ exJoint2r rfl (by decide) (by decide)
  refine ⟨lanes', h1, ?_, ((C26_single_section _ _ _ _ _ exJoint2r).1.mp ⟨_, h1⟩)⟩
  rw [h2 1 13 rfl]
  simp [exLanes, Lane.new]

/-- `C27_normal_roads`: roads 1 and 4. -/
example : createLaneLinks exLR1 exLR4 exLanes = .ok () exLanes :=
  C27_normal_roads _ _ _ rfl rfl (fun ⟨⟨l, h, _, e⟩, _⟩ => by cases h; revert e; decide)
    (fun ⟨⟨l, h, _⟩, _⟩ => by cases h)

/-- `C27_unlinked`: roads 3 (connecting) and 1. -/
example : createLaneLinks exLR3 exLR1 exLanes = .ok () exLanes :=
  C27_unlinked _ _ _ (fun _ => ⟨⟨_, rfl⟩, ⟨_, rfl⟩⟩) (fun h => absurd rfl h)
    (by rintro ⟨l, h | h, e⟩ <;> cases h <;> revert e <;> decide)
    (by rintro ⟨l, h | h, e⟩ <;> cases h; revert e; decide)

/-- `C27_missing_end`: road 3 without predecessor, and road 1. -/
example : createLaneLinks { exLR3 with predecessor := none } exLR1 exLanes = .error .attributeError exLanes :=
  (C27_missing_end _ _ _ (by simp [exLR3, exLaneRoad, Road.new]) rfl rfl).1

/-- `C27_id_types`: road 1 names its successor as the text "2". -/
example : createLaneLinks { exLR1 with successor := some ⟨.successor, .str (strInt 2), some .road, some .start, none⟩ }
    exLR2 exLanes = .ok () exLanes :=
  (C27_id_types _ _ _ rfl rfl _ rfl 2 rfl rfl
    (fun ⟨⟨l, h, e, _⟩, _⟩ => by cases h; cases e)).2

/-- `C53_end_to_end` and `C53_start_to_start`. -/
example : createLaneLinks (exLaneRoad 1 (-1) 0 none (some ⟨.successor, .int 2, some .road, some .end, none⟩) [11] [])
    (exLaneRoad 2 (-1) 1 none (some ⟨.successor, .int 1, some .road, some .end, none⟩) [21] []) exLanes =
      .ok () exLanes :=
  C53_end_to_end _ _ _ rfl rfl _ _ rfl rfl rfl rfl rfl rfl (by intro p h; cases h) (by intro p h; cases h)

example : createLaneLinks (exLaneRoad 1 (-1) 0 (some ⟨.predecessor, .int 2, some .road, some .start, none⟩) none [11] [])
    (exLaneRoad 2 (-1) 1 (some ⟨.predecessor, .int 1, some .road, some .start, none⟩) none [21] []) exLanes =
      .ok () exLanes :=
  C53_start_to_start _ _ _ rfl rfl _ _ rfl rfl rfl rfl rfl rfl (by intro p h; cases h) (by intro p h; cases h)

/-! ## Connecting roads -/

/-- Road 4 with one lane on each side. -/
noncomputable def exLR4s : Road ℝ := { exLR4 with lanesections := [exSec [41] [42]] }

theorem exNum4s : Numbered exLanes (exSec [41] [42]) := exNumbered (by decide) (by decide)

/-- `C28_existing_lane`: the end of road 3 at the start of that road. -/
example : ∃ lanes', createLaneLinks exLR3 exLR4s exLanes = .ok () lanes' ∧
    ∀ p ∈ [31] ++ [32], ∃ id q, lanes'.cell p = { exLanes.cell p with
        links := (exLanes.cell p).links ++ [laneLink .successor id] } ∧
      q ∈ [41] ++ [42] ∧ (exLanes.cell q).laneId = some id :=
  C28_existing_lane exLR3 exLR4s .end _
    ⟨by simp [exLR3, exLaneRoad, Road.new], rfl, rfl, rfl, _, rfl, by decide⟩ (exSec [31] [32]) (exSec [41] [42])
    exLanes rfl rfl exNum4s (by decide) (by decide) (by decide) rfl rfl

/-- `C28_too_few_lanes`: road 4 without right lane. -/
example : ∃ lanes', createLaneLinks exLR3 { exLR4 with lanesections := [exSec [41] []] } exLanes =
    .error .indexError lanes' :=
  C28_too_few_lanes exLR3 _ .end _
    ⟨by simp [exLR3, exLaneRoad, Road.new], rfl, rfl, rfl, _, rfl, by decide⟩ (exSec [31] [32]) (exSec [41] [])
    exLanes rfl rfl (exNumbered (by decide) (by decide)) (by decide)

/-- `C28_offset_names_center`: road 3 with the lane offset -1 at its end. -/
example : ∃ lanes', createLaneLinks { exLR3 with laneOffsetSuc := -1 } exLR4 exLanes = .ok () lanes' ∧
    (lanes'.cell 31).links = (exLanes.cell 31).links ++ [laneLink .successor 0] :=
  C28_offset_names_center { exLR3 with laneOffsetSuc := -1 } exLR4 .end _
    ⟨by simp [exLR3, exLaneRoad, Road.new], rfl, rfl, rfl, _, rfl, by decide⟩ (exSec [31] [32]) (exSec [41, 43] [42])
    exLanes rfl rfl exNum4 (by decide) (by decide) (by decide) rfl rfl 31 rfl

/-- `C28_loop`: road 3 from road 4 to road 4. -/
example : ∃ lanes', createLaneLinks
      { exLR3 with predecessor := some ⟨.predecessor, .int 4, some .road, some .end, none⟩ } exLR4 exLanes =
        .ok () lanes' ∧
      ∀ x, ∃ new, (lanes'.cell x).links = (exLanes.cell x).links ++ new ∧ ∀ k ∈ new, k.kind = .successor :=
  C28_loop _ exLR4 _ _ (exSec [31] [32]) (exSec [41, 43] [42]) exLanes (by simp [exLR3, exLaneRoad, Road.new]) rfl rfl
    rfl rfl rfl rfl rfl exNum4 (by decide) (by decide)

/-! ## `create_junction` -/

theorem exConnects : Connects [exLR2, exLR4] exLR3 :=
  ⟨⟨_, _, rfl, rfl, by decide, ⟨exLR2, by simp, rfl⟩, ⟨exLR4, by simp, rfl⟩⟩, by simp [exLR3, exLaneRoad, Road.new]⟩

theorem exNormal : ∀ r ∈ [exLR2, exLR4], r.roadType = -1 := by
  intro r hr
  simp only [List.mem_cons, List.not_mem_nil, or_false] at hr
  rcases hr with rfl | rfl <;> rfl

/-- `C50_create_junction`, `C50_agrees`: road 3 from road 2 to road 4; the lane links of the junction agree with the
links of the lanes at the start of road 3. -/
example : ∃ j c lanes', createJunction [exLR3] (.int 7) [exLR2, exLR4] = .ok j ∧ j.connections[1]? = some c ∧
    createLaneLinks exLR3 exLR2 exLanes = .ok () lanes' ∧
    ∀ m n, (m, n) ∈ c.links ↔ ∃ p ∈ [31] ++ [32], (exLanes.cell p).laneId = some n ∧
      lanes'.cell p = { exLanes.cell p with
        links := (exLanes.cell p).links ++ [laneLink .predecessor m] } := by
  obtain ⟨j, h1, _, _, _, h2⟩ := C50_create_junction [exLR3] (.int 7) [exLR2, exLR4] exNormal
    (by intro jr h; simp only [List.mem_singleton] at h; subst h; exact exConnects)
  obtain ⟨c1, c2, _, h3, _, h4⟩ := h2 0 exLR3 rfl
  obtain ⟨lanes', h5, h6⟩ := C50_agrees exLR3 exLR2 .start _ exAttached2 (exSec [31] [32]) (exSec [21, 23] [22])
    exLanes rfl rfl exNum2 exNum3 (by decide) (by decide) (by decide) rfl (.inl rfl) _ c2 h4
  exact ⟨j, c2, lanes', h1, by simpa using h3, h5, h6⟩

/-- `C50_offset_names_missing_lane` and `C50_offset_one_sided`: road 3 with a lane offset at its end, also without its
left lane. -/
example (jr : Road ℝ) (hjr : jr = { exLR3 with laneOffsetSuc := -2 } ∨
      jr = { exLR3 with laneOffsetSuc := -2, lanesections := [exSec [] [32]] }) :
    ∃ j c sec m n, createJunction [jr] (.int 7) [exLR2, exLR4] = .ok j ∧ j.connections[0]? = some c ∧
      sectionAt jr .end = some sec ∧ (m, n) ∈ c.links ∧ n ∉ laneNumbers sec := by
  have hc : Connects [exLR2, exLR4] jr := by
    rcases hjr with rfl | rfl
    · exact ⟨exConnects.1, exConnects.2⟩
    · exact ⟨exConnects.1, by simp⟩
  obtain ⟨j, h1, _, _, _, h2⟩ := C50_create_junction [jr] (.int 7) [exLR2, exLR4] exNormal
    (by intro r h; simp only [List.mem_singleton] at h; subst h; exact hc)
  obtain ⟨c1, c2, h3, _, h4, _⟩ := h2 0 jr rfl
  rcases hjr with rfl | rfl
  · obtain ⟨m, n, h5, h6⟩ := C50_offset_names_missing_lane _ _ c1 h4 (exSec [31] [32]) rfl (by simp [exSec]) rfl
      (by simp [laneOffsetAt])
    exact ⟨j, c1, _, m, n, h1, by simpa using h3, rfl, h5, fun h => h6 (List.mem_cons_of_mem _ h)⟩
  · obtain ⟨m, n, h5, h6⟩ := C50_offset_one_sided _ _ c1 h4 (exSec [] [32]) rfl (by simp [exSec])
      (by intro l h; cases h; rfl) (by simp [laneOffsetAt])
    exact ⟨j, c1, _, m, n, h1, by simpa using h3, rfl, h5, h6⟩

/-- `C50_missing_road`: road 4 is not in the list. -/
example : createJunction [exLR3] (.int 7) [exLR2] = .error .attributeError :=
  C50_missing_road [] exLR3 [] (.int 7) [exLR2]
    (by intro r hr; simp only [List.mem_singleton] at hr; subst hr; rfl) (by simp)
    (by intro s hs r hr; cases hs; simp only [List.mem_singleton] at hr; subst hr; decide)

/-! ## `create_junction_roads` -/

/-- `C48_create_junction_roads`, `C48_turn`: four straight roads at right angles, radius 8 m. The first connecting road
turns by its nominal angle -π/2 up to the tiny start curvature. -/
example (st : GenState ℝ) : ∃ roads st1 jrs roads' st2, straightRoads 100 1 3 0 4 st = .ok roads st1 ∧
    createJunctionRoads [0, Real.pi / 2, Real.pi, 3 * Real.pi / 2] 8 1 (1 / 3) (1 / 3) 100 (roads, st1) =
      .ok jrs (roads', st2) ∧ jrs.length = 6 ∧
    ∃ jr s q, jrs[0]? = some jr ∧
      PlanView.adjustGeometries false ⟨jr.planview.setStartPoint ⟨0, 0, 0⟩, st2.geoms⟩ = .ok () s ∧
      s.pv.stop = some q ∧ q.h = (Real.pi / 2 - 0 - Real.pi) * (1 / 3 + 2 * (1 / 3) * (1 + 8 / 1000000000)) := by
  obtain ⟨roads, st1, arm, h1, h2, h3, -⟩ := C61_example 4 1 (by norm_num) le_rfl 100 3 st
    [0, Real.pi / 2, Real.pi, 3 * Real.pi / 2] (by simp) 8 (1 / 3) (1 / 3)
    (by norm_num) (by norm_num) (by norm_num) (by norm_num) 1 (by norm_num) 100 (by norm_num)
  obtain ⟨jrs, roads', st2, g1, g2, g3, _⟩ := C48_create_junction_roads roads
    [0, Real.pi / 2, Real.pi, 3 * Real.pi / 2] 8 1 (1 / 3) (1 / 3) 100 st1 1 1 (arms_input h3)
    (by intro h; rw [h] at h2; simp at h2) le_rfl (by simp [h2]) (by norm_num) (by norm_num [abs_of_pos])
    (by norm_num)
  obtain ⟨jr, e1, e2⟩ := g3 0 0 1 (by rw [h2]; decide)
  obtain ⟨ai, aj, s, q, f1, f2, f3, _, f4, f5⟩ := C48_turn e2 (by norm_num) (by norm_num) (by norm_num) (by norm_num)
    ⟨0, 0, 0⟩
  refine ⟨roads, st1, jrs, roads', st2, h1, g1, by rw [g2, h2]; decide, jr, s, q, e1, f3, f4, ?_⟩
  simp at f1 f2
  rw [f5, ← f1, ← f2]
  simp

/-- Road 1 with a second section that has one left lane only. -/
noncomputable def exNarrow : Road ℝ :=
  { exLR1 with successor := none, lanesections := [exSec [11, 13] [12], exSec [14] [15]] }

/-- `C48_wrong_end`: road 1, which ends at the junction with one left lane, and road 2: the connecting road has two. -/
example : ∃ jrs roads' st', createJunctionRoads [0, Real.pi] 8 1 (1 / 3) (1 / 3) 100
      ([exNarrow, { exLR2 with predecessor := none }], ⟨⟨fun _ => .line ⟨1⟩, 50⟩, exLanes⟩) = .ok jrs (roads', st') ∧
    jrs.length = 1 ∧
    ∀ jr ∈ jrs, (∃ l, jr.predecessor = some l ∧ l.elementId = exNarrow.id ∧ l.contactPoint = some .end) →
      ∃ sec, sectionAt jr .start = some sec ∧ sec.left.length ≠ 1 :=
  C48_wrong_end _ _ 8 1 (1 / 3) (1 / 3) 100 _ 2 1
    { first := by
        intro i ro h
        match i with
        | 0 => cases h; exact ⟨_, rfl, rfl, rfl⟩
        | 1 => cases h; exact ⟨_, rfl, rfl, rfl⟩
        | _ + 2 => cases h
      far := by
        intro i ro h
        match i with
        | 0 => cases h; exact ⟨_, rfl, rfl, rfl, by simp [exSec, exLanes]⟩
        | 1 => cases h; exact ⟨_, rfl, rfl, rfl, by simp [exSec, exLanes]⟩
        | _ + 2 => cases h
      links := by
        intro i ro h
        match i with
        | 0 => cases h; exact rfl
        | 1 => cases h; exact rfl
        | _ + 2 => cases h }
    (by simp) (by norm_num) (by simp) (by norm_num) (by norm_num [abs_of_pos]) (by norm_num)
    exNarrow rfl (exSec [14] [15]) rfl (by simp [exSec])

/-- `C49_lane_count_mismatch`: roads 1 and 4 with different numbers of lanes. -/
example (st : GenState ℝ) : ∃ s, createJunctionRoads [0, Real.pi] 8 1 (1 / 3) (1 / 3) 100
    ([{ exLR1 with successor := none }, exLR4s], st) = .error .nameError s :=
  C49_lane_count_mismatch _ _ _ _ _ _ _ _
    (by
      intro i ro h
      match i with
      | 0 => cases h; simp [exLR1, exLaneRoad, Road.new]
      | 1 => cases h; simp [exLR4s, exLR4, exLaneRoad, Road.new]
      | _ + 2 => cases h)
    _ (exSec [11, 13] [12]) rfl rfl (by simp [exSec]) rfl
    ⟨1, exLR4s, exSec [41] [42], rfl, rfl, fun h => absurd h.1 (by decide)⟩ (by simp) (by norm_num)
    (by norm_num [abs_of_pos]) (by norm_num)

/-- `C61_junction_id_required`: three straight roads 0, 1, 2, connecting roads from 100, junction 7. -/
example (st : GenState ℝ) : ∃ roads st1, straightRoads 100 1 3 0 3 st = .ok roads st1 ∧
    junctionProgram roads [0, 2, 4] 8 7 (1 / 3) (1 / 3) 100 st1 = .error .keyError := by
  obtain ⟨roads, st1, h1, h2, _, hid, _⟩ := straightRoads_arms 100 1 3 100 3 0 st
  obtain ⟨roads', st1', arm, h1', _, h3, -⟩ := C61_example 3 1 (by norm_num) le_rfl 100 3 st
    [0, 2, 4] (by simp) 8 (1 / 3) (1 / 3)
    (by norm_num) (by norm_num) (by norm_num) (by norm_num) 1 (by norm_num) 100 (by norm_num)
  rw [h1] at h1'
  cases h1'
  refine ⟨roads, st1, h1, C61_junction_id_required h3 le_rfl (by simp [h2]) (by norm_num) (by norm_num) (by norm_num)
    (by norm_num) ?_⟩
  have hp : (pairs 3).length = 3 := by decide
  simp only [allIds, List.mem_append, List.mem_map, List.mem_range, h2, hp]
  rintro (⟨a, ha, he⟩ | ⟨idx, hi, he⟩)
  · obtain ⟨k, hk⟩ := List.getElem?_of_mem ha
    rw [(hid k a hk).1] at he
    have := (List.getElem?_eq_some_iff.mp hk).1
    have := strInt_injective he
    push_cast at this
    omega
  · have := strInt_injective he
    omega

/-! ## Objects -/

/-- `C38_roadside`: an adjusted road. -/
example : ∃ r : Road ℝ, r.planview.adjusted = true ∧ (placements .both r.lanesections).length = 2 :=
  ⟨{ exLR1 with planview := { exLR1.planview with adjusted := true } }, rfl, rfl⟩

end Pyodrx.Props
