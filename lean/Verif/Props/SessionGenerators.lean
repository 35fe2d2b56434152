import Verif.Spec.SessionGenerators
import Verif.Props.SessionContents
import Verif.Props.SessionRoads
import Verif.Props.SessionNumbers
import Verif.Props.SessionIds
import Verif.Props.Generators

/-! # C94: the road generators and the calls they abbreviate -/

namespace Pyodrx.Props
open Pyodrx Pyodrx.Spec PyFloat

variable {F : Type} [PyFloat F]

theorem linkCalls_nil {v : Nat} {p : List (Call F)} (h : linkCalls v p = []) :
    predecessorCalls v p = [] ∧ successorCalls v p = [] ∧ neighborCalls v p = [] := by
  induction p with
  | nil => exact ⟨rfl, rfl, rfl⟩
  | cons c p ih =>
    rw [show linkCalls v (c :: p) = linkCalls v [c] ++ linkCalls v p by simp [linkCalls], List.append_eq_nil_iff] at h
    obtain ⟨a1, a2, a3⟩ := ih h.2
    have h1 := h.1
    simp only [linkCalls, List.flatMap_cons, List.flatMap_nil, List.append_nil, List.append_eq_nil_iff, List.map_eq_nil_iff] at h1
    obtain ⟨⟨b1, b2⟩, b3⟩ := h1
    rw [show c :: p = [c] ++ p from rfl]
    refine ⟨?_, ?_, ?_⟩
    · rw [show predecessorCalls v ([c] ++ p) = predecessorCalls v [c] ++ predecessorCalls v p from List.filterMap_append, b1, a1]; rfl
    · rw [show successorCalls v ([c] ++ p) = successorCalls v [c] ++ successorCalls v p from List.filterMap_append, b2, a2]; rfl
    · rw [show neighborCalls v ([c] ++ p) = neighborCalls v [c] ++ neighborCalls v p from List.filterMap_append, b3, a3]; rfl

/-- A lane made by hand is the one that the generators make. -/
theorem handLane (p : List (Call F)) (hp : Proper p) (hadj : ∀ o, .adjust o ∉ p)
    (hlk : ∀ x sec ls, .addLanesection x sec ls ∈ p → ls = []) (s : Session F) {x : Nat} {w : F} {m : RoadMark F}
    (h : HandLane p x w m) {n : Int} (hn : ((runCalls p s).2.laneObjs.cell x).laneId = some n) :
    (runCalls p s).2.laneObjs.cell x = numberedLane w m n := by
  obtain ⟨h1, h2, h3, h4, h5, h6, h7⟩ := C93_lane p hp s x _ _ _ _ _ _ h.made
  have h8 := C93_lane_links p hp hadj hlk s x _ _ _ _ _ _ h.made
  rw [h.links] at h8
  rw [h.mark] at h7
  cases hc : (runCalls p s).2.laneObjs.cell x
  rw [hc] at h1 h2 h3 h4 h5 h6 h7 h8 hn
  simp_all [numberedLane, standardLane, Lane.new, Lane.addRoadmark, Lane.setLaneId]

theorem puts_center {p : List (Call F)} {sec x : Nat} {sc : F} (hc : .laneSection sec sc x ∈ p) (h : (puts x p).length = 1) :
    (∀ sec, .addLeftLane sec x ∉ p) ∧ ∀ sec, .addRightLane sec x ∉ p := by
  obtain ⟨y, hy⟩ := List.length_eq_one_iff.mp h
  have h0 : .laneSection sec sc x ∈ puts x p := by simp [puts, hc]
  rw [hy, List.mem_singleton] at h0
  refine ⟨fun sec' h' => ?_, fun sec' h' => ?_⟩
  · have h1 : .addLeftLane sec' x ∈ puts x p := by simp [puts, h']
    rw [hy, List.mem_singleton, ← h0] at h1
    cases h1
  · have h1 : .addRightLane sec' x ∈ puts x p := by simp [puts, h']
    rw [hy, List.mem_singleton, ← h0] at h1
    cases h1

/-- A road made by hand, as a formula. -/
theorem handRoad (p : List (Call F)) (hp : Proper p) (hadj : ∀ o, .adjust o ∉ p)
    (hlk : ∀ x sec ls, .addLanesection x sec ls ∈ p → ls = []) (s : Session F) {v : Nat} {id : PyId} {t : Int} {gs : List Nat}
    {cw : F} {cm : RoadMark F} {w : F} {nl nr : Nat} {lm rm : Nat → RoadMark F} (h : HandRoad p v id t gs cw cm w nl nr lm rm) :
    ∃ sec : LaneSection F, (runCalls p s).2.readRoad ((runCalls p s).2.roads.cell v) =
        Road.new id { (emptyPlanView (F := F)) with raw := gs } [sec] t none none ∧
      sec.s = ofInt 0 ∧ sec.leftId = 1 + nl ∧ sec.rightId = -1 - nr ∧
      (runCalls p s).2.laneObjs.cell sec.center = numberedLane cw cm 0 ∧
      sec.left.map (runCalls p s).2.laneObjs.cell = (List.range nl).map (fun (i : Nat) => numberedLane w (lm i) ((i : Int) + 1)) ∧
      sec.right.map (runCalls p s).2.laneObjs.cell = (List.range nr).map (fun (i : Nat) => numberedLane w (rm i) (-((i : Int) + 1))) := by
  obtain ⟨pv, l, sec, m1, m2, m3, m4, m5, m6, hs⟩ := h.made
  obtain ⟨c, hc1, hc2⟩ := hs.center
  obtain ⟨b1, b2⟩ := C90_roads p hp s v _ _ _ _ _ _ m1
  obtain ⟨q1, q2, q3⟩ := linkCalls_nil h.unlinked
  have hr := roadIs_program p hp s v ⟨_, m1, rfl⟩
  have hl := hr.links
  have := made_once hp (x := .road v) hr.made m1 rfl rfl
  simp only [Call.road.injEq, true_and] at this
  obtain ⟨e1, e2, e3, e4, e5, e6⟩ := this
  obtain ⟨v1, v2, v3, v4, v5, v6, v7, v8, v9⟩ := C93_planview p hp hadj s pv none none none m2 (.inr ⟨rfl, rfl, rfl⟩)
  obtain ⟨hn, -⟩ := num_program p hp s
  obtain ⟨sc, ce, s1, s2⟩ := hn.secs sec ⟨_, hc1, rfl⟩
  have := made_once hp (x := .laneSection sec) s1 hc1 rfl rfl
  simp only [Call.laneSection.injEq, true_and] at this
  obtain ⟨rfl, rfl⟩ := this
  have s3 := hn.lanes l ⟨_, m5, rfl⟩
  rw [m6] at s3
  refine ⟨(runCalls p s).2.sections.cell sec, ?_, by rw [s2], ?_, ?_, ?_, ?_, ?_⟩
  · unfold Session.readRoad
    rw [e2, e3, s3]
    have epv : (runCalls p s).2.planviews.cell pv = { (emptyPlanView (F := F)) with raw := gs } := by
      cases hx : (runCalls p s).2.planviews.cell pv
      rw [hx] at v1 v2 v3 v4 v5 v6 v7 v8 v9
      rw [m3] at v1 v2
      rw [m4] at v3
      simp_all [emptyPlanView, Function.comp_def]
    rw [epv]
    have g1 := hl.pred
    have g2 := hl.succ
    have g3 := hl.predOff
    have g4 := hl.succOff
    have g5 := hl.count
    have g6 := hl.order
    rw [q1] at g1 g3
    rw [q2] at g2 g4
    rw [q3] at g5
    rw [h.unlinked] at g6
    have g6 := List.sublist_nil.mp g6
    rw [h.bare.1] at b1
    rw [h.bare.2] at b2
    rw [Road.new, Road.mk.injEq]
    exact ⟨e1, rfl, rfl, e4, e5, e6, g6, g5, g2, g1, g4, g3, b1, b2⟩
  · rw [s2, hs.countL]; simp only; omega
  · rw [s2, hs.countR]; simp only; omega
  · rw [s2]
    obtain ⟨l1, l2⟩ := puts_center hc1 hc2.once
    exact handLane p hp hadj hlk s hc2 (C89_center p hp s sec _ _ hc1 l1 l2)
  · refine List.ext_getElem? fun i => ?_
    rw [List.getElem?_map, List.getElem?_map]
    have e : ((runCalls p s).2.sections.cell sec).left = leftCalls sec p := by rw [s2]
    by_cases hi : i < nl
    · obtain ⟨x, hx⟩ : ∃ x, (leftCalls sec p)[i]? = some x := ⟨_, List.getElem?_eq_getElem (by rw [hs.countL]; exact hi)⟩
      have hh := hs.left i x hx
      have := handLane p hp hadj hlk s hh ((C89_numbered p hp s sec _ _ hc1 i x hh.once).1 (by rw [e]; exact hx))
      rw [e, hx, List.getElem?_range hi]
      simp [this]
    · rw [e, List.getElem?_eq_none (by rw [hs.countL]; omega), List.getElem?_eq_none (by simp; omega)]
      rfl
  · refine List.ext_getElem? fun i => ?_
    rw [List.getElem?_map, List.getElem?_map]
    have e : ((runCalls p s).2.sections.cell sec).right = rightCalls sec p := by rw [s2]
    by_cases hi : i < nr
    · obtain ⟨x, hx⟩ : ∃ x, (rightCalls sec p)[i]? = some x := ⟨_, List.getElem?_eq_getElem (by rw [hs.countR]; exact hi)⟩
      have hh := hs.right i x hx
      have := handLane p hp hadj hlk s hh ((C89_numbered p hp s sec _ _ hc1 i x hh.once).2 (by rw [e]; exact hx))
      rw [e, hx, List.getElem?_range hi]
      simp [this]
    · rw [e, List.getElem?_eq_none (by rw [hs.countR]; omega), List.getElem?_eq_none (by simp; omega)]
      rfl

/-- C94: before `adjust_roads_and_lanes`, a road that a program makes by hand, in whatever order it makes and connects its parts, is the
one that `create_road` makes: all attributes are equal, and the lanes are equal one by one. -/
theorem C94_create_road (p : List (Call F)) (hp : Proper p) (hadj : ∀ o, .adjust o ∉ p)
    (hlk : ∀ x sec ls, .addLanesection x sec ls ∈ p → ls = []) (s : Session F) (v : Nat) (gs : List Nat) (id : PyId) (nl nr : Nat)
    (t : Int) (mark : RoadMark F) (w : F)
    (h : HandRoad p v id t gs (ofInt 0) mark w nl nr (fun i => if i + 1 = nl then stdSolid else stdBroken)
      (fun i => if i + 1 = nr then stdSolid else stdBroken))
    (st : GenState F) (hg : ∀ g ∈ gs, st.geoms.cell g = (runCalls p s).2.geoms.cell g) (hlen : ∀ g ∈ gs, ((st.geoms.cell g).length).isSome) :
    ∃ r st', createRoad gs id nl nr t mark w st = .ok r st' ∧
      RoadAlike (runCalls p s).2.geoms st'.geoms (runCalls p s).2.laneObjs st'.lanes
        ((runCalls p s).2.readRoad ((runCalls p s).2.roads.cell v)) r := by
  obtain ⟨sec, h1, h2, h3, h4, h5, h6, h7⟩ := handRoad p hp hadj hlk s h
  refine ⟨_, _, createRoad_eq gs id nl nr t mark w st hlen, ?_⟩
  rw [h1]
  refine ⟨rfl, ?_, .cons ⟨?_, ?_, ?_, ?_⟩ .nil⟩
  · exact List.map_congr_left fun g hgm => (hg g hgm).symm
  · rw [LaneSection.mk.injEq]
    exact ⟨h2, rfl, rfl, rfl, h3, h4⟩
  · rw [h5]
    dsimp only
    rw [grow_old _ _ (by simp [grow]; omega), grow_old _ _ (by simp [grow])]
    have := grow_new st.lanes (fun _ => plainCenter mark) (show 0 < 1 by omega)
    rw [Nat.add_zero] at this
    unfold plainCenter at this
    rw [this]
    rfl
  · rw [h6]
    dsimp only
    rw [List.range'_eq_map_range, List.map_map]
    refine List.map_congr_left fun i hi => ?_
    have hi := List.mem_range.mp hi
    dsimp only [Function.comp]
    rw [grow_old _ _ (by simp [grow]; omega)]
    have := grow_new (grow st.lanes 1 (fun _ => ((Lane.new .driving (ofInt 0) (ofInt 0) (ofInt 0) (ofInt 0) (ofInt 0)).addRoadmark
      mark).setLaneId 0)) (n := nl) (fun i => numberedLane w (sideMark (nl - 1 - i)) (1 + i)) hi
    refine Eq.trans ?_ this.symm
    unfold sideMark
    rw [show ((i : Int) + 1) = 1 + i by omega]
    congr 1
    by_cases hc : i + 1 = nl
    · rw [if_pos hc, if_pos (by omega)]
    · rw [if_neg hc, if_neg (by omega)]
  · rw [h7]
    dsimp only
    rw [List.range'_eq_map_range, List.map_map]
    refine List.map_congr_left fun i hi => ?_
    have hi := List.mem_range.mp hi
    dsimp only [Function.comp]
    have := grow_new (grow (grow st.lanes 1 (fun _ => ((Lane.new .driving (ofInt 0) (ofInt 0) (ofInt 0) (ofInt 0) (ofInt 0)).addRoadmark
      mark).setLaneId 0)) nl (fun i => numberedLane w (sideMark (nl - 1 - i)) (1 + i))) (n := nr)
        (fun i => numberedLane w (sideMark (nr - 1 - i)) (-1 - i)) hi
    refine Eq.trans ?_ this.symm
    unfold sideMark
    rw [show -((i : Int) + 1) = -1 - i by omega]
    congr 1
    by_cases hc : i + 1 = nr
    · rw [if_pos hc, if_pos (by omega)]
    · rw [if_neg hc, if_neg (by omega)]

/-- The lanes of the symmetric roads. -/
theorem handSym (p : List (Call F)) (s : Session F) (sec : LaneSection F) (w : F) (n : Nat) (lanes : Store (Lane F))
    (h2 : sec.s = ofInt 0) (h3 : sec.leftId = 1 + n) (h4 : sec.rightId = -1 - n)
    (h5 : (runCalls p s).2.laneObjs.cell sec.center = numberedLane (ofInt 3) stdBroken 0)
    (h6 : sec.left.map (runCalls p s).2.laneObjs.cell = (List.range n).map (fun (i : Nat) => numberedLane w stdBroken ((i : Int) + 1)))
    (h7 : sec.right.map (runCalls p s).2.laneObjs.cell = (List.range n).map (fun (i : Nat) => numberedLane w stdBroken (-((i : Int) + 1)))) :
    SectionAlike (runCalls p s).2.laneObjs (symLanes lanes w n) sec (symSection lanes n) := by
  have new : ∀ i, i < 2 * n → (symLanes lanes w n).cell (lanes.next + 1 + i) =
      numberedLane w stdBroken (if i % 2 = 0 then -1 - (i / 2 : Nat) else 1 + (i / 2 : Nat)) := fun i hi =>
    grow_new (grow lanes 1 (fun _ => numberedLane (ofInt 3) stdBroken 0)) (n := 2 * n)
      (fun i => numberedLane w stdBroken (if i % 2 = 0 then -1 - (i / 2 : Nat) else 1 + (i / 2 : Nat))) hi
  refine ⟨?_, ?_, ?_, ?_⟩
  · rw [LaneSection.mk.injEq]
    exact ⟨h2, rfl, rfl, rfl, h3, h4⟩
  · rw [h5]
    dsimp only [symSection, symLanes]
    rw [grow_old _ _ (by simp [grow])]
    have := grow_new lanes (fun _ => numberedLane (ofInt 3) stdBroken 0) (show 0 < 1 by omega)
    rw [Nat.add_zero] at this
    exact this.symm
  · rw [h6]
    dsimp only [symSection]
    rw [List.map_map]
    refine List.map_congr_left fun i hi => ?_
    have hi := List.mem_range.mp hi
    dsimp only [Function.comp]
    rw [show lanes.next + 1 + 2 * i + 1 = lanes.next + 1 + (2 * i + 1) by omega, new _ (by omega), if_neg (by omega)]
    congr 1; omega
  · rw [h7]
    dsimp only [symSection]
    rw [List.map_map]
    refine List.map_congr_left fun i hi => ?_
    have hi := List.mem_range.mp hi
    dsimp only [Function.comp]
    rw [new _ (by omega), if_pos (by omega)]
    congr 1; omega

/-- C94: the same for `create_straight_road`, which abbreviates a road with one line, a centre lane of width 3 and broken marks. -/
theorem C94_create_straight_road (p : List (Call F)) (hp : Proper p) (hadj : ∀ o, .adjust o ∉ p)
    (hlk : ∀ x sec ls, .addLanesection x sec ls ∈ p → ls = []) (s : Session F) (v g : Nat) (id : PyId) (length : F) (junction : Int)
    (n : Nat) (w : F) (h : HandRoad p v id junction [g] (ofInt 3) stdBroken w n n (fun _ => stdBroken) (fun _ => stdBroken))
    (hg : .geometry g (.line ⟨length⟩) ∈ p) (st : GenState F) :
    ∃ r st', createStraightRoad id length junction n w st = .ok r st' ∧
      RoadAlike (runCalls p s).2.geoms st'.geoms (runCalls p s).2.laneObjs st'.lanes
        ((runCalls p s).2.readRoad ((runCalls p s).2.roads.cell v)) r := by
  obtain ⟨sec, h1, h2, h3, h4, h5, h6, h7⟩ := handRoad p hp hadj hlk s h
  refine ⟨_, _, createStraightRoad_eq id length junction n w st, ?_⟩
  rw [h1]
  refine ⟨rfl, ?_, .cons (handSym p s sec w n st.lanes h2 h3 h4 h5 h6 h7) .nil⟩
  simp [Road.new, C93_geometry p hp hadj s _ _ hg, Store.alloc]

/-- C94: and for `create_cloth_arc_cloth`: a road with a spiral, an arc and a spiral, built from the arguments or, if the turn is to the
right and the curvature positive, from their opposites. -/
theorem C94_create_cloth_arc_cloth (p : List (Call F)) (hp : Proper p) (hadj : ∀ o, .adjust o ∉ p)
    (hlk : ∀ x sec ls, .addLanesection x sec ls ∈ p → ls = []) (s : Session F) (v g1 g2 g3 : Nat) (k arc cloth cs : F) (id : PyId)
    (junction : Int) (n : Nat) (w : F)
    (h : HandRoad p v id junction [g1, g2, g3] (ofInt 3) stdBroken w n n (fun _ => stdBroken) (fun _ => stdBroken))
    (s1 s2 : Spiral F) (a : Arc F) (turn : F → F) (hturn : turn = if lt cloth (ofInt 0) && lt (ofInt 0) k then neg else fun x => x)
    (hs1 : Spiral.new (turn cs) (turn k) none (some (turn cloth)) none = .ok s1)
    (ha : Arc.new (turn k) none (some (turn arc)) = .ok a)
    (hs2 : Spiral.new (turn k) (turn cs) none (some (turn cloth)) none = .ok s2)
    (hg1 : .geometry g1 (.spiral s1) ∈ p) (hg2 : .geometry g2 (.arc a) ∈ p) (hg3 : .geometry g3 (.spiral s2) ∈ p) (st : GenState F) :
    ∃ r st', createClothArcCloth k arc cloth id junction cs n w st = .ok r st' ∧
      RoadAlike (runCalls p s).2.geoms st'.geoms (runCalls p s).2.laneObjs st'.lanes
        ((runCalls p s).2.readRoad ((runCalls p s).2.roads.cell v)) r := by
  obtain ⟨sec, h1, h2, h3, h4, h5, h6, h7⟩ := handRoad p hp hadj hlk s h
  have ht : ∀ x, turn x = if lt cloth (ofInt 0) && lt (ofInt 0) k then neg x else x := by
    intro x; rw [hturn]; split <;> rfl
  refine ⟨_, _, createClothArcCloth_eq k arc cloth id junction cs n w st s1 s2 a ?_ ?_ ?_, ?_⟩
  · rw [← ht, ← ht, ← ht]; exact hs1
  · rw [← ht, ← ht]; exact ha
  · rw [← ht, ← ht, ← ht]; exact hs2
  rw [h1]
  refine ⟨rfl, ?_, .cons (handSym p s sec w n st.lanes h2 h3 h4 h5 h6 h7) .nil⟩
  simp [Road.new, C93_geometry p hp hadj s _ _ hg1, C93_geometry p hp hadj s _ _ hg2, C93_geometry p hp hadj s _ _ hg3, Store.alloc]
  intro h; omega

end Pyodrx.Props
