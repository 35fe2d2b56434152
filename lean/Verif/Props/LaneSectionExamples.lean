import Verif.Props.LaneSections

/-! # C77: the example programs with several lane sections -/

namespace Pyodrx.Props
open Pyodrx Spec

/-- `pyodrx.Lane(a=..., b=...)` with a road mark, `pyodrx.RoadMark(type, 0.2)` -/
noncomputable def exLane (a : ℝ) (t : RoadMarkType) (b : ℝ := 0) : LaneCall ℝ := ⟨.driving, a, b, 0, 0, 0, some (stdRoadmark t)⟩

/-- examples/lane_number_change_merge.py:16-43 -/
noncomputable def narrowSections : List (SectionCall ℝ) := [
  ⟨0, [], [exLane 3 .broken, exLane 3 .solid]⟩,
  ⟨250, [], [exLane 3 .broken, exLane 3 .solid (-0.1)]⟩,
  ⟨280, [], [exLane 3 .solid]⟩]

/-- examples/lane_number_change_merge.py:4-62: the right lane of two ends. -/
noncomputable def narrowCalls : List (RoadCall ℝ) := [
  ⟨[exLine 500], 1, .drawn none (exLane 2 .solid) narrowSections
    [((0, -1), (1, -1)), ((0, -2), (1, -2)), ((1, -1), (2, -1))], -1, none, none⟩]

/-- examples/road_merge_w_lane_merge.py:29-71 -/
noncomputable def mergeSections : List (SectionCall ℝ) := [
  ⟨0, [], [exLane 3 .broken, exLane 3 .broken, exLane 3 .solid]⟩,
  ⟨70, [], [exLane 3 .broken, exLane 3 .broken, exLane 3 .solid (-0.1)]⟩,
  ⟨100, [], [exLane 3 .broken, exLane 3 .solid]⟩]

/-- examples/road_merge_w_lane_merge.py:16-90 -/
noncomputable def mergedRoad : RoadCall ℝ :=
  ⟨[exLine 200], 2, .drawn none (exLane 2 .solid) mergeSections
    [((0, -1), (1, -1)), ((0, -2), (1, -2)), ((0, -3), (1, -3)), ((1, -2), (2, -1)), ((1, -3), (2, -2))], -1, toJunction 1, none⟩

/-- examples/road_merge_w_lane_merge.py:9-110 -/
noncomputable def laneMergeCalls : List (RoadCall ℝ) := [
  exCall [exLine 100] 0 0 2 none (toJunction 1),
  exCall [exLine 100] 1 0 1 none (toJunction 1),
  mergedRoad,
  exCall [exSpiral 0.001 0.02 30] 3 0 2 (toRoad 0 .end) (toRoad 2 .start) 1,
  exCall [exSpiral (-0.001) (-0.02) 30] 4 0 1 (toRoad 1 .end) (toRoad 2 .start (-2)) 1]

theorem std_width (t : RoadMarkType) : (stdRoadmark (F := ℝ) t).width.isSome := by
  simp [stdRoadmark, RoadMark.new, PyFloat.truthy]

/-- All lanes at an end are equally wide. -/
theorem wide_hasLane {c : RoadCall ℝ} {e : ContactPoint} {s : SectionCall ℝ} {w : ℝ} (hs : c.sectionAt e = some s)
    (h : ∀ l ∈ s.left ++ s.right, ∀ u, l.widthAt u = w) (i : Int) (v : ℝ) :
    c.HasLane e i v ↔ (0 < i ∧ i ≤ s.left.length ∨ i < 0 ∧ -i ≤ s.right.length) ∧ v = w := by
  have width : ∀ v, c.HasLane e i v → v = w := by
    rintro v ⟨s', x, h1, h2, rfl⟩
    rw [hs] at h1; cases h1
    simp only [SectionCall.lane] at h2
    split at h2
    · exact h _ (List.mem_append_left _ (List.mem_of_getElem? h2)) _
    · split at h2
      · exact h _ (List.mem_append_right _ (List.mem_of_getElem? h2)) _
      · cases h2
  rw [← RoadCall.hasLane_iff hs]
  constructor
  · exact fun h => ⟨⟨v, h⟩, width v h⟩
  · rintro ⟨⟨u, hu⟩, rfl⟩
    exact width u hu ▸ hu

/-- What has to be asked of the marks of drawn roads. -/
theorem marks_of {c : RoadCall ℝ} (h0 : ∀ m, c.center.mark = some m → m.width.isSome)
    (h : ∀ s ∈ c.sections, ∀ l ∈ s.left ++ s.right, ∀ m, l.mark = some m → m.width.isSome) :
    ∀ l, l = c.center ∨ (∃ n, c.lane n = some l) → ∀ m, l.mark = some m → m.line.isSome → m.width.isSome := by
  rintro l (rfl | ⟨n, hn⟩) m hm -
  · exact h0 m hm
  · simp only [RoadCall.lane] at hn
    split at hn
    · cases hn
    · rename_i s hs
      refine h s (List.mem_of_getElem? hs) l ?_ m hm
      unfold SectionCall.lane at hn
      split at hn
      · exact List.mem_append_left _ (List.mem_of_getElem? hn)
      · split at hn
        · exact List.mem_append_right _ (List.mem_of_getElem? hn)
        · cases hn

theorem narrow_sound : Sound narrowCalls [] := by
  have only : ∀ {c}, c ∈ narrowCalls → c = _ := fun hc => List.mem_singleton.mp hc
  have hi : (narrowCalls.map (·.id)).Nodup := by simp [narrowCalls]
  have hn : ∀ c ∈ narrowCalls, c.start = none := by simp [narrowCalls, RoadCall.start]
  refine ⟨hi, first_normal hn hi ⟨_, rfl, rfl⟩, ?_, ?_, ?_, ?_, ?_, ?_, ?_, ?_, ?_, ?_, ?_, ?_, by simp, first_all hn hi ?_, ?_, first_outwards hn ?_, first_rest hn ?_, first_rest hn ?_⟩
  · intro c hc
    rw [only hc]
    simp [exLine, shapeOf, Geom.length]
  · intro c hc
    rw [only hc]
    simp [RoadCall.sections, narrowSections]
  · intro c hc
    rw [only hc]
    refine marks_of ?_ ?_
    · simp [RoadCall.center, exLane, std_width]
    · simp [RoadCall.sections, narrowSections, exLane, std_width]
  · intro c hc p s hps
    rw [only hc] at hps ⊢
    simp only [RoadCall.laneLinks, List.mem_cons, Prod.mk.injEq, List.not_mem_nil, or_false] at hps
    rcases hps with ⟨rfl, rfl⟩ | ⟨rfl, rfl⟩ | ⟨rfl, rfl⟩ <;> exact ⟨by decide, rfl, rfl⟩
  · intro c hc e l hl
    rw [only hc] at hl
    cases e <;> cases hl
  · intro c hc e l hl
    rw [only hc] at hl
    cases e <;> cases hl
  · intro c hc ht e l hl
    rw [only hc] at hl
    cases e <;> cases hl
  · intro a ha b hb e e' n n' _ _ h1 h2
    rw [only ha] at h1
    cases h1
  · intro c hc ht
    rw [only hc] at ht
    exact absurd rfl ht
  · intro c hc ht
    rw [only hc] at ht
    exact absurd rfl ht
  · intro c hc ht
    rw [only hc] at ht
    exact absurd rfl ht
  · intro c hc e k e' n hj
    rw [only hc] at hj
    cases e <;> cases hj
  · intro k
    simp [narrowCalls]
  · intro k e k' e' h
    cases h
  · intro i k nb hi
    cases hi
  · intro c hc
    cases hc
  · intro c hc
    cases hc

/-- Every lane link of the file of examples/lane_number_change_merge.py is right. -/
theorem C77_narrow (st : GenState ℝ) (date : String) (so : SOState ℝ) : ∃ p element doc,
    networkProgram narrowCalls [] st = .ok p ∧
    OpenDrive.getElement ⟨p.world.net.geoms, p.world.lanes, so⟩ date ⟨"myroad", p.world.net.roads, p.junctions⟩ = .ok element ∧
    readDocument element = some doc ∧ doc.LaneLinksRight := by
  obtain ⟨p, element, doc, h1, h2, h3, -, h4⟩ := C77_document narrowCalls [] narrow_sound [] (by simp) st "myroad" date so
  refine ⟨p, element, doc, h1, h2, h3, h4.mpr ?_⟩
  intro c hc p s hps
  rw [show c = _ from List.mem_singleton.mp hc] at hps ⊢
  simp only [RoadCall.laneLinks, List.mem_cons, Prod.mk.injEq, List.not_mem_nil, or_false] at hps
  rcases hps with ⟨rfl, rfl⟩ | ⟨rfl, rfl⟩ | ⟨rfl, rfl⟩ <;> constructor <;> refine ⟨rfl, _, _, rfl, rfl, rfl, rfl, ?_, ?_⟩ <;>
    norm_num [SectionCall.outer, inwards, LaneCall.widthAt, exLane]

theorem merged_start (i : Int) (v : ℝ) : mergedRoad.HasLane .start i v ↔ (i < 0 ∧ -i ≤ 3) ∧ v = 3 := by
  rw [wide_hasLane (s := ⟨0, [], [exLane 3 .broken, exLane 3 .broken, exLane 3 .solid]⟩) (w := 3) rfl
    (by simp [exLane, LaneCall.widthAt])]
  simp only [List.length_nil, List.length_cons]
  constructor <;> rintro ⟨h, rfl⟩ <;> refine ⟨?_, rfl⟩ <;> omega

theorem merged_end (i : Int) (v : ℝ) : mergedRoad.HasLane .end i v ↔ (i < 0 ∧ -i ≤ 2) ∧ v = 3 := by
  rw [wide_hasLane (s := ⟨100, [], [exLane 3 .broken, exLane 3 .solid]⟩) (w := 3) rfl
    (by simp [exLane, LaneCall.widthAt])]
  simp only [List.length_nil, List.length_cons]
  constructor <;> rintro ⟨h, rfl⟩ <;> refine ⟨?_, rfl⟩ <;> omega

theorem laneMerge_sound : Sound laneMergeCalls mergeJoints := by
  have hi : (laneMergeCalls.map (·.id)).Nodup := by simp [laneMergeCalls, exCall, mergedRoad]
  have hn : ∀ c ∈ laneMergeCalls, c.start = none := by simp [laneMergeCalls, exCall, mergedRoad, RoadCall.start]
  refine ⟨hi, first_normal hn hi ⟨_, rfl, rfl⟩, ?_, ?_, ?_, ?_, ?_, ?_, ?_, ?_, ?_, ?_, ?_, ?_, by decide, first_all hn hi ?_, ?_, first_outwards hn ?_, first_rest hn ?_, first_rest hn ?_⟩
  · intro c hc
    simp only [laneMergeCalls, List.mem_cons, List.not_mem_nil, or_false] at hc
    rcases hc with rfl | rfl | rfl | rfl | rfl <;>
      simp [exCall, mergedRoad, exLine, exSpiral, exArc, shapeOf, arcLength, Geom.length] <;> norm_num
  · intro c hc
    simp only [laneMergeCalls, List.mem_cons, List.not_mem_nil, or_false] at hc
    rcases hc with rfl | rfl | rfl | rfl | rfl <;> simp [RoadCall.sections, exCall, mergedRoad, mergeSections]
  · intro c hc
    simp only [laneMergeCalls, List.mem_cons, List.not_mem_nil, or_false] at hc
    have made : ∀ g k l r a b t, ∀ x, x = (exCall g k l r a b t).center ∨ (∃ n, (exCall g k l r a b t).lane n = some x) →
        ∀ m, x.mark = some m → m.line.isSome → m.width.isSome := by
      intro g k l r a b t
      refine (made_sections (calls := [exCall g k l r a b t]) ?_).2.1 _ (List.mem_singleton.mpr rfl)
      intro c hc
      rw [List.mem_singleton.mp hc]
      exact ⟨_, _, _, rfl⟩
    rcases hc with rfl | rfl | rfl | rfl | rfl
    · exact made _ _ _ _ _ _ _
    · exact made _ _ _ _ _ _ _
    · refine marks_of ?_ ?_
      · simp [RoadCall.center, mergedRoad, exLane, std_width]
      · simp [RoadCall.sections, mergedRoad, mergeSections, exLane, std_width]
    · exact made _ _ _ _ _ _ _
    · exact made _ _ _ _ _ _ _
  · intro c hc p s hps
    simp only [laneMergeCalls, List.mem_cons, List.not_mem_nil, or_false] at hc
    rcases hc with rfl | rfl | rfl | rfl | rfl
    · cases hps
    · cases hps
    · simp only [RoadCall.laneLinks, mergedRoad, List.mem_cons, Prod.mk.injEq, List.not_mem_nil, or_false] at hps
      rcases hps with ⟨rfl, rfl⟩ | ⟨rfl, rfl⟩ | ⟨rfl, rfl⟩ | ⟨rfl, rfl⟩ | ⟨rfl, rfl⟩ <;> exact ⟨by decide, rfl, rfl⟩
    · cases hps
    · cases hps
  · intro c hc e l hl
    simp only [laneMergeCalls, List.mem_cons, List.not_mem_nil, or_false] at hc
    rcases hc with rfl | rfl | rfl | rfl | rfl <;> cases e <;> cases hl <;> simp [laneMergeCalls, exCall, mergedRoad]
  · intro c hc e l hl
    simp only [laneMergeCalls, List.mem_cons, List.not_mem_nil, or_false] at hc
    rcases hc with rfl | rfl | rfl | rfl | rfl <;> cases e <;> cases hl <;> simp
  · intro c hc ht e l hl
    simp only [laneMergeCalls, List.mem_cons, List.not_mem_nil, or_false] at hc
    rcases hc with rfl | rfl | rfl | rfl | rfl <;> cases ht <;> cases e <;> cases hl <;> simp
  · intro a hc b hb e e' n n' ta tb h1 h2
    simp only [laneMergeCalls, List.mem_cons, List.not_mem_nil, or_false] at hc
    rcases hc with rfl | rfl | rfl | rfl | rfl <;> cases ta <;> cases h1
  · intro c hc ht
    simp only [laneMergeCalls, List.mem_cons, List.not_mem_nil, or_false] at hc
    rcases hc with rfl | rfl | rfl | rfl | rfl <;> first | exact absurd rfl ht | exact ⟨_, _, _, _, _, _, rfl, rfl, by decide⟩
  · intro c hc ht e k e' n hj d hd hk
    simp only [laneMergeCalls, List.mem_cons, List.not_mem_nil, or_false] at hc
    rcases hc with rfl | rfl | rfl | rfl | rfl <;> (try exact absurd rfl ht) <;> cases e <;> cases hj <;>
    simp only [laneMergeCalls, List.mem_cons, List.not_mem_nil, or_false] at hd <;>
    rcases hd with rfl | rfl | rfl | rfl | rfl <;> cases hk <;>
    refine ⟨rfl, fun i w hi => ?_⟩ <;> rw [made_hasLane rfl] at hi <;>
    clear ht <;>
    first
    | (refine ⟨fun f => ⟨_, (made_hasLane rfl _ _ _).mpr ⟨?_, rfl⟩⟩, _, (made_hasLane rfl _ _ _).mpr ⟨?_, rfl⟩, fun _ => hi.2.symm⟩ <;>
       simp [turnSign] at hi ⊢ <;> omega)
    | (refine ⟨fun f => ⟨3, ?_⟩, _, (merged_start _ _).mpr ⟨?_, rfl⟩, fun _ => hi.2.symm⟩
       · cases f
         · rw [merged_start]; simp at hi ⊢; omega
         · rw [merged_end]; simp at hi ⊢; omega
       · simp [turnSign] at hi ⊢; omega)
  · intro c hc ht e k e' n hj hn
    simp only [laneMergeCalls, List.mem_cons, List.not_mem_nil, or_false] at hc
    rcases hc with rfl | rfl | rfl | rfl | rfl <;> (try exact absurd rfl ht) <;> cases e <;> cases hj <;>
    first
    | exact absurd rfl hn
    | (refine ⟨by decide, fun i w hi => ?_, fun d hd hk i w hi => ?_, by simp [mergeJoints, exCall]⟩
       · rw [made_hasLane rfl] at hi
         exact ⟨hi.2, by simp at hi; omega⟩
       · simp only [laneMergeCalls, List.mem_cons, List.not_mem_nil, or_false] at hd
         rcases hd with rfl | rfl | rfl | rfl | rfl <;> first | exact ((made_hasLane rfl _ _ _).mp hi).2 | exact ((merged_start _ _).mp hi).2)
  · intro c hc e k e' n hj
    simp only [laneMergeCalls, List.mem_cons, List.not_mem_nil, or_false] at hc
    rcases hc with rfl | rfl | rfl | rfl | rfl <;> cases e <;> cases hj <;> simp only [exCall, mergedRoad] <;> decide
  · intro k
    simp only [mergeJoints, laneMergeCalls, exCall, mergedRoad, List.map_cons, List.map_nil, List.tail_cons, List.mem_cons, List.not_mem_nil, or_false]
    tauto
  · intro k e k' e' h
    simp only [mergeJoints, List.mem_cons, Prod.mk.injEq, List.not_mem_nil, or_false] at h
    rcases h with ⟨⟨rfl, rfl⟩, rfl, rfl⟩ | ⟨⟨rfl, rfl⟩, rfl, rfl⟩ | ⟨⟨rfl, rfl⟩, rfl, rfl⟩ | ⟨⟨rfl, rfl⟩, rfl, rfl⟩
    · exact .inl ⟨_, List.mem_of_getElem? (i := 3) rfl, rfl, _, rfl⟩
    · exact .inr ⟨_, List.mem_of_getElem? (i := 3) rfl, rfl, by decide, _, rfl⟩
    · exact .inl ⟨_, List.mem_of_getElem? (i := 4) rfl, rfl, _, rfl⟩
    · exact .inr ⟨_, List.mem_of_getElem? (i := 4) rfl, rfl, by decide, _, rfl⟩
  · intro i k nb hi
    match i, hi with
    | 0, hi => cases hi; exact .inl rfl
    | 1, hi => cases hi; exact .inr ⟨0, by omega, _, rfl, rfl⟩
    | 2, hi => cases hi; exact .inr ⟨1, by omega, _, rfl, rfl⟩
    | 3, hi => cases hi; exact .inr ⟨2, by omega, _, rfl, rfl⟩
    | i + 4, hi => cases hi
  · intro c hc
    simp only [laneMergeCalls, List.tail_cons, List.mem_cons, List.not_mem_nil, or_false] at hc
    rcases hc with rfl | rfl | rfl | rfl <;>
      first | exact .inl rfl | exact .inr ⟨_, List.mem_of_getElem? (i := 0) rfl⟩ | exact .inr ⟨_, List.mem_of_getElem? (i := 0) rfl⟩
  · intro c hc p
    simp only [laneMergeCalls, List.tail_cons, List.mem_cons, List.not_mem_nil, or_false] at hc
    rcases hc with rfl | rfl | rfl | rfl <;> simp [exCall, mergedRoad, exLine, exSpiral, exArc]

/-- C77 (finding): in examples/road_merge_w_lane_merge.py the outer one of three lanes ends, but the program links lane -2 to
lane -1 and the ending lane -3 to lane -2 of the next section. Neither has the same edges; lanes -1 and -2 would
continue with their numbers, and lane -1 gets no successor at all. -/
theorem C77_merge (st : GenState ℝ) (date : String) (so : SOState ℝ) : ∃ p element doc,
    networkProgram laneMergeCalls [.create mergeJunction] st = .ok p ∧
    OpenDrive.getElement ⟨p.world.net.geoms, p.world.lanes, so⟩ date ⟨"myroad", p.world.net.roads, p.junctions⟩ = .ok element ∧
    readDocument element = some doc ∧ Shows laneMergeCalls mergeJoints doc ∧ ¬ doc.LaneLinksRight ∧
    ∃ a ∈ doc.roads, a.id = "2" ∧ ¬ a.Continues 1 (-2) (-1) ∧ ¬ a.Continues 1 (-3) (-2) ∧
      a.Continues 1 (-1) (-1) ∧ a.Continues 1 (-2) (-2) ∧
      ∃ s ∈ a.sections[1]?, ∀ x ∈ s.right, x.linksTo (linkTag .end) =
        if x.id = -1 then [] else [readLaneLinkTo (linkTag .end) (x.id + 1)] := by
  have hjs : ∀ j ∈ [.create mergeJunction], AnySound laneMergeCalls j := by
    intro j hj
    rw [List.mem_singleton.mp hj]
    refine ⟨?_, ?_⟩
    · intro i hi
      simp only [mergeJunction, List.mem_cons, List.not_mem_nil, or_false] at hi
      rcases hi with rfl | rfl | rfl <;> exact ⟨_, rfl, rfl⟩
    · intro i hi
      simp only [mergeJunction, List.mem_cons, List.not_mem_nil, or_false] at hi
      rcases hi with rfl | rfl <;> refine ⟨_, rfl, by decide, fun e l hl => ?_⟩ <;> cases e <;> cases hl
      · exact ⟨0, by decide, _, rfl, rfl⟩
      · exact ⟨2, by decide, _, rfl, rfl⟩
      · exact ⟨1, by decide, _, rfl, rfl⟩
      · exact ⟨2, by decide, _, rfl, rfl⟩
  obtain ⟨p, element, doc, h1, h2, h3, -, h4, -⟩ :=
    C76_document laneMergeCalls mergeJoints laneMerge_sound [.create mergeJunction] hjs st "myroad" date so
  have hwrong : ¬ mergedRoad.Continues (1, -2) (2, -1) := by
    rintro ⟨-, x, y, hx, hy, -, -, h, -⟩
    cases hx
    cases hy
    norm_num [SectionCall.outer, LaneCall.widthAt, exLane, show Int.toNat 2 = 2 from rfl] at h
  have hwrong2 : ¬ mergedRoad.Continues (1, -3) (2, -2) := by
    rintro ⟨-, x, y, hx, hy, -, -, -, h⟩
    cases hx
    cases hy
    norm_num [SectionCall.outer, inwards, LaneCall.widthAt, exLane, show Int.toNat 2 = 2 from rfl] at h
  have hm : mergedRoad ∈ laneMergeCalls := List.mem_of_getElem? (i := 2) rfl
  have hlen := h4.roads.length_eq
  have hl2 : 2 < laneMergeCalls.length := by decide
  have sa : ShowsRoad mergedRoad (doc.roads[2]'(by omega)) := h4.roads.get hl2 (by omega)
  have ha : doc.roads[2]'(by omega) ∈ doc.roads := List.getElem_mem _
  refine ⟨p, element, doc, h1, h2, h3, h4, ?_, _, ha, sa.id.trans (by decide), ?_, ?_, ?_, ?_, ?_⟩
  · rw [h4.right laneMerge_sound]
    intro h
    exact hwrong (h mergedRoad hm (1, -2) (2, -1) (by simp [mergedRoad, RoadCall.laneLinks])).1
  · rw [sa.continues]; exact hwrong
  · rw [sa.continues]; exact hwrong2
  · rw [sa.continues]
    refine ⟨rfl, _, _, rfl, rfl, rfl, rfl, ?_, ?_⟩ <;> norm_num [SectionCall.outer, inwards, LaneCall.widthAt, exLane, show Int.toNat 2 = 2 from rfl]
  · rw [sa.continues]
    refine ⟨rfl, _, _, rfl, rfl, rfl, rfl, ?_, ?_⟩ <;> norm_num [SectionCall.outer, inwards, LaneCall.widthAt, exLane, show Int.toNat 2 = 2 from rfl]
  · rcases sa.section 1 with ⟨-, u⟩ | ⟨t, x, u1, u2, u3⟩
    · cases u
    · cases u2
      refine ⟨x, u1, fun y hy => ?_⟩
      have hy' : y ∈ x.left ++ x.right := List.mem_append_right _ hy
      obtain ⟨new, v1, v2⟩ := h4.onlyLanes _ hm _ ha sa.id 1 x u1 y hy'
      have hnew : new = [] := by
        refine List.eq_nil_iff_forall_not_mem.mpr fun l hl => ?_
        obtain ⟨d, -, e, e', n, w1, -⟩ := v2 l hl
        have : (doc.roads[2]'(by omega)).sections.length = 3 := sa.sections.length_eq.symm
        rw [this] at w1
        cases e <;> simp at w1
      have hid : y.id ∈ x.right.map RLane.id := List.mem_map.mpr ⟨y, hy, rfl⟩
      rw [u3.rightIds] at hid
      rw [RLane.linksTo, v1, hnew, List.append_nil]
      simp [List.range_succ] at hid
      have hid : y.id = -1 ∨ y.id = -2 ∨ y.id = -3 := by omega
      rcases hid with hid | hid | hid <;> rw [hid] <;> rfl

end Pyodrx.Props
