import Verif.Props.UnlinkedExamples

/-! # C76: the example programs with a junction made by hand, and with a lane that begins -/

namespace Pyodrx.Props
open Pyodrx Spec

/-- examples/junction_trippel_twoway.py:22-68: a road with one lane on each side, and its links -/
noncomputable def exTwoway (g : Geom ℝ) (id : Int) (pred succ : Option LinkCall) (type : Int := -1) : RoadCall ℝ :=
  ⟨[g], id, .drawn none (exLane 3 .solid) [⟨0, [exLane 3 .solid], [exLane 3 .solid]⟩] [], type, pred, succ⟩

/-- examples/junction_trippel_twoway.py:11-85 -/
noncomputable def tripleCalls : List (RoadCall ℝ) := [
  exTwoway (exLine 100) 0 none (toJunction 1),
  exTwoway (exSpiral 0.001 0.019 30) 1 (toRoad 0 .end) (toRoad 2 .start) 1,
  exTwoway (exLine 100) 2 (toJunction 1) none,
  exTwoway (exSpiral (-0.001) (-0.1) 30) 3 (toRoad 0 .end) (toRoad 4 .start) 1,
  exTwoway (exLine 100) 4 (toJunction 1) none,
  exTwoway (exLine 20) 5 (toRoad 0 .end) (toRoad 6 .start) 1,
  exTwoway (exLine 100) 6 (toJunction 1) none]

def tripleJoints : List (CallEnd × CallEnd) := [
  ((1, .start), (0, .end)), ((3, .start), (0, .end)), ((5, .start), (0, .end)),
  ((2, .start), (1, .end)), ((4, .start), (3, .end)), ((6, .start), (5, .end))]

/-- examples/junction_trippel_twoway.py:93-113 -/
def tripleJunction : DrawnJunction := ⟨"test", 1, [
  ⟨0, 1, .start, none, [(-1, -1)]⟩, ⟨0, 3, .start, none, [(-1, -1)]⟩, ⟨0, 5, .start, none, [(-1, -1)]⟩,
  ⟨2, 1, .end, none, [(1, 1)]⟩, ⟨4, 3, .end, none, [(1, 1)]⟩, ⟨6, 5, .end, none, [(1, 1)]⟩]⟩

theorem twoway_hasLane {g : Geom ℝ} {id : Int} {pred succ : Option LinkCall} {t : Int} (e : ContactPoint) (i : Int) (v : ℝ) :
    (exTwoway g id pred succ t).HasLane e i v ↔ (i = 1 ∨ i = -1) ∧ v = 3 := by
  rw [wide_hasLane (s := ⟨0, [exLane 3 .solid], [exLane 3 .solid]⟩) (w := 3) (by cases e <;> rfl)
    (by simp [exLane, LaneCall.widthAt])]
  simp only [List.length_nil, List.length_cons]
  constructor <;> rintro ⟨h, rfl⟩ <;> refine ⟨?_, rfl⟩ <;> omega

theorem triple_sound : Sound tripleCalls tripleJoints := by
  have hi : (tripleCalls.map (·.id)).Nodup := by simp [tripleCalls, exTwoway]
  have hn : ∀ c ∈ tripleCalls, c.start = none := by simp [tripleCalls, exTwoway, RoadCall.start]
  have cases : ∀ {P : RoadCall ℝ → Prop}, P (exTwoway (exLine 100) 0 none (toJunction 1)) →
      P (exTwoway (exSpiral 0.001 0.019 30) 1 (toRoad 0 .end) (toRoad 2 .start) 1) →
      P (exTwoway (exLine 100) 2 (toJunction 1) none) →
      P (exTwoway (exSpiral (-0.001) (-0.1) 30) 3 (toRoad 0 .end) (toRoad 4 .start) 1) →
      P (exTwoway (exLine 100) 4 (toJunction 1) none) →
      P (exTwoway (exLine 20) 5 (toRoad 0 .end) (toRoad 6 .start) 1) →
      P (exTwoway (exLine 100) 6 (toJunction 1) none) → ∀ c ∈ tripleCalls, P c := by
    intro P p0 p1 p2 p3 p4 p5 p6 c hc
    simp only [tripleCalls, List.mem_cons, List.not_mem_nil, or_false] at hc
    rcases hc with rfl | rfl | rfl | rfl | rfl | rfl | rfl <;> assumption
  refine ⟨hi, first_normal hn hi ⟨_, rfl, rfl⟩, ?_, ?_, ?_, ?_, ?_, ?_, ?_, ?_, ?_, ?_, ?_, ?_, by decide, first_all hn hi ?_, ?_,
    first_outwards hn ?_, ?_, ?_⟩
  · refine cases ?_ ?_ ?_ ?_ ?_ ?_ ?_ <;> simp [exTwoway, exLine, exSpiral, shapeOf, Geom.length] <;> norm_num
  · refine cases ?_ ?_ ?_ ?_ ?_ ?_ ?_ <;> simp [exTwoway, RoadCall.sections]
  · refine cases ?_ ?_ ?_ ?_ ?_ ?_ ?_ <;> refine marks_of ?_ ?_ <;> simp [exTwoway, RoadCall.center, RoadCall.sections, exLane, std_width]
  · refine cases ?_ ?_ ?_ ?_ ?_ ?_ ?_ <;> simp [exTwoway, RoadCall.laneLinks]
  · refine cases ?_ ?_ ?_ ?_ ?_ ?_ ?_ <;> intro e l hl <;> cases e <;> cases hl <;> simp [tripleCalls, exTwoway]
  · refine cases ?_ ?_ ?_ ?_ ?_ ?_ ?_ <;> intro e l hl <;> cases e <;> cases hl <;> simp
  · refine cases ?_ ?_ ?_ ?_ ?_ ?_ ?_ <;> intro ht e l hl <;> cases ht <;> cases e <;> cases hl <;> simp
  · refine cases ?_ ?_ ?_ ?_ ?_ ?_ ?_ <;> intro b hb e e' n n' ta tb h1 h2 <;> cases ta <;> cases h1
  · refine cases ?_ ?_ ?_ ?_ ?_ ?_ ?_ <;> intro ht <;> first | exact absurd rfl ht | exact ⟨_, _, _, _, _, _, rfl, rfl, by decide⟩
  · refine cases ?_ ?_ ?_ ?_ ?_ ?_ ?_ <;> intro ht e k e' n hj d hd hk <;> (try exact absurd rfl ht) <;> cases e <;> cases hj <;>
    simp only [tripleCalls, List.mem_cons, List.not_mem_nil, or_false] at hd <;>
    rcases hd with rfl | rfl | rfl | rfl | rfl | rfl | rfl <;> cases hk <;>
    refine ⟨rfl, fun i w hi => ?_⟩ <;> rw [twoway_hasLane] at hi <;>
    refine ⟨fun f => ⟨3, (twoway_hasLane _ _ _).mpr ⟨hi.1, rfl⟩⟩, 3, (twoway_hasLane _ _ _).mpr ⟨?_, rfl⟩, fun _ => hi.2.symm⟩ <;>
    simp [turnSign] <;> exact hi.1
  · refine cases ?_ ?_ ?_ ?_ ?_ ?_ ?_ <;> intro ht e k e' n hj hn <;> (try exact absurd rfl ht) <;> cases e <;> cases hj <;>
    exact absurd rfl hn
  · refine cases ?_ ?_ ?_ ?_ ?_ ?_ ?_ <;> intro e k e' n hj <;> cases e <;> cases hj <;> simp only [exTwoway] <;> decide
  · intro k
    simp only [tripleJoints, tripleCalls, exTwoway, List.map_cons, List.map_nil, List.tail_cons, List.mem_cons, List.not_mem_nil, or_false]
    tauto
  · intro k e k' e' h
    simp only [tripleJoints, List.mem_cons, Prod.mk.injEq, List.not_mem_nil, or_false] at h
    rcases h with ⟨⟨rfl, rfl⟩, rfl, rfl⟩ | ⟨⟨rfl, rfl⟩, rfl, rfl⟩ | ⟨⟨rfl, rfl⟩, rfl, rfl⟩ | ⟨⟨rfl, rfl⟩, rfl, rfl⟩ |
      ⟨⟨rfl, rfl⟩, rfl, rfl⟩ | ⟨⟨rfl, rfl⟩, rfl, rfl⟩
    · exact .inl ⟨_, List.mem_of_getElem? (i := 1) rfl, rfl, _, rfl⟩
    · exact .inl ⟨_, List.mem_of_getElem? (i := 3) rfl, rfl, _, rfl⟩
    · exact .inl ⟨_, List.mem_of_getElem? (i := 5) rfl, rfl, _, rfl⟩
    · exact .inr ⟨_, List.mem_of_getElem? (i := 1) rfl, rfl, by decide, _, rfl⟩
    · exact .inr ⟨_, List.mem_of_getElem? (i := 3) rfl, rfl, by decide, _, rfl⟩
    · exact .inr ⟨_, List.mem_of_getElem? (i := 5) rfl, rfl, by decide, _, rfl⟩
  · intro i k nb hi
    match i, hi with
    | 0, hi => cases hi; exact .inl rfl
    | 1, hi => cases hi; exact .inl rfl
    | 2, hi => cases hi; exact .inl rfl
    | 3, hi => cases hi; exact .inr ⟨0, by omega, _, rfl, rfl⟩
    | 4, hi => cases hi; exact .inr ⟨1, by omega, _, rfl, rfl⟩
    | 5, hi => cases hi; exact .inr ⟨2, by omega, _, rfl, rfl⟩
    | i + 6, hi => cases hi
  · refine cases ?_ ?_ ?_ ?_ ?_ ?_ ?_ <;> exact .inr (.inl rfl)
  · refine cases ?_ ?_ ?_ ?_ ?_ ?_ ?_ <;> exact .inr (fun p => by simp [exTwoway, exLine, exSpiral])

/-- C76 for examples/junction_trippel_twoway.py: the document shows the ordered network and the junction with the ordered
connections, and every lane link of the junction joins two lanes that have the same edges. -/
theorem C76_triple (st : GenState ℝ) (date : String) (so : SOState ℝ) : ∃ p element doc,
    networkProgram tripleCalls [.drawn tripleJunction] st = .ok p ∧
    OpenDrive.getElement ⟨p.world.net.geoms, p.world.lanes, so⟩ date ⟨"myroad", p.world.net.roads, p.junctions⟩ = .ok element ∧
    readDocument element = some doc ∧ Shows tripleCalls tripleJoints doc ∧
    ∃ jn, doc.junctions = [jn] ∧ jn.name = "test" ∧ jn.id = "1" ∧ jn.connections = [
        ⟨"0", "0", "1", .start, [(-1, -1)]⟩, ⟨"1", "0", "3", .start, [(-1, -1)]⟩, ⟨"2", "0", "5", .start, [(-1, -1)]⟩,
        ⟨"3", "2", "1", .end, [(1, 1)]⟩, ⟨"4", "4", "3", .end, [(1, 1)]⟩, ⟨"5", "6", "5", .end, [(1, 1)]⟩] ∧
      ∀ x ∈ jn.connections, ∀ a ∈ doc.roads, ∀ b ∈ doc.roads, a.id = x.connectingRoad → b.id = x.incomingRoad →
        ∀ l ∈ x.laneLinks, Touch a x.contactPoint l.2 b (if x.contactPoint = .start then .end else .start) l.1 := by
  obtain ⟨p, element, doc, h1, h2, h3, -, h4, h5⟩ := C76_document tripleCalls tripleJoints triple_sound [.drawn tripleJunction]
    (by simp [AnySound]) st "myroad" date so
  refine ⟨p, element, doc, h1, h2, h3, h4, ?_⟩
  obtain ⟨jn, l, hj, h6, hl⟩ := List.forall₂_cons_left_iff.mp h5
  cases h6
  have hj : ShowsDrawn tripleCalls doc tripleJunction jn := hj
  have e : jn.connections = [
        ⟨"0", "0", "1", .start, [(-1, -1)]⟩, ⟨"1", "0", "3", .start, [(-1, -1)]⟩, ⟨"2", "0", "5", .start, [(-1, -1)]⟩,
        ⟨"3", "2", "1", .end, [(1, 1)]⟩, ⟨"4", "4", "3", .end, [(1, 1)]⟩, ⟨"5", "6", "5", .end, [(1, 1)]⟩] :=
    hj.connections.trans (by decide)
  refine ⟨jn, hl, hj.name, hj.id.trans (by decide), e, ?_⟩
  intro x hx a ha b hb ia ib y hy
  rw [e] at hx
  have s0 : strInt 0 = "0" := by decide
  have s1 : strInt 1 = "1" := by decide
  have s2 : strInt 2 = "2" := by decide
  have s3 : strInt 3 = "3" := by decide
  have s4 : strInt 4 = "4" := by decide
  have s5 : strInt 5 = "5" := by decide
  have s6 : strInt 6 = "6" := by decide
  simp only [List.mem_cons, List.not_mem_nil, or_false] at hx
  rcases hx with rfl | rfl | rfl | rfl | rfl | rfl <;> rw [List.mem_singleton.mp hy]
  · exact hj.lanes _ (List.mem_of_getElem? (i := 0) rfl) _ (List.mem_of_getElem? (i := 1) rfl) (by decide) rfl .end 0 rfl
      a ha b hb (ia.trans s1.symm) (ib.trans s0.symm) (-1) 3 ((twoway_hasLane ..).mpr (by simp)) (by simp [turnSign])
  · exact hj.lanes _ (List.mem_of_getElem? (i := 1) rfl) _ (List.mem_of_getElem? (i := 3) rfl) (by decide) rfl .end 0 rfl
      a ha b hb (ia.trans s3.symm) (ib.trans s0.symm) (-1) 3 ((twoway_hasLane ..).mpr (by simp)) (by simp [turnSign])
  · exact hj.lanes _ (List.mem_of_getElem? (i := 2) rfl) _ (List.mem_of_getElem? (i := 5) rfl) (by decide) rfl .end 0 rfl
      a ha b hb (ia.trans s5.symm) (ib.trans s0.symm) (-1) 3 ((twoway_hasLane ..).mpr (by simp)) (by simp [turnSign])
  · exact hj.lanes _ (List.mem_of_getElem? (i := 3) rfl) _ (List.mem_of_getElem? (i := 1) rfl) (by decide) rfl .start 0 rfl
      a ha b hb (ia.trans s1.symm) (ib.trans s2.symm) 1 3 ((twoway_hasLane ..).mpr (by simp)) (by simp [turnSign])
  · exact hj.lanes _ (List.mem_of_getElem? (i := 4) rfl) _ (List.mem_of_getElem? (i := 3) rfl) (by decide) rfl .start 0 rfl
      a ha b hb (ia.trans s3.symm) (ib.trans s4.symm) 1 3 ((twoway_hasLane ..).mpr (by simp)) (by simp [turnSign])
  · exact hj.lanes _ (List.mem_of_getElem? (i := 5) rfl) _ (List.mem_of_getElem? (i := 5) rfl) (by decide) rfl .start 0 rfl
      a ha b hb (ia.trans s5.symm) (ib.trans s6.symm) 1 3 ((twoway_hasLane ..).mpr (by simp)) (by simp [turnSign])

/-- examples/road_split_w_lane_split.py:22-59 -/
noncomputable def splitSections : List (SectionCall ℝ) := [
  ⟨0, [], [exLane 3 .broken, exLane 3 .solid]⟩,
  ⟨100, [], [exLane 3 .broken, exLane 3 .broken, exLane 0 .solid 0.1]⟩,
  ⟨130, [], [exLane 3 .broken, exLane 3 .broken, exLane 3 .solid]⟩]

/-- examples/road_split_w_lane_split.py:8-76 (after closing the parenthesis that is left open in line 13) -/
noncomputable def splitRoad : RoadCall ℝ :=
  ⟨[exLine 200], 0, .drawn none (exLane 2 .solid) splitSections
    [((0, -1), (1, -1)), ((0, -2), (1, -2)), ((1, -1), (2, -1)), ((1, -2), (2, -2)), ((1, -3), (2, -3))], -1, none, toJunction 1⟩

/-- examples/road_split_w_lane_split.py:8-96 -/
noncomputable def laneSplitCalls : List (RoadCall ℝ) := [
  splitRoad,
  exCall [exLine 100] 1 0 2 (toJunction 1) none,
  exCall [exLine 100] 2 0 1 (toJunction 1) none,
  exCall [exSpiral 0.001 0.02 30] 3 0 2 (toRoad 0 .end) (toRoad 1 .start) 1,
  exCall [exSpiral (-0.001) (-0.02) 30] 4 0 1 (toRoad 0 .end (-2)) (toRoad 2 .start) 1]

theorem split_start (i : Int) (v : ℝ) : splitRoad.HasLane .start i v ↔ (i < 0 ∧ -i ≤ 2) ∧ v = 3 := by
  rw [wide_hasLane (s := ⟨0, [], [exLane 3 .broken, exLane 3 .solid]⟩) (w := 3) rfl
    (by simp [exLane, LaneCall.widthAt])]
  simp only [List.length_nil, List.length_cons]
  constructor <;> rintro ⟨h, rfl⟩ <;> refine ⟨?_, rfl⟩ <;> omega

theorem split_end (i : Int) (v : ℝ) : splitRoad.HasLane .end i v ↔ (i < 0 ∧ -i ≤ 3) ∧ v = 3 := by
  rw [wide_hasLane (s := ⟨130, [], [exLane 3 .broken, exLane 3 .broken, exLane 3 .solid]⟩) (w := 3) rfl
    (by simp [exLane, LaneCall.widthAt])]
  simp only [List.length_nil, List.length_cons]
  constructor <;> rintro ⟨h, rfl⟩ <;> refine ⟨?_, rfl⟩ <;> omega

theorem laneSplit_sound : Sound laneSplitCalls splitJoints := by
  have hi : (laneSplitCalls.map (·.id)).Nodup := by simp [laneSplitCalls, exCall, splitRoad]
  have hn : ∀ c ∈ laneSplitCalls, c.start = none := by simp [laneSplitCalls, exCall, splitRoad, RoadCall.start]
  refine ⟨hi, first_normal hn hi ⟨_, rfl, rfl⟩, ?_, ?_, ?_, ?_, ?_, ?_, ?_, ?_, ?_, ?_, ?_, ?_, by decide, first_all hn hi ?_, ?_, first_outwards hn ?_, first_rest hn ?_, first_rest hn ?_⟩
  · intro c hc
    simp only [laneSplitCalls, List.mem_cons, List.not_mem_nil, or_false] at hc
    rcases hc with rfl | rfl | rfl | rfl | rfl <;>
      simp [exCall, splitRoad, exLine, exSpiral, exArc, shapeOf, arcLength, Geom.length] <;> norm_num
  · intro c hc
    simp only [laneSplitCalls, List.mem_cons, List.not_mem_nil, or_false] at hc
    rcases hc with rfl | rfl | rfl | rfl | rfl <;> simp [RoadCall.sections, exCall, splitRoad, splitSections]
  · intro c hc
    simp only [laneSplitCalls, List.mem_cons, List.not_mem_nil, or_false] at hc
    have made : ∀ g k l r a b t, ∀ x, x = (exCall g k l r a b t).center ∨ (∃ n, (exCall g k l r a b t).lane n = some x) →
        ∀ m, x.mark = some m → m.line.isSome → m.width.isSome := by
      intro g k l r a b t
      refine (made_sections (calls := [exCall g k l r a b t]) ?_).2.1 _ (List.mem_singleton.mpr rfl)
      intro c hc
      rw [List.mem_singleton.mp hc]
      exact ⟨_, _, _, rfl⟩
    rcases hc with rfl | rfl | rfl | rfl | rfl
    · refine marks_of ?_ ?_
      · simp [RoadCall.center, splitRoad, exLane, std_width]
      · simp [RoadCall.sections, splitRoad, splitSections, exLane, std_width]
    · exact made _ _ _ _ _ _ _
    · exact made _ _ _ _ _ _ _
    · exact made _ _ _ _ _ _ _
    · exact made _ _ _ _ _ _ _
  · intro c hc p s hps
    simp only [laneSplitCalls, List.mem_cons, List.not_mem_nil, or_false] at hc
    rcases hc with rfl | rfl | rfl | rfl | rfl
    · simp only [RoadCall.laneLinks, splitRoad, List.mem_cons, Prod.mk.injEq, List.not_mem_nil, or_false] at hps
      rcases hps with ⟨rfl, rfl⟩ | ⟨rfl, rfl⟩ | ⟨rfl, rfl⟩ | ⟨rfl, rfl⟩ | ⟨rfl, rfl⟩ <;> exact ⟨by decide, rfl, rfl⟩
    · cases hps
    · cases hps
    · cases hps
    · cases hps
  · intro c hc e l hl
    simp only [laneSplitCalls, List.mem_cons, List.not_mem_nil, or_false] at hc
    rcases hc with rfl | rfl | rfl | rfl | rfl <;> cases e <;> cases hl <;> simp [laneSplitCalls, exCall, splitRoad]
  · intro c hc e l hl
    simp only [laneSplitCalls, List.mem_cons, List.not_mem_nil, or_false] at hc
    rcases hc with rfl | rfl | rfl | rfl | rfl <;> cases e <;> cases hl <;> simp
  · intro c hc ht e l hl
    simp only [laneSplitCalls, List.mem_cons, List.not_mem_nil, or_false] at hc
    rcases hc with rfl | rfl | rfl | rfl | rfl <;> cases ht <;> cases e <;> cases hl <;> simp
  · intro a hc b hb e e' n n' ta tb h1 h2
    simp only [laneSplitCalls, List.mem_cons, List.not_mem_nil, or_false] at hc
    rcases hc with rfl | rfl | rfl | rfl | rfl <;> cases ta <;> cases h1
  · intro c hc ht
    simp only [laneSplitCalls, List.mem_cons, List.not_mem_nil, or_false] at hc
    rcases hc with rfl | rfl | rfl | rfl | rfl <;> first | exact absurd rfl ht | exact ⟨_, _, _, _, _, _, rfl, rfl, by decide⟩
  · intro c hc ht e k e' n hj d hd hk
    simp only [laneSplitCalls, List.mem_cons, List.not_mem_nil, or_false] at hc
    rcases hc with rfl | rfl | rfl | rfl | rfl <;> (try exact absurd rfl ht) <;> cases e <;> cases hj <;>
    simp only [laneSplitCalls, List.mem_cons, List.not_mem_nil, or_false] at hd <;>
    rcases hd with rfl | rfl | rfl | rfl | rfl <;> cases hk <;>
    refine ⟨rfl, fun i w hi => ?_⟩ <;> rw [made_hasLane rfl] at hi <;>
    clear ht <;>
    first
    | (refine ⟨fun f => ⟨_, (made_hasLane rfl _ _ _).mpr ⟨?_, rfl⟩⟩, _, (made_hasLane rfl _ _ _).mpr ⟨?_, rfl⟩, fun _ => hi.2.symm⟩ <;>
       simp [turnSign] at hi ⊢ <;> omega)
    | (refine ⟨fun f => ⟨3, ?_⟩, _, (split_end _ _).mpr ⟨?_, rfl⟩, fun _ => hi.2.symm⟩
       · cases f
         · rw [split_start]; simp at hi ⊢; omega
         · rw [split_end]; simp at hi ⊢; omega
       · simp [turnSign] at hi ⊢; omega)
  · intro c hc ht e k e' n hj hn
    simp only [laneSplitCalls, List.mem_cons, List.not_mem_nil, or_false] at hc
    rcases hc with rfl | rfl | rfl | rfl | rfl <;> (try exact absurd rfl ht) <;> cases e <;> cases hj <;>
    first
    | exact absurd rfl hn
    | (refine ⟨by decide, fun i w hi => ?_, fun d hd hk i w hi => ?_, by simp [splitJoints, exCall]⟩
       · rw [made_hasLane rfl] at hi
         exact ⟨hi.2, by simp at hi; omega⟩
       · simp only [laneSplitCalls, List.mem_cons, List.not_mem_nil, or_false] at hd
         rcases hd with rfl | rfl | rfl | rfl | rfl <;> first | exact ((made_hasLane rfl _ _ _).mp hi).2 | exact ((split_end _ _).mp hi).2)
  · intro c hc e k e' n hj
    simp only [laneSplitCalls, List.mem_cons, List.not_mem_nil, or_false] at hc
    rcases hc with rfl | rfl | rfl | rfl | rfl <;> cases e <;> cases hj <;> simp only [exCall, splitRoad] <;> decide
  · intro k
    simp only [splitJoints, laneSplitCalls, exCall, splitRoad, List.map_cons, List.map_nil, List.tail_cons, List.mem_cons, List.not_mem_nil, or_false]
    tauto
  · intro k e k' e' h
    simp only [splitJoints, List.mem_cons, Prod.mk.injEq, List.not_mem_nil, or_false] at h
    rcases h with ⟨⟨rfl, rfl⟩, rfl, rfl⟩ | ⟨⟨rfl, rfl⟩, rfl, rfl⟩ | ⟨⟨rfl, rfl⟩, rfl, rfl⟩ | ⟨⟨rfl, rfl⟩, rfl, rfl⟩
    · exact .inl ⟨_, List.mem_of_getElem? (i := 3) rfl, rfl, _, rfl⟩
    · exact .inl ⟨_, List.mem_of_getElem? (i := 4) rfl, rfl, _, rfl⟩
    · exact .inr ⟨_, List.mem_of_getElem? (i := 3) rfl, rfl, by decide, _, rfl⟩
    · exact .inr ⟨_, List.mem_of_getElem? (i := 4) rfl, rfl, by decide, _, rfl⟩
  · intro i k nb hi
    match i, hi with
    | 0, hi => cases hi; exact .inl rfl
    | 1, hi => cases hi; exact .inl rfl
    | 2, hi => cases hi; exact .inr ⟨0, by omega, _, rfl, rfl⟩
    | 3, hi => cases hi; exact .inr ⟨1, by omega, _, rfl, rfl⟩
    | i + 4, hi => cases hi
  · intro c hc
    simp only [laneSplitCalls, List.tail_cons, List.mem_cons, List.not_mem_nil, or_false] at hc
    rcases hc with rfl | rfl | rfl | rfl <;>
      first | exact .inl rfl | exact .inr ⟨_, List.mem_of_getElem? (i := 0) rfl⟩ | exact .inr ⟨_, List.mem_of_getElem? (i := 0) rfl⟩
  · intro c hc p
    simp only [laneSplitCalls, List.tail_cons, List.mem_cons, List.not_mem_nil, or_false] at hc
    rcases hc with rfl | rfl | rfl | rfl <;> simp [exCall, splitRoad, exLine, exSpiral, exArc]

theorem laneSplit_junction : JunctionSound laneSplitCalls splitJunction := by
  refine ⟨?_, ?_⟩
  · intro i hi
    simp only [splitJunction, List.mem_cons, List.not_mem_nil, or_false] at hi
    rcases hi with rfl | rfl | rfl <;> exact ⟨_, rfl, rfl⟩
  · intro i hi
    simp only [splitJunction, List.mem_cons, List.not_mem_nil, or_false] at hi
    rcases hi with rfl | rfl <;> refine ⟨_, rfl, by decide, fun e l hl => ?_⟩ <;> cases e <;> cases hl
    · exact ⟨0, by decide, _, rfl, rfl⟩
    · exact ⟨1, by decide, _, rfl, rfl⟩
    · exact ⟨0, by decide, _, rfl, rfl⟩
    · exact ⟨2, by decide, _, rfl, rfl⟩

/-- C77 for examples/road_split_w_lane_split.py (with its parenthesis closed): the document shows the ordered network, with
every lane link between sections right, although a lane begins and the exit leaves from the new lane. -/
theorem C77_split (st : GenState ℝ) (date : String) (so : SOState ℝ) : ∃ p element doc,
    networkProgram laneSplitCalls [.create splitJunction] st = .ok p ∧
    OpenDrive.getElement ⟨p.world.net.geoms, p.world.lanes, so⟩ date ⟨"myroad", p.world.net.roads, p.junctions⟩ = .ok element ∧
    readDocument element = some doc ∧ doc.LaneLinksRight ∧ Shows laneSplitCalls splitJoints doc ∧
    ∃ exit ∈ doc.roads, ∃ a ∈ doc.roads, exit.id = "4" ∧ a.id = "0" ∧ Touch exit .start (-1) a .end (-3) := by
  have hj : ∀ j ∈ [.create splitJunction], AnySound laneSplitCalls j := by simpa [AnySound] using laneSplit_junction
  obtain ⟨p, element, doc, h1, h2, h3, -, h4, -⟩ := C76_document laneSplitCalls splitJoints laneSplit_sound _ hj st "myroad" date so
  have hlen := h4.roads.length_eq
  have hl : laneSplitCalls.length = 5 := rfl
  refine ⟨p, element, doc, h1, h2, h3, (h4.right laneSplit_sound).mpr ?_, h4, doc.roads[4]'(by omega), List.getElem_mem _, doc.roads[0]'(by omega),
    List.getElem_mem _, ?_, ?_, ?_⟩
  · intro c hc p s hps
    simp only [laneSplitCalls, List.mem_cons, List.not_mem_nil, or_false] at hc
    rcases hc with rfl | rfl | rfl | rfl | rfl <;> (try cases hps; done)
    simp only [RoadCall.laneLinks, splitRoad, List.mem_cons, Prod.mk.injEq, List.not_mem_nil, or_false] at hps
    rcases hps with ⟨rfl, rfl⟩ | ⟨rfl, rfl⟩ | ⟨rfl, rfl⟩ | ⟨rfl, rfl⟩ | ⟨rfl, rfl⟩ <;> constructor <;>
      refine ⟨rfl, _, _, rfl, rfl, rfl, rfl, ?_, ?_⟩ <;>
      norm_num [SectionCall.outer, inwards, LaneCall.widthAt, exLane, show Int.toNat 2 = 2 from rfl]
  · exact (h4.roads.get (i := 4) (by omega) (by omega)).id.trans (show strInt 4 = "4" by decide)
  · exact (h4.roads.get (i := 0) (by omega) (by omega)).id.trans (show strInt 0 = "0" by decide)
  · have s4 : ShowsRoad _ _ := h4.roads.get (i := 4) (by omega) (by omega)
    have s0 : ShowsRoad _ _ := h4.roads.get (i := 0) (by omega) (by omega)
    have hi := (made_hasLane (c := exCall [exSpiral (-0.001) (-0.02) 30] 4 0 1 (toRoad 0 .end (-2)) (toRoad 2 .start) 1) rfl
      .start (-1) 3).mpr ⟨.inr (by decide), rfl⟩
    obtain ⟨s, hs, x, hx, hid, -⟩ := s4.hasLane.mpr hi
    have := (h4.lanes _ (List.mem_of_getElem? (i := 4) rfl) _ (List.mem_of_getElem? (i := 0) rfl) _ (List.getElem_mem _) _
      (List.getElem_mem _) s4.id s0.id .start .end (-2) ⟨rfl, .inl (by decide)⟩ s hs x hx).2
    rw [hid] at this
    exact this

end Pyodrx.Props
