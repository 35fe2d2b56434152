import Verif.Props.Program

/-! # C76: the example programs -/

namespace Pyodrx.Props
open Pyodrx Spec

/-- `pyodrx.Spiral(start, end, length)` -/
noncomputable def exSpiral (a b l : ℝ) : Geom ℝ := .spiral ⟨a, b, some l⟩

/-- `pyodrx.Arc(curvature, length)` -/
noncomputable def exArc (k l : ℝ) : Geom ℝ := .arc ⟨k, some l, none⟩

/-- `pyodrx.Line(length)` -/
noncomputable def exLine (l : ℝ) : Geom ℝ := .line ⟨l⟩

/-- `add_successor(ElementType.junction, id)`; also for predecessors -/
def toJunction (id : Int) : Option LinkCall := some ⟨.junction, id, none, 0⟩

/-- `add_successor(ElementType.road, id, contact_point, lane_offset)`; also for predecessors -/
def toRoad (id : Int) (e : ContactPoint) (offset : Int := 0) : Option LinkCall := some ⟨.road, id, some e, offset⟩

/-- `create_road(geometry, id, left_lanes, right_lanes, road_type)` and its links -/
noncomputable def exCall (g : List (Geom ℝ)) (id : Int) (left right : Nat) (pred succ : Option LinkCall) (type : Int := -1) :
    RoadCall ℝ := ⟨g, id, .made left right 3, type, pred, succ⟩

/-- examples/road_split.py:6-25 -/
noncomputable def splitCalls : List (RoadCall ℝ) := [
  exCall [exLine 100] 0 0 2 none (toJunction 1),
  exCall [exLine 100] 1 0 1 (toJunction 1) none,
  exCall [exLine 100] 2 0 1 (toJunction 1) none,
  exCall [exSpiral 0.001 0.02 30] 3 0 1 (toRoad 0 .end) (toRoad 1 .start) 1,
  exCall [exSpiral (-0.001) (-0.02) 30] 4 0 1 (toRoad 0 .end (-1)) (toRoad 2 .start) 1]

def splitJoints : List (CallEnd × CallEnd) := [
  ((3, .start), (0, .end)), ((4, .start), (0, .end)), ((1, .start), (3, .end)), ((2, .start), (4, .end))]

/-- examples/road_split.py:28 -/
def splitJunction : JunctionCall := ⟨[3, 4], 1, [0, 1, 2]⟩

/-- examples/road_merge.py:7-26 -/
noncomputable def mergeCalls : List (RoadCall ℝ) := [
  exCall [exLine 100] 0 1 2 none (toJunction 1),
  exCall [exLine 100] 1 0 1 none (toJunction 1),
  exCall [exLine 100] 2 1 3 (toJunction 1) none,
  exCall [exSpiral 0.001 0.02 30] 3 1 2 (toRoad 0 .end) (toRoad 2 .start) 1,
  exCall [exSpiral (-0.001) (-0.02) 30] 4 0 1 (toRoad 1 .end) (toRoad 2 .start (-2)) 1]

def mergeJoints : List (CallEnd × CallEnd) := [
  ((3, .start), (0, .end)), ((2, .start), (3, .end)), ((4, .end), (2, .start)), ((1, .end), (4, .start))]

/-- examples/road_merge.py:30 -/
def mergeJunction : JunctionCall := ⟨[3, 4], 1, [0, 1, 2]⟩

/-- examples/highway_example.py:7-59 -/
noncomputable def highwayCalls : List (RoadCall ℝ) := [
  exCall [exSpiral (-0.004) 0.00001 100, exSpiral 0.00001 0.005 50, exArc 0.005 50] 0 3 4 none (toJunction 1),
  exCall [exSpiral 0.0001 0.003 65, exSpiral 0.003 0.00001 50] 1 3 3 (toJunction 1) (toJunction 2),
  exCall [exLine 50] 2 0 1 (toJunction 1) none,
  exCall [exSpiral 0.005 0.0001 50] 3 3 3 (toRoad 0 .end) (toRoad 1 .start) 1,
  exCall [exSpiral 0.005 (-0.02) 100] 4 0 1 (toRoad 0 .end (-3)) (toRoad 2 .start) 1,
  exCall [exSpiral (-0.00001) (-0.003) 45, exArc (-0.003) 60] 5 2 3 (toJunction 2) none,
  exCall [exLine 30] 6 2 3 (toRoad 1 .end) (toRoad 5 .start) 2,
  exCall [exSpiral 0.004 0.000001 50] 7 1 0 (toRoad 1 .end 2) (toRoad 8 .start) 2,
  exCall [exArc 0.004 60] 8 1 0 (toJunction 2) none]

def highwayJoints : List (CallEnd × CallEnd) := [
  ((3, .start), (0, .end)), ((4, .start), (0, .end)), ((1, .start), (3, .end)), ((2, .start), (4, .end)),
  ((6, .start), (1, .end)), ((7, .start), (1, .end)), ((5, .start), (6, .end)), ((8, .start), (7, .end))]

/-- examples/highway_example.py:62-63 -/
def highwayJunctions : List AnyJunction := [.create ⟨[3, 4], 1, [0, 1, 2]⟩, .create ⟨[6, 7], 2, [1, 5, 8]⟩]

/-- Two normal roads, one after the other. -/
noncomputable def chainCalls : List (RoadCall ℝ) := [
  exCall [exSpiral 0 0.01 100, exArc 0.01 50] 7 1 2 none (toRoad 9 .start),
  exCall [exArc 0.01 20, exLine 50] 9 1 2 (toRoad 7 .end) none]

def chainJoints : List (CallEnd × CallEnd) := [((9, .start), (7, .end))]

/-- The lanes of a road of `create_road`. -/
theorem made_hasLane {c : RoadCall ℝ} {l r : Nat} {w : ℝ} (h : c.lanes = .made l r w) (e : ContactPoint) (i : Int) (v : ℝ) :
    c.HasLane e i v ↔ (0 < i ∧ i ≤ l ∨ i < 0 ∧ -i ≤ r) ∧ v = w := by
  have hs : c.sectionAt e = some ⟨PyFloat.ofInt 0, madeLanes l w, madeLanes r w⟩ := by
    cases e <;> simp [RoadCall.sectionAt, RoadCall.sections, h]
  have key : ∀ {n k : Nat} {x : LaneCall ℝ} {u : ℝ}, (madeLanes n w)[k]? = some x → x.widthAt u = w := by
    intro n k x u hx
    have hx := List.mem_of_getElem? hx
    simp only [madeLanes, List.mem_map, List.mem_range] at hx
    obtain ⟨_, -, rfl⟩ := hx
    simp [LaneCall.widthAt]
  have width : ∀ v, c.HasLane e i v → v = w := by
    rintro v ⟨s, x, h1, h2, rfl⟩
    rw [hs] at h1; cases h1
    simp only [SectionCall.lane] at h2
    split at h2
    · exact key h2
    · split at h2
      · exact key h2
      · cases h2
  have := RoadCall.hasLane_iff (c := c) hs (i := i)
  simp only [madeLanes, List.length_map, List.length_range] at this
  rw [← this]
  constructor
  · exact fun h => ⟨⟨v, h⟩, width v h⟩
  · rintro ⟨⟨u, hu⟩, rfl⟩
    exact width u hu ▸ hu

/-- What a program of `create_road` calls need not be asked. -/
theorem made_sections {calls : List (RoadCall ℝ)} (h : ∀ c ∈ calls, ∃ l r w, c.lanes = .made l r w) :
    (∀ c ∈ calls, c.sections ≠ []) ∧
    (∀ c ∈ calls, ∀ l, l = c.center ∨ (∃ n, c.lane n = some l) → ∀ m, l.mark = some m → m.line.isSome → m.width.isSome) ∧
    (∀ c ∈ calls, ∀ p s, (p, s) ∈ c.laneLinks → p.1 < s.1 ∧ (c.lane p).isSome ∧ (c.lane s).isSome) := by
  refine ⟨?_, ?_, ?_⟩
  · intro c hc
    obtain ⟨l, r, w, h⟩ := h c hc
    simp [RoadCall.sections, h]
  · intro c hc x hx m hm hl
    obtain ⟨l, r, w, h⟩ := h c hc
    have key : ∀ {n k : Nat} {x : LaneCall ℝ}, (madeLanes n w)[k]? = some x → x.mark = some m → m.width.isSome := by
      intro n k x hx hm
      have hx := List.mem_of_getElem? hx
      simp only [madeLanes, List.mem_map, List.mem_range] at hx
      obtain ⟨_, -, rfl⟩ := hx
      cases hm
      simp [stdRoadmark, RoadMark.new, PyFloat.truthy]
    rcases hx with rfl | ⟨n, hn⟩
    · simp only [RoadCall.center, h] at hm
      cases hm
      simp [stdSolid, stdRoadmark, RoadMark.new, PyFloat.truthy]
    · simp only [RoadCall.lane, RoadCall.sections, h] at hn
      split at hn
      · cases hn
      · rename_i s hs
        have hs := List.mem_of_getElem? hs
        simp only [List.mem_singleton] at hs
        subst hs
        simp only [SectionCall.lane] at hn
        split at hn
        · exact key hn hm
        · split at hn
          · exact key hn hm
          · cases hn
  · intro c hc p s hp
    obtain ⟨l, r, w, h⟩ := h c hc
    simp [RoadCall.laneLinks, h] at hp

section
variable {calls : List (RoadCall ℝ)} {L : List (CallEnd × CallEnd)} (hn : ∀ c ∈ calls, c.start = none)
include hn

/-- If the program does not say where roads start, the first one begins. -/
theorem begins_iff {k : Int} : Begins calls k ↔ (calls.map (·.id)).head? = some k := by
  constructor
  · rintro (⟨c, hc, -, h⟩ | h)
    · rw [hn c hc] at h; cases h
    · exact h.2
  · exact fun h => .inr ⟨hn, h⟩

theorem first_normal (hi : (calls.map (·.id)).Nodup) (h : ∃ c, calls.head? = some c ∧ c.roadType = -1) :
    calls ≠ [] ∧ ∀ c ∈ calls, Begins calls c.id → c.roadType = -1 := by
  obtain ⟨c, hc, ht⟩ := h
  refine ⟨by rintro rfl; simp at hc, fun d hd hb => ?_⟩
  rw [begins_iff hn, List.head?_map, hc, Option.map_some, Option.some.injEq] at hb
  rw [← List.inj_on_of_nodup_map hi (List.mem_of_head? hc) hd hb]
  exact ht

theorem first_all (hi : (calls.map (·.id)).Nodup) (h : ∀ k, k ∈ L.map (·.1.1) ↔ k ∈ (calls.map (·.id)).tail) (k : Int) :
    k ∈ L.map (·.1.1) ↔ k ∈ calls.map (·.id) ∧ ¬ Begins calls k := by
  rw [h, begins_iff hn]
  cases hc : calls.map (·.id) with
  | nil => simp
  | cons a l =>
    rw [hc] at hi
    have := (List.nodup_cons.mp hi).1
    simp only [List.tail_cons, List.mem_cons, List.head?_cons, Option.some.injEq]
    constructor
    · exact fun hk => ⟨.inr hk, fun e => this (e ▸ hk)⟩
    · rintro ⟨rfl | hk, hne⟩
      · exact absurd rfl hne
      · exact hk

theorem first_outwards (h : ∀ (i : Nat) k nb, L[i]? = some (k, nb) →
      (calls.map (·.id)).head? = some nb.1 ∨ ∃ j, j < i ∧ ∃ y, L[j]? = some y ∧ y.1.1 = nb.1) (i : Nat) (k nb : CallEnd)
    (hi : L[i]? = some (k, nb)) : Begins calls nb.1 ∨ ∃ j, j < i ∧ ∃ y, L[j]? = some y ∧ y.1.1 = nb.1 :=
  (h i k nb hi).imp_left (begins_iff hn).mpr

theorem first_rest {P : RoadCall ℝ → Prop} (h : ∀ c ∈ calls.tail, P c) (c : RoadCall ℝ) (hc : c ∈ calls) :
    Begins calls c.id ∨ P c := by
  cases calls with
  | nil => cases hc
  | cons d rest =>
    rcases List.mem_cons.mp hc with rfl | hc
    · exact .inl ((begins_iff hn).mpr rfl)
    · exact .inr (h c hc)

end

theorem split_sound : Sound splitCalls splitJoints := by
  have hi : (splitCalls.map (·.id)).Nodup := by simp [splitCalls, exCall]
  have hn : ∀ c ∈ splitCalls, c.start = none := by simp [splitCalls, exCall, RoadCall.start]
  refine ⟨hi, first_normal hn hi ⟨_, rfl, rfl⟩, ?_, (made_sections ?_).1, (made_sections ?_).2.1, (made_sections ?_).2.2, ?_, ?_, ?_, ?_, ?_, ?_, ?_, ?_, by decide, first_all hn hi ?_, ?_, first_outwards hn ?_, first_rest hn ?_, first_rest hn ?_⟩
  all_goals try (intro c hc; simp only [splitCalls, List.mem_cons, List.not_mem_nil, or_false] at hc; rcases hc with rfl | rfl | rfl | rfl | rfl <;> exact ⟨_, _, _, rfl⟩)
  · intro c hc
    simp only [splitCalls, List.mem_cons, List.not_mem_nil, or_false] at hc
    rcases hc with rfl | rfl | rfl | rfl | rfl <;>
      simp [exCall, exLine, exSpiral, exArc, shapeOf, arcLength, Geom.length] <;> norm_num
  · intro c hc e l hl
    simp only [splitCalls, List.mem_cons, List.not_mem_nil, or_false] at hc
    rcases hc with rfl | rfl | rfl | rfl | rfl <;> cases e <;> cases hl <;> simp [splitCalls, exCall]
  · intro c hc e l hl
    simp only [splitCalls, List.mem_cons, List.not_mem_nil, or_false] at hc
    rcases hc with rfl | rfl | rfl | rfl | rfl <;> cases e <;> cases hl <;> simp
  · intro c hc ht e l hl
    simp only [splitCalls, List.mem_cons, List.not_mem_nil, or_false] at hc
    rcases hc with rfl | rfl | rfl | rfl | rfl <;> cases ht <;> cases e <;> cases hl <;> simp
  · intro a hc b hb e e' n n' ta tb h1 h2
    simp only [splitCalls, List.mem_cons, List.not_mem_nil, or_false] at hc
    rcases hc with rfl | rfl | rfl | rfl | rfl <;> cases ta <;> cases h1
  · intro c hc ht
    simp only [splitCalls, List.mem_cons, List.not_mem_nil, or_false] at hc
    rcases hc with rfl | rfl | rfl | rfl | rfl <;> first | exact absurd rfl ht | exact ⟨_, _, _, _, _, _, rfl, rfl, by decide⟩
  · intro c hc ht e k e' n hj d hd hk
    simp only [splitCalls, List.mem_cons, List.not_mem_nil, or_false] at hc
    rcases hc with rfl | rfl | rfl | rfl | rfl <;> (try exact absurd rfl ht) <;> cases e <;> cases hj <;>
    simp only [splitCalls, List.mem_cons, List.not_mem_nil, or_false] at hd <;>
    rcases hd with rfl | rfl | rfl | rfl | rfl <;> cases hk <;>
    refine ⟨rfl, fun i w hi => ?_⟩ <;> rw [made_hasLane rfl] at hi <;>
    clear ht <;>
    refine ⟨fun f => ⟨_, (made_hasLane rfl _ _ _).mpr ⟨?_, rfl⟩⟩, _, (made_hasLane rfl _ _ _).mpr ⟨?_, rfl⟩, fun _ => hi.2.symm⟩ <;>
    simp [turnSign] at hi ⊢ <;> omega
  · intro c hc ht e k e' n hj hn
    simp only [splitCalls, List.mem_cons, List.not_mem_nil, or_false] at hc
    rcases hc with rfl | rfl | rfl | rfl | rfl <;> (try exact absurd rfl ht) <;> cases e <;> cases hj <;>
    first
    | exact absurd rfl hn
    | (refine ⟨by decide, fun i w hi => ?_, fun d hd hk i w hi => ?_, by simp [splitJoints, exCall]⟩
       · rw [made_hasLane rfl] at hi
         exact ⟨hi.2, by simp at hi; omega⟩
       · simp only [splitCalls, List.mem_cons, List.not_mem_nil, or_false] at hd
         rcases hd with rfl | rfl | rfl | rfl | rfl <;> exact ((made_hasLane rfl _ _ _).mp hi).2)
  · intro c hc e k e' n hj
    simp only [splitCalls, List.mem_cons, List.not_mem_nil, or_false] at hc
    rcases hc with rfl | rfl | rfl | rfl | rfl <;> cases e <;> cases hj <;> simp only [exCall] <;> decide
  · intro k
    simp only [splitJoints, splitCalls, exCall, List.map_cons, List.map_nil, List.tail_cons, List.mem_cons, List.not_mem_nil, or_false]
    tauto
  · intro k e k' e' h
    simp only [splitJoints, List.mem_cons, Prod.mk.injEq, List.not_mem_nil, or_false] at h
    rcases h with ⟨⟨rfl, rfl⟩, rfl, rfl⟩ | ⟨⟨rfl, rfl⟩, rfl, rfl⟩ | ⟨⟨rfl, rfl⟩, rfl, rfl⟩ | ⟨⟨rfl, rfl⟩, rfl, rfl⟩
    · exact .inl ⟨_, List.mem_of_getElem? (i := 3) rfl, rfl, _, rfl⟩
    · exact .inl ⟨_, List.mem_of_getElem? (i := 4) rfl, rfl, _, rfl⟩
    · exact .inr ⟨_, List.mem_of_getElem? (i := 3) rfl, rfl, by decide, _, rfl⟩
    · exact .inr ⟨_, List.mem_of_getElem? (i := 4) rfl, rfl, by decide, _, rfl⟩
  · intro i k nb hi
    match i, hi with
    | 0, hi => cases hi; exact .inl rfl
    | 1, hi => cases hi; exact .inl rfl
    | 2, hi => cases hi; exact .inr ⟨0, by omega, _, rfl, rfl⟩
    | 3, hi => cases hi; exact .inr ⟨1, by omega, _, rfl, rfl⟩
    | i + 4, hi => cases hi
  · intro c hc
    simp only [splitCalls, List.tail_cons, List.mem_cons, List.not_mem_nil, or_false] at hc
    rcases hc with rfl | rfl | rfl | rfl <;>
      first | exact .inl rfl | exact .inr ⟨_, List.mem_of_getElem? (i := 0) rfl⟩ | exact .inr ⟨_, List.mem_of_getElem? (i := 0) rfl⟩
  · intro c hc p
    simp only [splitCalls, List.tail_cons, List.mem_cons, List.not_mem_nil, or_false] at hc
    rcases hc with rfl | rfl | rfl | rfl <;> simp [exCall, exLine, exSpiral, exArc]

theorem merge_sound : Sound mergeCalls mergeJoints := by
  have hi : (mergeCalls.map (·.id)).Nodup := by simp [mergeCalls, exCall]
  have hn : ∀ c ∈ mergeCalls, c.start = none := by simp [mergeCalls, exCall, RoadCall.start]
  refine ⟨hi, first_normal hn hi ⟨_, rfl, rfl⟩, ?_, (made_sections ?_).1, (made_sections ?_).2.1, (made_sections ?_).2.2, ?_, ?_, ?_, ?_, ?_, ?_, ?_, ?_, by decide, first_all hn hi ?_, ?_, first_outwards hn ?_, first_rest hn ?_, first_rest hn ?_⟩
  all_goals try (intro c hc; simp only [mergeCalls, List.mem_cons, List.not_mem_nil, or_false] at hc; rcases hc with rfl | rfl | rfl | rfl | rfl <;> exact ⟨_, _, _, rfl⟩)
  · intro c hc
    simp only [mergeCalls, List.mem_cons, List.not_mem_nil, or_false] at hc
    rcases hc with rfl | rfl | rfl | rfl | rfl <;>
      simp [exCall, exLine, exSpiral, exArc, shapeOf, arcLength, Geom.length] <;> norm_num
  · intro c hc e l hl
    simp only [mergeCalls, List.mem_cons, List.not_mem_nil, or_false] at hc
    rcases hc with rfl | rfl | rfl | rfl | rfl <;> cases e <;> cases hl <;> simp [mergeCalls, exCall]
  · intro c hc e l hl
    simp only [mergeCalls, List.mem_cons, List.not_mem_nil, or_false] at hc
    rcases hc with rfl | rfl | rfl | rfl | rfl <;> cases e <;> cases hl <;> simp
  · intro c hc ht e l hl
    simp only [mergeCalls, List.mem_cons, List.not_mem_nil, or_false] at hc
    rcases hc with rfl | rfl | rfl | rfl | rfl <;> cases ht <;> cases e <;> cases hl <;> simp
  · intro a hc b hb e e' n n' ta tb h1 h2
    simp only [mergeCalls, List.mem_cons, List.not_mem_nil, or_false] at hc
    rcases hc with rfl | rfl | rfl | rfl | rfl <;> cases ta <;> cases h1
  · intro c hc ht
    simp only [mergeCalls, List.mem_cons, List.not_mem_nil, or_false] at hc
    rcases hc with rfl | rfl | rfl | rfl | rfl <;> first | exact absurd rfl ht | exact ⟨_, _, _, _, _, _, rfl, rfl, by decide⟩
  · intro c hc ht e k e' n hj d hd hk
    simp only [mergeCalls, List.mem_cons, List.not_mem_nil, or_false] at hc
    rcases hc with rfl | rfl | rfl | rfl | rfl <;> (try exact absurd rfl ht) <;> cases e <;> cases hj <;>
    simp only [mergeCalls, List.mem_cons, List.not_mem_nil, or_false] at hd <;>
    rcases hd with rfl | rfl | rfl | rfl | rfl <;> cases hk <;>
    refine ⟨rfl, fun i w hi => ?_⟩ <;> rw [made_hasLane rfl] at hi <;>
    clear ht <;>
    refine ⟨fun f => ⟨_, (made_hasLane rfl _ _ _).mpr ⟨?_, rfl⟩⟩, _, (made_hasLane rfl _ _ _).mpr ⟨?_, rfl⟩, fun _ => hi.2.symm⟩ <;>
    simp [turnSign] at hi ⊢ <;> omega
  · intro c hc ht e k e' n hj hn
    simp only [mergeCalls, List.mem_cons, List.not_mem_nil, or_false] at hc
    rcases hc with rfl | rfl | rfl | rfl | rfl <;> (try exact absurd rfl ht) <;> cases e <;> cases hj <;>
    first
    | exact absurd rfl hn
    | (refine ⟨by decide, fun i w hi => ?_, fun d hd hk i w hi => ?_, by simp [mergeJoints, exCall]⟩
       · rw [made_hasLane rfl] at hi
         exact ⟨hi.2, by simp at hi; omega⟩
       · simp only [mergeCalls, List.mem_cons, List.not_mem_nil, or_false] at hd
         rcases hd with rfl | rfl | rfl | rfl | rfl <;> exact ((made_hasLane rfl _ _ _).mp hi).2)
  · intro c hc e k e' n hj
    simp only [mergeCalls, List.mem_cons, List.not_mem_nil, or_false] at hc
    rcases hc with rfl | rfl | rfl | rfl | rfl <;> cases e <;> cases hj <;> simp only [exCall] <;> decide
  · intro k
    simp only [mergeJoints, mergeCalls, exCall, List.map_cons, List.map_nil, List.tail_cons, List.mem_cons, List.not_mem_nil, or_false]
    tauto
  · intro k e k' e' h
    simp only [mergeJoints, List.mem_cons, Prod.mk.injEq, List.not_mem_nil, or_false] at h
    rcases h with ⟨⟨rfl, rfl⟩, rfl, rfl⟩ | ⟨⟨rfl, rfl⟩, rfl, rfl⟩ | ⟨⟨rfl, rfl⟩, rfl, rfl⟩ | ⟨⟨rfl, rfl⟩, rfl, rfl⟩
    · exact .inl ⟨_, List.mem_of_getElem? (i := 3) rfl, rfl, _, rfl⟩
    · exact .inr ⟨_, List.mem_of_getElem? (i := 3) rfl, rfl, by decide, _, rfl⟩
    · exact .inl ⟨_, List.mem_of_getElem? (i := 4) rfl, rfl, _, rfl⟩
    · exact .inr ⟨_, List.mem_of_getElem? (i := 4) rfl, rfl, by decide, _, rfl⟩
  · intro i k nb hi
    match i, hi with
    | 0, hi => cases hi; exact .inl rfl
    | 1, hi => cases hi; exact .inr ⟨0, by omega, _, rfl, rfl⟩
    | 2, hi => cases hi; exact .inr ⟨1, by omega, _, rfl, rfl⟩
    | 3, hi => cases hi; exact .inr ⟨2, by omega, _, rfl, rfl⟩
    | i + 4, hi => cases hi
  · intro c hc
    simp only [mergeCalls, List.tail_cons, List.mem_cons, List.not_mem_nil, or_false] at hc
    rcases hc with rfl | rfl | rfl | rfl <;>
      first | exact .inl rfl | exact .inr ⟨_, List.mem_of_getElem? (i := 0) rfl⟩ | exact .inr ⟨_, List.mem_of_getElem? (i := 0) rfl⟩
  · intro c hc p
    simp only [mergeCalls, List.tail_cons, List.mem_cons, List.not_mem_nil, or_false] at hc
    rcases hc with rfl | rfl | rfl | rfl <;> simp [exCall, exLine, exSpiral, exArc]

theorem highway_sound : Sound highwayCalls highwayJoints := by
  have hi : (highwayCalls.map (·.id)).Nodup := by simp [highwayCalls, exCall]
  have hn : ∀ c ∈ highwayCalls, c.start = none := by simp [highwayCalls, exCall, RoadCall.start]
  refine ⟨hi, first_normal hn hi ⟨_, rfl, rfl⟩, ?_, (made_sections ?_).1, (made_sections ?_).2.1, (made_sections ?_).2.2, ?_, ?_, ?_, ?_, ?_, ?_, ?_, ?_, by decide, first_all hn hi ?_, ?_, first_outwards hn ?_, first_rest hn ?_, first_rest hn ?_⟩
  all_goals try (intro c hc; simp only [highwayCalls, List.mem_cons, List.not_mem_nil, or_false] at hc; rcases hc with rfl | rfl | rfl | rfl | rfl | rfl | rfl | rfl | rfl <;> exact ⟨_, _, _, rfl⟩)
  · intro c hc
    simp only [highwayCalls, List.mem_cons, List.not_mem_nil, or_false] at hc
    rcases hc with rfl | rfl | rfl | rfl | rfl | rfl | rfl | rfl | rfl <;>
      simp [exCall, exLine, exSpiral, exArc, shapeOf, arcLength, Geom.length] <;> norm_num
  · intro c hc e l hl
    simp only [highwayCalls, List.mem_cons, List.not_mem_nil, or_false] at hc
    rcases hc with rfl | rfl | rfl | rfl | rfl | rfl | rfl | rfl | rfl <;> cases e <;> cases hl <;> simp [highwayCalls, exCall]
  · intro c hc e l hl
    simp only [highwayCalls, List.mem_cons, List.not_mem_nil, or_false] at hc
    rcases hc with rfl | rfl | rfl | rfl | rfl | rfl | rfl | rfl | rfl <;> cases e <;> cases hl <;> simp
  · intro c hc ht e l hl
    simp only [highwayCalls, List.mem_cons, List.not_mem_nil, or_false] at hc
    rcases hc with rfl | rfl | rfl | rfl | rfl | rfl | rfl | rfl | rfl <;> cases ht <;> cases e <;> cases hl <;> simp
  · intro a hc b hb e e' n n' ta tb h1 h2
    simp only [highwayCalls, List.mem_cons, List.not_mem_nil, or_false] at hc
    rcases hc with rfl | rfl | rfl | rfl | rfl | rfl | rfl | rfl | rfl <;> cases ta <;> cases h1
  · intro c hc ht
    simp only [highwayCalls, List.mem_cons, List.not_mem_nil, or_false] at hc
    rcases hc with rfl | rfl | rfl | rfl | rfl | rfl | rfl | rfl | rfl <;> first | exact absurd rfl ht | exact ⟨_, _, _, _, _, _, rfl, rfl, by decide⟩
  · intro c hc ht e k e' n hj d hd hk
    simp only [highwayCalls, List.mem_cons, List.not_mem_nil, or_false] at hc
    rcases hc with rfl | rfl | rfl | rfl | rfl | rfl | rfl | rfl | rfl <;> (try exact absurd rfl ht) <;> cases e <;> cases hj <;>
    simp only [highwayCalls, List.mem_cons, List.not_mem_nil, or_false] at hd <;>
    rcases hd with rfl | rfl | rfl | rfl | rfl | rfl | rfl | rfl | rfl <;> cases hk <;>
    refine ⟨rfl, fun i w hi => ?_⟩ <;> rw [made_hasLane rfl] at hi <;>
    clear ht <;>
    refine ⟨fun f => ⟨_, (made_hasLane rfl _ _ _).mpr ⟨?_, rfl⟩⟩, _, (made_hasLane rfl _ _ _).mpr ⟨?_, rfl⟩, fun _ => hi.2.symm⟩ <;>
    simp [turnSign] at hi ⊢ <;> omega
  · intro c hc ht e k e' n hj hn
    simp only [highwayCalls, List.mem_cons, List.not_mem_nil, or_false] at hc
    rcases hc with rfl | rfl | rfl | rfl | rfl | rfl | rfl | rfl | rfl <;> (try exact absurd rfl ht) <;> cases e <;> cases hj <;>
    first
    | exact absurd rfl hn
    | (refine ⟨by decide, fun i w hi => ?_, fun d hd hk i w hi => ?_, by simp [highwayJoints, exCall]⟩
       · rw [made_hasLane rfl] at hi
         exact ⟨hi.2, by simp at hi; omega⟩
       · simp only [highwayCalls, List.mem_cons, List.not_mem_nil, or_false] at hd
         rcases hd with rfl | rfl | rfl | rfl | rfl | rfl | rfl | rfl | rfl <;> exact ((made_hasLane rfl _ _ _).mp hi).2)
  · intro c hc e k e' n hj
    simp only [highwayCalls, List.mem_cons, List.not_mem_nil, or_false] at hc
    rcases hc with rfl | rfl | rfl | rfl | rfl | rfl | rfl | rfl | rfl <;> cases e <;> cases hj <;> simp only [exCall] <;> decide
  · intro k
    simp only [highwayJoints, highwayCalls, exCall, List.map_cons, List.map_nil, List.tail_cons, List.mem_cons, List.not_mem_nil, or_false]
    tauto
  · intro k e k' e' h
    simp only [highwayJoints, List.mem_cons, Prod.mk.injEq, List.not_mem_nil, or_false] at h
    rcases h with ⟨⟨rfl, rfl⟩, rfl, rfl⟩ | ⟨⟨rfl, rfl⟩, rfl, rfl⟩ | ⟨⟨rfl, rfl⟩, rfl, rfl⟩ | ⟨⟨rfl, rfl⟩, rfl, rfl⟩ | ⟨⟨rfl, rfl⟩, rfl, rfl⟩ | ⟨⟨rfl, rfl⟩, rfl, rfl⟩ | ⟨⟨rfl, rfl⟩, rfl, rfl⟩ | ⟨⟨rfl, rfl⟩, rfl, rfl⟩
    · exact .inl ⟨_, List.mem_of_getElem? (i := 3) rfl, rfl, _, rfl⟩
    · exact .inl ⟨_, List.mem_of_getElem? (i := 4) rfl, rfl, _, rfl⟩
    · exact .inr ⟨_, List.mem_of_getElem? (i := 3) rfl, rfl, by decide, _, rfl⟩
    · exact .inr ⟨_, List.mem_of_getElem? (i := 4) rfl, rfl, by decide, _, rfl⟩
    · exact .inl ⟨_, List.mem_of_getElem? (i := 6) rfl, rfl, _, rfl⟩
    · exact .inl ⟨_, List.mem_of_getElem? (i := 7) rfl, rfl, _, rfl⟩
    · exact .inr ⟨_, List.mem_of_getElem? (i := 6) rfl, rfl, by decide, _, rfl⟩
    · exact .inr ⟨_, List.mem_of_getElem? (i := 7) rfl, rfl, by decide, _, rfl⟩
  · intro i k nb hi
    match i, hi with
    | 0, hi => cases hi; exact .inl rfl
    | 1, hi => cases hi; exact .inl rfl
    | 2, hi => cases hi; exact .inr ⟨0, by omega, _, rfl, rfl⟩
    | 3, hi => cases hi; exact .inr ⟨1, by omega, _, rfl, rfl⟩
    | 4, hi => cases hi; exact .inr ⟨2, by omega, _, rfl, rfl⟩
    | 5, hi => cases hi; exact .inr ⟨2, by omega, _, rfl, rfl⟩
    | 6, hi => cases hi; exact .inr ⟨4, by omega, _, rfl, rfl⟩
    | 7, hi => cases hi; exact .inr ⟨5, by omega, _, rfl, rfl⟩
    | i + 8, hi => cases hi
  · intro c hc
    simp only [highwayCalls, List.tail_cons, List.mem_cons, List.not_mem_nil, or_false] at hc
    rcases hc with rfl | rfl | rfl | rfl | rfl | rfl | rfl | rfl <;>
      first | exact .inl rfl | exact .inr ⟨_, List.mem_of_getElem? (i := 2) rfl⟩ | exact .inr ⟨_, List.mem_of_getElem? (i := 6) rfl⟩
  · intro c hc p
    simp only [highwayCalls, List.tail_cons, List.mem_cons, List.not_mem_nil, or_false] at hc
    rcases hc with rfl | rfl | rfl | rfl | rfl | rfl | rfl | rfl <;> simp [exCall, exLine, exSpiral, exArc]

theorem chain_sound : Sound chainCalls chainJoints := by
  have hi : (chainCalls.map (·.id)).Nodup := by simp [chainCalls, exCall]
  have hn : ∀ c ∈ chainCalls, c.start = none := by simp [chainCalls, exCall, RoadCall.start]
  refine ⟨hi, first_normal hn hi ⟨_, rfl, rfl⟩, ?_, (made_sections ?_).1, (made_sections ?_).2.1, (made_sections ?_).2.2, ?_, ?_, ?_, ?_, ?_, ?_, ?_, ?_, by decide, first_all hn hi ?_, ?_, first_outwards hn ?_, first_rest hn ?_, first_rest hn ?_⟩
  all_goals try (intro c hc; simp only [chainCalls, List.mem_cons, List.not_mem_nil, or_false] at hc; rcases hc with rfl | rfl <;> exact ⟨_, _, _, rfl⟩)
  · intro c hc
    simp only [chainCalls, List.mem_cons, List.not_mem_nil, or_false] at hc
    rcases hc with rfl | rfl <;>
      simp [exCall, exLine, exSpiral, exArc, shapeOf, arcLength, Geom.length] <;> norm_num
  · intro c hc e l hl
    simp only [chainCalls, List.mem_cons, List.not_mem_nil, or_false] at hc
    rcases hc with rfl | rfl <;> cases e <;> cases hl <;> simp [chainCalls, exCall]
  · intro c hc e l hl
    simp only [chainCalls, List.mem_cons, List.not_mem_nil, or_false] at hc
    rcases hc with rfl | rfl <;> cases e <;> cases hl <;> simp
  · intro c hc ht e l hl
    simp only [chainCalls, List.mem_cons, List.not_mem_nil, or_false] at hc
    rcases hc with rfl | rfl <;> cases ht <;> cases e <;> cases hl <;> simp [chainCalls, exCall]
  · intro a hc b hb e e' n n' ta tb h1 h2
    simp only [chainCalls, List.mem_cons, List.not_mem_nil, or_false] at hc hb
    rcases hc with rfl | rfl <;> rcases hb with rfl | rfl <;> cases h1 <;> cases h2
    exact ⟨rfl, rfl, fun i w => (made_hasLane rfl _ _ _).trans (made_hasLane rfl _ _ _).symm,
      fun i => exists_congr fun w => (made_hasLane rfl _ _ _).trans (made_hasLane rfl _ _ _).symm, by rintro l ⟨⟩⟩
  · intro c hc ht
    simp only [chainCalls, List.mem_cons, List.not_mem_nil, or_false] at hc
    rcases hc with rfl | rfl <;> first | exact absurd rfl ht | exact ⟨_, _, _, _, _, _, rfl, rfl, by decide⟩
  · intro c hc ht e k e' n hj d hd hk
    simp only [chainCalls, List.mem_cons, List.not_mem_nil, or_false] at hc
    rcases hc with rfl | rfl <;> (try exact absurd rfl ht) <;> cases e <;> cases hj <;>
    simp only [chainCalls, List.mem_cons, List.not_mem_nil, or_false] at hd <;>
    rcases hd with rfl | rfl <;> cases hk <;>
    refine ⟨rfl, fun i w hi => ?_⟩ <;> rw [made_hasLane rfl] at hi <;>
    clear ht <;>
    refine ⟨fun f => ⟨_, (made_hasLane rfl _ _ _).mpr ⟨?_, rfl⟩⟩, _, (made_hasLane rfl _ _ _).mpr ⟨?_, rfl⟩, fun _ => hi.2.symm⟩ <;>
    simp [turnSign] at hi ⊢ <;> omega
  · intro c hc ht e k e' n hj hn
    simp only [chainCalls, List.mem_cons, List.not_mem_nil, or_false] at hc
    rcases hc with rfl | rfl <;> (try exact absurd rfl ht) <;> cases e <;> cases hj <;>
    first
    | exact absurd rfl hn
    | (refine ⟨by decide, fun i w hi => ?_, fun d hd hk i w hi => ?_, by simp [chainJoints, exCall]⟩
       · rw [made_hasLane rfl] at hi
         exact ⟨hi.2, by simp at hi; omega⟩
       · simp only [chainCalls, List.mem_cons, List.not_mem_nil, or_false] at hd
         rcases hd with rfl | rfl <;> exact ((made_hasLane rfl _ _ _).mp hi).2)
  · intro c hc e k e' n hj
    simp only [chainCalls, List.mem_cons, List.not_mem_nil, or_false] at hc
    rcases hc with rfl | rfl <;> cases e <;> cases hj <;> simp only [exCall] <;> decide
  · intro k
    simp only [chainJoints, chainCalls, exCall, List.map_cons, List.map_nil, List.tail_cons, List.mem_cons, List.not_mem_nil, or_false]
  · intro k e k' e' h
    simp only [chainJoints, List.mem_cons, Prod.mk.injEq, List.not_mem_nil, or_false] at h
    rcases h with ⟨⟨rfl, rfl⟩, rfl, rfl⟩
    · exact .inl ⟨_, List.mem_of_getElem? (i := 1) rfl, rfl, _, rfl⟩
  · intro i k nb hi
    match i, hi with
    | 0, hi => cases hi; exact .inl rfl
    | i + 1, hi => cases hi
  · intro c hc
    simp only [chainCalls, List.tail_cons, List.mem_cons, List.not_mem_nil, or_false] at hc
    rcases hc with rfl <;>
      first | exact .inl rfl | exact .inr ⟨_, List.mem_of_getElem? (i := 0) rfl⟩ | exact .inr ⟨_, List.mem_of_getElem? (i := 0) rfl⟩
  · intro c hc p
    simp only [chainCalls, List.tail_cons, List.mem_cons, List.not_mem_nil, or_false] at hc
    rcases hc with rfl <;> simp [exCall, exLine, exSpiral, exArc]

theorem split_junction : JunctionSound splitCalls splitJunction := by
  refine ⟨?_, ?_⟩
  · intro i hi
    simp only [splitJunction, List.mem_cons, List.not_mem_nil, or_false] at hi
    rcases hi with rfl | rfl | rfl <;> exact ⟨_, rfl, rfl⟩
  · intro i hi
    simp only [splitJunction, List.mem_cons, List.not_mem_nil, or_false] at hi
    rcases hi with rfl | rfl <;> refine ⟨_, rfl, by decide, fun e l hl => ?_⟩ <;> cases e <;> cases hl
    · exact ⟨0, by decide, _, rfl, rfl⟩
    · exact ⟨1, by decide, _, rfl, rfl⟩
    · exact ⟨0, by decide, _, rfl, rfl⟩
    · exact ⟨2, by decide, _, rfl, rfl⟩

theorem merge_junction : JunctionSound mergeCalls mergeJunction := by
  refine ⟨?_, ?_⟩
  · intro i hi
    simp only [mergeJunction, List.mem_cons, List.not_mem_nil, or_false] at hi
    rcases hi with rfl | rfl | rfl <;> exact ⟨_, rfl, rfl⟩
  · intro i hi
    simp only [mergeJunction, List.mem_cons, List.not_mem_nil, or_false] at hi
    rcases hi with rfl | rfl <;> refine ⟨_, rfl, by decide, fun e l hl => ?_⟩ <;> cases e <;> cases hl
    · exact ⟨0, by decide, _, rfl, rfl⟩
    · exact ⟨2, by decide, _, rfl, rfl⟩
    · exact ⟨1, by decide, _, rfl, rfl⟩
    · exact ⟨2, by decide, _, rfl, rfl⟩

theorem highway_junctions : ∀ j ∈ highwayJunctions, AnySound highwayCalls j := by
  intro j hj
  simp only [highwayJunctions, List.mem_cons, List.not_mem_nil, or_false] at hj
  rcases hj with rfl | rfl <;> refine ⟨?_, ?_⟩ <;> intro i hi <;>
    simp only [List.mem_cons, List.not_mem_nil, or_false] at hi
  · rcases hi with rfl | rfl | rfl <;> exact ⟨_, rfl, rfl⟩
  · rcases hi with rfl | rfl <;> refine ⟨_, rfl, by decide, fun e l hl => ?_⟩ <;> cases e <;> cases hl
    · exact ⟨0, by decide, _, rfl, rfl⟩
    · exact ⟨1, by decide, _, rfl, rfl⟩
    · exact ⟨0, by decide, _, rfl, rfl⟩
    · exact ⟨2, by decide, _, rfl, rfl⟩
  · rcases hi with rfl | rfl | rfl <;> exact ⟨_, rfl, rfl⟩
  · rcases hi with rfl | rfl <;> refine ⟨_, rfl, by decide, fun e l hl => ?_⟩ <;> cases e <;> cases hl
    · exact ⟨1, by decide, _, rfl, rfl⟩
    · exact ⟨5, by decide, _, rfl, rfl⟩
    · exact ⟨1, by decide, _, rfl, rfl⟩
    · exact ⟨8, by decide, _, rfl, rfl⟩

/-- What `C76_document` says about examples/highway_example.py: nine roads, two junctions. -/
theorem C76_highway (st : GenState ℝ) (date : String) (so : SOState ℝ) : ∃ p element doc,
    networkProgram highwayCalls highwayJunctions st = .ok p ∧
    OpenDrive.getElement ⟨p.world.net.geoms, p.world.lanes, so⟩ date ⟨"myroad", p.world.net.roads, p.junctions⟩ = .ok element ∧
    readDocument element = some doc ∧ doc.roads.length = 9 ∧ doc.junctions.length = 2 ∧ Shows highwayCalls highwayJoints doc ∧
    List.Forall₂ (ShowsAny highwayCalls doc) highwayJunctions doc.junctions := by
  obtain ⟨p, element, doc, h1, h2, h3, -, h4, h5⟩ :=
    C76_document highwayCalls highwayJoints highway_sound highwayJunctions highway_junctions st "myroad" date so
  exact ⟨p, element, doc, h1, h2, h3, h4.roads.length_eq.symm, h5.length_eq.symm, h4, h5⟩

/-- The exit and the entry of the highway: lane -1 of the exit road continues lane -4 of the highway, lane 1 of the entry
road joins lane 3 of it; in the document these lanes are linked and have the same edges. -/
theorem C76_exit (doc : RDocument ℝ) (h : Shows highwayCalls highwayJoints doc) : ∃ exit entry before after,
    exit ∈ doc.roads ∧ entry ∈ doc.roads ∧ before ∈ doc.roads ∧ after ∈ doc.roads ∧
    Touch exit .start (-1) before .end (-4) ∧ Touch entry .start 1 after .end 3 := by
  have road : ∀ {i : Nat} {c}, highwayCalls[i]? = some c → ∃ a ∈ doc.roads, ShowsRoad c a := by
    intro i c hc
    obtain ⟨h1, rfl⟩ := List.getElem?_eq_some_iff.mp hc
    have hlen := h.roads.length_eq
    exact ⟨_, List.getElem_mem _, h.roads.get h1 (by omega)⟩
  obtain ⟨exit, m1, s1⟩ := road (i := 4) rfl
  obtain ⟨entry, m2, s2⟩ := road (i := 7) rfl
  obtain ⟨before, m3, s3⟩ := road (i := 0) rfl
  obtain ⟨after, m4, s4⟩ := road (i := 1) rfl
  have lane : ∀ {c d a b i w j e e' n}, c ∈ highwayCalls → d ∈ highwayCalls → a ∈ doc.roads → b ∈ doc.roads →
      ShowsRoad c a → ShowsRoad d b → LanesJoin c e d e' n → c.HasLane e i w → j = turnSign e e' * i + n → Touch a e i b e' j := by
    rintro c d a b i w _ e e' n hc hd ha hb sa sb hl hi rfl
    obtain ⟨s, hs, x, hx, rfl, -⟩ := sa.hasLane.mpr hi
    exact (h.lanes c hc d hd a ha b hb sa.id sb.id e e' n hl s hs x hx).2
  refine ⟨exit, entry, before, after, m1, m2, m3, m4, ?_, ?_⟩
  · exact lane (List.mem_of_getElem? (i := 4) rfl) (List.mem_of_getElem? (i := 0) rfl) m1 m3 s1 s3 ⟨rfl, .inl (by decide)⟩
      ((made_hasLane rfl _ _ 3).mpr ⟨.inr (by decide), rfl⟩) (by decide)
  · exact lane (List.mem_of_getElem? (i := 7) rfl) (List.mem_of_getElem? (i := 1) rfl) m2 m4 s2 s4 ⟨rfl, .inl (by decide)⟩
      ((made_hasLane rfl _ _ 3).mpr ⟨.inl (by decide), rfl⟩) (by decide)

/-- What `C76_document` says about examples/road_split.py. -/
theorem C76_split (st : GenState ℝ) (date : String) (so : SOState ℝ) : ∃ p element doc,
    networkProgram splitCalls [.create splitJunction] st = .ok p ∧
    OpenDrive.getElement ⟨p.world.net.geoms, p.world.lanes, so⟩ date ⟨"myroad", p.world.net.roads, p.junctions⟩ = .ok element ∧
    readDocument element = some doc ∧ Shows splitCalls splitJoints doc ∧
    List.Forall₂ (ShowsAny splitCalls doc) [.create splitJunction] doc.junctions := by
  obtain ⟨p, element, doc, h1, h2, h3, -, h4, h5⟩ := C76_document splitCalls splitJoints split_sound [.create splitJunction]
    (by simpa [AnySound] using split_junction) st "myroad" date so
  exact ⟨p, element, doc, h1, h2, h3, h4, h5⟩

/-- C76 (finding): examples/road_merge.py gives a lane offset for the end of a connecting road. The roads and their lanes
fit together, but in the junction every lane link for this end (of the road 4, by which it joins road 2) is wrong. -/
theorem C76_merge (st : GenState ℝ) (date : String) (so : SOState ℝ) : ∃ p element doc,
    networkProgram mergeCalls [.create mergeJunction] st = .ok p ∧
    OpenDrive.getElement ⟨p.world.net.geoms, p.world.lanes, so⟩ date ⟨"myroad", p.world.net.roads, p.junctions⟩ = .ok element ∧
    readDocument element = some doc ∧ Shows mergeCalls mergeJoints doc ∧
    ∃ jn y, doc.junctions = [jn] ∧ y ∈ jn.connections ∧ y.connectingRoad = "4" ∧ y.incomingRoad = "2" ∧
      y.contactPoint = .end ∧ ∀ a ∈ doc.roads, ∀ b ∈ doc.roads, a.id = "4" → b.id = "2" →
        ∀ l ∈ y.laneLinks, ¬ Touch a .end l.2 b .start l.1 := by
  obtain ⟨p, element, doc, h1, h2, h3, -, h4, h5⟩ := C76_document mergeCalls mergeJoints merge_sound [.create mergeJunction]
    (by simpa [AnySound] using merge_junction) st "myroad" date so
  refine ⟨p, element, doc, h1, h2, h3, h4, ?_⟩
  have e2 : strInt 2 = "2" := by decide
  have e4 : strInt 4 = "4" := by decide
  cases hdoc : doc.junctions with
  | nil => rw [hdoc] at h5; cases h5
  | cons jn rest =>
    rw [hdoc] at h5
    cases h5 with
    | cons h6 h7 =>
      cases h7
      obtain ⟨y, y1, -, y2⟩ := h6.connections 1 4 _ rfl rfl .end 2 .start (-2) rfl
      refine ⟨jn, y, rfl, List.mem_of_getElem? y1, ?_, ?_, y2.contact, ?_⟩
      · exact y2.connecting.trans e4
      · exact y2.incoming.trans e2
      · intro a ha b hb ia ib
        exact y2.wrong rfl (by decide) a ha b hb (ia.trans e4.symm) (ib.trans e2.symm)

/-- The file of examples/highway_example.py, printed as by default. -/
example (st : GenState ℝ) (so : SOState ℝ) : ∃ show' readNum p text doc,
    networkProgram highwayCalls highwayJunctions st = .ok p ∧
    OpenDrive.writeXml show' ⟨p.world.net.geoms, p.world.lanes, so⟩ "2020-11-18 10:00:00"
      ⟨"myroad", p.world.net.roads, p.junctions⟩ none true = .ok ("myroad.xodr", text) ∧
    readFile readNum text = some doc ∧ doc.name = "myroad" ∧ Shows highwayCalls highwayJoints doc ∧
    List.Forall₂ (ShowsAny highwayCalls doc) highwayJunctions doc.junctions := by
  obtain ⟨p, element, -, h1, h2, -⟩ :=
    C76_document highwayCalls highwayJoints highway_sound highwayJunctions highway_junctions st "myroad" "2020-11-18 10:00:00" so
  obtain ⟨show', readNum, p1, p2, p3⟩ := exists_printer element
  obtain ⟨text, doc, h⟩ := C76_file highwayCalls highwayJoints highway_sound highwayJunctions highway_junctions st "myroad"
    "2020-11-18 10:00:00" so p h1 element h2 show' readNum p1 p2 p3 (by decide) none true (fun _ => by decide)
  exact ⟨show', readNum, p, text, doc, h1, h⟩

end Pyodrx.Props
