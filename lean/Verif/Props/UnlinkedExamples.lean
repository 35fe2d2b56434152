import Verif.Props.LaneSectionExamples

/-! # C76: the example programs with roads that are not linked -/

namespace Pyodrx.Props
open Pyodrx Spec

/-- A program without links fits together if each of its roads does and begins somewhere. -/
theorem unlinked_sound {calls : List (RoadCall ℝ)} (hi : (calls.map (·.id)).Nodup) (h0 : calls ≠ [])
    (hb : ∀ c ∈ calls, Begins calls c.id) (ht : ∀ c ∈ calls, c.roadType = -1) (hl : ∀ c ∈ calls, c.pred = none ∧ c.succ = none)
    (hg : ∀ c ∈ calls, c.geometry ≠ [] ∧ ∀ g ∈ c.geometry, (c.Made → g.length.isSome) ∧ (shapeOf g).isSome ∧
      ∀ p, g = .poly p → p.prange = "normalized" ∨ p.prange = "arcLength")
    (hs : ∀ c ∈ calls, c.sections ≠ [])
    (hm : ∀ c ∈ calls, ∀ l, l = c.center ∨ (∃ n, c.lane n = some l) → ∀ m, l.mark = some m → m.line.isSome → m.width.isSome)
    (hin : ∀ c ∈ calls, ∀ p s, (p, s) ∈ c.laneLinks → p.1 < s.1 ∧ (c.lane p).isSome ∧ (c.lane s).isSome) : Sound calls [] := by
  have hlink : ∀ c ∈ calls, ∀ e, c.link e = none := by
    intro c hc e
    cases e
    · exact (hl c hc).1
    · exact (hl c hc).2
  have hj : ∀ c ∈ calls, ∀ {e k e' n}, ¬ c.Joins e k e' n := by
    intro c hc e k e' n h
    rw [RoadCall.Joins, hlink c hc] at h
    cases h
  refine ⟨hi, ⟨h0, fun c hc _ => ht c hc⟩, hg, hs, hm, hin, ?_, ?_, ?_, ?_, ?_, ?_, ?_, ?_, by simp, ?_, ?_, ?_, ?_, ?_⟩
  · intro c hc e l h; rw [hlink c hc] at h; cases h
  · intro c hc e l h; rw [hlink c hc] at h; cases h
  · intro c hc _ e l h; rw [hlink c hc] at h; cases h
  · intro a ha b hb e e' n n' _ _ h; exact absurd h (hj a ha)
  · intro c hc h; exact absurd (ht c hc) h
  · intro c hc h; exact absurd (ht c hc) h
  · intro c hc h; exact absurd (ht c hc) h
  · intro c hc e k e' n h; exact absurd h (hj c hc)
  · intro k
    refine ⟨fun h => (by simp at h), fun ⟨h1, h2⟩ => ?_⟩
    obtain ⟨c, hc, rfl⟩ := List.mem_map.mp h1
    exact absurd (hb c hc) h2
  · intro k e k' e' h; cases h
  · intro i k nb h; cases h
  · intro c hc; exact .inl (hb c hc)
  · intro c hc; exact .inl (hb c hc)

/-- examples/two_roads.py:9-35, and with other numbers 42-70: a road that starts at a given place -/
noncomputable def exStraight (start : Pose ℝ) (length : ℝ) (id : Int) : RoadCall ℝ :=
  ⟨[exLine length], id, .drawn (some start) (exLane 2 .solid) [⟨0, [exLane 3.1 .solid], [exLane 3.1 .solid]⟩] [], -1, none, none⟩

/-- examples/two_roads.py -/
noncomputable def twoRoads : List (RoadCall ℝ) := [exStraight ⟨0, 0, 0⟩ 100 1, exStraight ⟨0, 10, Real.pi / 2⟩ 200 2]

theorem twoRoads_sound : Sound twoRoads [] := by
  refine unlinked_sound ?_ ?_ ?_ ?_ ?_ ?_ ?_ ?_ ?_
  · simp [twoRoads, exStraight]
  · simp [twoRoads]
  · intro c hc
    refine .inl ⟨c, hc, rfl, ?_⟩
    simp only [twoRoads, List.mem_cons, List.not_mem_nil, or_false] at hc
    rcases hc with rfl | rfl <;> rfl
  all_goals intro c hc; simp only [twoRoads, List.mem_cons, List.not_mem_nil, or_false] at hc
  · rcases hc with rfl | rfl <;> rfl
  · rcases hc with rfl | rfl <;> exact ⟨rfl, rfl⟩
  · rcases hc with rfl | rfl <;> simp [exStraight, exLine, shapeOf, Geom.length]
  · rcases hc with rfl | rfl <;> simp [exStraight, RoadCall.sections]
  · rcases hc with rfl | rfl <;> refine marks_of ?_ ?_ <;> simp [exStraight, RoadCall.center, RoadCall.sections, exLane, std_width]
  · rcases hc with rfl | rfl <;> simp [exStraight, RoadCall.laneLinks]

/-- The roads of examples/two_roads.py start where the program says. -/
example (st : GenState ℝ) (date : String) (so : SOState ℝ) : ∃ p element doc, networkProgram twoRoads [] st = .ok p ∧
    OpenDrive.getElement ⟨p.world.net.geoms, p.world.lanes, so⟩ date ⟨"myroad", p.world.net.roads, p.junctions⟩ = .ok element ∧
    readDocument element = some doc ∧ Shows twoRoads [] doc ∧ ∃ a b, doc.roads = [a, b] ∧
      a.poseAt .start = some ⟨0, 0, 0⟩ ∧ b.poseAt .start = some ⟨0, 10, Real.pi / 2⟩ := by
  obtain ⟨p, element, doc, h1, h2, h3, -, h4, -⟩ := C76_document twoRoads [] twoRoads_sound [] (by simp) st "myroad" date so
  refine ⟨p, element, doc, h1, h2, h3, h4, ?_⟩
  obtain ⟨a, l, ha, h5, hl⟩ := List.forall₂_cons_left_iff.mp h4.roads
  obtain ⟨b, l', hb, h6, rfl⟩ := List.forall₂_cons_left_iff.mp h5
  cases h6
  refine ⟨a, b, hl, ?_, ?_⟩
  · exact h4.origin _ (by simp [twoRoads]) a (by simp [hl]) ha.id (.inl ⟨_, List.mem_cons_self .., rfl, rfl⟩)
  · exact h4.origin (exStraight ⟨0, 10, Real.pi / 2⟩ 200 2) (by simp [twoRoads]) b (by simp [hl]) hb.id
      (.inl ⟨_, List.mem_cons_of_mem _ (List.mem_cons_self ..), rfl, rfl⟩)

/-- examples/multiple_geometries_one_road.py; the arc is `Arc(0.05, angle=np.pi/2)` -/
noncomputable def manyGeometries : List (RoadCall ℝ) := [
  ⟨[exLine 100, .arc ⟨0.05, none, some (Real.pi / 2)⟩, exLine 100, exSpiral 0.05 (-0.1) 30, exLine 100], 1,
    .drawn none (exLane 2 .solid) [⟨0, [exLane 3 .solid], [exLane 3 .solid]⟩] [], -1, none, none⟩]

theorem manyGeometries_sound : Sound manyGeometries [] := by
  refine unlinked_sound ?_ ?_ ?_ ?_ ?_ ?_ ?_ ?_ ?_
  · simp [manyGeometries]
  · simp [manyGeometries]
  · intro c hc
    refine .inr ⟨by simp [manyGeometries, RoadCall.start], ?_⟩
    rw [show c = _ from List.mem_singleton.mp hc]; rfl
  all_goals intro c hc; simp only [manyGeometries, List.mem_singleton] at hc; subst hc
  · rfl
  · exact ⟨rfl, rfl⟩
  · have : (0.05 : ℝ) ≠ 0 := by norm_num
    simp [RoadCall.Made, exLine, exSpiral, shapeOf, arcLength, arcLength.viaAngle, this]
  · simp [RoadCall.sections]
  · refine marks_of ?_ ?_ <;> simp [RoadCall.center, RoadCall.sections, exLane, std_width]
  · simp [RoadCall.laneLinks]

end Pyodrx.Props
