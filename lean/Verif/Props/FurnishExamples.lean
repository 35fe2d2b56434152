import Verif.Props.Furnish
import Verif.Props.UnlinkedExamples

/-! # C79: the examples junction_with_signals.py and multiple_geometries_one_road_with_objects.py -/

namespace Pyodrx.Props
open Pyodrx Spec

/-- `Object(s, t, height=.., zOffset=.., Type=.., name=..)`, signals_objects.py:362-381 -/
noncomputable def exObject (s t zOffset : ℝ) (height : Option ℝ) (type : ObjectType) (name : String) : Obj ℝ :=
  Obj.new s t (.obj type) none none (some name) .no zOffset .none 0 0 0 none none height none none

/-- examples/multiple_geometries_one_road_with_objects.py:58-73 -/
noncomputable def exObjects : List (Int × FurnishCall ℝ) := [
  (1, .roadside (exObject 0 0 0.4 (some 0.3) .barrier "guardRail") 0 0 0.8 .both),
  (1, .roadside (exObject 0 0 0 (some 1) .pole "delineator") 50 25 0.85 .both),
  (1, .objects [exObject 30 (-6) 0 none .pole "emergencyCallBox"]),
  (1, .objects [(exObject 0 0 0 (some 0.75) .barrier "jerseyBarrier").repeat 25 0 { sStart := some 240 }])]

/-- What one sees of an object: name and place. -/
def spot (x : RObject ℝ) : Option String × ℝ × ℝ := (x.placed.name, x.placed.s, x.placed.t)

theorem spot_shown {g : Obj ℝ} {x : RObject ℝ} (h : ShowsObject g x) : spot x = (g.base.name, g.base.s, g.base.t) := by
  obtain ⟨i, rfl⟩ := h
  rfl

theorem spots_shown {gs : List (Int × Obj ℝ)} {xs : List (RObject ℝ)}
    (h : List.Forall₂ (fun g x => ShowsObject g.2 x) gs xs) :
    xs.map spot = gs.map fun g => (g.2.base.name, g.2.base.s, g.2.base.t) := by
  induction h with
  | nil => rfl
  | cons h _ ih => rw [List.map_cons, List.map_cons, ih, spot_shown h]

/-- examples/multiple_geometries_one_road_with_objects.py: the road shows the six objects at their places. -/
example (st : GenState ℝ) (date : String) (so : SOState ℝ) : ∃ p element doc a,
    furnishedNetwork manyGeometries [] [] exObjects st so = .ok p ∧
    OpenDrive.getElement ⟨p.world.net.geoms, p.world.lanes, p.so⟩ date ⟨"myroad", p.world.net.roads, p.junctions⟩ =
      .ok element ∧
    readDocument element = some doc ∧ Shows manyGeometries [] doc ∧ doc.roads = [a] ∧ (a.objects.map (·.placed.id)).Nodup ∧
    a.objects.map spot = [(some "guardRail", 0, 3.8), (some "guardRail", 0, -3.8), (some "delineator", 25, 3.85),
      (some "delineator", 25, -3.85), (some "emergencyCallBox", 30, -6), (some "jerseyBarrier", 0, 0)] := by
  obtain ⟨p, element, doc, h1, h2, h3, -, h4, -, h5⟩ := C79_network manyGeometries [] manyGeometries_sound [] (by simp) []
    exObjects ⟨by simp [exObjects, manyGeometries], by simp [exObjects, FurnishCall.signalsOf]⟩ (by simp) st so "myroad" date
  obtain ⟨a, l, ha, h6, hl⟩ := List.forall₂_cons_left_iff.mp h4.roads
  cases h6
  refine ⟨p, element, doc, a, h1, h2, h3, h4, hl, ?_⟩
  obtain ⟨xs, x1, x2, x3⟩ := h5.objects
  have x4 := x3 a (by simp [hl])
  have hall : ∀ g ∈ orderedObjects doc ([] ++ exObjects), g.1 = 1 := by
    intro g hg
    obtain ⟨c, hc, hg⟩ := List.mem_flatMap.mp hg
    have hc1 : c.1 = 1 := by
      simp only [exObjects, List.nil_append, List.mem_cons, List.not_mem_nil, or_false] at hc
      rcases hc with rfl | rfl | rfl | rfl <;> rfl
    split at hg
    · cases hg
    · obtain ⟨o, -, rfl⟩ := List.mem_map.mp hg
      exact hc1
  have x5 : a.objects = xs := by
    rw [x4, List.filter_eq_self.mpr, List.map_snd_zip]
    · exact x1.length_eq.ge
    · intro p hp
      rw [hall p.1 (List.of_mem_zip hp).1, ha.id]
      exact decide_eq_true rfl
  rw [x5]
  refine ⟨x2.nodup, ?_⟩
  rw [spots_shown x1]
  obtain ⟨sec, l', hsec, h7, hl'⟩ := List.forall₂_cons_left_iff.mp ha.sections
  cases h7
  obtain ⟨y, l1, hy, h8, e1⟩ := List.forall₂_cons_left_iff.mp hsec.left
  cases h8
  obtain ⟨z, l2, hz, h9, e2⟩ := List.forall₂_cons_left_iff.mp hsec.right
  cases h9
  have hfind : doc.roads.find? (fun b => b.id = strInt 1) = some a := by
    rw [hl, List.find?_cons_of_pos]
    exact decide_eq_true ha.id
  have hy' : y.a = 3 := hy.width.1
  have hz' : z.a = 3 := hz.width.1
  have hs' : sec.s = 0 := hsec.s
  simp only [orderedObjects, exObjects, List.nil_append, List.flatMap_cons, List.flatMap_nil, hfind, FurnishCall.objectsOf, hl',
    e1, e2, List.map_cons, List.map_nil, List.sum_cons, List.sum_nil, hy', hz', hs', List.append_nil]
  simp [besideRoad, exObject, Obj.new, Obj.repeat]
  norm_num

/-- The arguments of the junction of the examples. -/
noncomputable def exAngles : List ℝ := [0, 1 * 2 * Real.pi / 4, 2 * 2 * Real.pi / 4, 3 * 2 * Real.pi / 4]

/-- The four roads of examples/full_junction.py and examples/junction_with_signals.py. -/
theorem fourRoads (st : GenState ℝ) (so : SOState ℝ) : ∃ (roads : List (Road ℝ)) (st' : GenState ℝ) (arm : Nat → List Piece),
    straightRoads 100 1 3 0 4 st = .ok roads st' ∧ roads.length = 4 ∧ Arms st' 1 1 arm 100 roads ∧
    (roads.Pairwise fun p q => ∀ x ∈ lanesOf p, x ∉ lanesOf q) ∧ strInt 1 ∈ allIds roads 100 ∧
    roads.map (·.id) = [0, 1, 2, 3].map PyId.int ∧ (∀ a ∈ roads, a.objects = [] ∧ a.signals = []) ∧
    ∀ (i : Nat) (a : Road ℝ), roads[i]? = some a → Complete st' so (arm i) a := by
  obtain ⟨roads, st', arm, h1, h2, h3, h5, h6, h4, -⟩ := C61_example 4 1 (by norm_num) le_rfl 100 3 st
    exAngles (by simp [exAngles]) 8 (1 / 3) (1 / 3)
    (by norm_num) (by norm_num) (by norm_num) (by norm_num) 1 (by norm_num) 100 (by norm_num)
  obtain ⟨-, hc⟩ := straightRoads_complete _ _ _ _ _ _ _ _ h1
  refine ⟨roads, st', arm, h1, h2, h3, h6, h4, ?_, ?_, ?_⟩
  · obtain ⟨roads', st'', e1, -, -, e2, -⟩ := straightRoads_arms 100 1 3 100 4 0 st
    rw [h1] at e1; cases e1
    have : [0, 1, 2, 3].map PyId.int = (List.range roads.length).map fun k : Nat => PyId.int k := by rw [h2]; rfl
    rw [this]
    refine map_range _ _ _ fun k a hk => ?_
    rw [(e2 k a hk).1]; simp
  · intro a ha
    obtain ⟨-, c3, -⟩ := hc a ha
    exact ⟨c3.empty.1, c3.empty.2.1⟩
  · intro i a ha
    obtain ⟨⟨g, c1, c2⟩, c3, -, -, c4⟩ := hc a (List.mem_of_getElem? ha)
    obtain ⟨g', e⟩ := h5 i (by rw [← h2]; exact (List.getElem?_eq_some_iff.mp ha).1)
    have hraw := (h3.arm i a ha).plan.raw
    rw [c1, e] at hraw
    simp only [List.map_cons, List.map_nil, List.cons.injEq, and_true] at hraw
    refine ⟨by rw [e]; simp, ?_, ?_, ?_⟩
    · intro pc hpc q hq
      rw [e, List.mem_singleton] at hpc
      subst hpc
      rw [← hraw, c2] at hq
      cases hq
    · intro sec hsec x hx
      obtain ⟨x1, x2, -, x4⟩ := c4 sec hsec x hx
      refine ⟨x1, x2, fun m hm hl => ?_⟩
      rw [x4 m hm] at hl; cases hl
    · rw [c3.empty.2.1]; simp

/-- `Signal(s=.., t=.., country="USA", Type="R1", subtype="1", orientation=..)`, signals_objects.py:189-208 -/
noncomputable def exSignal (s t : ℝ) (o : Orientation) : Signal ℝ :=
  Signal.new s t "USA" "R1" "1" none none .no none none 0 o 0 0 0 none none

/-- examples/junction_with_signals.py:16-19 -/
noncomputable def exSignals : List (Int × FurnishCall ℝ) := [
  (0, .signals [exSignal 98 (-4) .none]), (1, .signals [exSignal 2 4 .negative]),
  (2, .signals [exSignal 2 4 .negative]), (3, .signals [exSignal 2 4 .negative])]

/-- examples/junction_with_signals.py: the document is that of examples/full_junction.py, with four roads, six connecting
roads and a junction; each of the four roads shows its signal. -/
example (st : GenState ℝ) (so : SOState ℝ) (date : String) : ∃ roads st' p element doc,
    straightRoads 100 1 3 0 4 st = .ok roads st' ∧
    furnishedJunction roads exAngles 8 1 (1 / 3) (1 / 3) 100 exSignals [] st' so = .ok p ∧
    OpenDrive.getElement ⟨p.world.net.geoms, p.world.lanes, p.so⟩ date ⟨"myroad", p.world.net.roads, p.junctions⟩ =
      .ok element ∧
    readDocument element = some doc ∧ doc.ShowsJunction ["0", "1", "2", "3"] 1 100 1 ∧ doc.Closes 0.000005 0.0000001 ∧
    ∃ x0 x1 x2 x3 : RSignal ℝ, [x0.placed.id, x1.placed.id, x2.placed.id, x3.placed.id].Nodup ∧
      ShowsSignal (exSignal 98 (-4) .none) x0 ∧ (∀ x ∈ [x1, x2, x3], ShowsSignal (exSignal 2 4 .negative) x) ∧
      ∀ a ∈ doc.roads, a.objects = [] ∧ a.signals =
        if a.id = "0" then [x0] else if a.id = "1" then [x1] else if a.id = "2" then [x2] else if a.id = "3" then [x3]
        else [] := by
  obtain ⟨roads, st', arm, h1, h2, h3, h4, h5, h6, h7, h8⟩ := fourRoads st so
  obtain ⟨res, element0, doc0, p, element, doc, r1, r2, r3, r4, r5, r6, r7, r8⟩ := C79_junction (r := 8) (sp := 1 / 3)
    (ap := 1 / 3) (junction := 1) (angles := exAngles) h3 le_rfl le_rfl (by simp [h2, exAngles]) (by norm_num) (by norm_num)
    (by norm_num) (by norm_num) (by norm_num) h5 h8 [0, 1, 2, 3] h6 h7 exSignals []
    ⟨by simp [exSignals], by simp [exSignals, FurnishCall.signalsOf, exSignal, Signal.new]⟩ ⟨by simp, by simp⟩
    (by simp [exSignals, FurnishCall.NeedsAdjusted]) "myroad" date
  obtain ⟨res', element', doc', k1, k2, k3, k4, k5⟩ := C66_right_angles (r := 8) (sp := 1 / 3) (ap := 1 / 3) (junction := 1)
    (angles := exAngles) h3 le_rfl le_rfl h4 (by simp [h2, exAngles]) (by norm_num) (by norm_num) (by norm_num) (by norm_num)
    (by norm_num) (by norm_num) h5 (by rw [h2]; exact four_way) h8 "myroad" date
  rw [r1] at k1; cases k1
  rw [r2] at k2; cases k2
  rw [r3] at k3; cases k3
  have hids : roads.map (fun a => a.id.toStr) = ["0", "1", "2", "3"] := by
    have := congrArg (List.map PyId.toStr) h6
    rw [List.map_map] at this
    exact this.trans (by decide +kernel)
  rw [hids] at k4
  rw [← r7] at k4 k5
  refine ⟨roads, st', p, element, doc, h1, r4, r5, r6, showsJunction_of_unfurnished k4, ?_, ?_⟩
  · intro c hc b hb hj hl
    obtain ⟨u, v, e1, e2, e3⟩ := closes_of_unfurnished k5 c hc b hb hj hl
    obtain ⟨n1, n2, n3⟩ := e3
    exact ⟨u, v, e1, e2, n1.trans (by norm_num), n2.trans (by norm_num), n3.trans (by norm_num)⟩
  · obtain ⟨xs, s1, s2, s3⟩ := r8.signals
    obtain ⟨ys, o1, -, o3⟩ := r8.objects
    have hno : orderedObjects doc (exSignals ++ []) = [] := by
      simp only [orderedObjects, List.flatMap_eq_nil_iff]
      intro c hc
      split
      · rfl
      · simp only [exSignals, List.append_nil, List.mem_cons, List.not_mem_nil, or_false] at hc
        rcases hc with rfl | rfl | rfl | rfl <;> rfl
    obtain ⟨x0, t0, g0, q1, rfl⟩ := List.forall₂_cons_left_iff.mp s1
    obtain ⟨x1, t1, g1, q2, rfl⟩ := List.forall₂_cons_left_iff.mp q1
    obtain ⟨x2, t2, g2, q3, rfl⟩ := List.forall₂_cons_left_iff.mp q2
    obtain ⟨x3, t3, g3, q4, rfl⟩ := List.forall₂_cons_left_iff.mp q3
    cases q4
    refine ⟨x0, x1, x2, x3, s2.nodup, g0, by simp; exact ⟨g1, g2, g3⟩, fun a ha => ⟨by rw [o3 a ha, hno]; rfl, ?_⟩⟩
    have e0 : strInt 0 = "0" := by decide
    have e1 : strInt 1 = "1" := by decide
    have e2 : strInt 2 = "2" := by decide
    have e3 : strInt 3 = "3" := by decide
    rw [s3 a ha]
    simp only [orderedSignals, exSignals, FurnishCall.signalsOf, List.append_nil, List.flatMap_cons, List.flatMap_nil,
      List.map_cons, List.map_nil, List.cons_append, List.nil_append, List.zip_cons_cons, List.zip_nil_left, List.filter_cons,
      List.filter_nil, e0, e1, e2, e3, decide_eq_true_eq]
    by_cases c0 : a.id = "0"
    · simp [c0]
    by_cases c1 : a.id = "1"
    · simp [c1]
    by_cases c2 : a.id = "2"
    · simp [c2]
    by_cases c3 : a.id = "3"
    · simp [c3]
    simp [c0, c1, c2, c3, Ne.symm c0, Ne.symm c1, Ne.symm c2, Ne.symm c3]

end Pyodrx.Props
