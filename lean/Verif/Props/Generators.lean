import Verif.Proofs.Generators
import Verif.Props.PlanView

/-! # C45–C50: the road and junction generators -/

namespace Pyodrx.Props
open PyFloat Spec

section
variable {F : Type} [PyFloat F]

theorem onlyNew_of_built {lanes lanes' : Store (Lane F)} {sec : LaneSection F} {w : F} {nl nr : Nat}
    {cm : RoadMark F → Prop} {f g : Nat → RoadMarkType} {a b : GenState F}
    (h : BuiltSection lanes lanes' sec w nl nr cm f g)
    (h1 : a.lanes = lanes) (h2 : b.lanes = lanes') (h3 : a.geoms.next ≤ b.geoms.next)
    (h4 : ∀ x, x < a.geoms.next → b.geoms.cell x = a.geoms.cell x) : OnlyNew a b := by
  subst h1; subst h2
  exact ⟨h3, h.grows, h4, h.old⟩

/-! ## C45 -/

/-- C45: `create_road` with geometries that have a length. -/
theorem C45_create_road (gs : List Nat) (id : PyId) (nl nr : Nat) (roadType : Int)
    (mark : RoadMark F) (w : F) (st : GenState F)
    (h : ∀ g ∈ gs, ((st.geoms.cell g).length).isSome) :
    ∃ r st' sec, createRoad gs id nl nr roadType mark w st = .ok r st' ∧
      r.id = id ∧ r.roadType = roadType ∧ Unlinked r ∧ FreshPlan r.planview gs ∧
      r.lanesections = [sec] ∧
      BuiltSection st.lanes st'.lanes sec w nl nr (· = mark)
        (fun i => if i + 1 = nl then .solid else .broken)
        (fun i => if i + 1 = nr then .solid else .broken) ∧
      (st'.lanes.cell sec.center).a = ofInt 0 ∧
      st'.geoms = st.geoms ∧ OnlyNew st st' := by
  have hb := builtSection_road st.lanes (plainCenter mark) (cmark := (· = mark)) ⟨rfl, rfl, rfl, mark, rfl, rfl⟩ w nl nr
  refine ⟨_, _, _, createRoad_eq gs id nl nr roadType mark w st h, rfl, rfl,
    ⟨rfl, rfl, rfl, rfl, ⟨rfl, rfl⟩, rfl, rfl, rfl, rfl⟩, ⟨rfl, rfl, rfl, rfl, rfl, rfl, rfl⟩, rfl, hb,
    ?_, rfl, onlyNew_of_built hb rfl rfl (Nat.le_refl _) (fun _ _ => rfl)⟩
  all_goals
    dsimp only
    rw [grow_old _ _ (by simp [grow]; omega), grow_old _ _ (by simp [grow])]
    have := grow_new st.lanes (fun _ => plainCenter mark) (show 0 < 1 by omega)
    rw [Nat.add_zero] at this
    unfold plainCenter at this
    rw [this]
    rfl

/-- C45: a geometry without a length (an arc given by its angle, a normalized ParamPoly3 that was
not evaluated yet) makes `create_road` raise a `TypeError` and create nothing. -/
theorem C45_no_length (gs : List Nat) (id : PyId) (nl nr : Nat) (roadType : Int)
    (mark : RoadMark F) (w : F) (st : GenState F) (h : ∃ g ∈ gs, (st.geoms.cell g).length = none) :
    createRoad gs id nl nr roadType mark w st = .error .typeError st := by
  unfold createRoad
  rw [bind_of_error (addGeometries_error gs _ st h)]

/-! ## C46 -/

/-- C46: the lanes and the plan of `create_straight_road`. -/
theorem C46_create_straight_road (id : PyId) (length : F) (junction : Int) (n : Nat) (w : F)
    (st : GenState F) :
    ∃ r st' sec g, createStraightRoad id length junction n w st = .ok r st' ∧
      r.id = id ∧ r.roadType = junction ∧ Unlinked r ∧ FreshPlan r.planview [g] ∧
      r.lanesections = [sec] ∧
      BuiltSection st.lanes st'.lanes sec w n n (PlainMark .broken) (fun _ => .broken) (fun _ => .broken) ∧
      st'.geoms.cell g = .line ⟨length⟩ ∧ st.geoms.next ≤ g ∧ OnlyNew st st' := by
  have hb := builtSection_sym st.lanes w n
  refine ⟨_, _, _, _, createStraightRoad_eq id length junction n w st, rfl, rfl,
    ⟨rfl, rfl, rfl, rfl, ⟨rfl, rfl⟩, rfl, rfl, rfl, rfl⟩, ⟨rfl, rfl, rfl, rfl, rfl, rfl, rfl⟩, rfl, hb,
    ?_, Nat.le_refl _, onlyNew_of_built hb rfl rfl ?_ ?_⟩
  · simp [Store.alloc]
  · simp [Store.alloc]
  · intro x hx
    simp only [Store.alloc]
    rw [if_neg (by omega)]

/-- C46 (finding): the centre lane of a straight road has the width 3, whatever width was asked for. -/
theorem C46_center_width (id : PyId) (length : F) (junction : Int) (n : Nat) (w : F)
    (st st' : GenState F) (r : Road F)
    (h : createStraightRoad id length junction n w st = .ok r st') :
    ∃ sec, r.lanesections = [sec] ∧ (st'.lanes.cell sec.center).a = ofInt 3 := by
  rw [createStraightRoad_eq] at h
  cases h
  refine ⟨_, rfl, ?_⟩
  simp only [symSection, symLanes]
  rw [grow_old _ _ (by simp [grow])]
  have := grow_new st.lanes (fun _ => numberedLane (ofInt 3) stdBroken 0) (show 0 < 1 by omega)
  rw [Nat.add_zero] at this
  rw [this]
  rfl

end

/-- adjusting a road made by a generator -/
theorem adjust_fresh (pv : PlanView ℝ) (pcs : List Piece) (hf : FreshPlan pv (pcs.map (·.ref)))
    (p : Pose ℝ) (geoms : Store (Geom ℝ)) (hd : Describes geoms pcs)
    (hh : ∀ pc ∈ pcs, pc.heading = none) :
    ∃ st, PlanView.adjustGeometries false ⟨pv.setStartPoint p, geoms⟩ = .ok () st ∧
      st.pv.adjGeoms = layout 0 p pcs ∧ st.pv.getTotalLength = totalLen pcs ∧
      st.pv.start = some p ∧ st.pv.stop = some (finish p pcs) ∧ st.pv.adjusted = true := by
  obtain ⟨g', h6, _, _⟩ := adjust_forward_real (pv.setStartPoint p) pcs geoms hf.raw hd (by
    intro j hj
    left
    exact ⟨hf.headings, hh _ (List.getElem_mem hj)⟩)
  refine ⟨_, h6, ?_⟩
  have h1 := hf.unadjusted.2.1
  have h2 := hf.unadjusted.2.2
  simp [PlanView.setStartPoint, h1, h2, PlanView.getTotalLength]

theorem setStart_fresh {pv : PlanView ℝ} {gs : List Nat} (hf : FreshPlan pv gs) :
    pv.setStartPoint ⟨0, 0, 0⟩ = pv := by
  have := hf.pose
  cases pv
  simp only [PlanView.setStartPoint]
  simp only [real_ofInt, Int.cast_zero] at this
  rw [this]

/-- C46: the geometry of a straight road, adjusted from any start. -/
theorem C46_geometry (id : PyId) (length : ℝ) (junction : Int) (n : Nat) (w : ℝ)
    (st st' : GenState ℝ) (r : Road ℝ)
    (h : createStraightRoad id length junction n w st = .ok r st') (p : Pose ℝ) :
    ∃ s, PlanView.adjustGeometries false ⟨r.planview.setStartPoint p, st'.geoms⟩ = .ok () s ∧
      s.pv.start = some p ∧
      s.pv.stop = some ⟨p.x + length * Real.cos p.h, p.y + length * Real.sin p.h, p.h⟩ ∧
      s.pv.getTotalLength = length ∧ s.pv.adjGeoms.length = 1 := by
  obtain ⟨r', st1, sec, g, h1, _, _, _, hf, _, _, hg, _⟩ :=
    C46_create_straight_road id length junction n w st
  rw [h] at h1
  cases h1
  obtain ⟨s, h2, h3, h4, h5, h6, _⟩ := adjust_fresh r.planview
    [⟨g, .ofHeading (fun _ => 0) length, none⟩] hf p st'.geoms
    (by intro pc hpc; simp at hpc; subst hpc; simp [hg, shapeOf]) (by simp)
  refine ⟨s, h2, h5, ?_, ?_, ?_⟩
  · rw [h6]
    simp [finish, Piece.start, Shape.place, Shape.ofHeading]
  · rw [h4]; simp [totalLen, Shape.ofHeading]
  · rw [h3]; simp [layout]

/-- C46: the same as it comes out of the generator: from the origin to (length, 0), heading 0. -/
theorem C46_from_origin (id : PyId) (length : ℝ) (junction : Int) (n : Nat) (w : ℝ)
    (st st' : GenState ℝ) (r : Road ℝ)
    (h : createStraightRoad id length junction n w st = .ok r st') :
    ∃ s, PlanView.adjustGeometries false ⟨r.planview, st'.geoms⟩ = .ok () s ∧
      s.pv.start = some ⟨0, 0, 0⟩ ∧ s.pv.stop = some ⟨length, 0, 0⟩ ∧
      s.pv.getTotalLength = length := by
  obtain ⟨s, h1, h2, h3, h4, _⟩ := C46_geometry id length junction n w st st' r h ⟨0, 0, 0⟩
  obtain ⟨r', st1, sec, g, h5, _, _, _, hf, _⟩ :=
    C46_create_straight_road id length junction n w st
  rw [h] at h5
  cases h5
  rw [setStart_fresh hf] at h1
  exact ⟨s, h1, h2, by simpa using h3, h4⟩

/-! ## C47 -/

/-- The sign by which `create_cloth_arc_cloth` multiplies everything. -/
noncomputable def flipSign (k cloth : ℝ) : ℝ := if cloth < 0 ∧ 0 < k then -1 else 1

theorem flip_ite (k cloth x : ℝ) :
    (if lt cloth (ofInt 0) && lt (ofInt 0) k then PyFloat.neg x else x) = flipSign k cloth * x := by
  unfold flipSign
  by_cases h1 : cloth < 0 <;> by_cases h2 : 0 < k <;> simp [h1, h2]

theorem flipSign_abs (k cloth : ℝ) : |flipSign k cloth| = 1 := by
  unfold flipSign; split <;> simp

theorem flipSign_ne (k cloth : ℝ) : flipSign k cloth ≠ 0 := by
  unfold flipSign; split <;> simp

/-- C47: what `create_cloth_arc_cloth` builds: a spiral, an arc and a spiral whose curvature goes
from ±cloth_start to ±arc_curv, stays there and goes back. -/
theorem C47_create_cloth_arc_cloth (k arc cloth : ℝ) (id : PyId) (junction : Int) (cs : ℝ) (n : Nat)
    (w : ℝ) (st : GenState ℝ) (hk : k ≠ 0) (hcs : |cs| ≤ |k|) (hcl : cloth ≠ 0) :
    ∃ r st' sec g1 g2 g3, createClothArcCloth k arc cloth id junction cs n w st = .ok r st' ∧
      r.id = id ∧ r.roadType = junction ∧ Unlinked r ∧ FreshPlan r.planview [g1, g2, g3] ∧
      r.lanesections = [sec] ∧
      BuiltSection st.lanes st'.lanes sec w n n (PlainMark .broken) (fun _ => .broken) (fun _ => .broken) ∧
      (let σ : ℝ := if cloth < 0 ∧ 0 < k then -1 else 1
       st'.geoms.cell g1 = .spiral ⟨σ * cs, σ * k, some (2 * |cloth| / |k|)⟩ ∧
       st'.geoms.cell g2 = .arc ⟨σ * k, none, some (σ * arc)⟩ ∧
       st'.geoms.cell g3 = .spiral ⟨σ * k, σ * cs, some (2 * |cloth| / |k|)⟩) ∧
      st.geoms.next ≤ g1 ∧ g1 < g2 ∧ g2 < g3 ∧ g3 < st'.geoms.next ∧ OnlyNew st st' := by
  have hσ := flipSign_ne k cloth
  have hk' : flipSign k cloth * k ≠ 0 := mul_ne_zero hσ hk
  have hcl' : flipSign k cloth * cloth ≠ 0 := mul_ne_zero hσ hcl
  have habs : ∀ x, |flipSign k cloth * x| = |x| := fun x => by rw [abs_mul, flipSign_abs, one_mul]
  have hk0 : |k| ≠ 0 := abs_ne_zero.mpr hk
  have hs1 := createClothArcCloth_eq k arc cloth id junction cs n w st
    ⟨flipSign k cloth * cs, flipSign k cloth * k, some (2 * |cloth| / |k|)⟩
    ⟨flipSign k cloth * k, flipSign k cloth * cs, some (2 * |cloth| / |k|)⟩
    ⟨flipSign k cloth * k, none, some (flipSign k cloth * arc)⟩
    (by
      rw [flip_ite, flip_ite, flip_ite]
      simp [Spiral.new, countGiven, hcl', habs, max_eq_left hcs, hk])
    (by
      rw [flip_ite, flip_ite]
      simp [Arc.new, hk'])
    (by
      rw [flip_ite, flip_ite, flip_ite]
      simp [Spiral.new, countGiven, hcl', habs, max_eq_right hcs, hk])
  have hb := builtSection_sym st.lanes w n
  refine ⟨_, _, _, _, _, _, hs1, rfl, rfl,
    ⟨rfl, rfl, rfl, rfl, ⟨rfl, rfl⟩, rfl, rfl, rfl, rfl⟩, ⟨rfl, rfl, rfl, rfl, rfl, rfl, rfl⟩, rfl, hb,
    ⟨?_, ?_, ?_⟩, Nat.le_refl _, by omega, by omega, ?_, onlyNew_of_built hb rfl rfl ?_ ?_⟩
  · rw [alloc_old _ _ (by simp only [alloc_next]; omega),
      alloc_old _ _ (by simp only [alloc_next]; omega), alloc_new]; rfl
  · rw [alloc_old _ _ (by simp only [alloc_next]; omega)]
    exact alloc_new ((st.geoms.alloc _).1) _
  · exact alloc_new ((((st.geoms.alloc _).1).alloc _).1) _
  · simp only [alloc_next]; omega
  · simp only [alloc_next]; omega
  · intro x hx
    rw [alloc_old _ _ (by simp only [alloc_next]; omega),
      alloc_old _ _ (by simp only [alloc_next]; omega), alloc_old _ _ hx]

/-- the end of a spiral-arc-spiral road -/
theorem turn_of_cells {pv : PlanView ℝ} {g1 g2 g3 : Nat} {σ k arc cloth cs : ℝ}
    {geoms : Store (Geom ℝ)} (hσ : |σ| = 1) (hk : k ≠ 0) (hcl : cloth ≠ 0) (harc : arc ≠ 0)
    (hf : FreshPlan pv [g1, g2, g3])
    (c1 : geoms.cell g1 = .spiral ⟨σ * cs, σ * k, some (2 * |cloth| / |k|)⟩)
    (c2 : geoms.cell g2 = .arc ⟨σ * k, none, some (σ * arc)⟩)
    (c3 : geoms.cell g3 = .spiral ⟨σ * k, σ * cs, some (2 * |cloth| / |k|)⟩) (p : Pose ℝ) :
    ∃ s q, PlanView.adjustGeometries false ⟨pv.setStartPoint p, geoms⟩ = .ok () s ∧
      s.pv.start = some p ∧ s.pv.stop = some q ∧ s.pv.adjGeoms.length = 3 ∧
      q.h = p.h + σ * (|arc| * k / |k| + 2 * |cloth| * (k + cs) / |k|) ∧
      s.pv.getTotalLength = |arc| / |k| + 4 * |cloth| / |k| := by
  have hσ0 : σ ≠ 0 := by rintro rfl; simp at hσ
  have hk' : σ * k ≠ 0 := mul_ne_zero hσ0 hk
  have habs : ∀ x, |σ * x| = |x| := fun x => by rw [abs_mul, hσ, one_mul]
  have hk0 : |k| ≠ 0 := abs_ne_zero.mpr hk
  set L := 2 * |cloth| / |k| with hL
  have hL0 : L ≠ 0 := by
    rw [hL]; exact div_ne_zero (mul_ne_zero two_ne_zero (abs_ne_zero.mpr hcl)) hk0
  obtain ⟨s, h2, h3, h4, h5, h6, _⟩ := adjust_fresh pv
    [⟨g1, .ofHeading (fun s => σ * cs * s + (σ * k - σ * cs) / L * (s ^ 2 / 2)) L, none⟩,
     ⟨g2, .ofHeading (fun s => σ * k * s) (|arc| / |k|), none⟩,
     ⟨g3, .ofHeading (fun s => σ * k * s + (σ * cs - σ * k) / L * (s ^ 2 / 2)) L, none⟩] hf p geoms
    (by
      intro pc hpc
      simp only [List.mem_cons, List.not_mem_nil, or_false] at hpc
      rcases hpc with rfl | rfl | rfl
      · simp [c1, shapeOf, hL0]
      · simp only [c2, shapeOf, hk', if_false, arcLength, arcLength.viaAngle]
        rw [if_pos (by simpa [harc] using left_ne_zero_of_mul hk')]
        simp [habs]
      · simp [c3, shapeOf, hL0]) (by simp)
  refine ⟨s, _, h2, h5, h6, ?_, ?_, ?_⟩
  · rw [h3]; simp [layout]
  · simp only [finish, Piece.start, Shape.place, Shape.ofHeading]
    rw [hL]
    have hc0 : |cloth| ≠ 0 := abs_ne_zero.mpr hcl
    field_simp
    ring
  · rw [h4]
    simp only [totalLen, Shape.ofHeading, List.map_cons, List.map_nil, List.sum_cons, List.sum_nil]
    rw [hL]
    ring

/-- C47: the turn and the length of the road, from any start. -/
theorem C47_turn (k arc cloth : ℝ) (id : PyId) (junction : Int) (cs : ℝ) (n : Nat)
    (w : ℝ) (st st' : GenState ℝ) (r : Road ℝ) (hk : k ≠ 0) (hcs : |cs| ≤ |k|) (hcl : cloth ≠ 0)
    (harc : arc ≠ 0) (h : createClothArcCloth k arc cloth id junction cs n w st = .ok r st')
    (p : Pose ℝ) :
    ∃ s q, PlanView.adjustGeometries false ⟨r.planview.setStartPoint p, st'.geoms⟩ = .ok () s ∧
      s.pv.start = some p ∧ s.pv.stop = some q ∧ s.pv.adjGeoms.length = 3 ∧
      q.h = p.h + (if cloth < 0 ∧ 0 < k then -1 else 1) *
        (|arc| * k / |k| + 2 * |cloth| * (k + cs) / |k|) ∧
      s.pv.getTotalLength = |arc| / |k| + 4 * |cloth| / |k| := by
  obtain ⟨r', st1, sec, g1, g2, g3, h1, _, _, _, hf, _, _, ⟨c1, c2, c3⟩, _⟩ :=
    C47_create_cloth_arc_cloth k arc cloth id junction cs n w st hk hcs hcl
  rw [h] at h1
  cases h1
  exact turn_of_cells (flipSign_abs k cloth) hk hcl harc hf c1 c2 c3 p

/-- C47: with a positive curvature and angles of the same sign the road turns by
arc_angle + 2·cloth_angle·(1 + cloth_start / arc_curv). -/
theorem C47_turn_same_sign (k arc cloth : ℝ) (id : PyId) (junction : Int) (cs : ℝ) (n : Nat)
    (w : ℝ) (st : GenState ℝ) (hk : 0 < k) (hcs : 0 ≤ cs) (hcs' : cs ≤ k) (hsign : 0 < arc * cloth)
    (p : Pose ℝ) :
    ∃ r st' s q, createClothArcCloth k arc cloth id junction cs n w st = .ok r st' ∧
      PlanView.adjustGeometries false ⟨r.planview.setStartPoint p, st'.geoms⟩ = .ok () s ∧
      s.pv.start = some p ∧ s.pv.stop = some q ∧
      q.h = p.h + (arc + 2 * cloth * (1 + cs / k)) := by
  have harc : arc ≠ 0 := left_ne_zero_of_mul hsign.ne'
  have hcl : cloth ≠ 0 := right_ne_zero_of_mul hsign.ne'
  have hab : |cs| ≤ |k| := by rwa [abs_of_nonneg hcs, abs_of_pos hk]
  obtain ⟨r, st', _, _, _, _, h1, _⟩ :=
    C47_create_cloth_arc_cloth k arc cloth id junction cs n w st hk.ne' hab hcl
  obtain ⟨s, q, h2, h3, h4, _, h5, _⟩ := C47_turn k arc cloth id junction cs n w st st' r hk.ne' hab
    hcl harc h1 p
  refine ⟨r, st', s, q, h1, h2, h3, h4, ?_⟩
  rw [h5, abs_of_pos hk]
  rcases lt_or_gt_of_ne hcl with hc | hc
  · have ha : arc < 0 := by
      by_contra h0
      have := mul_nonpos_of_nonneg_of_nonpos (not_lt.mp h0) hc.le
      linarith
    rw [if_pos ⟨hc, hk⟩, abs_of_neg ha, abs_of_neg hc]
    field_simp
    ring
  · have ha : 0 < arc := by
      by_contra h0
      have := mul_nonpos_of_nonpos_of_nonneg (not_lt.mp h0) hc.le
      linarith
    rw [if_neg (fun h => absurd h.1 (not_lt.mpr hc.le)), abs_of_pos ha, abs_of_pos hc]
    field_simp

/-- C47 (finding): the sign of arc_angle is ignored: a road asked to turn left by its clothoids and
right by its arc turns left all the way. -/
theorem C47_arc_sign_ignored (k arc cloth : ℝ) (id : PyId) (junction : Int) (cs : ℝ) (n : Nat)
    (w : ℝ) (st : GenState ℝ) (hk : 0 < k) (hcs : 0 ≤ cs) (hcs' : cs ≤ k) (ha : arc < 0)
    (hc : 0 < cloth) (p : Pose ℝ) :
    ∃ r st' s q, createClothArcCloth k arc cloth id junction cs n w st = .ok r st' ∧
      PlanView.adjustGeometries false ⟨r.planview.setStartPoint p, st'.geoms⟩ = .ok () s ∧
      s.pv.stop = some q ∧ q.h = p.h + (-arc + 2 * cloth * (1 + cs / k)) := by
  have hab : |cs| ≤ |k| := by rwa [abs_of_nonneg hcs, abs_of_pos hk]
  obtain ⟨r, st', _, _, _, _, h1, _⟩ :=
    C47_create_cloth_arc_cloth k arc cloth id junction cs n w st hk.ne' hab hc.ne'
  obtain ⟨s, q, h2, h3, h4, _, h5, _⟩ := C47_turn k arc cloth id junction cs n w st st' r hk.ne' hab
    hc.ne' ha.ne h1 p
  refine ⟨r, st', s, q, h1, h2, h4, ?_⟩
  rw [h5, abs_of_pos hk, if_neg (fun h => absurd h.1 (not_lt.mpr hc.le)), abs_of_neg ha, abs_of_pos hc]
  field_simp

/-- A spiral without a length at the end where the adjusting starts makes it raise. -/
theorem adjust_no_length {fromEnd : Bool} {s : PVState ℝ} {g : Nat} {rest : List Nat} {a b : ℝ}
    (ho : s.pv.overridden = []) (hr : (if fromEnd then s.pv.raw.reverse else s.pv.raw) = g :: rest)
    (hg : s.geoms.cell g = .spiral ⟨a, b, none⟩) :
    ∃ s', PlanView.adjustGeometries fromEnd s = .error .typeError s' := by
  have hcall : ∀ (q : Pose ℝ) (s : PVState ℝ), s.geoms.cell g = .spiral ⟨a, b, none⟩ →
      ∀ x, ∃ s', AdjGeom.new x q g s = .error .typeError s' := by
    intro q s hg x
    refine ⟨_, bind_of_error (s₁ := { s with geoms := s.geoms.put g (.spiral ⟨a, b, none⟩) }) ?_⟩
    simp [callEnd, hg, Geom.getEndData, Spiral.getEndData, EulerSpiral.create]
  cases fromEnd with
  | false =>
    simp only [Bool.false_eq_true, if_false] at hr
    obtain ⟨s', h⟩ := hcall s.pv.present ⟨{ s.pv with start := some s.pv.present }, s.geoms⟩ hg s.pv.presentS
    refine ⟨s', ?_⟩
    have h1 : PlanView.fwdStep 0 g ⟨{ s.pv with start := some s.pv.present }, s.geoms⟩ = .error .typeError s' := by
      unfold PlanView.fwdStep
      rw [bind_of_ok (get_eq _)]
      simp only [ho, List.length_nil, gt_iff_lt, lt_irrefl, if_false]
      rw [bind_of_ok (get_eq _)]
      simp only [ho] at h
      exact bind_of_error h
    unfold PlanView.adjustGeometries
    rw [bind_of_ok (get_eq _)]
    simp only [if_true, hr]
    rw [bind_of_ok (modifyPV_eq _ _)]
    exact bind_of_error (bind_of_error h1)
  | true =>
    simp only [if_true] at hr
    obtain ⟨s', h⟩ := hcall s.pv.present
      ⟨{ s.pv with stop := some { s.pv.present with h := s.pv.present.h +. pi } }, s.geoms⟩ hg s.pv.presentS
    refine ⟨s', ?_⟩
    unfold PlanView.adjustGeometries
    rw [bind_of_ok (get_eq _)]
    simp only [Bool.true_eq_false, if_false, hr]
    rw [bind_of_ok (modifyPV_eq _ _)]
    have h1 : PlanView.bwdStep g
        ⟨{ s.pv with stop := some { s.pv.present with h := s.pv.present.h +. pi } }, s.geoms⟩ =
          .error .typeError s' := by
      unfold PlanView.bwdStep
      rw [bind_of_ok (get_eq _)]
      exact bind_of_error h
    exact bind_of_error (bind_of_error h1)

/-- C47 (violation): with `cloth_angle=0` (a plain arc asked for) the road is made without complaint, but adjusting
it, from any start and in either direction, raises `TypeError`: the clothoids have no length. -/
theorem C47_zero_cloth (k arc : ℝ) (id : PyId) (junction : Int) (cs : ℝ) (n : Nat) (w : ℝ)
    (st : GenState ℝ) (hk : k ≠ 0) :
    ∃ r st', createClothArcCloth k arc 0 id junction cs n w st = .ok r st' ∧
      ∀ p fromEnd, ∃ s, PlanView.adjustGeometries fromEnd ⟨r.planview.setStartPoint p, st'.geoms⟩ =
        .error .typeError s := by
  have hs1 := createClothArcCloth_eq k arc 0 id junction cs n w st ⟨cs, k, none⟩ ⟨k, cs, none⟩
    ⟨k, none, some arc⟩ (by simp [Spiral.new, countGiven]) (by simp [Arc.new, hk])
    (by simp [Spiral.new, countGiven])
  refine ⟨_, _, hs1, fun p fromEnd => ?_⟩
  have c1 : ((((st.geoms.alloc (.spiral ⟨cs, k, none⟩)).1.alloc (.arc ⟨k, none, some arc⟩)).1.alloc
      (.spiral ⟨k, cs, none⟩)).1.cell st.geoms.next) = .spiral ⟨cs, k, none⟩ := by
    rw [alloc_old _ _ (by simp only [alloc_next]; omega),
      alloc_old _ _ (by simp only [alloc_next]; omega), alloc_new]
  have c3 : ((((st.geoms.alloc (.spiral ⟨cs, k, none⟩)).1.alloc (.arc ⟨k, none, some arc⟩)).1.alloc
      (.spiral ⟨k, cs, none⟩)).1.cell (st.geoms.next + 2)) = .spiral ⟨k, cs, none⟩ :=
    alloc_new ((((st.geoms.alloc _).1).alloc _).1) _
  cases fromEnd with
  | false => exact adjust_no_length rfl rfl c1
  | true => exact adjust_no_length rfl rfl c3

/-- The hypotheses of `C45_create_road`: a line of 100 m and an arc of 50 m; of `C45_no_length`: an arc given by its
angle. -/
example : ∃ st : GenState ℝ, (∀ g ∈ [0, 1], ((st.geoms.cell g).length).isSome) ∧
    ∃ g ∈ [0, 2], (st.geoms.cell g).length = none :=
  ⟨⟨⟨fun g => if g = 0 then .line ⟨100⟩ else if g = 1 then .arc ⟨1 / 20, some 50, none⟩
      else .arc ⟨1 / 20, none, some 1⟩, 3⟩, ⟨fun _ => Lane.new .driving 3 0 0 0 0, 0⟩⟩, by simp [Geom.length]⟩

/-- The hypotheses of the C47 theorems: a left turn by 90 degrees with radius 8 m. -/
example : (1 / 8 : ℝ) ≠ 0 ∧ |(1 / 1000000000 : ℝ)| ≤ |1 / 8| ∧ Real.pi / 6 ≠ 0 ∧
    0 < Real.pi / 6 * (Real.pi / 6) := by
  have := Real.pi_pos
  refine ⟨by norm_num, by norm_num, by positivity, by positivity⟩

end Pyodrx.Props
