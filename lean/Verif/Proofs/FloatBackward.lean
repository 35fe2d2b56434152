import Verif.Proofs.FloatPlanView

/-! # Planviews adjusted from their end, in floating point arithmetic -/

namespace Pyodrx
open PyFloat Spec

section
variable {F : Type} [PyFloat F]

/-- A geometry object is evaluated forward and then backward at the same pose: `len` and `q` are the results of the
second evaluation. -/
def TwiceBack (p : Pose F) (c : Geom F) (len : Option F) (q : Pose F) : Prop :=
  ∃ v c' c'', Geom.getEndData p c = .ok v c' ∧ Geom.getStartData p c' = .ok (q, len) c''

/-- A property of the objects in the heap that evaluation from the end keeps. -/
def KeptBack (K : Nat → Geom F → Prop) : Prop :=
  ∀ r c p v c', K r c → Geom.getStartData p c = .ok v c' → K r c'

theorem callStart_cell {r : Nat} {p : Pose F} {st st' : PVState F} {v : Pose F × Option F}
    (h : callStart r p st = .ok v st') : ∃ c', Geom.getStartData p (st.geoms.cell r) = .ok v c' ∧
      st' = { st with geoms := st.geoms.put r c' } := by
  unfold callStart at h
  split at h
  · rename_i v' c' he; cases h; exact ⟨c', he, rfl⟩
  · exact absurd h (by simp)

/-- One backward step, with the two evaluations. -/
theorem bwdStep_calls {K : Nat → Geom F → Prop} (hKept : Kept K) (hBack : KeptBack K) {r : Nat} {st st' : PVState F}
    {len : Option F} (h : PlanView.bwdStep r st = .ok len st') (hK : ∀ j, K j (st.geoms.cell j)) :
    ∃ (p1 : Pose F) (c : Geom F),
      st'.pv = { st.pv with
        present := p1
        adjGeoms := st.pv.adjGeoms ++ [⟨none, p1.x, p1.y, p1.h +. pi, len, r⟩] } ∧
      K r c ∧ TwiceBack st.pv.present c len p1 ∧ ∀ j, K j (st'.geoms.cell j) := by
  unfold PlanView.bwdStep at h
  rw [bind_of_ok (get_eq _)] at h
  obtain ⟨g, s1, h1, ha⟩ := bind_ok.mp h
  obtain ⟨⟨p, len'⟩, s2, h2, hb⟩ := bind_ok.mp ha
  clear h ha
  unfold AdjGeom.new at h1
  obtain ⟨⟨q, len0⟩, s0, h0, h1'⟩ := bind_ok.mp h1
  clear h1
  obtain ⟨rfl, rfl⟩ := pure_ok.mp h1'
  obtain ⟨c1, e1, rfl⟩ := callEnd_cell h0
  obtain ⟨c2, e2, rfl⟩ := callStart_cell h2
  dsimp only at hb
  rw [bind_of_ok (modifyPV_eq _ _)] at hb
  obtain ⟨rfl, rfl⟩ := pure_ok.mp hb
  have k1 := hKept _ _ _ _ _ (hK r) e1
  simp only [Store.put_cell, if_true] at e2
  have k2 := hBack _ _ _ _ _ k1 e2
  exact ⟨p, st.geoms.cell r, rfl, hK r, ⟨_, c1, c2, e1, e2⟩, put_kept (put_kept hK k1) k2⟩

/-- The backward loop: `Q j` are the starts of the road so far (looking backward). -/
theorem bwdLoop_calls {K : Nat → Geom F → Prop} (hKept : Kept K) (hBack : KeptBack K) (rs : List Nat) :
    ∀ {st st' : PVState F} {lens : List (Option F)}, PlanView.bwdLoop rs st = .ok lens st' →
    (∀ j, K j (st.geoms.cell j)) →
    ∃ (Q : Nat → Pose F) (len : Nat → Option F) (c : Nat → Geom F),
      st'.pv.adjGeoms = st.pv.adjGeoms ++
        rs.mapIdx (fun j r => (⟨none, (Q (j + 1)).x, (Q (j + 1)).y, (Q (j + 1)).h +. pi, len j, r⟩ : AdjGeom F)) ∧
      lens = (List.range rs.length).map len ∧
      Q 0 = st.pv.present ∧ Q rs.length = st'.pv.present ∧
      (∀ j (hj : j < rs.length), K rs[j] (c j) ∧ TwiceBack (Q j) (c j) (len j) (Q (j + 1))) ∧
      ∀ j, K j (st'.geoms.cell j) := by
  induction rs with
  | nil =>
    intro st st' lens h hK
    obtain ⟨rfl, rfl⟩ := pure_ok.mp h
    exact ⟨fun _ => st'.pv.present, fun _ => none, fun _ => st'.geoms.cell 0, by simp, by simp, rfl, rfl, by simp, hK⟩
  | cons r rs ih =>
    intro st st' lens h hK
    unfold PlanView.bwdLoop at h
    obtain ⟨len0, s1, h1, h2⟩ := bind_ok.mp h
    obtain ⟨lens1, s2, h3, h4⟩ := bind_ok.mp h2
    obtain ⟨rfl, rfl⟩ := pure_ok.mp h4
    obtain ⟨p1, c0, e, hc, htw, hK1⟩ := bwdStep_calls hKept hBack h1 hK
    obtain ⟨Q, len, c, hE, hL, hQ0, hQn, hs, hK2⟩ := ih h3 hK1
    refine ⟨consF st.pv.present Q, consF len0 len, consF c0 c, ?_, ?_, rfl, hQn, ?_, hK2⟩
    · rw [hE, e]
      simp [List.mapIdx_cons, consF, hQ0, e]
    · rw [hL, List.length_cons, List.range_succ_eq_map]
      simp [consF, Function.comp_def]
    · intro j hj
      cases j with
      | zero =>
        refine ⟨hc, ?_⟩
        show TwiceBack st.pv.present c0 len0 (Q 0)
        rw [hQ0, e]; exact htw
      | succ j => exact hs j (by simpa using hj)

/-- Everything but `s`. -/
def AdjGeom.rest (g : AdjGeom F) : F × F × F × Option F × Nat := (g.x, g.y, g.heading, g.length, g.geom)

omit [PyFloat F] in
theorem setLastS_rest (l : List (AdjGeom F)) (s : F) :
    (setLastS l s).map AdjGeom.rest = l.map AdjGeom.rest := by
  unfold setLastS
  cases hl : l.getLast? with
  | none => rfl
  | some g =>
    simp only
    have e : l = l.dropLast ++ [g] := (List.dropLast_append_getLast? g hl).symm
    conv_rhs => rw [e]
    simp [AdjGeom.rest]

/-- The distances while the lengths are added. -/
theorem sLoop_calls (ls : List F) : ∀ {st st' : PVState F} {u : Unit}, PlanView.sLoop ls st = .ok u st' →
    st'.geoms = st.geoms ∧ st'.pv.present = st.pv.present ∧ st'.pv.start = st.pv.start ∧ st'.pv.stop = st.pv.stop ∧
    st'.pv.adjGeoms.map AdjGeom.rest = st.pv.adjGeoms.map AdjGeom.rest ∧
    ∃ S : Nat → F, S 0 = st.pv.presentS ∧ S ls.length = st'.pv.presentS ∧
      ∀ j (hj : j < ls.length), S (j + 1) = S j +. ls[j] := by
  induction ls with
  | nil =>
    intro st st' u h
    obtain ⟨_, rfl⟩ := pure_ok.mp h
    exact ⟨rfl, rfl, rfl, rfl, rfl, fun _ => st'.pv.presentS, rfl, rfl, by simp⟩
  | cons l ls ih =>
    intro st st' u h
    unfold PlanView.sLoop at h
    rw [bind_of_ok (modifyPV_eq _ _), bind_of_ok (modifyPV_eq _ _)] at h
    obtain ⟨h1, h2, h3, h4, h5, S, s1, s2, s3⟩ := ih h
    refine ⟨h1, h2, h3, h4, h5.trans (setLastS_rest _ _), consF st.pv.presentS S, rfl, s2, ?_⟩
    intro j hj
    cases j with
    | zero => exact s1
    | succ j => exact s3 j (by simpa using hj)

theorem allSome_eq {α : Type} {l : List (Option α)} {l' : List α} (h : allSome l = some l') : l = l'.map some := by
  induction l generalizing l' with
  | nil => simp only [allSome, Option.some.injEq] at h; subst h; rfl
  | cons a l ih =>
    cases a with
    | none => simp [allSome] at h
    | some a =>
      simp only [allSome, Option.map_eq_some_iff] at h
      obtain ⟨l1, h1, rfl⟩ := h
      rw [ih h1]; rfl

/-- Adjusting from the end. -/
theorem adjust_backward_calls {K : Nat → Geom F → Prop} (hKept : Kept K) (hBack : KeptBack K) {st st' : PVState F}
    {u : Unit} (h : PlanView.adjustGeometries true st = .ok u st') (hK : ∀ j, K j (st.geoms.cell j)) :
    ∃ (S : Nat → F) (Q : Nat → Pose F) (L : Nat → F) (c : Nat → Geom F),
      st'.pv.adjGeoms.map AdjGeom.rest = st.pv.adjGeoms.map AdjGeom.rest ++
        st.pv.raw.reverse.mapIdx (fun j r => ((Q (j + 1)).x, (Q (j + 1)).y, (Q (j + 1)).h +. pi, some (L j), r)) ∧
      S 0 = ofInt 0 ∧ S st.pv.raw.length = st'.pv.presentS ∧ Q 0 = st.pv.present ∧
      st'.pv.start = some { Q st.pv.raw.length with h := (Q st.pv.raw.length).h +. pi } ∧
      st'.pv.stop = some { st.pv.present with h := st.pv.present.h +. pi } ∧
      (∀ j (hj : j < st.pv.raw.length), K (st.pv.raw.reverse[j]'(by simpa using hj)) (c j) ∧ S (j + 1) = S j +. L j ∧
        TwiceBack (Q j) (c j) (some (L j)) (Q (j + 1))) ∧
      ∀ j, K j (st'.geoms.cell j) := by
  unfold PlanView.adjustGeometries at h
  rw [bind_of_ok (get_eq _)] at h
  simp only [Bool.true_eq_false, if_false] at h
  rw [bind_of_ok (modifyPV_eq _ _)] at h
  obtain ⟨lens, s1, h1, h2⟩ := bind_ok.mp h
  rw [bind_of_ok (modifyPV_eq _ _)] at h2
  obtain ⟨ls, s2, h3, h4⟩ := bind_ok.mp h2
  obtain ⟨h3', rfl⟩ := orRaise_ok.mp h3
  rw [bind_of_ok (modifyPV_eq _ _)] at h4
  obtain ⟨_, s3, h5, h6⟩ := bind_ok.mp h4
  rw [modifyPV_ok] at h6
  subst h6
  obtain ⟨-, -, hsp, -⟩ := bwdLoop_gen _ h1
  obtain ⟨Q, len, c, hE, hL, hQ0, hQn, hs, hK2⟩ := bwdLoop_calls hKept hBack _ h1 hK
  obtain ⟨g1, g2, g3, g4, g5, S, t1, t2, t3⟩ := sLoop_calls _ h5
  have hlens := allSome_eq h3'
  rw [hL, List.length_reverse] at hlens
  have hlen : ls.length = st.pv.raw.length := by
    have := congrArg List.length hlens; simpa using this.symm
  have hsome : ∀ j (hj : j < st.pv.raw.length), len j = some (ls[j]'(by omega)) := by
    intro j hj
    have := congrArg (fun l => l[j]?) hlens
    simp only [List.getElem?_map] at this
    rw [List.getElem?_range (by omega), List.getElem?_eq_getElem (by omega)] at this
    simpa using this
  simp only [List.length_reverse] at hQn hs
  refine ⟨S, Q, fun j => ls.getD j (ofInt 0), c, ?_, t1, ?_, hQ0, ?_, ?_, ?_, ?_⟩
  · rw [g5]
    show s1.pv.adjGeoms.map AdjGeom.rest = _
    rw [hE, List.map_append]
    congr 1
    apply List.ext_getElem
    · simp
    · intro j j1 j2
      simp only [List.length_map, List.length_mapIdx, List.length_reverse] at j1
      have e : ls.getD j (ofInt 0) = ls[j]'(by omega) := by
        rw [List.getD_eq_getElem?_getD, List.getElem?_eq_getElem (by omega)]; rfl
      simp only [List.getElem_map, List.getElem_mapIdx, AdjGeom.rest, e, hsome j j1]
  · rw [← hlen]; exact t2
  · show s3.pv.start = _
    rw [g3, hQn]
  · show s3.pv.stop = _
    rw [g4]; exact hsp
  · intro j hj
    obtain ⟨k1, k2⟩ := hs j hj
    have e : ls.getD j (ofInt 0) = ls[j]'(by omega) := by
      rw [List.getD_eq_getElem?_getD, List.getElem?_eq_getElem (by omega)]; rfl
    refine ⟨k1, ?_, ?_⟩
    · show S (j + 1) = S j +. ls.getD j (ofInt 0)
      rw [e]; exact t3 j (by omega)
    · show TwiceBack (Q j) (c j) (some (ls.getD j (ofInt 0))) (Q (j + 1))
      rw [e, ← hsome j hj]; exact k2
  · intro j
    show K j (s3.geoms.cell j)
    rw [g1]; exact hK2 j

/-- Evaluation from the end keeps the kind of an object, the curvature of an arc and the length of a line. -/
theorem getStartData_kind {p : Pose F} {c c' : Geom F} {v : Pose F × Option F} (h : Geom.getStartData p c = .ok v c') :
    match c with
    | .line l => c' = .line l
    | .arc a => ∃ a', c' = .arc a' ∧ a'.curvature = a.curvature
    | .spiral s => c' = .spiral s
    | .poly g => ∃ len, c' = .poly { g with length := len } := by
  unfold Geom.getStartData at h
  cases c with
  | line l => cases h; rfl
  | spiral s =>
    simp only at h ⊢
    split at h <;> cases h
    rfl
  | arc a =>
    simp only at h ⊢
    split at h
    · rename_i r a' he
      cases h
      refine ⟨a', rfl, ?_⟩
      unfold Arc.getStartData Arc.eval at he
      simp only at he
      split at he <;> cases he
      rfl
    · cases h
  | poly g =>
    simp only at h ⊢
    split at h
    · rename_i r g' he
      cases h
      unfold ParamPoly3.getStartData at he
      split at he
      · cases he
      · cases he; exact ⟨_, rfl⟩
    · cases h

/-- The backward loop succeeds if all evaluations do. -/
theorem bwdLoop_succeeds {K : Nat → Geom F → Prop} (rs : List Nat)
    (hE : ∀ r ∈ rs, ∀ c p, K r c → ∃ q l c', Geom.getEndData p c = .ok (q, some l) c' ∧ K r c')
    (hS : ∀ r ∈ rs, ∀ c p, K r c → ∃ q l c', Geom.getStartData p c = .ok (q, some l) c' ∧ K r c') :
    ∀ (st : PVState F), (∀ j, K j (st.geoms.cell j)) →
    ∃ (ls : List F) (st' : PVState F), PlanView.bwdLoop rs st = .ok (ls.map some) st' ∧ ∀ j, K j (st'.geoms.cell j) := by
  induction rs with
  | nil => intro st hK; exact ⟨[], st, rfl, hK⟩
  | cons r rs ih =>
    intro st hK
    obtain ⟨q1, l1, c1, e1, k1⟩ := hE r (by simp) (st.geoms.cell r) st.pv.present (hK r)
    obtain ⟨q2, l2, c2, e2, k2⟩ := hS r (by simp) c1 st.pv.present k1
    have hcall1 : callEnd r st.pv.present st = .ok (q1, some l1) { st with geoms := st.geoms.put r c1 } := by
      simp only [callEnd, e1]
    have hcall2 : callStart r ⟨st.pv.present.x, st.pv.present.y, st.pv.present.h⟩ { st with geoms := st.geoms.put r c1 } =
        .ok (q2, some l2) { st with geoms := (st.geoms.put r c1).put r c2 } := by
      simp only [callStart, Store.put_cell, if_true, e2]
    have hnew : AdjGeom.new st.pv.presentS st.pv.present r st =
        .ok ⟨some st.pv.presentS, st.pv.present.x, st.pv.present.y, st.pv.present.h, some l1, r⟩
          { st with geoms := st.geoms.put r c1 } := by
      unfold AdjGeom.new
      rw [bind_of_ok hcall1]; rfl
    have hstep : ∃ s1, PlanView.bwdStep r st = .ok (some l2) s1 ∧ ∀ j, K j (s1.geoms.cell j) := by
      refine ⟨⟨{ st.pv with
          present := q2
          adjGeoms := st.pv.adjGeoms ++ [⟨none, q2.x, q2.y, q2.h +. pi, some l2, r⟩] },
        (st.geoms.put r c1).put r c2⟩, ?_, put_kept (put_kept hK k1) k2⟩
      unfold PlanView.bwdStep
      rw [bind_of_ok (get_eq _), bind_of_ok hnew, bind_of_ok hcall2]
      rfl
    obtain ⟨s1, hs1, hK1⟩ := hstep
    obtain ⟨ls, st', h', hK'⟩ := ih (fun r' hr' => hE r' (by simp [hr'])) (fun r' hr' => hS r' (by simp [hr'])) s1 hK1
    refine ⟨l2 :: ls, st', ?_, hK'⟩
    unfold PlanView.bwdLoop
    rw [bind_of_ok hs1, bind_of_ok h']; rfl

theorem sLoop_succeeds (ls : List F) : ∀ (st : PVState F), ∃ st', PlanView.sLoop ls st = .ok () st' := by
  induction ls with
  | nil => intro st; exact ⟨st, rfl⟩
  | cons l ls ih =>
    intro st
    unfold PlanView.sLoop
    rw [bind_of_ok (modifyPV_eq _ _), bind_of_ok (modifyPV_eq _ _)]
    exact ih _

theorem adjust_backward_succeeds {K : Nat → Geom F → Prop} (st : PVState F)
    (hE : ∀ r ∈ st.pv.raw, ∀ c p, K r c → ∃ q l c', Geom.getEndData p c = .ok (q, some l) c' ∧ K r c')
    (hS : ∀ r ∈ st.pv.raw, ∀ c p, K r c → ∃ q l c', Geom.getStartData p c = .ok (q, some l) c' ∧ K r c')
    (hK : ∀ j, K j (st.geoms.cell j)) :
    ∃ st', PlanView.adjustGeometries true st = .ok () st' ∧ ∀ j, K j (st'.geoms.cell j) := by
  obtain ⟨ls, s1, h1, hK1⟩ := bwdLoop_succeeds st.pv.raw.reverse (fun r hr => hE r (by simpa using hr))
    (fun r hr => hS r (by simpa using hr))
    ⟨{ st.pv with stop := some { st.pv.present with h := st.pv.present.h +. pi } }, st.geoms⟩ hK
  obtain ⟨s2, h2⟩ := sLoop_succeeds ls ⟨{ s1.pv with
    start := some { s1.pv.present with h := s1.pv.present.h +. pi }, presentS := ofInt 0 }, s1.geoms⟩
  obtain ⟨g1, -⟩ := sLoop_calls _ h2
  refine ⟨⟨{ s2.pv with adjusted := true }, s2.geoms⟩, ?_, by rw [g1]; exact hK1⟩
  unfold PlanView.adjustGeometries
  rw [bind_of_ok (get_eq _)]
  simp only [Bool.true_eq_false, if_false]
  rw [bind_of_ok (modifyPV_eq _ _), bind_of_ok h1, bind_of_ok (modifyPV_eq _ _)]
  have : allSome (ls.map some) = some ls := by
    clear h1 h2
    induction ls with
    | nil => rfl
    | cons a l ih => simp [allSome, ih]
  rw [this, bind_of_ok (orRaise_some _), bind_of_ok (modifyPV_eq _ _), bind_of_ok h2, modifyPV_eq]

end

end Pyodrx

namespace Pyodrx
open PyFloat Spec

variable {R : Rounding}

/-- Changing the start heading of a line or an arc. -/
theorem exactEnd_heading (k L : ℝ) (x y h h' : ℝ) :
    |((exactEnd k L ⟨x, y, h⟩).x - x) - ((exactEnd k L ⟨x, y, h'⟩).x - x)| ≤ |h - h'| * |L| ∧
    |((exactEnd k L ⟨x, y, h⟩).y - y) - ((exactEnd k L ⟨x, y, h'⟩).y - y)| ≤ |h - h'| * |L| := by
  simp only [exactEnd, drive, add_sub_cancel_left]
  have ic : ∀ h : ℝ, IntervalIntegrable (fun s => Real.cos (h + k * s)) MeasureTheory.volume 0 L :=
    fun h => (by fun_prop : Continuous fun s => Real.cos (h + k * s)).intervalIntegrable _ _
  have is : ∀ h : ℝ, IntervalIntegrable (fun s => Real.sin (h + k * s)) MeasureTheory.volume 0 L :=
    fun h => (by fun_prop : Continuous fun s => Real.sin (h + k * s)).intervalIntegrable _ _
  constructor
  · rw [← intervalIntegral.integral_sub (ic h) (ic h')]
    have := intervalIntegral.norm_integral_le_of_norm_le_const (a := (0:ℝ)) (b := L) (C := |h - h'|)
      (f := fun s => Real.cos (h + k * s) - Real.cos (h' + k * s)) (fun s _ => by
        rw [Real.norm_eq_abs]
        refine (Real.abs_cos_sub_cos_le _ _).trans (le_of_eq ?_)
        congr 1; ring)
    simpa [Real.norm_eq_abs] using this
  · rw [← intervalIntegral.integral_sub (is h) (is h')]
    have := intervalIntegral.norm_integral_le_of_norm_le_const (a := (0:ℝ)) (b := L) (C := |h - h'|)
      (f := fun s => Real.sin (h + k * s) - Real.sin (h' + k * s)) (fun s _ => by
        rw [Real.norm_eq_abs]
        refine (Real.abs_sin_sub_sin_le _ _).trans (le_of_eq ?_)
        congr 1; ring)
    simpa [Real.norm_eq_abs] using this

/-- Changing the length of a line or an arc. -/
theorem exactEnd_length (k L L' : ℝ) (p : Pose ℝ) :
    |(exactEnd k L p).x - (exactEnd k L' p).x| ≤ |L - L'| ∧
    |(exactEnd k L p).y - (exactEnd k L' p).y| ≤ |L - L'| := by
  simp only [exactEnd, drive, add_sub_add_left_eq_sub]
  have ic : ∀ a b : ℝ, IntervalIntegrable (fun s => Real.cos (p.h + k * s)) MeasureTheory.volume a b :=
    fun a b => (by fun_prop : Continuous fun s => Real.cos (p.h + k * s)).intervalIntegrable _ _
  have is : ∀ a b : ℝ, IntervalIntegrable (fun s => Real.sin (p.h + k * s)) MeasureTheory.volume a b :=
    fun a b => (by fun_prop : Continuous fun s => Real.sin (p.h + k * s)).intervalIntegrable _ _
  constructor
  · rw [intervalIntegral.integral_interval_sub_left (ic 0 L) (ic 0 L')]
    have := intervalIntegral.norm_integral_le_of_norm_le_const (a := L') (b := L) (C := 1)
      (f := fun s => Real.cos (p.h + k * s)) (fun s _ => by
        rw [Real.norm_eq_abs]; exact Real.abs_cos_le_one _)
    simpa [Real.norm_eq_abs] using this
  · rw [intervalIntegral.integral_interval_sub_left (is 0 L) (is 0 L')]
    have := intervalIntegral.norm_integral_le_of_norm_le_const (a := L') (b := L) (C := 1)
      (f := fun s => Real.sin (p.h + k * s)) (fun s _ => by
        rw [Real.norm_eq_abs]; exact Real.abs_sin_le_one _)
    simpa [Real.norm_eq_abs] using this

/-- Driving back a line or an arc. -/
theorem exactEnd_back (k L : ℝ) (p : Pose ℝ) :
    exactEnd k L (turned (exactEnd (-k) L p)) = turned p := by
  by_cases hk : k = 0
  · subst hk
    rw [exactEnd_eq, exactEnd_eq]
    simp [turned]
  · rw [exactEnd_eq, exactEnd_eq, if_neg hk, if_neg (neg_ne_zero.mpr hk)]
    have e : p.h + -k * L + Real.pi + k * L = p.h + Real.pi := by ring
    simp only [turned, e, Real.sin_add_pi, Real.cos_add_pi]
    refine congr (congr (congrArg Pose.mk ?_) ?_) rfl
    · field_simp; ring
    · field_simp; ring

/-- The start of a line or an arc computed from its end `p` (looking back). -/
theorem TwiceBack.near_back {p q : Pose (Fl R)} {c : Geom (Fl R)} {L : Fl R} {k : ℝ}
    (hc : ∀ a, c = .arc a → a.curvature.val ≠ 0) (hk : curvature c = some k) (h : TwiceBack p c (some L) q) :
    let e := exactEnd (-k) L.val (real p)
    |q.x.val - e.x| ≤ R.u * (2.1 * |p.x.val| + 6.3 * |L.val| + (3.2 * |p.h.val| + 26) * radius k) ∧
    |q.y.val - e.y| ≤ R.u * (2.1 * |p.y.val| + 6.3 * |L.val| + (3.2 * |p.h.val| + 26) * radius k) ∧
    |q.h.val - e.h| ≤ R.u * (|p.h.val| + 6.2 * |k * L.val|) := by
  have h0 := R.u_nonneg
  obtain ⟨v, c', c'', h1, h2⟩ := h
  cases c with
  | spiral g => cases hk
  | poly g => cases hk
  | line g =>
    cases hk
    have hk1 : c' = _ := getEndData_kind h1
    subst hk1
    cases h2
    intro e
    have he : e = exactEnd (-0) g.length.val (real p) := rfl
    rw [exactEnd_eq, if_pos (by norm_num)] at he
    rw [he]
    simp only [radius, if_true, real, mul_zero, add_zero, sub_self, abs_zero, zero_mul, Line.getStartData]
    have hx := abs_nonneg p.x.val
    have hy := abs_nonneg p.y.val
    have hl := abs_nonneg g.length.val
    have z : |p.h.val - p.h.val| ≤ R.u * 0 := by simp
    refine ⟨?_, ?_, by positivity⟩
    · refine (R.line_coord (t' := Real.cos p.h.val) ?_ (Real.abs_cos_le_one _)).trans
        (mul_le_mul_of_nonneg_left (by linarith) h0)
      simpa using R.near_cos z
    · refine (R.line_coord (t' := Real.sin p.h.val) ?_ (Real.abs_sin_le_one _)).trans
        (mul_le_mul_of_nonneg_left (by linarith) h0)
      simpa using R.near_sin z
  | arc a =>
    have hk0 : a.curvature.val ≠ 0 := hc a rfl
    cases hk
    obtain ⟨a1, rfl, hc1, e1⟩ := getEndData_arc h1
    have e2 : ∃ a2, Arc.eval (neg a.curvature) p a1 = .ok (q, some L) a2 := by
      unfold Geom.getStartData at h2
      simp only at h2
      split at h2
      · rename_i r a'' he
        cases h2
        unfold Arc.getStartData at he
        rw [hc1] at he
        exact ⟨_, he⟩
      · cases h2
    obtain ⟨a2, e2⟩ := e2
    obtain ⟨L1, ang, f1, f2, f3, f4, f5, f6⟩ := arc_twice' (k2 := neg a.curvature) hk0 (Fl.ext (by simp)) e1 e2 rfl
    set k := a.curvature.val with hkd
    simp only [fl_neg, ← hkd] at f4
    rw [mul_comm L1.val] at f4
    obtain ⟨g1, g2, g3⟩ := Arc.eval_near (neg a.curvature) (by simpa using hk0) p a1 a2 _ e2 ang f3 _ f4
    simp only [fl_neg, ← hkd, abs_neg] at g1 g2 g3
    have hka := abs_pos.mpr hk0
    -- the exact end for the first length
    have hE1 := exactEnd_eq (-k) L1.val (real p)
    rw [if_neg (neg_ne_zero.mpr hk0)] at hE1
    have d := exactEnd_length (-k) L1.val L.val (real p)
    rw [abs_sub_comm] at f6
    have f6' : |L1.val - L.val| ≤ R.u * (4 * |L1.val|) := by linarith
    have hL1 : |L1.val| ≤ 1.005 * |L.val| := by
      have t1 : |L1.val| ≤ |L1.val - L.val| + |L.val| := by
        calc |L1.val| = |(L1.val - L.val) + L.val| := by ring_nf
          _ ≤ _ := abs_add_le _ _
      have t2 : R.u * (4 * |L1.val|) ≤ 1 / 1000 * (4 * |L1.val|) :=
        mul_le_mul_of_nonneg_right R.u_small (by positivity)
      nlinarith [abs_nonneg L.val]
    have hkL : |-k * L1.val| / |k| = |L1.val| := by
      rw [abs_mul, abs_neg]; field_simp
    have hLL := abs_nonneg L.val
    have key : ∀ z : ℝ, R.u * (2.1 * |z| + (3.2 * |p.h.val| + 2.2 * |-k * L1.val| + 26) / |k|) + R.u * (4 * |L1.val|) ≤
        R.u * (2.1 * |z| + 6.3 * |L.val| + (3.2 * |p.h.val| + 26) * radius k) := by
      intro z
      rw [← mul_add]
      refine mul_le_mul_of_nonneg_left ?_ h0
      rw [radius, if_neg hk0]
      have e1 : (3.2 * |p.h.val| + 2.2 * |-k * L1.val| + 26) / |k| =
          (3.2 * |p.h.val| + 26) * (1 / |k|) + 2.2 * |L1.val| := by
        rw [← hkL]; ring
      rw [e1]
      linarith
    intro e
    refine ⟨?_, ?_, ?_⟩
    · have t := abs_sub_le q.x.val (exactEnd (-k) L1.val (real p)).x e.x
      refine t.trans ((add_le_add ?_ (d.1.trans f6')).trans (key p.x.val))
      rw [hE1]; exact g1
    · have t := abs_sub_le q.y.val (exactEnd (-k) L1.val (real p)).y e.y
      refine t.trans ((add_le_add ?_ (d.2.trans f6')).trans (key p.y.val))
      rw [hE1]; exact g2
    · have t := abs_sub_le q.h.val (exactEnd (-k) L1.val (real p)).h e.h
      have t2 : |(exactEnd (-k) L1.val (real p)).h - e.h| ≤ R.u * (4 * |-k * L1.val|) := by
        have : (exactEnd (-k) L1.val (real p)).h - e.h = -k * (L1.val - L.val) := by
          show (p.h.val + -k * L1.val) - (p.h.val + -k * L.val) = _
          ring
        rw [this, abs_mul, abs_mul]
        calc |-k| * |L1.val - L.val| ≤ |-k| * (R.u * (4 * |L1.val|)) := mul_le_mul_of_nonneg_left f6' (abs_nonneg _)
          _ = _ := by ring
      have t3 : |q.h.val - (exactEnd (-k) L1.val (real p)).h| ≤ R.u * (|p.h.val| + 2.1 * |-k * L1.val|) := by
        rw [hE1]; exact g3
      refine t.trans ((add_le_add t3 t2).trans ?_)
      rw [← mul_add]
      refine mul_le_mul_of_nonneg_left ?_ h0
      have : |-k * L1.val| ≤ 1.005 * |k * L.val| := by
        rw [abs_mul, abs_mul, abs_neg]
        nlinarith [mul_le_mul_of_nonneg_left hL1 (abs_nonneg k)]
      linarith [abs_nonneg (k * L.val)]

/-- The heading of someone who looks back. -/
theorem back_heading (R : Rounding) (h : ℝ) :
    |R.rnd (h + R.rnd Real.pi) - (h + Real.pi)| ≤ R.u * (|h| + 6.4) ∧
    |h| ≤ 1.002 * |R.rnd (h + R.rnd Real.pi)| + 3.2 := by
  have h0 := R.u_nonneg
  have a : |R.rnd (h + R.rnd Real.pi) - (h + Real.pi)| ≤ R.u * (|h| + 6.4) := by
    simpa using near_add_pi R (h := h) (h' := h) (c := 0) (by simp) le_rfl
  refine ⟨a, ?_⟩
  have hh := abs_nonneg h
  have b : R.u * (|h| + 6.4) ≤ 1 / 1000 * (|h| + 6.4) := mul_le_mul_of_nonneg_right R.u_small (by positivity)
  have c : |h| ≤ |R.rnd (h + R.rnd Real.pi)| + |R.rnd (h + R.rnd Real.pi) - (h + Real.pi)| + |Real.pi| := by
    calc |h| = |R.rnd (h + R.rnd Real.pi) - (R.rnd (h + R.rnd Real.pi) - (h + Real.pi)) - Real.pi| := by ring_nf
      _ ≤ |R.rnd (h + R.rnd Real.pi) - (R.rnd (h + R.rnd Real.pi) - (h + Real.pi))| + |Real.pi| := abs_sub _ _
      _ ≤ _ := by linarith [abs_sub (R.rnd (h + R.rnd Real.pi)) (R.rnd (h + R.rnd Real.pi) - (h + Real.pi))]
  have hp : |Real.pi| ≤ 3.1416 := by rw [abs_of_pos Real.pi_pos]; linarith [Real.pi_lt_d4]
  by_cases hs : |R.rnd (h + R.rnd Real.pi)| ≤ 1000
  · nlinarith [abs_nonneg (R.rnd (h + R.rnd Real.pi))]
  · nlinarith [abs_nonneg (R.rnd (h + R.rnd Real.pi))]

/-- The line or arc that is written, driven forward, ends where the backward evaluation started. -/
theorem TwiceBack.near {p q : Pose (Fl R)} {c : Geom (Fl R)} {L : Fl R} {k : ℝ}
    (hc : ∀ a, c = .arc a → a.curvature.val ≠ 0) (hk : curvature c = some k) (h : TwiceBack p c (some L) q) :
    let e := exactEnd k L.val ⟨q.x.val, q.y.val, (q.h +. pi).val⟩
    let H := (p.h +. pi).val
    |e.x - p.x.val| ≤ R.u * (3 * |p.x.val| + |L.val| * (4 * |H| + 8 * |k * L.val| + 23) + (5 * |H| + 40) * radius k) ∧
    |e.y - p.y.val| ≤ R.u * (3 * |p.y.val| + |L.val| * (4 * |H| + 8 * |k * L.val| + 23) + (5 * |H| + 40) * radius k) ∧
    |e.h - H| ≤ R.u * (4 * |H| + 8 * |k * L.val| + 23) := by
  have h0 := R.u_nonneg
  obtain ⟨n1, n2, n3⟩ := h.near_back hc hk
  intro e H
  have hback := exactEnd_back k L.val (real p)
  set E := exactEnd (-k) L.val (real p) with hE
  have hEh : E.h = p.h.val + -k * L.val := rfl
  have hHd : H = R.rnd (p.h.val + R.rnd Real.pi) := rfl
  obtain ⟨b1, b2⟩ := back_heading R p.h.val
  rw [← hHd] at b1 b2
  -- the heading that is written
  have d1 : |(q.h +. pi).val - (E.h + Real.pi)| ≤ R.u * (2.1 * |p.h.val| + 7.3 * |k * L.val| + 6.4) := by
    have := near_add_pi R n3 (by positivity)
    refine (show |(q.h +. pi).val - (E.h + Real.pi)| ≤ _ from this).trans (mul_le_mul_of_nonneg_left ?_ h0)
    have : |E.h| ≤ |p.h.val| + |k * L.val| := by
      rw [hEh]; refine (abs_add_le _ _).trans (le_of_eq ?_)
      rw [neg_mul, abs_neg]
    linarith [abs_nonneg (k * L.val), abs_nonneg p.h.val]
  have hl := exactEnd_heading k L.val q.x.val q.y.val (q.h +. pi).val (E.h + Real.pi)
  have tr : ∀ x y : ℝ, (exactEnd k L.val ⟨x, y, E.h + Real.pi⟩).x - x = p.x.val - E.x ∧
      (exactEnd k L.val ⟨x, y, E.h + Real.pi⟩).y - y = p.y.val - E.y := by
    intro x y
    have ex := congrArg Pose.x hback
    have ey := congrArg Pose.y hback
    simp only [exactEnd, drive, turned, real] at ex ey ⊢
    constructor <;> linarith
  rw [(tr _ _).1, (tr _ _).2] at hl
  have hL := abs_nonneg L.val
  have hkL := abs_nonneg (k * L.val)
  have hρ : 0 ≤ radius k := by unfold radius; split <;> positivity
  have hH := abs_nonneg H
  have hph := abs_nonneg p.h.val
  have d2 : |(q.h +. pi).val - (E.h + Real.pi)| * |L.val| ≤ R.u * ((2.1 * |p.h.val| + 7.3 * |k * L.val| + 6.4) * |L.val|) := by
    refine (mul_le_mul_of_nonneg_right d1 hL).trans (le_of_eq ?_); ring
  have key : ∀ z : ℝ, R.u * (2.1 * |z| + 6.3 * |L.val| + (3.2 * |p.h.val| + 26) * radius k) +
      R.u * ((2.1 * |p.h.val| + 7.3 * |k * L.val| + 6.4) * |L.val|) ≤
      R.u * (3 * |z| + |L.val| * (4 * |H| + 8 * |k * L.val| + 23) + (5 * |H| + 40) * radius k) := by
    intro z
    rw [← mul_add]
    refine mul_le_mul_of_nonneg_left ?_ h0
    have t1 : (3.2 * |p.h.val| + 26) * radius k ≤ (5 * |H| + 40) * radius k :=
      mul_le_mul_of_nonneg_right (by linarith) hρ
    have t2 : (2.1 * |p.h.val| + 7.3 * |k * L.val| + 6.4 + 6.3) * |L.val| ≤ (4 * |H| + 8 * |k * L.val| + 23) * |L.val| :=
      mul_le_mul_of_nonneg_right (by linarith) hL
    linarith [abs_nonneg z]
  refine ⟨?_, ?_, ?_⟩
  · refine le_trans ?_ (key p.x.val)
    calc |e.x - p.x.val| = |(q.x.val - E.x) + ((e.x - q.x.val) - (p.x.val - E.x))| := by ring_nf
      _ ≤ |q.x.val - E.x| + |(e.x - q.x.val) - (p.x.val - E.x)| := abs_add_le _ _
      _ ≤ _ := add_le_add n1 (hl.1.trans d2)
  · refine le_trans ?_ (key p.y.val)
    calc |e.y - p.y.val| = |(q.y.val - E.y) + ((e.y - q.y.val) - (p.y.val - E.y))| := by ring_nf
      _ ≤ |q.y.val - E.y| + |(e.y - q.y.val) - (p.y.val - E.y)| := abs_add_le _ _
      _ ≤ _ := add_le_add n2 (hl.2.trans d2)
  · have he : e.h = (q.h +. pi).val + k * L.val := rfl
    have : e.h - H = ((q.h +. pi).val - (E.h + Real.pi)) - (H - (p.h.val + Real.pi)) := by
      rw [he, hEh]; ring
    rw [this]
    refine (abs_sub _ _).trans ((add_le_add d1 b1).trans ?_)
    rw [← mul_add]
    refine mul_le_mul_of_nonneg_left ?_ h0
    linarith

end Pyodrx
