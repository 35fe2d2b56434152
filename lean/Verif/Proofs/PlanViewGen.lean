import Verif.Proofs.Monad

/-! # What adjusting a planview does, for every arithmetic -/

namespace Pyodrx
open PyFloat

variable {F : Type} [PyFloat F]

/-- The attributes of a planview that adjusting never touches. -/
def PlanView.frame (pv pv' : PlanView F) : Prop :=
  pv'.fixed = pv.fixed ∧ pv'.raw = pv.raw ∧ pv'.overridden = pv.overridden

omit [PyFloat F] in
theorem PlanView.frame.refl (pv : PlanView F) : pv.frame pv := ⟨rfl, rfl, rfl⟩
omit [PyFloat F] in
theorem PlanView.frame.trans {a b c : PlanView F} (h : a.frame b) (h' : b.frame c) : a.frame c :=
  ⟨h'.1.trans h.1, h'.2.1.trans h.2.1, h'.2.2.trans h.2.2⟩

theorem callEnd_ok {r : Nat} {p : Pose F} {st st' : PVState F} {v : Pose F × Option F}
    (h : callEnd r p st = .ok v st') : st'.pv = st.pv ∧ st'.geoms.next = st.geoms.next ∧
      ∀ j, j ≠ r → st'.geoms.cell j = st.geoms.cell j := by
  unfold callEnd at h
  split at h
  · cases h; exact ⟨rfl, rfl, fun j hj => Store.put_cell_ne _ _ hj⟩
  · exact absurd h (by simp)

theorem callStart_ok {r : Nat} {p : Pose F} {st st' : PVState F} {v : Pose F × Option F}
    (h : callStart r p st = .ok v st') : st'.pv = st.pv ∧ st'.geoms.next = st.geoms.next ∧
      ∀ j, j ≠ r → st'.geoms.cell j = st.geoms.cell j := by
  unfold callStart at h
  split at h
  · cases h; exact ⟨rfl, rfl, fun j hj => Store.put_cell_ne _ _ hj⟩
  · exact absurd h (by simp)

theorem adjGeomNew_ok {s : F} {p : Pose F} {r : Nat} {st st' : PVState F} {g : AdjGeom F}
    (h : AdjGeom.new s p r st = .ok g st') :
    st'.pv = st.pv ∧ st'.geoms.next = st.geoms.next ∧
      (∀ j, j ≠ r → st'.geoms.cell j = st.geoms.cell j) ∧
      ∃ len, g = ⟨some s, p.x, p.y, p.h, len, r⟩ := by
  unfold AdjGeom.new at h
  obtain ⟨⟨q, len⟩, s1, h1, h2⟩ := bind_ok.mp h
  obtain ⟨rfl, rfl⟩ := pure_ok.mp h2
  obtain ⟨ha, hb, hc⟩ := callEnd_ok h1
  exact ⟨ha, hb, hc, len, rfl⟩

/-- One forward step. -/
theorem fwdStep_gen {i r : Nat} {st st' : PVState F} {u : Unit}
    (h : PlanView.fwdStep i r st = .ok u st') :
    ∃ (p0 p1 : Pose F) (len : Option F) (l : F),
      st'.pv = { st.pv with
        present := p1
        presentS := st.pv.presentS +. l
        adjGeoms := st.pv.adjGeoms ++ [⟨some st.pv.presentS, p0.x, p0.y, p0.h, len, r⟩] } ∧
      p0.x = st.pv.present.x ∧ p0.y = st.pv.present.y ∧
      (st.pv.overridden = [] → p0 = st.pv.present) ∧
      (st.pv.overridden ≠ [] → st.pv.overridden[i]? = some p0.h) ∧
      st'.geoms.next = st.geoms.next ∧
      ∀ j, j ≠ r → st'.geoms.cell j = st.geoms.cell j := by
  have rest : ∀ (st0 st' : PVState F) (u : Unit), (do
        let st ← get
        let g ← AdjGeom.new st.pv.presentS st.pv.present r
        let (p, len) ← callEnd r ⟨g.x, g.y, g.heading⟩
        modifyPV fun pv => { pv with present := p }
        let l ← orRaise .typeError len
        modifyPV fun pv => { pv with presentS := pv.presentS +. l }
        modifyPV fun pv => { pv with adjGeoms := pv.adjGeoms ++ [g] } :
          EStateM PyErr (PVState F) Unit) st0 = .ok u st' →
      ∃ (p1 : Pose F) (len : Option F) (l : F),
      st'.pv = { st0.pv with
        present := p1
        presentS := st0.pv.presentS +. l
        adjGeoms := st0.pv.adjGeoms ++ [⟨some st0.pv.presentS, st0.pv.present.x, st0.pv.present.y,
          st0.pv.present.h, len, r⟩] } ∧
      st'.geoms.next = st0.geoms.next ∧
      ∀ j, j ≠ r → st'.geoms.cell j = st0.geoms.cell j := by
    intro st0 st' u h
    rw [bind_of_ok (get_eq _)] at h
    obtain ⟨g, s1, h1, h⟩ := bind_ok.mp h
    obtain ⟨⟨p, len⟩, s2, h2, h⟩ := bind_ok.mp h
    obtain ⟨_, s3, h3, h⟩ := bind_ok.mp h
    obtain ⟨l, s4, h4, h⟩ := bind_ok.mp h
    obtain ⟨_, s5, h5, h⟩ := bind_ok.mp h
    obtain ⟨a1, b1, c1, len0, rfl⟩ := adjGeomNew_ok h1
    obtain ⟨a2, b2, c2⟩ := callEnd_ok h2
    rw [modifyPV_ok] at h3 h5 h
    obtain ⟨_, rfl⟩ := orRaise_ok.mp h4
    subst h3 h5 h
    refine ⟨p, len0, l, ?_, ?_, ?_⟩
    · simp only [a2, a1]
    · simp only [b2, b1]
    · intro j hj; simp only [c2 j hj, c1 j hj]
  unfold PlanView.fwdStep at h
  rw [bind_of_ok (get_eq _)] at h
  split at h
  · rename_i hpos
    obtain ⟨hd, s1, h1, h2⟩ := bind_ok.mp h
    clear h
    obtain ⟨h1, rfl⟩ := orRaise_ok.mp h1
    rw [bind_of_ok (modifyPV_eq _ _)] at h2
    obtain ⟨p1, len, l, e, f1, f2⟩ := rest _ _ _ h2
    refine ⟨{ s1.pv.present with h := hd }, p1, len, l, e, rfl, rfl, ?_, ?_, f1, f2⟩
    · intro h0; rw [h0] at hpos; simp at hpos
    · intro _; exact h1
  · rename_i hpos
    obtain ⟨p1, len, l, e, f1, f2⟩ := rest _ _ _ h
    refine ⟨st.pv.present, p1, len, l, e, rfl, rfl, fun _ => rfl, ?_, f1, f2⟩
    intro h0; exact absurd (List.length_pos_iff.mpr h0) hpos

/-- The forward loop. -/
theorem fwdLoop_gen (rs : List Nat) : ∀ {i : Nat} {st st' : PVState F} {u : Unit},
    PlanView.fwdLoop i rs st = .ok u st' →
    st.pv.frame st'.pv ∧ st'.pv.start = st.pv.start ∧ st'.pv.stop = st.pv.stop ∧
    st'.pv.adjusted = st.pv.adjusted ∧
    (∃ E, st'.pv.adjGeoms = st.pv.adjGeoms ++ E ∧ E.map (·.geom) = rs ∧
      (st.pv.overridden = [] → ∀ g ∈ E.head?,
        g.s = some st.pv.presentS ∧ (⟨g.x, g.y, g.heading⟩ : Pose F) = st.pv.present)) ∧
    (rs = [] → st'.pv.present = st.pv.present) ∧
    st'.geoms.next = st.geoms.next ∧ ∀ j, j ∉ rs → st'.geoms.cell j = st.geoms.cell j := by
  induction rs with
  | nil =>
    intro i st st' u h
    obtain ⟨_, rfl⟩ := pure_ok.mp h
    exact ⟨.refl _, rfl, rfl, rfl, ⟨[], by simp⟩, fun _ => rfl, rfl, fun _ _ => rfl⟩
  | cons r rs ih =>
    intro i st st' u h
    obtain ⟨_, s1, h1, h2⟩ := bind_ok.mp h
    obtain ⟨p0, p1, len, l, e, _, _, hp, _, f1, f2⟩ := fwdStep_gen h1
    obtain ⟨hf, hst, hsp, had, ⟨E, hE, hEm, _⟩, _, f3, f4⟩ := ih h2
    refine ⟨?_, by rw [hst, e], by rw [hsp, e], by rw [had, e], ⟨⟨some st.pv.presentS, p0.x, p0.y, p0.h, len, r⟩ :: E,
        ?_, ?_, ?_⟩, by simp, f3.trans f1, ?_⟩
    · refine PlanView.frame.trans ?_ hf
      rw [e]; exact ⟨rfl, rfl, rfl⟩
    · rw [hE, e]; simp
    · simp [hEm]
    · intro h0 g hg
      simp only [List.head?_cons, Option.mem_def, Option.some.injEq] at hg
      subst hg
      exact ⟨rfl, by rw [← hp h0]⟩
    · intro j hj
      simp only [List.mem_cons, not_or] at hj
      rw [f4 j hj.2, f2 j hj.1]

/-- One backward step. -/
theorem bwdStep_gen {r : Nat} {st st' : PVState F} {lo : Option F}
    (h : PlanView.bwdStep r st = .ok lo st') :
    ∃ (p : Pose F),
      st'.pv = { st.pv with
        present := p
        adjGeoms := st.pv.adjGeoms ++ [⟨none, p.x, p.y, p.h +. pi, lo, r⟩] } ∧
      st'.geoms.next = st.geoms.next ∧
      ∀ j, j ≠ r → st'.geoms.cell j = st.geoms.cell j := by
  unfold PlanView.bwdStep at h
  rw [bind_of_ok (get_eq _)] at h
  obtain ⟨g, s1, h1, h⟩ := bind_ok.mp h
  obtain ⟨⟨p, len⟩, s2, h2, h⟩ := bind_ok.mp h
  obtain ⟨_, s3, h3, h⟩ := bind_ok.mp h
  obtain ⟨a1, b1, c1, len0, rfl⟩ := adjGeomNew_ok h1
  obtain ⟨a2, b2, c2⟩ := callStart_ok h2
  rw [modifyPV_ok] at h3
  obtain ⟨rfl, rfl⟩ := pure_ok.mp h
  subst h3
  refine ⟨p, ?_, ?_, ?_⟩
  · simp only [a2, a1]
  · simp only [b2, b1]
  · intro j hj; simp only [c2 j hj, c1 j hj]

theorem bwdLoop_gen (rs : List Nat) : ∀ {st st' : PVState F} {ls : List (Option F)},
    PlanView.bwdLoop rs st = .ok ls st' →
    st.pv.frame st'.pv ∧ st'.pv.start = st.pv.start ∧ st'.pv.stop = st.pv.stop ∧
    st'.pv.adjusted = st.pv.adjusted ∧
    (∃ E, st'.pv.adjGeoms = st.pv.adjGeoms ++ E ∧ E.map (·.geom) = rs) ∧
    st'.geoms.next = st.geoms.next ∧ ∀ j, j ∉ rs → st'.geoms.cell j = st.geoms.cell j := by
  induction rs with
  | nil =>
    intro st st' u h
    obtain ⟨_, rfl⟩ := pure_ok.mp h
    exact ⟨.refl _, rfl, rfl, rfl, ⟨[], by simp⟩, rfl, fun _ _ => rfl⟩
  | cons r rs ih =>
    intro st st' u h
    obtain ⟨l, s1, h1, h⟩ := bind_ok.mp h
    obtain ⟨ls, s2, h2, h⟩ := bind_ok.mp h
    obtain ⟨_, rfl⟩ := pure_ok.mp h
    obtain ⟨p, e, f1, f2⟩ := bwdStep_gen h1
    obtain ⟨hf, hst, hsp, had, ⟨E, hE, hEm⟩, f3, f4⟩ := ih h2
    refine ⟨?_, by rw [hst, e], by rw [hsp, e], by rw [had, e], ⟨⟨none, p.x, p.y, p.h +. pi, l, r⟩ :: E, ?_, ?_⟩,
      f3.trans f1, ?_⟩
    · refine PlanView.frame.trans ?_ hf
      rw [e]; exact ⟨rfl, rfl, rfl⟩
    · rw [hE, e]; simp
    · simp [hEm]
    · intro j hj
      simp only [List.mem_cons, not_or] at hj
      rw [f4 j hj.2, f2 j hj.1]

omit [PyFloat F] in
theorem setLastS_geom (l : List (AdjGeom F)) (s : F) :
    (setLastS l s).map (·.geom) = l.map (·.geom) := by
  unfold setLastS
  cases h : l.getLast? with
  | none => rfl
  | some g =>
    obtain ⟨ys, rfl⟩ := List.getLast?_eq_some_iff.mp h
    simp

theorem sLoop_gen (ls : List F) : ∀ {st st' : PVState F} {u : Unit},
    PlanView.sLoop ls st = .ok u st' →
    st.pv.frame st'.pv ∧ st'.pv.start = st.pv.start ∧ st'.pv.stop = st.pv.stop ∧
    st'.pv.adjusted = st.pv.adjusted ∧ st'.pv.present = st.pv.present ∧
    st'.pv.adjGeoms.map (·.geom) = st.pv.adjGeoms.map (·.geom) ∧ st'.geoms = st.geoms := by
  induction ls with
  | nil =>
    intro st st' u h
    obtain ⟨_, rfl⟩ := pure_ok.mp h
    exact ⟨.refl _, rfl, rfl, rfl, rfl, rfl, rfl⟩
  | cons l ls ih =>
    intro st st' u h
    unfold PlanView.sLoop at h
    rw [bind_of_ok (modifyPV_eq _ _), bind_of_ok (modifyPV_eq _ _)] at h
    obtain ⟨h1, h2, h3, h4, h5, h6, h7⟩ := ih h
    exact ⟨⟨h1.1, h1.2.1, h1.2.2⟩, h2, h3, h4, h5, by rw [h6]; exact setLastS_geom _ _, h7⟩

/-- A successful adjustment. -/
structure Adjusted (fromEnd : Bool) (st st' : PVState F) : Prop where
  frame : st.pv.frame st'.pv
  adjusted : st'.pv.adjusted = true
  refs : st'.pv.adjGeoms.map (·.geom) =
    st.pv.adjGeoms.map (·.geom) ++ (if fromEnd then st.pv.raw.reverse else st.pv.raw)
  start : st'.pv.start = some (if fromEnd then { st'.pv.present with h := st'.pv.present.h +. pi }
    else st.pv.present)
  stop : st'.pv.stop = some (if fromEnd then { st.pv.present with h := st.pv.present.h +. pi }
    else st'.pv.present)
  next : st'.geoms.next = st.geoms.next
  cells : ∀ j, j ∉ st.pv.raw → st'.geoms.cell j = st.geoms.cell j

theorem adjustGeometries_gen {fromEnd : Bool} {st st' : PVState F} {u : Unit}
    (h : PlanView.adjustGeometries fromEnd st = .ok u st') : Adjusted fromEnd st st' := by
  unfold PlanView.adjustGeometries at h
  rw [bind_of_ok (get_eq _)] at h
  cases fromEnd with
  | false =>
    simp only [if_true] at h
    rw [bind_of_ok (modifyPV_eq _ _)] at h
    obtain ⟨_, s1, h1, h⟩ := bind_ok.mp h
    rw [bind_of_ok (modifyPV_eq _ _), modifyPV_ok] at h
    subst h
    obtain ⟨hf, hst, hsp, had, ⟨E, hE, hEm, _⟩, _, f3, f4⟩ := fwdLoop_gen _ h1
    exact ⟨⟨hf.1, hf.2.1, hf.2.2⟩, rfl, by simp [hE, hEm], by simpa using hst, by simp, f3, f4⟩
  | true =>
    simp only [Bool.true_eq_false, if_false] at h
    rw [bind_of_ok (modifyPV_eq _ _)] at h
    obtain ⟨ls, s1, h1, h⟩ := bind_ok.mp h
    rw [bind_of_ok (modifyPV_eq _ _)] at h
    obtain ⟨ls', s2, h2, h⟩ := bind_ok.mp h
    obtain ⟨_, rfl⟩ := orRaise_ok.mp h2
    rw [bind_of_ok (modifyPV_eq _ _)] at h
    obtain ⟨_, s3, h3, h⟩ := bind_ok.mp h
    rw [modifyPV_ok] at h
    subst h
    obtain ⟨hf, hst, hsp, had, ⟨E, hE, hEm⟩, f3, f4⟩ := bwdLoop_gen _ h1
    obtain ⟨k1, k2, k3, k4, k5, k6, k7⟩ := sLoop_gen _ h3
    refine ⟨⟨k1.1.trans hf.1, k1.2.1.trans hf.2.1, k1.2.2.trans hf.2.2⟩, rfl, ?_, ?_, ?_, ?_, ?_⟩
    · simp only [k6, hE, List.map_append, hEm, if_true]
    · simp only [k2, k5, if_true]
    · simp only [k3, hsp, if_true]
    · simp only [k7, f3]
    · intro j hj
      simp only [k7]
      exact f4 j (by simpa using hj)

/-! ### Errors -/

theorem getEndData_err {p : Pose F} {g g' : Geom F} {e : PyErr}
    (h : Geom.getEndData p g = .error e g') : e = .typeError ∨ e = .zeroDivisionError := by
  cases g with
  | line l => simp [Geom.getEndData] at h
  | spiral sp =>
    simp only [Geom.getEndData, Spiral.getEndData, EulerSpiral.create] at h
    cases hl : sp.length with
    | none => simp [hl] at h; exact Or.inl h.1.symm
    | some l =>
      simp only [hl] at h
      by_cases hz : (isZero l : Bool) = true
      · simp [hz] at h; exact Or.inr h.1.symm
      · simp [hz] at h
  | arc a =>
    simp only [Geom.getEndData, Arc.getEndData, Arc.eval] at h
    split at h
    · simp at h
    · rename_i he
      split at he
      · cases he; cases h; exact Or.inl rfl
      · simp at he
  | poly q =>
    simp only [Geom.getEndData, ParamPoly3.getEndData, ParamPoly3.param] at h
    split at h
    · simp at h
    · rename_i he
      split at he
      · rename_i hp
        split at hp
        · simp at hp
        · split at hp
          · simp at hp
          · cases hp; cases he; cases h; exact Or.inl rfl
      · simp at he

theorem getStartData_err {p : Pose F} {g g' : Geom F} {e : PyErr}
    (h : Geom.getStartData p g = .error e g') : e = .typeError ∨ e = .zeroDivisionError := by
  cases g with
  | line l => simp [Geom.getStartData] at h
  | spiral sp =>
    simp only [Geom.getStartData, Spiral.getStartData, EulerSpiral.create] at h
    cases hl : sp.length with
    | none => simp [hl] at h; exact Or.inl h.1.symm
    | some l =>
      simp only [hl] at h
      by_cases hz : (isZero l : Bool) = true
      · simp [hz] at h; exact Or.inr h.1.symm
      · simp [hz] at h
  | arc a =>
    simp only [Geom.getStartData, Arc.getStartData, Arc.eval] at h
    split at h
    · simp at h
    · rename_i he
      split at he
      · cases he; cases h; exact Or.inl rfl
      · simp at he
  | poly q =>
    simp only [Geom.getStartData, ParamPoly3.getStartData, ParamPoly3.param] at h
    split at h
    · simp at h
    · rename_i he
      split at he
      · rename_i hp
        split at hp
        · simp at hp
        · split at hp
          · simp at hp
          · cases hp; cases he; cases h; exact Or.inl rfl
      · simp at he

/-- the errors adjusting a planview can raise -/
def GeomErr (e : PyErr) : Prop := e = .typeError ∨ e = .zeroDivisionError ∨ e = .indexError

theorem callEnd_err {r : Nat} {p : Pose F} {st st' : PVState F} {e : PyErr}
    (h : callEnd r p st = .error e st') : GeomErr e := by
  unfold callEnd at h
  split at h
  · simp at h
  · rename_i he
    cases h
    rcases getEndData_err he with h | h
    · exact Or.inl h
    · exact Or.inr (Or.inl h)

theorem callStart_err {r : Nat} {p : Pose F} {st st' : PVState F} {e : PyErr}
    (h : callStart r p st = .error e st') : GeomErr e := by
  unfold callStart at h
  split at h
  · simp at h
  · rename_i he
    cases h
    rcases getStartData_err he with h | h
    · exact Or.inl h
    · exact Or.inr (Or.inl h)

theorem adjGeomNew_err {s : F} {p : Pose F} {r : Nat} {st st' : PVState F} {e : PyErr}
    (h : AdjGeom.new s p r st = .error e st') : GeomErr e := by
  unfold AdjGeom.new at h
  rcases bind_error.mp h with h | ⟨a, s1, _, h⟩
  · exact callEnd_err h
  · exact absurd h (by simp [pure_eq])

theorem fwdStep_err {i r : Nat} {st st' : PVState F} {e : PyErr}
    (h : PlanView.fwdStep i r st = .error e st') : GeomErr e := by
  have rest : ∀ (st0 : PVState F), (do
        let st ← get
        let g ← AdjGeom.new st.pv.presentS st.pv.present r
        let (p, len) ← callEnd r ⟨g.x, g.y, g.heading⟩
        modifyPV fun pv => { pv with present := p }
        let l ← orRaise .typeError len
        modifyPV fun pv => { pv with presentS := pv.presentS +. l }
        modifyPV fun pv => { pv with adjGeoms := pv.adjGeoms ++ [g] } :
          EStateM PyErr (PVState F) Unit) st0 = .error e st' → GeomErr e := by
    intro st0 h
    rw [bind_of_ok (get_eq _)] at h
    rcases bind_error.mp h with h | ⟨g, s1, _, h⟩
    · exact adjGeomNew_err h
    rcases bind_error.mp h with h | ⟨⟨p, len⟩, s2, _, h⟩
    · exact callEnd_err h
    dsimp only at h
    rw [bind_of_ok (modifyPV_eq _ _)] at h
    rcases bind_error.mp h with h | ⟨l, s4, _, h⟩
    · rw [orRaise_error] at h; exact Or.inl h.2.1
    rw [bind_of_ok (modifyPV_eq _ _)] at h
    exact absurd h (by simp [modifyPV_eq])
  unfold PlanView.fwdStep at h
  rw [bind_of_ok (get_eq _)] at h
  split at h
  · rcases bind_error.mp h with h | ⟨hd, s1, _, h⟩
    · rw [orRaise_error] at h; exact Or.inr (Or.inr h.2.1)
    · rw [bind_of_ok (modifyPV_eq _ _)] at h
      exact rest _ h
  · exact rest _ h

theorem fwdLoop_err (rs : List Nat) : ∀ {i : Nat} {st st' : PVState F} {e : PyErr},
    PlanView.fwdLoop i rs st = .error e st' → GeomErr e := by
  induction rs with
  | nil => intro i st st' e h; exact absurd h (by simp [PlanView.fwdLoop, pure_eq])
  | cons r rs ih =>
    intro i st st' e h
    rcases bind_error.mp h with h | ⟨_, s1, _, h⟩
    · exact fwdStep_err h
    · exact ih h

theorem bwdStep_err {r : Nat} {st st' : PVState F} {e : PyErr}
    (h : PlanView.bwdStep r st = .error e st') : GeomErr e := by
  unfold PlanView.bwdStep at h
  rw [bind_of_ok (get_eq _)] at h
  rcases bind_error.mp h with h | ⟨g, s1, _, h⟩
  · exact adjGeomNew_err h
  rcases bind_error.mp h with h | ⟨⟨p, len⟩, s2, _, h⟩
  · exact callStart_err h
  dsimp only at h
  rw [bind_of_ok (modifyPV_eq _ _)] at h
  exact absurd h (by simp [pure_eq])

theorem bwdLoop_err (rs : List Nat) : ∀ {st st' : PVState F} {e : PyErr},
    PlanView.bwdLoop rs st = .error e st' → GeomErr e := by
  induction rs with
  | nil => intro st st' e h; exact absurd h (by simp [PlanView.bwdLoop, pure_eq])
  | cons r rs ih =>
    intro st st' e h
    rcases bind_error.mp h with h | ⟨_, s1, _, h⟩
    · exact bwdStep_err h
    rcases bind_error.mp h with h | ⟨_, s1, _, h⟩
    · exact ih h
    · exact absurd h (by simp [pure_eq])

theorem sLoop_err (ls : List F) : ∀ {st st' : PVState F} {e : PyErr},
    PlanView.sLoop ls st ≠ .error e st' := by
  induction ls with
  | nil => intro st st' e; simp [PlanView.sLoop, pure_eq]
  | cons l ls ih =>
    intro st st' e
    unfold PlanView.sLoop
    rw [bind_of_ok (modifyPV_eq _ _), bind_of_ok (modifyPV_eq _ _)]
    exact ih

theorem adjustGeometries_err {fromEnd : Bool} {st st' : PVState F} {e : PyErr}
    (h : PlanView.adjustGeometries fromEnd st = .error e st') : GeomErr e := by
  unfold PlanView.adjustGeometries at h
  rw [bind_of_ok (get_eq _)] at h
  cases fromEnd with
  | false =>
    simp only [if_true] at h
    rw [bind_of_ok (modifyPV_eq _ _)] at h
    rcases bind_error.mp h with h | ⟨_, s1, _, h⟩
    · exact fwdLoop_err _ h
    · rw [bind_of_ok (modifyPV_eq _ _)] at h
      exact absurd h (by simp [modifyPV_eq])
  | true =>
    simp only [Bool.true_eq_false, if_false] at h
    rw [bind_of_ok (modifyPV_eq _ _)] at h
    rcases bind_error.mp h with h | ⟨_, s1, _, h⟩
    · exact bwdLoop_err _ h
    rw [bind_of_ok (modifyPV_eq _ _)] at h
    rcases bind_error.mp h with h | ⟨_, s2, _, h⟩
    · rw [orRaise_error] at h; exact Or.inl h.2.1
    rw [bind_of_ok (modifyPV_eq _ _)] at h
    rcases bind_error.mp h with h | ⟨_, s2, _, h⟩
    · exact absurd h (sLoop_err _)
    · exact absurd h (by simp [modifyPV_eq])

end Pyodrx
