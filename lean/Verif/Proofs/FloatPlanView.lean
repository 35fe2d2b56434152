import Verif.Spec.Float
import Verif.Proofs.Float

/-! # Planviews in floating point arithmetic -/

namespace Pyodrx
open PyFloat Spec

section
variable {F : Type} [PyFloat F]

/-- A geometry object is evaluated twice at the same pose: `len` is the first length, `q` and `l` are the second end and
length. -/
def Twice (p : Pose F) (c : Geom F) (len : Option F) (q : Pose F) (l : F) : Prop :=
  ∃ q' c' c'', Geom.getEndData p c = .ok (q', len) c' ∧ Geom.getEndData p c' = .ok (q, some l) c''

/-- A property of the objects in the heap that evaluation keeps. -/
def Kept (K : Nat → Geom F → Prop) : Prop :=
  ∀ r c p v c', K r c → Geom.getEndData p c = .ok v c' → K r c'

theorem callEnd_cell {r : Nat} {p : Pose F} {st st' : PVState F} {v : Pose F × Option F}
    (h : callEnd r p st = .ok v st') : ∃ c', Geom.getEndData p (st.geoms.cell r) = .ok v c' ∧
      st' = { st with geoms := st.geoms.put r c' } := by
  unfold callEnd at h
  split at h
  · rename_i v' c' he; cases h; exact ⟨c', he, rfl⟩
  · exact absurd h (by simp)

theorem put_kept {K : Nat → Geom F → Prop} {g : Store (Geom F)} (hK : ∀ j, K j (g.cell j)) {r : Nat} {c : Geom F}
    (hc : K r c) : ∀ j, K j ((g.put r c).cell j) := by
  intro j
  by_cases hj : j = r
  · subst hj; rw [Store.put_cell, if_pos rfl]; exact hc
  · rw [Store.put_cell_ne _ _ hj]; exact hK j

/-- One forward step, with the two evaluations. -/
theorem fwdStep_calls {K : Nat → Geom F → Prop} (hKept : Kept K) {i r : Nat} {st st' : PVState F} {u : Unit}
    (h : PlanView.fwdStep i r st = .ok u st') (hK : ∀ j, K j (st.geoms.cell j)) :
    ∃ (p0 p1 : Pose F) (len : Option F) (l : F) (c : Geom F),
      st'.pv = { st.pv with
        present := p1
        presentS := st.pv.presentS +. l
        adjGeoms := st.pv.adjGeoms ++ [⟨some st.pv.presentS, p0.x, p0.y, p0.h, len, r⟩] } ∧
      p0.x = st.pv.present.x ∧ p0.y = st.pv.present.y ∧
      (st.pv.overridden = [] → p0 = st.pv.present) ∧ K r c ∧ Twice p0 c len p1 l ∧
      ∀ j, K j (st'.geoms.cell j) := by
  have rest : ∀ (st0 st' : PVState F) (u : Unit), (∀ j, K j (st0.geoms.cell j)) → (do
        let st ← get
        let g ← AdjGeom.new st.pv.presentS st.pv.present r
        let (p, len) ← callEnd r ⟨g.x, g.y, g.heading⟩
        modifyPV fun pv => { pv with present := p }
        let l ← orRaise .typeError len
        modifyPV fun pv => { pv with presentS := pv.presentS +. l }
        modifyPV fun pv => { pv with adjGeoms := pv.adjGeoms ++ [g] } :
          EStateM PyErr (PVState F) Unit) st0 = .ok u st' →
      ∃ (p1 : Pose F) (len : Option F) (l : F) (c : Geom F),
      st'.pv = { st0.pv with
        present := p1
        presentS := st0.pv.presentS +. l
        adjGeoms := st0.pv.adjGeoms ++ [⟨some st0.pv.presentS, st0.pv.present.x, st0.pv.present.y,
          st0.pv.present.h, len, r⟩] } ∧ K r c ∧ Twice st0.pv.present c len p1 l ∧
      ∀ j, K j (st'.geoms.cell j) := by
    intro st0 st' u hK h
    rw [bind_of_ok (get_eq _)] at h
    obtain ⟨g, s1, h1, ha⟩ := bind_ok.mp h
    obtain ⟨⟨p, len⟩, s2, h2, hb⟩ := bind_ok.mp ha
    obtain ⟨_, s3, h3, hc⟩ := bind_ok.mp hb
    obtain ⟨l, s4, h4, hd⟩ := bind_ok.mp hc
    obtain ⟨_, s5, h5, he⟩ := bind_ok.mp hd
    clear h ha hb hc hd
    unfold AdjGeom.new at h1
    obtain ⟨⟨q, len0⟩, s0, h0, h1'⟩ := bind_ok.mp h1
    clear h1
    obtain ⟨rfl, rfl⟩ := pure_ok.mp h1'
    obtain ⟨c1, e1, rfl⟩ := callEnd_cell h0
    obtain ⟨c2, e2, rfl⟩ := callEnd_cell h2
    rw [modifyPV_ok] at h3 h5 he
    obtain ⟨hl, rfl⟩ := orRaise_ok.mp h4
    subst h3 h5 he hl
    have k1 := hKept _ _ _ _ _ (hK r) e1
    simp only [Store.put_cell, if_true] at e2
    have k2 := hKept _ _ _ _ _ k1 e2
    refine ⟨p, len0, l, st0.geoms.cell r, rfl, hK r, ⟨q, c1, c2, e1, e2⟩, ?_⟩
    exact put_kept (put_kept hK k1) k2
  unfold PlanView.fwdStep at h
  rw [bind_of_ok (get_eq _)] at h
  split at h
  · rename_i hpos
    obtain ⟨hd, s1, h1, h2⟩ := bind_ok.mp h
    clear h
    obtain ⟨h1, rfl⟩ := orRaise_ok.mp h1
    rw [bind_of_ok (modifyPV_eq _ _)] at h2
    obtain ⟨p1, len, l, c, e, f1, f2, f3⟩ := rest _ _ _ (by exact hK) h2
    refine ⟨{ s1.pv.present with h := hd }, p1, len, l, c, e, rfl, rfl, ?_, f1, f2, f3⟩
    intro h0; rw [h0] at hpos; simp at hpos
  · rename_i hpos
    obtain ⟨p1, len, l, c, e, f1, f2, f3⟩ := rest _ _ _ hK h
    exact ⟨st.pv.present, p1, len, l, c, e, rfl, rfl, fun _ => rfl, f1, f2, f3⟩

/-- Prepend a value. -/
def consF {α : Type} (a : α) (f : Nat → α) : Nat → α
  | 0 => a
  | n + 1 => f n

/-- The forward loop: `S j` are the distances, `Q j` the ends of the road so far, `P j` the starts of the geometries. -/
theorem fwdLoop_calls {K : Nat → Geom F → Prop} (hKept : Kept K) (rs : List Nat) :
    ∀ {i : Nat} {st st' : PVState F} {u : Unit}, PlanView.fwdLoop i rs st = .ok u st' →
    (∀ j, K j (st.geoms.cell j)) →
    ∃ (S : Nat → F) (P Q : Nat → Pose F) (len : Nat → Option F) (l : Nat → F) (c : Nat → Geom F),
      st'.pv.adjGeoms = st.pv.adjGeoms ++
        rs.mapIdx (fun j r => (⟨some (S j), (P j).x, (P j).y, (P j).h, len j, r⟩ : AdjGeom F)) ∧
      S 0 = st.pv.presentS ∧ S rs.length = st'.pv.presentS ∧ Q 0 = st.pv.present ∧ Q rs.length = st'.pv.present ∧
      (∀ j (hj : j < rs.length), K rs[j] (c j) ∧ (P j).x = (Q j).x ∧ (P j).y = (Q j).y ∧
        (st.pv.overridden = [] → P j = Q j) ∧ S (j + 1) = S j +. l j ∧ Twice (P j) (c j) (len j) (Q (j + 1)) (l j)) ∧
      ∀ j, K j (st'.geoms.cell j) := by
  induction rs with
  | nil =>
    intro i st st' u h hK
    obtain ⟨_, rfl⟩ := pure_ok.mp h
    exact ⟨fun _ => st'.pv.presentS, fun _ => st'.pv.present, fun _ => st'.pv.present, fun _ => none,
      fun _ => st'.pv.presentS, fun _ => st'.geoms.cell 0, by simp, rfl, rfl, rfl, rfl, by simp, hK⟩
  | cons r rs ih =>
    intro i st st' u h hK
    obtain ⟨_, s1, h1, h2⟩ := bind_ok.mp h
    obtain ⟨p0, p1, len0, l0, c0, e, hx, hy, hp, hc, htw, hK1⟩ := fwdStep_calls hKept h1 hK
    obtain ⟨S, P, Q, len, l, c, hE, hS0, hSn, hQ0, hQn, hs, hK2⟩ := ih h2 hK1
    refine ⟨consF st.pv.presentS S, consF p0 P, consF st.pv.present Q, consF len0 len, consF l0 l, consF c0 c,
      ?_, rfl, hSn, rfl, hQn, ?_, hK2⟩
    · rw [hE, e]
      simp [List.mapIdx_cons, consF]
    · intro j hj
      cases j with
      | zero =>
        refine ⟨hc, hx, hy, hp, ?_, ?_⟩
        · show S 0 = _; rw [hS0, e]; rfl
        · show Twice p0 c0 len0 (Q 0) l0; rw [hQ0, e]; exact htw
      | succ j =>
        have := hs j (by simpa using hj)
        rw [e] at this
        exact this

/-- Forward adjustment. -/
theorem adjust_forward_calls {K : Nat → Geom F → Prop} (hKept : Kept K) {st st' : PVState F} {u : Unit}
    (h : PlanView.adjustGeometries false st = .ok u st') (hK : ∀ j, K j (st.geoms.cell j)) :
    ∃ (S : Nat → F) (P Q : Nat → Pose F) (len : Nat → Option F) (l : Nat → F) (c : Nat → Geom F),
      st'.pv.adjGeoms = st.pv.adjGeoms ++
        st.pv.raw.mapIdx (fun j r => (⟨some (S j), (P j).x, (P j).y, (P j).h, len j, r⟩ : AdjGeom F)) ∧
      S 0 = st.pv.presentS ∧ S st.pv.raw.length = st'.pv.presentS ∧ Q 0 = st.pv.present ∧
      st'.pv.start = some st.pv.present ∧ st'.pv.stop = some (Q st.pv.raw.length) ∧
      (∀ j (hj : j < st.pv.raw.length), K st.pv.raw[j] (c j) ∧ (P j).x = (Q j).x ∧ (P j).y = (Q j).y ∧
        (st.pv.overridden = [] → P j = Q j) ∧ S (j + 1) = S j +. l j ∧ Twice (P j) (c j) (len j) (Q (j + 1)) (l j)) ∧
      ∀ j, K j (st'.geoms.cell j) := by
  unfold PlanView.adjustGeometries at h
  rw [bind_of_ok (get_eq _)] at h
  simp only [if_true] at h
  rw [bind_of_ok (modifyPV_eq _ _)] at h
  obtain ⟨_, s1, h1, h2⟩ := bind_ok.mp h
  rw [bind_of_ok (modifyPV_eq _ _), modifyPV_ok] at h2
  subst h2
  obtain ⟨S, P, Q, len, l, c, hE, hS0, hSn, hQ0, hQn, hs, hK2⟩ := fwdLoop_calls hKept _ h1 hK
  obtain ⟨-, hst, -⟩ := fwdLoop_gen _ h1
  exact ⟨S, P, Q, len, l, c, hE, hS0, hSn, hQ0, by simpa using hst, by simp [hQn], hs, hK2⟩

/-- The forward loop succeeds if all evaluations do. -/
theorem fwdLoop_succeeds {K : Nat → Geom F → Prop} (rs : List Nat)
    (hE : ∀ r ∈ rs, ∀ c p, K r c → ∃ q l c', Geom.getEndData p c = .ok (q, some l) c' ∧ K r c') :
    ∀ (i : Nat) (st : PVState F), (st.pv.overridden = [] ∨ i + rs.length ≤ st.pv.overridden.length) →
    (∀ j, K j (st.geoms.cell j)) →
    ∃ st', PlanView.fwdLoop i rs st = .ok () st' ∧ ∀ j, K j (st'.geoms.cell j) := by
  induction rs with
  | nil => intro i st _ hK; exact ⟨st, rfl, hK⟩
  | cons r rs ih =>
    intro i st ho hK
    -- the rest of the step, once the heading has been chosen
    have rest : ∀ (st : PVState F), (∀ j, K j (st.geoms.cell j)) → ∃ s1 : PVState F, (do
        let st ← get
        let g ← AdjGeom.new st.pv.presentS st.pv.present r
        let (p, len) ← callEnd r ⟨g.x, g.y, g.heading⟩
        modifyPV fun pv => { pv with present := p }
        let l ← orRaise .typeError len
        modifyPV fun pv => { pv with presentS := pv.presentS +. l }
        modifyPV fun pv => { pv with adjGeoms := pv.adjGeoms ++ [g] } :
          EStateM PyErr (PVState F) Unit) st = .ok () s1 ∧ s1.pv.overridden = st.pv.overridden ∧
        ∀ j, K j (s1.geoms.cell j) := by
      intro st hK
      obtain ⟨q1, l1, c1, e1, k1⟩ := hE r (by simp) (st.geoms.cell r) st.pv.present (hK r)
      obtain ⟨q2, l2, c2, e2, k2⟩ := hE r (by simp) c1 st.pv.present k1
      have hcall1 : callEnd r st.pv.present st = .ok (q1, some l1) { st with geoms := st.geoms.put r c1 } := by
        simp only [callEnd, e1]
      have hcall2 : callEnd r ⟨st.pv.present.x, st.pv.present.y, st.pv.present.h⟩ { st with geoms := st.geoms.put r c1 } =
          .ok (q2, some l2) { st with geoms := (st.geoms.put r c1).put r c2 } := by
        simp only [callEnd, Store.put_cell, if_true, e2]
      have hnew : AdjGeom.new st.pv.presentS st.pv.present r st =
          .ok ⟨some st.pv.presentS, st.pv.present.x, st.pv.present.y, st.pv.present.h, some l1, r⟩
            { st with geoms := st.geoms.put r c1 } := by
        unfold AdjGeom.new
        rw [bind_of_ok hcall1]; rfl
      refine ⟨⟨{ st.pv with
          present := q2
          presentS := st.pv.presentS +. l2
          adjGeoms := st.pv.adjGeoms ++
            [⟨some st.pv.presentS, st.pv.present.x, st.pv.present.y, st.pv.present.h, some l1, r⟩] },
        (st.geoms.put r c1).put r c2⟩, ?_, rfl, put_kept (put_kept hK k1) k2⟩
      rw [bind_of_ok (get_eq _), bind_of_ok hnew, bind_of_ok hcall2]
      rfl
    have hstep : ∃ s1, PlanView.fwdStep i r st = .ok () s1 ∧ s1.pv.overridden = st.pv.overridden ∧
        ∀ j, K j (s1.geoms.cell j) := by
      unfold PlanView.fwdStep
      rw [bind_of_ok (get_eq _)]
      rcases ho with ho | ho
      · rw [if_neg (by simp [ho])]
        exact rest st hK
      · simp only [List.length_cons] at ho
        rw [if_pos (by omega), List.getElem?_eq_getElem (by omega), bind_of_ok (orRaise_some _),
          bind_of_ok (modifyPV_eq _ _)]
        exact rest _ hK
    obtain ⟨s1, hs1, ho1, hK1⟩ := hstep
    obtain ⟨st', h', hK'⟩ := ih (fun r' hr' => hE r' (by simp [hr'])) (i + 1) s1 (by
      rw [ho1]; simp only [List.length_cons] at ho
      rcases ho with ho | ho
      · exact .inl ho
      · exact .inr (by omega)) hK1
    exact ⟨st', by unfold PlanView.fwdLoop; rw [bind_of_ok hs1]; exact h', hK'⟩

theorem adjust_forward_succeeds {K : Nat → Geom F → Prop} (st : PVState F)
    (hE : ∀ r ∈ st.pv.raw, ∀ c p, K r c → ∃ q l c', Geom.getEndData p c = .ok (q, some l) c' ∧ K r c')
    (ho : st.pv.overridden = [] ∨ st.pv.raw.length ≤ st.pv.overridden.length) (hK : ∀ j, K j (st.geoms.cell j)) :
    ∃ st', PlanView.adjustGeometries false st = .ok () st' ∧ ∀ j, K j (st'.geoms.cell j) := by
  obtain ⟨s1, h1, hK1⟩ := fwdLoop_succeeds st.pv.raw hE 0 ⟨{ st.pv with start := some st.pv.present }, st.geoms⟩
    (by simpa using ho) hK
  refine ⟨⟨{ s1.pv with stop := some s1.pv.present, adjusted := true }, s1.geoms⟩, ?_, hK1⟩
  · unfold PlanView.adjustGeometries
    rw [bind_of_ok (get_eq _)]
    simp only [if_true]
    rw [bind_of_ok (modifyPV_eq _ _), bind_of_ok h1, bind_of_ok (modifyPV_eq _ _), modifyPV_eq]

/-- Evaluation keeps the kind of an object, the curvature of an arc and the length of a line. -/
theorem getEndData_kind {p : Pose F} {c c' : Geom F} {v : Pose F × Option F} (h : Geom.getEndData p c = .ok v c') :
    match c with
    | .line l => c' = .line l
    | .arc a => ∃ a', c' = .arc a' ∧ a'.curvature = a.curvature
    | .spiral s => c' = .spiral s
    | .poly g => ∃ len, c' = .poly { g with length := len } := by
  unfold Geom.getEndData at h
  cases c with
  | line l => cases h; rfl
  | spiral s =>
    simp only at h ⊢
    split at h <;> cases h
    rfl
  | arc a =>
    simp only at h ⊢
    split at h
    · rename_i r a' he
      cases h
      refine ⟨a', rfl, ?_⟩
      unfold Arc.getEndData Arc.eval at he
      simp only at he
      split at he <;> cases he
      rfl
    · cases h
  | poly g =>
    simp only at h ⊢
    split at h
    · rename_i r g' he
      cases h
      unfold ParamPoly3.getEndData at he
      split at he
      · cases he
      · cases he; exact ⟨_, rfl⟩
    · cases h

end

end Pyodrx

namespace Pyodrx
open PyFloat Spec

variable {R : Rounding}

theorem fl_isZero_eq (a : Fl R) : PyFloat.isZero a = @decide (a.val = 0) (Classical.propDecidable _) := rfl

/-- What the evaluation of an arc does to its angle and length. -/
theorem arc_eval_data {k : Fl R} {p : Pose (Fl R)} {a a' : Arc (Fl R)} {v : Pose (Fl R) × Option (Fl R)}
    (h : Arc.eval k p a = .ok v a') : ∃ ang : Fl R, a'.angle = some ang ∧ a'.length = v.2 ∧
      (∀ l, a.length = some l → l.val ≠ 0 → ang = l *. k) ∧
      ((∀ l, a.length = some l → l.val = 0) → a.angle = some ang) ∧
      (ang.val ≠ 0 → v.2 = some (PyFloat.abs ((ofInt 1 /. PyFloat.abs k) *. ang))) ∧
      (ang.val = 0 → v.2 = a.length) := by
  unfold Arc.eval at h
  simp only at h
  split at h
  · cases h
  · rename_i ang hang
    cases h
    refine ⟨ang, rfl, rfl, ?_, ?_, ?_, ?_⟩
    · intro l hl hz
      rw [hl] at hang
      simp only [(fl_isZero_false l).mpr hz, Bool.false_eq_true, if_false, Option.some.injEq] at hang
      exact hang.symm
    · intro hz
      cases hl : a.length with
      | none => rw [hl] at hang; exact hang
      | some l =>
        rw [hl] at hang
        simp only [(fl_isZero l).mpr (hz l hl), if_true] at hang
        exact hang
    · intro hz
      simp only [(fl_isZero_false ang).mpr hz, Bool.false_eq_true, if_false]
    · intro hz
      simp only [(fl_isZero ang).mpr hz, if_true]

/-- The second evaluation of an arc (with the same or the opposite curvature): its angle is the first length times the
curvature, rounded; the second length is the first one up to rounding. -/
theorem arc_twice' {k k2 : Fl R} (hk : k.val ≠ 0) (hk2 : PyFloat.abs k2 = PyFloat.abs k) {p : Pose (Fl R)} {a a' a'' : Arc (Fl R)} {v w : Pose (Fl R) × Option (Fl R)}
    (h1 : Arc.eval k p a = .ok v a') (h2 : Arc.eval k2 p a' = .ok w a'') {l : Fl R} (hl : w.2 = some l) :
    ∃ (L ang : Fl R), v.2 = some L ∧ 0 ≤ L.val ∧ a''.angle = some ang ∧
      |ang.val - L.val * k2.val| ≤ R.u * |L.val * k2.val| ∧ 0 ≤ l.val ∧ |l.val - L.val| ≤ 4 * R.u * |L.val| := by
  have h0 := R.u_nonneg
  have hka := abs_pos.mpr hk
  have hkv : |k2.val| = |k.val| := by have := congrArg Fl.val hk2; simpa using this
  have hk2' : k2.val ≠ 0 := by rw [← abs_pos, hkv]; exact hka
  have hr := R.radius k
  set r := (ofInt 1 /. PyFloat.abs k : Fl R) with hrd
  have hr0 : r.val ≠ 0 := by
    intro hz
    rw [hrd, fl_div, fl_abs, R.ofInt_one] at hz
    have := R.rnd_eq_zero hz
    rw [one_div, inv_eq_zero] at this
    exact hka.ne' this
  obtain ⟨ang, a1, a2, a3, a4, a5, a6⟩ := arc_eval_data h1
  obtain ⟨ang2, b1, b2, b3, b4, b5, b6⟩ := arc_eval_data h2
  by_cases hz : ang.val = 0
  · have e := a6 hz
    cases hal : a.length with
    | none =>
      rw [hal] at e
      have : a'.angle = some ang2 := b4 (by rw [a2, e]; intro l hl; cases hl)
      rw [a1] at this; cases this
      have := b6 hz
      rw [a2, e, hl] at this; cases this
    | some l0 =>
      have hl0 : l0.val = 0 := by
        by_contra hn
        have := a3 l0 hal hn
        rw [this, fl_mul] at hz
        rcases mul_eq_zero.mp (R.rnd_eq_zero hz) with h | h
        · exact hn h
        · exact hk h
      have e' : a'.length = some l0 := by rw [a2, e, hal]
      have : a'.angle = some ang2 := b4 (by rw [e']; intro l hl; cases hl; exact hl0)
      rw [a1] at this; cases this
      have := b6 hz
      rw [e', hl] at this; cases this
      refine ⟨l, ang, by rw [e, hal], hl0.ge, b1, by rw [hz, hl0]; simp, hl0.ge, by simp [hl0]⟩
  · have e := a5 hz
    set L : Fl R := PyFloat.abs (r *. ang) with hL
    have hL0 : L.val ≠ 0 := by
      rw [hL, fl_abs, fl_mul]
      intro h
      rcases mul_eq_zero.mp (R.rnd_eq_zero (abs_eq_zero.mp h)) with h | h
      · exact hr0 h
      · exact hz h
    have hLpos : 0 ≤ L.val := by rw [hL, fl_abs]; exact abs_nonneg _
    have e2 : ang2 = L *. k2 := b3 L (by rw [a2, e]) hL0
    have e2v : ang2.val = R.rnd (L.val * k2.val) := by rw [e2, fl_mul]
    have hz2 : ang2.val ≠ 0 := by
      rw [e2v]; intro h
      rcases mul_eq_zero.mp (R.rnd_eq_zero h) with h | h
      · exact hL0 h
      · exact hk2' h
    have e3 := b5 hz2
    rw [hk2] at e3
    rw [hl] at e3
    cases e3
    have hang : |ang2.val - L.val * k2.val| ≤ R.u * |L.val * k2.val| := by rw [e2v]; exact R.err _
    refine ⟨L, ang2, e, hLpos, b1, hang, by rw [fl_abs]; exact abs_nonneg _, ?_⟩
    rw [fl_abs, fl_mul]
    have hρ : 1 / |k.val| * |L.val * k2.val| = L.val := by
      rw [abs_mul, abs_of_nonneg hLpos, hkv]; field_simp
    have hm : |r.val * ang2.val - 1 / |k.val| * (L.val * k2.val)| ≤ R.u * (2.001 * L.val) := by
      have hs : |ang2.val| ≤ 1.001 * |L.val * k2.val| := by
        calc |ang2.val| = |(ang2.val - L.val * k2.val) + L.val * k2.val| := by ring_nf
          _ ≤ |ang2.val - L.val * k2.val| + |L.val * k2.val| := abs_add_le _ _
          _ ≤ 1 / 1000 * |L.val * k2.val| + |L.val * k2.val| := by
              linarith [mul_le_mul_of_nonneg_right R.u_small (abs_nonneg (L.val * k2.val))]
          _ = _ := by ring
      calc |r.val * ang2.val - 1 / |k.val| * (L.val * k2.val)|
          = |(r.val - 1 / |k.val|) * ang2.val + 1 / |k.val| * (ang2.val - L.val * k2.val)| := by ring_nf
        _ ≤ |r.val - (1 / |k.val|)| * |ang2.val| + 1 / |k.val| * |ang2.val - L.val * k2.val| := by
            refine (abs_add_le _ _).trans (le_of_eq ?_)
            rw [abs_mul, abs_mul, abs_of_nonneg (a := 1 / |k.val|) (by positivity)]
        _ ≤ (R.u * (1 / |k.val|)) * (1.001 * |L.val * k2.val|) + 1 / |k.val| * (R.u * |L.val * k2.val|) := by
            refine add_le_add (mul_le_mul hr hs (abs_nonneg _) (by positivity)) ?_
            exact mul_le_mul_of_nonneg_left hang (by positivity)
        _ = R.u * (2.001 * (1 / |k.val| * |L.val * k2.val|)) := by ring
        _ = _ := by rw [hρ]
    have hB : |1 / |k.val| * (L.val * k2.val)| = L.val := by
      rw [abs_mul, abs_of_nonneg (a := 1 / |k.val|) (by positivity), hρ]
    have := R.near hm (by positivity) hB.le
    have h3 := abs_abs_sub_abs_le_abs_sub (R.rnd (r.val * ang2.val)) (1 / |k.val| * (L.val * k2.val))
    rw [hB] at h3
    rw [abs_of_nonneg hLpos]
    refine h3.trans (this.trans ?_)
    nlinarith [mul_nonneg h0 hLpos]

theorem arc_twice {k : Fl R} (hk : k.val ≠ 0) {p : Pose (Fl R)} {a a' a'' : Arc (Fl R)} {v w : Pose (Fl R) × Option (Fl R)}
    (h1 : Arc.eval k p a = .ok v a') (h2 : Arc.eval k p a' = .ok w a'') {l : Fl R} (hl : w.2 = some l) :
    ∃ (L ang : Fl R), v.2 = some L ∧ 0 ≤ L.val ∧ a''.angle = some ang ∧
      |ang.val - L.val * k.val| ≤ R.u * |L.val * k.val| ∧ 0 ≤ l.val ∧ |l.val - L.val| ≤ 4 * R.u * |L.val| :=
  arc_twice' hk rfl h1 h2 hl

/-- Evaluating an arc object. -/
theorem getEndData_arc {p : Pose (Fl R)} {a : Arc (Fl R)} {c' : Geom (Fl R)} {v : Pose (Fl R) × Option (Fl R)}
    (h : Geom.getEndData p (.arc a) = .ok v c') : ∃ a', c' = .arc a' ∧ a'.curvature = a.curvature ∧
      Arc.eval a.curvature p a = .ok v a' := by
  obtain ⟨a', rfl, hc⟩ := getEndData_kind h
  refine ⟨a', rfl, hc, ?_⟩
  unfold Geom.getEndData at h
  simp only at h
  split at h
  · rename_i r a'' he; cases h; exact he
  · cases h

/-- The length of the second evaluation. -/
theorem Twice.length {p q : Pose (Fl R)} {c : Geom (Fl R)} {len : Option (Fl R)} {l : Fl R}
    (hc : ∀ a, c = .arc a → a.curvature.val ≠ 0) (h : Twice p c len q l) :
    ∃ L : Fl R, len = some L ∧ (0 ≤ L.val → 0 ≤ l.val) ∧ |l.val - L.val| ≤ 4 * R.u * |L.val| := by
  have h0 := R.u_nonneg
  have same : ∀ L : Fl R, len = some L → l = L →
      ∃ L : Fl R, len = some L ∧ (0 ≤ L.val → 0 ≤ l.val) ∧ |l.val - L.val| ≤ 4 * R.u * |L.val| := by
    intro L hL e
    subst e
    exact ⟨l, hL, id, by rw [sub_self, abs_zero]; positivity⟩
  obtain ⟨q', c', c'', h1, h2⟩ := h
  cases c with
  | line g =>
    have hk1 : c' = _ := getEndData_kind h1
    subst hk1
    cases h1; cases h2
    exact same _ rfl rfl
  | spiral g =>
    have hk1 : c' = _ := getEndData_kind h1
    subst hk1
    rw [h1] at h2
    cases h2
    exact same _ rfl rfl
  | arc a =>
    obtain ⟨a1, rfl, hc1, e1⟩ := getEndData_arc h1
    obtain ⟨a2, rfl, hc2, e2⟩ := getEndData_arc h2
    rw [hc1] at e2
    obtain ⟨L, ang, f1, f2, -, -, f5, f6⟩ := arc_twice (hc a rfl) e1 e2 rfl
    exact ⟨L, f1, fun _ => f5, f6⟩
  | poly g =>
    unfold Geom.getEndData at h1
    simp only at h1
    split at h1
    · rename_i r g' he
      cases h1
      unfold Geom.getEndData at h2
      simp only at h2
      split at h2
      · rename_i r' g'' he'
        cases h2
        unfold ParamPoly3.getEndData at he he'
        split at he
        · cases he
        · rename_i t len1 hp1
          cases he
          split at he'
          · cases he'
          · rename_i t' len2 hp2
            cases he'
            unfold ParamPoly3.param at hp1 hp2
            by_cases hn : g.prange = "normalized"
            · rw [if_pos hn] at hp1
              rw [if_pos (by exact hn)] at hp2
              cases hp1; cases hp2
              exact same _ rfl rfl
            · rw [if_neg hn] at hp1
              rw [if_neg (by exact hn)] at hp2
              cases hgl : g.length with
              | none => rw [hgl] at hp1; cases hp1
              | some L0 =>
                rw [hgl] at hp1
                cases hp1
                cases hp2
                exact same _ rfl rfl
      · cases h2
    · cases h1

theorem exactEnd_eq (k L : ℝ) (p : Pose ℝ) : exactEnd k L p = if k = 0 then
      ⟨p.x + L * Real.cos p.h, p.y + L * Real.sin p.h, p.h⟩ else
      ⟨p.x + (Real.sin (p.h + k * L) - Real.sin p.h) / k,
       p.y + (Real.cos p.h - Real.cos (p.h + k * L)) / k, p.h + k * L⟩ := by
  split
  · rename_i h; subst h
    unfold exactEnd
    simp only [zero_mul, add_zero]
    exact drive_const p.h L p
  · rename_i h; exact drive_affine k L h p

/-- The end of the second evaluation of a line or an arc. -/
theorem Twice.near {p q : Pose (Fl R)} {c : Geom (Fl R)} {L l : Fl R} {k : ℝ}
    (hc : ∀ a, c = .arc a → a.curvature.val ≠ 0) (hk : curvature c = some k) (h : Twice p c (some L) q l) :
    let e := exactEnd k L.val (real p)
    |q.x.val - e.x| ≤ R.u * (3 * |p.x.val| + 6 * |L.val| + (4 * |p.h.val| + 26) * radius k) ∧
    |q.y.val - e.y| ≤ R.u * (3 * |p.y.val| + 6 * |L.val| + (4 * |p.h.val| + 26) * radius k) ∧
    |q.h.val - e.h| ≤ R.u * (if k = 0 then 0 else |p.h.val| + 3 * |k * L.val|) := by
  have h0 := R.u_nonneg
  intro e
  have he : e = exactEnd k L.val (real p) := rfl
  rw [exactEnd_eq] at he
  obtain ⟨q', c', c'', h1, h2⟩ := h
  cases c with
  | spiral g => cases hk
  | poly g => cases hk
  | line g =>
    cases hk
    have hk1 : c' = _ := getEndData_kind h1
    subst hk1
    cases h1; cases h2
    rw [if_pos rfl] at he
    rw [he]
    simp only [radius, if_true, real, mul_zero, add_zero, sub_self, abs_zero, le_refl, and_true, Line.getEndData]
    have hx := abs_nonneg p.x.val
    have hy := abs_nonneg p.y.val
    have z : |p.h.val - p.h.val| ≤ R.u * 0 := by simp
    constructor
    · refine (R.line_coord (t' := Real.cos p.h.val) ?_ (Real.abs_cos_le_one _)).trans
        (mul_le_mul_of_nonneg_left (by linarith) h0)
      simpa using R.near_cos z
    · refine (R.line_coord (t' := Real.sin p.h.val) ?_ (Real.abs_sin_le_one _)).trans
        (mul_le_mul_of_nonneg_left (by linarith) h0)
      simpa using R.near_sin z
  | arc a =>
    have hk0 : a.curvature.val ≠ 0 := hc a rfl
    cases hk
    obtain ⟨a1, rfl, hc1, e1⟩ := getEndData_arc h1
    obtain ⟨a2, rfl, hc2, e2⟩ := getEndData_arc h2
    rw [hc1] at e2
    obtain ⟨L', ang, f1, f2, f3, f4, -, -⟩ := arc_twice hk0 e1 e2 rfl
    cases f1
    rw [mul_comm L.val] at f4
    obtain ⟨g1, g2, g3⟩ := Arc.eval_near _ hk0 p a1 a2 _ e2 ang f3 _ f4
    rw [if_neg hk0] at he ⊢
    have hka := abs_pos.mpr hk0
    have hLk : |a.curvature.val * L.val| / |a.curvature.val| = |L.val| := by
      rw [abs_mul]; field_simp
    have key : ∀ z : ℝ, R.u * (2.1 * |z| + (3.2 * |p.h.val| + 2.2 * |a.curvature.val * L.val| + 26) / |a.curvature.val|) ≤
        R.u * (3 * |z| + 6 * |L.val| + (4 * |p.h.val| + 26) * radius a.curvature.val) := by
      intro z
      refine mul_le_mul_of_nonneg_left ?_ h0
      rw [radius, if_neg hk0]
      have e1 : (3.2 * |p.h.val| + 2.2 * |a.curvature.val * L.val| + 26) / |a.curvature.val| =
          (3.2 * |p.h.val| + 26) * (1 / |a.curvature.val|) + 2.2 * |L.val| := by
        rw [← hLk]; ring
      rw [e1]
      have e2 : (3.2 * |p.h.val| + 26) * (1 / |a.curvature.val|) ≤ (4 * |p.h.val| + 26) * (1 / |a.curvature.val|) :=
        mul_le_mul_of_nonneg_right (by linarith [abs_nonneg p.h.val]) (by positivity)
      linarith [abs_nonneg z, abs_nonneg L.val]
    rw [he]
    refine ⟨g1.trans (key _), g2.trans (key _), g3.trans (mul_le_mul_of_nonneg_left ?_ h0)⟩
    linarith [abs_nonneg (a.curvature.val * L.val)]

/-- Evaluating an arc that has a length or an angle, with its curvature or the opposite one. -/
theorem arc_eval_usable {k : Fl R} (hk : k.val ≠ 0) {a : Arc (Fl R)}
    (hl : (∃ l, a.length = some l ∧ l.val ≠ 0) ∨ (a.length = none ∧ ∃ t, a.angle = some t ∧ t.val ≠ 0)) (p : Pose (Fl R)) :
    ∃ q l ang, Arc.eval k p a = .ok (q, some l) ⟨a.curvature, some l, some ang⟩ ∧ l.val ≠ 0 := by
  have hr0 : (ofInt 1 /. PyFloat.abs k : Fl R).val ≠ 0 := by
    intro hz
    rw [fl_div, fl_abs, R.ofInt_one] at hz
    have := R.rnd_eq_zero hz
    rw [one_div, inv_eq_zero, abs_eq_zero] at this
    exact hk this
  have key : ∀ ang : Fl R, ang.val ≠ 0 →
      (∃ l, a.length = some l ∧ l.val ≠ 0 ∧ ang = l *. k) ∨ (a.length = none ∧ a.angle = some ang) →
      ∃ q l ang, Arc.eval k p a = .ok (q, some l) ⟨a.curvature, some l, some ang⟩ ∧ l.val ≠ 0 := by
    intro ang hz hm
    have hval : (PyFloat.abs ((ofInt 1 /. PyFloat.abs k) *. ang) : Fl R).val ≠ 0 := by
      rw [fl_abs, fl_mul]
      intro h
      rcases mul_eq_zero.mp (R.rnd_eq_zero (abs_eq_zero.mp h)) with h | h
      · exact hr0 h
      · exact hz h
    have : ∃ q, Arc.eval k p a =
        .ok (q, some (PyFloat.abs ((ofInt 1 /. PyFloat.abs k) *. ang))) ⟨a.curvature,
          some (PyFloat.abs ((ofInt 1 /. PyFloat.abs k) *. ang)), some ang⟩ := by
      rcases hm with ⟨l, h1, h2, rfl⟩ | ⟨h1, h2⟩
      · simp only [Arc.eval, h1, (fl_isZero_false l).mpr h2,
          (fl_isZero_false _).mpr hz, Bool.false_eq_true, if_false]
        exact ⟨_, rfl⟩
      · simp only [Arc.eval, h1, h2, (fl_isZero_false ang).mpr hz,
          Bool.false_eq_true, if_false]
        exact ⟨_, rfl⟩
    obtain ⟨q, hq⟩ := this
    exact ⟨q, _, _, hq, hval⟩
  rcases hl with ⟨l, h1, h2⟩ | ⟨h1, t, h2, h3⟩
  · refine key (l *. k) ?_ (Or.inl ⟨l, h1, h2, rfl⟩)
    rw [fl_mul]; intro h
    rcases mul_eq_zero.mp (R.rnd_eq_zero h) with h | h
    · exact h2 h
    · exact hk h
  · exact key t h3 (Or.inr ⟨h1, h2⟩)

/-- A usable object can be evaluated, to a length, and stays usable. -/
theorem usable_end {c : Geom (Fl R)} (h : Usable c) (p : Pose (Fl R)) :
    ∃ q l c', Geom.getEndData p c = .ok (q, some l) c' ∧ Usable c' := by
  cases c with
  | line l => exact ⟨_, _, _, rfl, trivial⟩
  | spiral sp =>
    obtain ⟨l, h1, h2⟩ := h
    refine ⟨EulerSpiral.calc (ofInt 1 *. (sp.curvend -. sp.curvstart) /. l) l p.x p.y sp.curvstart p.h, l,
      .spiral sp, ?_, ⟨l, h1, h2⟩⟩
    · simp only [Geom.getEndData, Spiral.getEndData, EulerSpiral.create, h1, (fl_isZero_false l).mpr h2,
        Bool.false_eq_true, if_false]
  | arc a =>
    obtain ⟨hk, hl⟩ := h
    obtain ⟨q, l, ang, h1, h2⟩ := arc_eval_usable hk hl p
    refine ⟨q, l, .arc ⟨a.curvature, some l, some ang⟩, ?_, hk, Or.inl ⟨l, rfl, h2⟩⟩
    simp only [Geom.getEndData, Arc.getEndData, h1]
  | poly g =>
    simp only [Usable] at h
    by_cases hn : g.prange = "normalized"
    · have : ∃ q, Geom.getEndData p (.poly g) = .ok (q, some (quad g.integrand (ofInt 0) (ofInt 1)))
          (.poly { g with length := some (quad g.integrand (ofInt 0) (ofInt 1)) }) := by
        simp only [Geom.getEndData, ParamPoly3.getEndData, ParamPoly3.param, hn, if_true]
        exact ⟨_, rfl⟩
      obtain ⟨q, hq⟩ := this
      exact ⟨q, _, _, hq, Or.inl hn⟩
    · rcases h with h | h
      · exact absurd h hn
      · obtain ⟨l, hl⟩ := Option.isSome_iff_exists.mp h
        have : ∃ q, Geom.getEndData p (.poly g) = .ok (q, some l) (.poly { g with length := some l }) := by
          simp only [Geom.getEndData, ParamPoly3.getEndData, ParamPoly3.param, hn, if_false, hl]
          exact ⟨_, rfl⟩
        obtain ⟨q, hq⟩ := this
        exact ⟨q, _, _, hq, Or.inr rfl⟩

/-- The same from the end. -/
theorem usable_start {c : Geom (Fl R)} (h : Usable c) (p : Pose (Fl R)) :
    ∃ q l c', Geom.getStartData p c = .ok (q, some l) c' ∧ Usable c' := by
  cases c with
  | line l => exact ⟨_, _, _, rfl, trivial⟩
  | spiral sp =>
    obtain ⟨l, h1, h2⟩ := h
    refine ⟨EulerSpiral.calc (ofInt 1 *. (neg sp.curvstart -. neg sp.curvend) /. l) l p.x p.y (neg sp.curvend) p.h, l,
      .spiral sp, ?_, ⟨l, h1, h2⟩⟩
    · simp only [Geom.getStartData, Spiral.getStartData, EulerSpiral.create, h1, (fl_isZero_false l).mpr h2,
        Bool.false_eq_true, if_false]
  | arc a =>
    obtain ⟨hk, hl⟩ := h
    obtain ⟨q, l, ang, h1, h2⟩ := arc_eval_usable (k := neg a.curvature) (by simpa using hk) hl p
    refine ⟨q, l, .arc ⟨a.curvature, some l, some ang⟩, ?_, hk, Or.inl ⟨l, rfl, h2⟩⟩
    simp only [Geom.getStartData, Arc.getStartData, h1]
  | poly g =>
    simp only [Usable] at h
    by_cases hn : g.prange = "normalized"
    · have : ∃ q, Geom.getStartData p (.poly g) = .ok (q, some (quad g.integrand (ofInt 0) (ofInt 1)))
          (.poly { g with length := some (quad g.integrand (ofInt 0) (ofInt 1)) }) := by
        simp only [Geom.getStartData, ParamPoly3.getStartData, ParamPoly3.param, hn, if_true]
        exact ⟨_, rfl⟩
      obtain ⟨q, hq⟩ := this
      exact ⟨q, _, _, hq, Or.inl hn⟩
    · rcases h with h | h
      · exact absurd h hn
      · obtain ⟨l, hl⟩ := Option.isSome_iff_exists.mp h
        have : ∃ q, Geom.getStartData p (.poly g) = .ok (q, some l) (.poly { g with length := some l }) := by
          simp only [Geom.getStartData, ParamPoly3.getStartData, ParamPoly3.param, hn, if_false, hl]
          exact ⟨_, rfl⟩
        obtain ⟨q, hq⟩ := this
        exact ⟨q, _, _, hq, Or.inr rfl⟩

end Pyodrx
