import Verif.Proofs.Shape

/-! # Adjusting a planview lays out its shapes -/

namespace Pyodrx
open Spec

/-- The heap describes the same shapes. -/
def SameShapes (g g' : Store (Geom ℝ)) : Prop := ∀ j, shapeOf (g'.cell j) = shapeOf (g.cell j)

theorem SameShapes.refl (g : Store (Geom ℝ)) : SameShapes g g := fun _ => rfl
theorem SameShapes.trans {a b c : Store (Geom ℝ)} (h : SameShapes a b) (h' : SameShapes b c) :
    SameShapes a c := fun j => (h' j).trans (h j)
theorem SameShapes.put {g : Store (Geom ℝ)} {r : Nat} {a : Geom ℝ}
    (h : shapeOf a = shapeOf (g.cell r)) : SameShapes g (g.put r a) := by
  intro j
  rw [Store.put_cell]
  split
  · rename_i e; subst e; exact h
  · rfl

/-- Every settled object stays settled. -/
def KeepSettled (g g' : Store (Geom ℝ)) : Prop :=
  ∀ j, Settled (g.cell j) → Settled (g'.cell j)

theorem callEnd_first {st : PVState ℝ} {r : Nat} {sh : Shape}
    (h : shapeOf (st.geoms.cell r) = some sh) (p : Pose ℝ) :
    ∃ q g', callEnd r p st = .ok (q, some sh.len) { st with geoms := st.geoms.put r g' } ∧
      shapeOf g' = some sh ∧ Settled g' := by
  obtain ⟨q, g', h1, h2, h3⟩ := first_end _ sh h p
  exact ⟨q, g', by simp only [callEnd, h1], h2, h3⟩

theorem callEnd_settled {st : PVState ℝ} {r : Nat} {sh : Shape}
    (h : shapeOf (st.geoms.cell r) = some sh) (hs : Settled (st.geoms.cell r)) (p : Pose ℝ) :
    ∃ g', callEnd r p st = .ok (sh.place p, some sh.len)
        { st with geoms := st.geoms.put r g' } ∧
      shapeOf g' = some sh ∧ Settled g' := by
  obtain ⟨g', h1, h2, h3⟩ := settled_end _ sh h hs p
  exact ⟨g', by simp only [callEnd, h1], h2, h3⟩

theorem callStart_settled {st : PVState ℝ} {r : Nat} {sh : Shape}
    (h : shapeOf (st.geoms.cell r) = some sh) (hs : Settled (st.geoms.cell r))
    (hp : NotPoly (st.geoms.cell r)) (p : Pose ℝ) :
    ∃ q g', callStart r p st = .ok (q, some sh.len)
        { st with geoms := st.geoms.put r g' } ∧ sh.place (turned q) = turned p ∧
      shapeOf g' = some sh ∧ Settled g' ∧ NotPoly g' := by
  obtain ⟨q, g', h1, h2, h3⟩ := settled_start _ sh h hs hp p
  exact ⟨q, g', by simp only [callStart, h1], h2, h3⟩

/-- The heading with which the loop body number `i` starts. -/
def HeadingAt (overridden : List ℝ) (i : Nat) (hd : Option ℝ) : Prop :=
  (overridden = [] ∧ hd = none) ∨ ∃ h, overridden[i]? = some h ∧ hd = some h

theorem fwdStep_real {st : PVState ℝ} {i : Nat} {pc : Piece}
    (hsh : shapeOf (st.geoms.cell pc.ref) = some pc.shape)
    (hov : HeadingAt st.pv.overridden i pc.heading) :
    ∃ g', PlanView.fwdStep i pc.ref st = .ok () ⟨{ st.pv with
        present := pc.shape.place (pc.start st.pv.present)
        presentS := st.pv.presentS + pc.shape.len
        adjGeoms := st.pv.adjGeoms ++ layout st.pv.presentS st.pv.present [pc] }, g'⟩ ∧
      SameShapes st.geoms g' ∧ KeepSettled st.geoms g' ∧ Settled (g'.cell pc.ref) := by
  obtain ⟨q, g1, h1, hs1, hset1⟩ := callEnd_first (st := { st with pv := { st.pv with
    present := pc.start st.pv.present } }) (r := pc.ref) hsh (pc.start st.pv.present)
  obtain ⟨g2, h2, hs2, hset2⟩ := callEnd_settled (st := ⟨{ st.pv with
    present := pc.start st.pv.present }, st.geoms.put pc.ref g1⟩) (r := pc.ref) (sh := pc.shape)
    (by simpa using hs1) (by simpa using hset1) (pc.start st.pv.present)
  have key : AdjGeom.new st.pv.presentS (pc.start st.pv.present) pc.ref
      { st with pv := { st.pv with present := pc.start st.pv.present } } =
      .ok ⟨some st.pv.presentS, (pc.start st.pv.present).x, (pc.start st.pv.present).y,
        (pc.start st.pv.present).h, some pc.shape.len, pc.ref⟩
        ⟨{ st.pv with present := pc.start st.pv.present }, st.geoms.put pc.ref g1⟩ := by
    unfold AdjGeom.new
    rw [bind_of_ok h1]; rfl
  refine ⟨(st.geoms.put pc.ref g1).put pc.ref g2, ?_, ?_, ?_, by simpa using hset2⟩
  · have rest : ∀ st1 : PVState ℝ, st1 = { st with pv := { st.pv with
        present := pc.start st.pv.present } } → (do
        let st ← get
        let g ← AdjGeom.new st.pv.presentS st.pv.present pc.ref
        let (p, len) ← callEnd pc.ref ⟨g.x, g.y, g.heading⟩
        modifyPV fun pv => { pv with present := p }
        let l ← orRaise .typeError len
        modifyPV fun pv => { pv with presentS := PyFloat.add pv.presentS l }
        modifyPV fun pv => { pv with adjGeoms := pv.adjGeoms ++ [g] } :
          EStateM PyErr (PVState ℝ) Unit) st1 = .ok () ⟨{ st.pv with
        present := pc.shape.place (pc.start st.pv.present)
        presentS := st.pv.presentS + pc.shape.len
        adjGeoms := st.pv.adjGeoms ++ layout st.pv.presentS st.pv.present [pc] },
        (st.geoms.put pc.ref g1).put pc.ref g2⟩ := by
      rintro st1 rfl
      rw [bind_of_ok (get_eq _), bind_of_ok key, bind_of_ok h2]
      rfl
    unfold PlanView.fwdStep
    rw [bind_of_ok (get_eq _)]
    rcases hov with ⟨h0, hn⟩ | ⟨h, h0, hn⟩
    · have : ¬ (st.pv.overridden.length > 0) := by simp [h0]
      rw [if_neg this]
      refine rest st ?_
      simp [Piece.start, hn]
    · have : st.pv.overridden.length > 0 := by
        rcases List.getElem?_eq_some_iff.mp h0 with ⟨hi, _⟩
        omega
      rw [if_pos this, h0, bind_of_ok (orRaise_some _), bind_of_ok (modifyPV_eq _ _)]
      refine rest _ ?_
      simp [Piece.start, hn]
  · exact (SameShapes.put (hs1.trans hsh.symm)).trans (SameShapes.put (by simpa using hs2.trans hs1.symm))
  · intro j hj
    rw [Store.put_cell]
    split
    · exact hset2
    · rename_i e; rwa [Store.put_cell_ne _ _ e]

theorem fwdLoop_real (pcs : List Piece) : ∀ (i : Nat) (st : PVState ℝ),
    (∀ pc ∈ pcs, shapeOf (st.geoms.cell pc.ref) = some pc.shape) →
    (∀ j (hj : j < pcs.length), HeadingAt st.pv.overridden (i + j) (pcs[j]).heading) →
    ∃ g', PlanView.fwdLoop i (pcs.map (·.ref)) st = .ok () ⟨{ st.pv with
        present := finish st.pv.present pcs
        presentS := st.pv.presentS + totalLen pcs
        adjGeoms := st.pv.adjGeoms ++ layout st.pv.presentS st.pv.present pcs }, g'⟩ ∧
      SameShapes st.geoms g' ∧ KeepSettled st.geoms g' ∧ ∀ pc ∈ pcs, Settled (g'.cell pc.ref) := by
  induction pcs with
  | nil =>
    intro i st _ _
    refine ⟨st.geoms, ?_, SameShapes.refl _, fun _ h => h, by simp⟩
    simp [PlanView.fwdLoop, finish, totalLen, layout, pure_eq]
  | cons pc pcs ih =>
    intro i st hsh hov
    obtain ⟨g1, h1, hs1, hk1, hset1⟩ := fwdStep_real (st := st) (i := i) (pc := pc)
      (hsh pc (by simp)) (hov 0 (by simp))
    obtain ⟨g2, h2, hs2, hk2, hset2⟩ := ih (i + 1) ⟨{ st.pv with
        present := pc.shape.place (pc.start st.pv.present)
        presentS := st.pv.presentS + pc.shape.len
        adjGeoms := st.pv.adjGeoms ++ layout st.pv.presentS st.pv.present [pc] }, g1⟩
      (fun q hq => (hs1 q.ref).trans (hsh q (by simp [hq])))
      (fun j hj => by
        have := hov (j + 1) (by simpa using hj)
        rw [show i + 1 + j = i + (j + 1) by ring]
        simpa using this)
    refine ⟨g2, ?_, hs1.trans hs2, fun j hj => hk2 j (hk1 j hj), ?_⟩
    · simp only [List.map_cons, PlanView.fwdLoop]
      rw [bind_of_ok h1, h2]
      simp [finish, layout, totalLen, add_assoc]
    · intro q hq
      rcases List.mem_cons.mp hq with rfl | hq
      · exact hk2 _ hset1
      · exact hset2 q hq

/-! ### Backward -/

theorem layout_append (a b : List Piece) : ∀ (s : ℝ) (p : Pose ℝ),
    layout s p (a ++ b) = layout s p a ++ layout (s + totalLen a) (finish p a) b := by
  induction a with
  | nil => intro s p; simp [layout, totalLen, finish]
  | cons pc a ih =>
    intro s p
    simp [layout, finish, ih, totalLen, add_assoc]

theorem finish_append (a b : List Piece) : ∀ (p : Pose ℝ),
    finish p (a ++ b) = finish (finish p a) b := by
  induction a with
  | nil => intro p; rfl
  | cons pc a ih => intro p; simp [finish, ih]

theorem totalLen_cons (pc : Piece) (l : List Piece) :
    totalLen (pc :: l) = pc.shape.len + totalLen l := by simp [totalLen]

theorem totalLen_append (a b : List Piece) : totalLen (a ++ b) = totalLen a + totalLen b := by
  simp [totalLen]

theorem layout_length (pcs : List Piece) : ∀ (s : ℝ) (p : Pose ℝ),
    (layout s p pcs).length = pcs.length := by
  induction pcs with
  | nil => intro s p; rfl
  | cons pc l ih => intro s p; simp [layout, ih]

theorem layout_refs (pcs : List Piece) : ∀ (s : ℝ) (p : Pose ℝ),
    (layout s p pcs).map (·.geom) = pcs.map (·.ref) := by
  induction pcs with
  | nil => intro s p; rfl
  | cons pc l ih => intro s p; simp [layout, ih]

/-- a geometry whose s coordinate is not known -/
def noS (g : AdjGeom ℝ) : AdjGeom ℝ := { g with s := none }

theorem bwdStep_real {st : PVState ℝ} {r : Nat} {sh : Shape}
    (hsh : shapeOf (st.geoms.cell r) = some sh) (hp : NotPoly (st.geoms.cell r)) :
    ∃ q g', PlanView.bwdStep r st = .ok (some sh.len) ⟨{ st.pv with
        present := q
        adjGeoms := st.pv.adjGeoms ++
          [⟨none, (turned q).x, (turned q).y, (turned q).h, some sh.len, r⟩] }, g'⟩ ∧
      sh.place (turned q) = turned st.pv.present ∧
      SameShapes st.geoms g' ∧ (∀ j, NotPoly (st.geoms.cell j) → NotPoly (g'.cell j)) := by
  obtain ⟨q1, g1, h1, hs1, hset1⟩ := callEnd_first (st := st) (r := r) hsh st.pv.present
  have hp1 : NotPoly g1 := by
    cases hc : st.geoms.cell r with
    | poly g => rw [hc] at hp; exact hp.elim
    | line l =>
      simp only [callEnd, hc, Geom.getEndData, EStateM.Result.ok.injEq] at h1
      have := congrFun (congrArg (fun s : PVState ℝ => s.geoms.cell) h1.2) r
      simp at this; rw [← this]; trivial
    | spiral sp =>
      simp only [callEnd, hc, Geom.getEndData] at h1
      cases hg : sp.getEndData st.pv.present with
      | error e => simp [hg] at h1
      | ok v =>
        simp only [hg, EStateM.Result.ok.injEq] at h1
        have := congrFun (congrArg (fun s : PVState ℝ => s.geoms.cell) h1.2) r
        simp at this; rw [← this]; trivial
    | arc a =>
      simp only [callEnd, hc, Geom.getEndData] at h1
      cases hg : Arc.getEndData st.pv.present a with
      | error e a' => simp [hg] at h1
      | ok v a' =>
        simp only [hg, EStateM.Result.ok.injEq] at h1
        have := congrFun (congrArg (fun s : PVState ℝ => s.geoms.cell) h1.2) r
        simp at this; rw [← this]; trivial
  obtain ⟨q, g2, h2, hpl, hs2, hset2, hp2⟩ := callStart_settled
    (st := { st with geoms := st.geoms.put r g1 }) (r := r) (sh := sh)
    (by simpa using hs1) (by simpa using hset1) (by simpa using hp1) st.pv.present
  have key : AdjGeom.new st.pv.presentS st.pv.present r st =
      .ok ⟨some st.pv.presentS, st.pv.present.x, st.pv.present.y, st.pv.present.h, some sh.len, r⟩
        { st with geoms := st.geoms.put r g1 } := by
    unfold AdjGeom.new
    rw [bind_of_ok h1]; rfl
  refine ⟨q, (st.geoms.put r g1).put r g2, ?_, hpl, ?_, ?_⟩
  · unfold PlanView.bwdStep
    rw [bind_of_ok (get_eq _), bind_of_ok key, bind_of_ok h2]
    rfl
  · exact (SameShapes.put (hs1.trans hsh.symm)).trans (SameShapes.put (by simpa using hs2.trans hs1.symm))
  · intro j hj
    rw [Store.put_cell]
    split
    · exact hp2
    · rename_i e; rwa [Store.put_cell_ne _ _ e]

/-- forget the forced headings -/
def Piece.free (pc : Piece) : Piece := { pc with heading := none }

/-- The backward loop over the pieces `rp` (last piece of the road first). -/
theorem bwdLoop_real (rp : List Piece) : ∀ (st : PVState ℝ),
    (∀ pc ∈ rp, shapeOf (st.geoms.cell pc.ref) = some pc.shape) →
    (∀ pc ∈ rp, NotPoly (st.geoms.cell pc.ref)) →
    ∃ q g', PlanView.bwdLoop (rp.map (·.ref)) st =
        .ok (rp.map fun pc => some pc.shape.len) ⟨{ st.pv with
          present := q
          adjGeoms := st.pv.adjGeoms ++
            ((layout 0 (turned q) (rp.reverse.map Piece.free)).map noS).reverse }, g'⟩ ∧
      finish (turned q) (rp.reverse.map Piece.free) = turned st.pv.present ∧
      SameShapes st.geoms g' := by
  induction rp with
  | nil =>
    intro st _ _
    refine ⟨st.pv.present, st.geoms, ?_, rfl, SameShapes.refl _⟩
    simp [PlanView.bwdLoop, layout, pure_eq]
  | cons pc rp ih =>
    intro st hsh hp
    obtain ⟨q1, g1, h1, hpl, hs1, hp1⟩ := bwdStep_real (st := st) (r := pc.ref)
      (hsh pc (by simp)) (hp pc (by simp))
    obtain ⟨q, g2, h2, hf, hs2⟩ := ih ⟨{ st.pv with
        present := q1
        adjGeoms := st.pv.adjGeoms ++ [⟨none, (turned q1).x, (turned q1).y, (turned q1).h,
          some pc.shape.len, pc.ref⟩] }, g1⟩
      (fun x hx => (hs1 x.ref).trans (hsh x (by simp [hx])))
      (fun x hx => hp1 _ (hp x (by simp [hx])))
    simp only at hf
    refine ⟨q, g2, ?_, ?_, hs1.trans hs2⟩
    · simp only [List.map_cons, PlanView.bwdLoop]
      rw [bind_of_ok h1, bind_of_ok h2]
      simp only [pure_eq, List.reverse_cons, List.map_append, layout_append, hf]
      simp [layout, noS, Piece.free, Piece.start]
    · simp only [List.reverse_cons, List.map_append, finish_append, hf, List.map_cons, List.map_nil]
      simpa [finish, Piece.free, Piece.start] using hpl

theorem allSome_map_some {α : Type} (l : List α) : allSome (l.map some) = some l := by
  induction l with
  | nil => rfl
  | cons a l ih => simp [allSome, ih]

theorem setLastS_append (l : List (AdjGeom ℝ)) (g : AdjGeom ℝ) (s : ℝ) :
    setLastS (l ++ [g]) s = l ++ [{ g with s := some s }] := by
  simp [setLastS]

/-- The final loop sets one s: that of the last emitted geometry. -/
theorem sLoop_real (ls : List ℝ) : ∀ (l : ℝ) (st : PVState ℝ) (E : List (AdjGeom ℝ))
    (g : AdjGeom ℝ), st.pv.adjGeoms = E ++ [g] →
    PlanView.sLoop (l :: ls) st = .ok () { st with pv := { st.pv with
      adjGeoms := E ++ [{ g with s := some (st.pv.presentS + ((l :: ls).dropLast).sum) }]
      presentS := st.pv.presentS + (l :: ls).sum } } := by
  induction ls with
  | nil =>
    intro l st E g hE
    unfold PlanView.sLoop
    rw [bind_of_ok (modifyPV_eq _ _), bind_of_ok (modifyPV_eq _ _)]
    simp [PlanView.sLoop, pure_eq, hE, setLastS_append]
  | cons l' ls ih =>
    intro l st E g hE
    rw [PlanView.sLoop, bind_of_ok (modifyPV_eq _ _), bind_of_ok (modifyPV_eq _ _)]
    rw [ih l' _ E { g with s := some st.pv.presentS } (by simp [hE, setLastS_append])]
    simp [add_assoc]

end Pyodrx
