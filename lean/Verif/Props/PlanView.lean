import Verif.Proofs.PlanView
import Verif.Proofs.PlanViewGen

/-! # Properties C10-C16, C51, C52: planviews -/

namespace Pyodrx.Props
open Pyodrx Spec

/-! ## C10 -/

/-- C10: the constructor succeeds iff all three start values or none are given. -/
theorem C10_succeeds_iff {F : Type} [PyFloat F] (x y h : Option F) :
    (∃ pv, PlanView.new x y h = .ok pv) ↔
      (x.isSome ∧ y.isSome ∧ h.isSome) ∨ (x.isNone ∧ y.isNone ∧ h.isNone) := by
  cases x <;> cases y <;> cases h <;> simp [PlanView.new]

/-- C10: otherwise it raises `NotEnoughInputArguments`. -/
theorem C10_error {F : Type} [PyFloat F] (x y h : Option F)
    (hn : ¬((x.isSome ∧ y.isSome ∧ h.isSome) ∨ (x.isNone ∧ y.isNone ∧ h.isNone))) :
    PlanView.new x y h = .error .notEnoughInputArguments := by
  cases x <;> cases y <;> cases h <;> simp [PlanView.new] at hn ⊢

/-- C10: `fixed` iff all are given; nothing is adjusted or added yet. -/
theorem C10_fixed_iff {F : Type} [PyFloat F] (x y h : Option F) (pv : PlanView F)
    (hpv : PlanView.new x y h = .ok pv) :
    (pv.fixed = true ↔ x.isSome ∧ y.isSome ∧ h.isSome) ∧ pv.adjusted = false ∧ pv.raw = [] ∧
      pv.adjGeoms = [] ∧ pv.overridden = [] ∧ pv.presentS = PyFloat.ofInt 0 := by
  cases x <;> cases y <;> cases h <;> simp [PlanView.new] at hpv <;> subst hpv <;> simp [PlanView.setStartPoint]

theorem foldAdd_eq {F : Type} (refs : List Nat) : ∀ (pv : PlanView F),
    (refs.foldl (fun pv r => pv.addGeometry r none) pv) = { pv with raw := pv.raw ++ refs } := by
  induction refs with
  | nil => intro pv; simp
  | cons r rs ih => intro pv; rw [List.foldl_cons, ih]; simp [PlanView.addGeometry]

/-- C10: whatever geometries are added, the first one (and the road) starts at the given values, or
at the origin with heading 0. -/
theorem C10_start {F : Type} [PyFloat F] (x y h : Option F) (pv : PlanView F)
    (hpv : PlanView.new x y h = .ok pv) (refs : List Nat) (geoms : Store (Geom F)) (st : PVState F)
    (hadj : PlanView.adjustGeometries false
      ⟨refs.foldl (fun pv r => pv.addGeometry r none) pv, geoms⟩ = .ok () st) :
    let p : Pose F := ⟨x.getD (PyFloat.ofInt 0), y.getD (PyFloat.ofInt 0), h.getD (PyFloat.ofInt 0)⟩
    st.pv.start = some p ∧
    ∀ g ∈ st.pv.adjGeoms.head?, (⟨g.x, g.y, g.heading⟩ : Pose F) = p := by
  have hp : pv.present = ⟨x.getD (PyFloat.ofInt 0), y.getD (PyFloat.ofInt 0),
      h.getD (PyFloat.ofInt 0)⟩ ∧ pv.overridden = [] ∧ pv.adjGeoms = [] := by
    cases x <;> cases y <;> cases h <;> simp [PlanView.new] at hpv <;> subst hpv <;>
      simp [PlanView.setStartPoint]
  rw [foldAdd_eq] at hadj
  refine ⟨?_, ?_⟩
  · have := (adjustGeometries_gen hadj).start
    simpa [hp.1] using this
  · unfold PlanView.adjustGeometries at hadj
    rw [bind_of_ok (get_eq _)] at hadj
    simp only [if_true] at hadj
    rw [bind_of_ok (modifyPV_eq _ _)] at hadj
    obtain ⟨_, s1, h1, h2⟩ := bind_ok.mp hadj
    rw [bind_of_ok (modifyPV_eq _ _), modifyPV_ok] at h2
    subst h2
    obtain ⟨_, _, _, _, ⟨E, hE, _, hh⟩, _⟩ := fwdLoop_gen _ h1
    intro g hg
    simp only [hE, hp.2.2, List.nil_append] at hg
    have := (hh hp.2.1 g hg).2
    rw [this]; exact hp.1

example : (PlanView.new (some (1:ℝ)) (some 2) (some 3)).toOption.map (·.fixed) = some true := rfl
example : PlanView.new (some (1:ℝ)) none (some 3) = .error .notEnoughInputArguments := rfl

/-! ## C11 -/

theorem addAll_eq (pcs : List Piece) : ∀ pv : PlanView ℝ,
    addAll pv pcs = { pv with
      raw := pv.raw ++ pcs.map (·.ref)
      overridden := pv.overridden ++ pcs.filterMap (·.heading) } := by
  induction pcs with
  | nil => intro pv; simp [addAll]
  | cons pc pcs ih =>
    intro pv
    have : addAll pv (pc :: pcs) = addAll (pv.addGeometry pc.ref pc.heading) pcs := rfl
    rw [this, ih]
    cases h : pc.heading <;> simp [PlanView.addGeometry, h]

theorem new_eq (x y h : Option ℝ) (pv : PlanView ℝ) (hpv : PlanView.new x y h = .ok pv) :
    pv.raw = [] ∧ pv.overridden = [] ∧ pv.adjGeoms = [] ∧ pv.presentS = 0 ∧
      pv.present = ⟨x.getD 0, y.getD 0, h.getD 0⟩ := by
  cases x <;> cases y <;> cases h <;> simp [PlanView.new] at hpv <;> subst hpv <;>
    simp [PlanView.setStartPoint]

theorem headingAt_of_all (pcs : List Piece) (hh : AllOrNoHeadings pcs) (j : Nat)
    (hj : j < pcs.length) : HeadingAt (pcs.filterMap (·.heading)) (0 + j) (pcs[j]).heading := by
  rcases hh with hh | hh
  · left
    exact ⟨by rw [List.filterMap_eq_nil_iff]; exact hh, hh _ (List.getElem_mem hj)⟩
  · right
    obtain ⟨h, hh'⟩ := hh _ (List.getElem_mem hj)
    refine ⟨h, ?_, hh'⟩
    have : ∀ (l : List Piece), (∀ pc ∈ l, ∃ h, pc.heading = some h) →
        (l.filterMap (·.heading)).map some = l.map (·.heading) := by
      intro l
      induction l with
      | nil => intro _; rfl
      | cons a l ih =>
        intro hl
        obtain ⟨ha, ha'⟩ := hl a (by simp)
        simp [ha', ih (fun pc hpc => hl pc (by simp [hpc]))]
    have h2 := congrArg (fun l => l[j]?) (this pcs hh)
    simp only [List.getElem?_map, List.getElem?_eq_getElem hj, Option.map_some, hh'] at h2
    rw [Nat.zero_add]
    cases h3 : (pcs.filterMap (·.heading))[j]? with
    | none => simp [h3] at h2
    | some v => simpa [h3] using h2

/-- forward adjustment, from any planview whose headings fit -/
theorem adjust_forward_real (pv : PlanView ℝ) (pcs : List Piece) (geoms : Store (Geom ℝ))
    (hraw : pv.raw = pcs.map (·.ref)) (hd : Describes geoms pcs)
    (hh : ∀ j (hj : j < pcs.length), HeadingAt pv.overridden (0 + j) (pcs[j]).heading) :
    ∃ geoms', PlanView.adjustGeometries false ⟨pv, geoms⟩ = .ok () ⟨{ pv with
        present := finish pv.present pcs
        presentS := pv.presentS + totalLen pcs
        start := some pv.present
        stop := some (finish pv.present pcs)
        adjGeoms := pv.adjGeoms ++ layout pv.presentS pv.present pcs
        adjusted := true }, geoms'⟩ ∧
      SameShapes geoms geoms' ∧ ∀ pc ∈ pcs, Settled (geoms'.cell pc.ref) := by
  obtain ⟨g', h1, h2, _, h4⟩ := fwdLoop_real pcs 0 ⟨{ pv with start := some pv.present }, geoms⟩ hd hh
  refine ⟨g', ?_, h2, h4⟩
  have e := fun rs (h : rs = pcs.map (·.ref)) => Eq.trans (congrFun (congrArg
    (PlanView.fwdLoop (F := ℝ) 0) h) _) h1
  unfold PlanView.adjustGeometries
  rw [bind_of_ok (get_eq _)]
  simp only [if_true]
  rw [bind_of_ok (modifyPV_eq _ _), bind_of_ok (e _ hraw), bind_of_ok (modifyPV_eq _ _), modifyPV_eq]

/-- C11: a planview with the geometries `pcs` added, adjusted forward, emits exactly the layout of
their shapes from its start point: in order, at cumulative distances from 0, each geometry starting
at the end of the previous one; total length, start and end are those of the layout. -/
theorem C11_forward (x y h : Option ℝ) (pv : PlanView ℝ) (hpv : PlanView.new x y h = .ok pv)
    (pcs : List Piece) (geoms : Store (Geom ℝ)) (hd : Describes geoms pcs)
    (hh : AllOrNoHeadings pcs) :
    ∃ st, PlanView.adjustGeometries false ⟨addAll pv pcs, geoms⟩ = .ok () st ∧
      let p : Pose ℝ := ⟨x.getD 0, y.getD 0, h.getD 0⟩
      st.pv.adjGeoms = layout 0 p pcs ∧ st.pv.getTotalLength = totalLen pcs ∧
      st.pv.start = some p ∧ st.pv.stop = some (finish p pcs) ∧ st.pv.adjusted = true := by
  obtain ⟨h1, h2, h3, h4, h5⟩ := new_eq x y h pv hpv
  obtain ⟨g', h6, _, _⟩ := adjust_forward_real (addAll pv pcs) pcs geoms
    (by simp [addAll_eq, h1]) hd
    (by simpa [addAll_eq, h2] using headingAt_of_all pcs hh)
  refine ⟨_, h6, ?_⟩
  simp [addAll_eq, h3, h4, h5, PlanView.getTotalLength]

/-- C11: each emitted geometry, evaluated again with `get_end_data` from where it was emitted, ends
where the next one starts (and the last one at the end of the road), with the emitted length. -/
theorem C11_chained (pv : PlanView ℝ) (x y h : Option ℝ) (hpv : PlanView.new x y h = .ok pv)
    (pcs : List Piece) (geoms : Store (Geom ℝ)) (hd : Describes geoms pcs)
    (hh : ∀ pc ∈ pcs, pc.heading = none) (st : PVState ℝ)
    (hadj : PlanView.adjustGeometries false ⟨addAll pv pcs, geoms⟩ = .ok () st)
    (i : Nat) (g : AdjGeom ℝ) (hg : st.pv.adjGeoms[i]? = some g) :
    ∃ q g', Geom.getEndData (poseOf g) (st.geoms.cell g.geom) = .ok (q, g.length) g' ∧
      (∀ n, st.pv.adjGeoms[i + 1]? = some n → poseOf n = q) ∧
      (i + 1 = st.pv.adjGeoms.length → st.pv.stop = some q) := by
  obtain ⟨h1, h2, h3, h4, h5⟩ := new_eq x y h pv hpv
  obtain ⟨g', h6, hsame, hset⟩ := adjust_forward_real (addAll pv pcs) pcs geoms
    (by simp [addAll_eq, h1]) hd
    (by simpa [addAll_eq, h2] using headingAt_of_all pcs (Or.inl hh))
  rw [h6] at hadj
  cases hadj
  simp only [addAll_eq, h3, List.nil_append] at hg ⊢
  -- a general fact about layouts
  have key : ∀ (l : List Piece) (s : ℝ) (p : Pose ℝ) (i : Nat) (g : AdjGeom ℝ),
      (∀ pc ∈ l, pc.heading = none) → (layout s p l)[i]? = some g →
      ∃ pc ∈ l, g.geom = pc.ref ∧ g.length = some pc.shape.len ∧
        (∀ n, (layout s p l)[i + 1]? = some n → poseOf n = pc.shape.place (poseOf g)) ∧
        (i + 1 = l.length → finish p l = pc.shape.place (poseOf g)) := by
    intro l
    induction l with
    | nil => intro s p i g _ hg; simp [layout] at hg
    | cons pc l ih =>
      intro s p i g hn hg
      have h0 : pc.start p = p := by simp [Piece.start, hn pc (by simp)]
      cases i with
      | zero =>
        simp only [layout, List.getElem?_cons_zero, Option.some.injEq] at hg
        subst hg
        refine ⟨pc, by simp, rfl, rfl, ?_, ?_⟩
        · intro n hn'
          cases l with
          | nil => simp [layout] at hn'
          | cons pc2 l2 =>
            have h02 : ∀ p, pc2.start p = p := fun p => by simp [Piece.start, hn pc2 (by simp)]
            simp only [layout, Nat.zero_add, List.getElem?_cons_succ, List.getElem?_cons_zero,
              Option.some.injEq] at hn'
            subst hn'
            simp [poseOf, h02]
        · intro hl
          cases l with
          | nil => simp [finish, poseOf]
          | cons pc2 l2 => simp at hl
      | succ i =>
        simp only [layout, List.getElem?_cons_succ] at hg
        obtain ⟨pc', hpc', e1, e2, e3, e4⟩ := ih _ _ i g (fun q hq => hn q (by simp [hq])) hg
        refine ⟨pc', by simp [hpc'], e1, e2, ?_, ?_⟩
        · intro n hn'
          simp only [layout, List.getElem?_cons_succ] at hn'
          exact e3 n hn'
        · intro hl
          simp only [finish]
          exact e4 (by simpa using hl)
  obtain ⟨pc, hpc, e1, e2, e3, e4⟩ := key pcs _ _ i g hh hg
  obtain ⟨g2, h7, _, _⟩ := settled_end (g'.cell pc.ref) pc.shape
    ((hsame pc.ref).trans (hd pc hpc)) (hset pc hpc) (poseOf g)
  refine ⟨pc.shape.place (poseOf g), g2, ?_, e3, ?_⟩
  · rw [e1, e2, h7]
  · intro hl
    rw [e4 (by simpa [layout_length] using hl)]

/-- C11: the evaluable geometries are exactly those with a shape: if adjusting succeeds, every
added geometry describes a shape. -/
theorem C11_only_if (x y h : Option ℝ) (pv : PlanView ℝ) (hpv : PlanView.new x y h = .ok pv)
    (refs : List Nat) (geoms : Store (Geom ℝ)) (hc : ∀ r ∈ refs, Constructible (geoms.cell r))
    (st : PVState ℝ) (hadj : PlanView.adjustGeometries false
      ⟨refs.foldl (fun pv r => pv.addGeometry r none) pv, geoms⟩ = .ok () st) :
    ∀ r ∈ refs, ∃ sh, shapeOf (geoms.cell r) = some sh := by
  obtain ⟨h1, h2, h3, h4, h5⟩ := new_eq x y h pv hpv
  rw [foldAdd_eq] at hadj
  unfold PlanView.adjustGeometries at hadj
  rw [bind_of_ok (get_eq _)] at hadj
  simp only [if_true] at hadj
  rw [bind_of_ok (modifyPV_eq _ _)] at hadj
  obtain ⟨_, s1, hl, _⟩ := bind_ok.mp hadj
  have key : ∀ (rs : List Nat) (i : Nat) (st st' : PVState ℝ), st.pv.overridden = [] →
      (∀ r ∈ rs, Constructible (st.geoms.cell r)) → PlanView.fwdLoop i rs st = .ok () st' →
      ∀ r ∈ rs, ∃ sh, shapeOf (st.geoms.cell r) = some sh := by
    intro rs
    induction rs with
    | nil => intro i st st' _ _ _ r hr; simp at hr
    | cons r rs ih =>
      intro i st st' hov hc hl
      obtain ⟨_, s1, hs1, hl2⟩ := bind_ok.mp hl
      have hr : ∃ sh, shapeOf (st.geoms.cell r) = some sh := by
        by_contra hno
        have hnone : shapeOf (st.geoms.cell r) = none := by
          cases hx : shapeOf (st.geoms.cell r) with
          | none => rfl
          | some sh => exact absurd ⟨sh, hx⟩ hno
        unfold PlanView.fwdStep at hs1
        rw [bind_of_ok (get_eq _), if_neg (by simp [hov])] at hs1
        dsimp only at hs1
        rw [bind_of_ok (get_eq _)] at hs1
        obtain ⟨g, s2, hn, hs1⟩ := bind_ok.mp hs1
        obtain ⟨⟨q, len⟩, s3, hce, hs1⟩ := bind_ok.mp hs1
        dsimp only at hs1
        rw [bind_of_ok (modifyPV_eq _ _)] at hs1
        obtain ⟨l, s4, hor, _⟩ := bind_ok.mp hs1
        obtain ⟨hlen, _⟩ := orRaise_ok.mp hor
        unfold AdjGeom.new at hn
        obtain ⟨⟨q1, len1⟩, s5, hce1, hn⟩ := bind_ok.mp hn
        obtain ⟨_, rfl⟩ := pure_ok.mp hn
        rcases no_shape_end _ hnone (hc r (by simp)) st.pv.present with ⟨e, g1, he⟩ | ⟨q2, he⟩
        · simp only [callEnd, he] at hce1
          exact absurd hce1 (by simp)
        · simp only [callEnd, he] at hce1
          cases hce1
          rcases no_shape_end _ hnone (hc r (by simp)) ⟨g.x, g.y, g.heading⟩ with
            ⟨e, g1, he2⟩ | ⟨q3, he2⟩
          · simp only [callEnd, Store.put_cell_same, he2] at hce
            exact absurd hce (by simp)
          · simp only [callEnd, Store.put_cell_same, he2] at hce
            cases hce
            simp at hlen
      intro r' hr'
      obtain ⟨sh, hsh⟩ := hr
      obtain ⟨g', e1, e2, _, _⟩ := fwdStep_real (st := st) (i := i) (pc := ⟨r, sh, none⟩) hsh
        (Or.inl ⟨hov, rfl⟩)
      rw [e1] at hs1
      cases hs1
      rcases List.mem_cons.mp hr' with rfl | hr'
      · exact ⟨sh, hsh⟩
      · obtain ⟨sh', hsh'⟩ := ih (i + 1) _ st' (by exact hov) (by
          intro r2 hr2
          have hcr := hc r2 (by simp [hr2])
          by_cases h2 : r2 = r
          · subst h2
            exact constructible_of_shape ((e2 r2).trans hsh)
          · obtain ⟨_, _, _, _, _, _, _, _, _, _, f⟩ := fwdStep_gen e1
            rw [f r2 h2]; exact hcr) hl2 r' hr'
        exact ⟨sh', (e2 r').symm.trans hsh'⟩
  have := key _ _ _ _ (by exact h2) (by simpa [h1] using hc) hl
  simpa [h1] using this

/-- Non-vacuity: a line, an arc given by an angle of the "wrong" sign, the same line object again. -/
noncomputable def exHeap : Store (Geom ℝ) :=
  ⟨fun r => if r = 0 then .line ⟨10⟩ else .arc ⟨1, none, some (-2)⟩, 2⟩

noncomputable def exPieces : List Piece :=
  [⟨0, .ofHeading (fun _ => 0) 10, none⟩, ⟨1, .ofHeading (fun s => 1 * s) 2, none⟩,
   ⟨0, .ofHeading (fun _ => 0) 10, none⟩]

theorem exPieces_describes : Describes exHeap exPieces := by
  intro pc hpc
  simp only [exPieces, List.mem_cons, List.not_mem_nil, or_false] at hpc
  rcases hpc with rfl | rfl | rfl <;>
    simp [exHeap, shapeOf, arcLength, arcLength.viaAngle]

example : ∃ st, PlanView.adjustGeometries false ⟨addAll (PlanView.setStartPoint (F := ℝ)
      ⟨⟨0,0,0⟩, 0, true, none, none, [], [], [], false⟩ ⟨1, 2, 3⟩) exPieces, exHeap⟩ = .ok () st ∧
    st.pv.getTotalLength = 22 ∧ st.pv.adjGeoms.map (·.s) = [some 0, some 10, some 12] := by
  obtain ⟨st, h1, h2, h3, _⟩ := C11_forward (some 1) (some 2) (some 3)
    (PlanView.mk ⟨1,2,3⟩ 0 true none none [] [] [] false) (by simp [PlanView.new, PlanView.setStartPoint]) exPieces exHeap
    exPieces_describes (Or.inl (by simp [exPieces]))
  refine ⟨st, h1, ?_, ?_⟩
  · rw [h3]; norm_num [exPieces, totalLen, Shape.ofHeading]
  · rw [h2]; norm_num [exPieces, layout, Shape.ofHeading]

/-! ## C12, C13 -/

/-- backward adjustment of a fresh planview -/
theorem adjust_backward_real (pv : PlanView ℝ) (pc : Piece) (rest : List Piece)
    (geoms : Store (Geom ℝ)) (hraw : pv.raw = (pc :: rest).map (·.ref)) (hadj : pv.adjGeoms = [])
    (hd : Describes geoms (pc :: rest)) (hp : ∀ q ∈ pc :: rest, NotPoly (geoms.cell q.ref)) :
    ∃ (p0 : Pose ℝ) (geoms' : Store (Geom ℝ)),
      PlanView.adjustGeometries true ⟨pv, geoms⟩ = .ok () ⟨{ pv with
        present := ⟨p0.x, p0.y, p0.h - Real.pi⟩
        presentS := totalLen (pc :: rest)
        start := some p0
        stop := some (turned pv.present)
        adjGeoms := ((layout pc.shape.len (pc.shape.place p0) (rest.map Piece.free)).map
            noS).reverse ++
          [⟨some (totalLen rest), p0.x, p0.y, p0.h, some pc.shape.len, pc.ref⟩]
        adjusted := true }, geoms'⟩ ∧
      finish p0 ((pc :: rest).map Piece.free) = turned pv.present ∧ SameShapes geoms geoms' := by
  obtain ⟨q, g', h1, hf, hs⟩ := bwdLoop_real (pc :: rest).reverse
    ⟨{ pv with stop := some (turned pv.present) }, geoms⟩
    (fun x hx => hd x (List.mem_reverse.mp hx)) (fun x hx => hp x (List.mem_reverse.mp hx))
  simp only [List.reverse_reverse] at h1 hf
  refine ⟨turned q, g', ?_, hf, hs⟩
  unfold PlanView.adjustGeometries
  rw [bind_of_ok (get_eq _)]
  simp only [Bool.true_eq_false, if_false]
  have hst : (fun pv : PlanView ℝ => { pv with stop := some { pv.present with
      h := PyFloat.add pv.present.h PyFloat.pi } }) =
      fun pv => { pv with stop := some (turned pv.present) } := rfl
  have e := fun rs (h : rs = (pc :: rest).reverse.map (·.ref)) => Eq.trans (congrFun (congrArg
    (PlanView.bwdLoop (F := ℝ)) h) _) h1
  rw [hst, bind_of_ok (modifyPV_eq _ _), bind_of_ok (e _ (by rw [hraw, List.map_reverse])),
    bind_of_ok (modifyPV_eq _ _)]
  have hmap : ((pc :: rest).reverse.map fun pc => some pc.shape.len) =
      ((pc :: rest).reverse.map fun pc => pc.shape.len).map some := by simp
  rw [hmap, allSome_map_some, bind_of_ok (orRaise_some _), bind_of_ok (modifyPV_eq _ _)]
  obtain ⟨l0, ls, hls⟩ : ∃ l0 ls, ((pc :: rest).reverse.map fun pc => pc.shape.len) = l0 :: ls := by
    cases h : (pc :: rest).reverse.map fun pc => pc.shape.len with
    | nil => simp at h
    | cons a b => exact ⟨a, b, rfl⟩
  have hsum : (l0 :: ls).sum = totalLen (pc :: rest) := by
    rw [← hls, totalLen, List.map_reverse, List.sum_reverse]
  have hdrop : ((l0 :: ls).dropLast).sum = totalLen rest := by
    rw [← hls]
    simp only [List.reverse_cons, List.map_append, List.map_cons, List.map_nil,
      List.dropLast_concat, List.map_reverse, List.sum_reverse, totalLen]
  rw [hls, bind_of_ok (sLoop_real ls l0 _
    ((layout pc.shape.len (pc.shape.place (turned q)) (rest.map Piece.free)).map noS).reverse
    ⟨none, (turned q).x, (turned q).y, (turned q).h, some pc.shape.len, pc.ref⟩ ?_), modifyPV_eq]
  · simp only [hsum, hdrop, real_ofInt, Int.cast_zero, zero_add]
    simp [turned]
  · simp [hadj, layout, noS, Piece.free, Piece.start]

/-- C12: after adjusting from the end, the road ends at the requested point (turned around);
laying the added geometries out forward from the reported start point reaches exactly that end, and
the emitted geometries are, in reverse order, at exactly the poses and with the lengths of that
forward layout; the total length is the sum of the lengths.
(Lines, Arcs, Spirals; headings coincide exactly, not only modulo 2π.) -/
theorem C12_backward (x y h : Option ℝ) (pv : PlanView ℝ) (hpv : PlanView.new x y h = .ok pv)
    (target : Pose ℝ) (pcs : List Piece) (hne : pcs ≠ []) (geoms : Store (Geom ℝ))
    (hd : Describes geoms pcs) (hno : ∀ pc ∈ pcs, pc.heading = none)
    (hp : ∀ pc ∈ pcs, NotPoly (geoms.cell pc.ref)) :
    ∃ st p0, PlanView.adjustGeometries true ⟨(addAll pv pcs).setStartPoint target, geoms⟩ =
        .ok () st ∧
      st.pv.start = some p0 ∧ st.pv.stop = some (turned target) ∧
      finish p0 pcs = turned target ∧
      st.pv.adjGeoms.reverse.map (fun g => (poseOf g, g.length, g.geom)) =
        (layout 0 p0 pcs).map (fun g => (poseOf g, g.length, g.geom)) ∧
      st.pv.getTotalLength = totalLen pcs := by
  obtain ⟨h1, h2, h3, h4, h5⟩ := new_eq x y h pv hpv
  cases pcs with
  | nil => exact absurd rfl hne
  | cons pc rest =>
    obtain ⟨p0, g', e1, e2, e3⟩ := adjust_backward_real
      ((addAll pv (pc :: rest)).setStartPoint target) pc rest geoms
      (by simp [addAll_eq, PlanView.setStartPoint, h1])
      (by simp [addAll_eq, PlanView.setStartPoint, h3]) hd hp
    have hfree : ∀ l : List Piece, (∀ q ∈ l, q.heading = none) → l.map Piece.free = l := by
      intro l hl
      conv_rhs => rw [← List.map_id l]
      apply List.map_congr_left
      intro a ha
      cases a
      simpa [Piece.free] using (hl _ ha).symm
    have hf1 := hfree _ hno
    have hf2 := hfree rest (fun q hq => hno q (by simp [hq]))
    rw [hf1] at e2
    rw [hf2] at e1
    have h0 : pc.start p0 = p0 := by simp [Piece.start, hno pc (by simp)]
    have hshift : ∀ (l : List Piece) (s s' : ℝ) (p : Pose ℝ),
        (layout s p l).map (fun g => (poseOf g, g.length, g.geom)) =
        (layout s' p l).map (fun g => (poseOf g, g.length, g.geom)) := by
      intro l
      induction l with
      | nil => intro _ _ _; rfl
      | cons a l ih => intro s s' p; simp only [layout, List.map_cons]; rw [ih _ (s' + a.shape.len)]; rfl
    refine ⟨_, p0, e1, rfl, rfl, e2, ?_, rfl⟩
    simp only [List.reverse_append, List.reverse_reverse, List.map_append, List.map_map]
    simp only [layout, List.map_cons, h0]
    have : ((fun g : AdjGeom ℝ => (poseOf g, g.length, g.geom)) ∘ noS) =
        (fun g : AdjGeom ℝ => (poseOf g, g.length, g.geom)) := rfl
    rw [this, hshift rest pc.shape.len (0 + pc.shape.len)]
    simp [poseOf]

theorem allSome_mem {α : Type} : ∀ {l : List (Option α)} {ls : List α}, allSome l = some ls → ∀ o ∈ l, o ≠ none := by
  intro l
  induction l with
  | nil => intro ls _ o ho; simp at ho
  | cons a l ih =>
    intro ls h o ho
    cases a with
    | none => simp [allSome] at h
    | some a =>
      simp only [allSome, Option.map_eq_some_iff] at h
      obtain ⟨ls', h, _⟩ := h
      rcases List.mem_cons.mp ho with rfl | ho
      · simp
      · exact ih h o ho

/-- C12: the geometries a road can be adjusted with from its end are exactly those with a shape: if adjusting succeeds,
every added geometry describes a shape. -/
theorem C12_only_if (x y h : Option ℝ) (pv : PlanView ℝ) (hpv : PlanView.new x y h = .ok pv)
    (refs : List Nat) (geoms : Store (Geom ℝ)) (hc : ∀ r ∈ refs, Constructible (geoms.cell r)) (target : Pose ℝ)
    (st : PVState ℝ) (hadj : PlanView.adjustGeometries true
      ⟨(refs.foldl (fun pv r => pv.addGeometry r none) pv).setStartPoint target, geoms⟩ = .ok () st) :
    ∀ r ∈ refs, ∃ sh, shapeOf (geoms.cell r) = some sh := by
  obtain ⟨h1, h2, h3, h4, h5⟩ := new_eq x y h pv hpv
  rw [foldAdd_eq] at hadj
  unfold PlanView.adjustGeometries at hadj
  rw [bind_of_ok (get_eq _)] at hadj
  simp only [Bool.true_eq_false, if_false] at hadj
  rw [bind_of_ok (modifyPV_eq _ _)] at hadj
  obtain ⟨lens, s1, hl, hadj⟩ := bind_ok.mp hadj
  rw [bind_of_ok (modifyPV_eq _ _)] at hadj
  obtain ⟨ls, s2, hor, _⟩ := bind_ok.mp hadj
  obtain ⟨hor, _⟩ := orRaise_ok.mp hor
  have key : ∀ (rs : List Nat) (st st' : PVState ℝ) (lens : List (Option ℝ)),
      (∀ r ∈ rs, Constructible (st.geoms.cell r)) → PlanView.bwdLoop rs st = .ok lens st' →
      (∀ o ∈ lens, o ≠ none) → ∀ r ∈ rs, ∃ sh, shapeOf (st.geoms.cell r) = some sh := by
    intro rs
    induction rs with
    | nil => intro st st' lens _ _ _ r hr; simp at hr
    | cons r rs ih =>
      intro st st' lens hc hl hlens
      obtain ⟨lo, s1, hs1, hl2⟩ := bind_ok.mp hl
      obtain ⟨los, s2, hl3, hl4⟩ := bind_ok.mp hl2
      obtain ⟨rfl, rfl⟩ := pure_ok.mp hl4
      have hgen := hs1
      have step : (∃ sh, shapeOf (st.geoms.cell r) = some sh) ∧ SameShapes st.geoms s1.geoms := by
        unfold PlanView.bwdStep at hs1
        rw [bind_of_ok (get_eq _)] at hs1
        obtain ⟨g, t1, hn, hs2⟩ := bind_ok.mp hs1
        obtain ⟨⟨q, len⟩, t2, hce, hs3⟩ := bind_ok.mp hs2
        dsimp only at hs3
        rw [bind_of_ok (modifyPV_eq _ _)] at hs3
        obtain ⟨rfl, rfl⟩ := pure_ok.mp hs3
        clear hs1 hs2 hs3
        unfold AdjGeom.new at hn
        obtain ⟨⟨q1, len1⟩, t3, hce1, hn'⟩ := bind_ok.mp hn
        obtain ⟨rfl, rfl⟩ := pure_ok.mp hn'
        cases hx : shapeOf (st.geoms.cell r) with
        | none =>
          exfalso
          rcases no_shape_end _ hx (hc r (by simp)) st.pv.present with ⟨e, g1, he⟩ | ⟨q2, he⟩
          · simp only [callEnd, he] at hce1
            exact absurd hce1 (by simp)
          · simp only [callEnd, he] at hce1
            cases hce1
            rcases no_shape_start _ hx (hc r (by simp)) ⟨st.pv.present.x, st.pv.present.y, st.pv.present.h⟩ with
              ⟨e, g1, he2⟩ | ⟨q3, he2⟩
            · simp only [callStart, Store.put_cell_same, he2] at hce
              exact absurd hce (by simp)
            · simp only [callStart, Store.put_cell_same, he2] at hce
              cases hce
              exact hlens none (by simp) rfl
        | some sh =>
          refine ⟨⟨sh, rfl⟩, ?_⟩
          obtain ⟨q', g', e1, e2, e3⟩ := callEnd_first (st := st) hx st.pv.present
          rw [e1] at hce1
          cases hce1
          obtain ⟨q'', g'', f1, f2, -⟩ := settled_start_len g' sh e2 e3 ⟨st.pv.present.x, st.pv.present.y, st.pv.present.h⟩
          simp only [callStart, Store.put_cell, if_true, f1] at hce
          cases hce
          exact (SameShapes.put (e2.trans hx.symm)).trans (SameShapes.put (by simpa using f2.trans e2.symm))
      obtain ⟨⟨sh, hsh⟩, hsame⟩ := step
      intro r' hr'
      rcases List.mem_cons.mp hr' with rfl | hr'
      · exact ⟨sh, hsh⟩
      · obtain ⟨sh', hsh'⟩ := ih s1 _ los (by
          intro r2 hr2
          by_cases h2 : r2 = r
          · subst h2; exact constructible_of_shape ((hsame r2).trans hsh)
          · obtain ⟨_, _, _, f⟩ := bwdStep_gen hgen
            rw [f r2 h2]; exact hc r2 (by simp [hr2])) hl3 (fun o ho => hlens o (by simp [ho])) r' hr'
        exact ⟨sh', (hsame r').symm.trans hsh'⟩
  have := key _ _ _ _ (by simpa [h1, PlanView.setStartPoint] using hc) hl (allSome_mem hor)
  simpa [h1, PlanView.setStartPoint] using this

/-- C13 (violation): after adjusting a road of two or more geometries from its end, the emitted
geometries are in reverse order, all but one have no s (the text `None` is written), and the one
that is the beginning of the road has s = length of all the others instead of 0. -/
theorem C13_backward_s (x y h : Option ℝ) (pv : PlanView ℝ) (hpv : PlanView.new x y h = .ok pv)
    (target : Pose ℝ) (pc : Piece) (rest : List Piece) (geoms : Store (Geom ℝ))
    (hd : Describes geoms (pc :: rest)) (hp : ∀ q ∈ pc :: rest, NotPoly (geoms.cell q.ref)) :
    ∃ st, PlanView.adjustGeometries true
        ⟨(addAll pv (pc :: rest)).setStartPoint target, geoms⟩ = .ok () st ∧
      st.pv.adjGeoms.map (·.s) = List.replicate rest.length none ++ [some (totalLen rest)] ∧
      st.pv.adjGeoms.map (·.geom) = ((pc :: rest).map (·.ref)).reverse := by
  obtain ⟨h1, h2, h3, h4, h5⟩ := new_eq x y h pv hpv
  obtain ⟨p0, g', e1, e2, e3⟩ := adjust_backward_real
    ((addAll pv (pc :: rest)).setStartPoint target) pc rest geoms
    (by simp [addAll_eq, PlanView.setStartPoint, h1])
    (by simp [addAll_eq, PlanView.setStartPoint, h3]) hd hp
  refine ⟨_, e1, ?_, ?_⟩
  · simp only [List.map_append, List.map_reverse, List.map_map, List.map_cons, List.map_nil]
    congr 1
    have : ∀ l : List (AdjGeom ℝ), (l.map ((fun x => x.s) ∘ noS)).reverse =
        List.replicate l.length none := by
      intro l
      induction l with
      | nil => rfl
      | cons a l ih =>
        simp only [List.map_cons, List.reverse_cons, ih, List.length_cons]
        rw [List.replicate_succ']; rfl
    rw [this, layout_length, List.length_map]
  · simp only [List.map_append, List.map_reverse, List.map_map, List.map_cons, List.map_nil,
      List.reverse_cons]
    congr 1
    have : ((fun x : AdjGeom ℝ => x.geom) ∘ noS) = fun x => x.geom := rfl
    rw [this, layout_refs]
    congr 1
    simp [Piece.free, Function.comp_def]

/-- C13: s is right after forward adjustment: the i-th emitted geometry carries the length of the
road before it. -/
theorem C13_forward_s (x y h : Option ℝ) (pv : PlanView ℝ) (hpv : PlanView.new x y h = .ok pv)
    (pcs : List Piece) (geoms : Store (Geom ℝ)) (hd : Describes geoms pcs)
    (hh : AllOrNoHeadings pcs) :
    ∃ st, PlanView.adjustGeometries false ⟨addAll pv pcs, geoms⟩ = .ok () st ∧
      ∀ i g, st.pv.adjGeoms[i]? = some g → g.s = some (totalLen (pcs.take i)) := by
  obtain ⟨st, h1, h2, _⟩ := C11_forward x y h pv hpv pcs geoms hd hh
  refine ⟨st, h1, ?_⟩
  rw [h2]
  have key : ∀ (l : List Piece) (s : ℝ) (p : Pose ℝ) (i : Nat) (g : AdjGeom ℝ),
      (layout s p l)[i]? = some g → g.s = some (s + totalLen (l.take i)) := by
    intro l
    induction l with
    | nil => intro s p i g hg; simp [layout] at hg
    | cons a l ih =>
      intro s p i g hg
      cases i with
      | zero => simp [layout] at hg; subst hg; simp [totalLen]
      | succ i =>
        simp only [layout, List.getElem?_cons_succ] at hg
        rw [ih _ _ i g hg, List.take_succ_cons, totalLen_cons, add_assoc]
  intro i g hg
  simpa using key pcs 0 _ i g hg

/-- C13: and after backward adjustment of a single geometry. -/
theorem C13_single (x y h : Option ℝ) (pv : PlanView ℝ) (hpv : PlanView.new x y h = .ok pv)
    (target : Pose ℝ) (pc : Piece) (geoms : Store (Geom ℝ))
    (hd : Describes geoms [pc]) (hp : NotPoly (geoms.cell pc.ref)) :
    ∃ st, PlanView.adjustGeometries true ⟨(addAll pv [pc]).setStartPoint target, geoms⟩ =
      .ok () st ∧ st.pv.adjGeoms.map (·.s) = [some 0] := by
  obtain ⟨st, h1, h2, _⟩ := C13_backward_s x y h pv hpv target pc [] geoms hd
    (by simpa using hp)
  exact ⟨st, h1, by simpa [totalLen] using h2⟩

/-- The example of `exPieces`, from its end: two of three geometries have no s, the first has 12. -/
example : ∃ st, PlanView.adjustGeometries true ⟨(addAll (PlanView.mk ⟨0,0,0⟩ 0 false none none
      [] [] [] false) exPieces).setStartPoint ⟨1, 2, 3⟩, exHeap⟩ = .ok () st ∧
    st.pv.adjGeoms.map (·.s) = [none, none, some 12] := by
  obtain ⟨st, h1, h2, _⟩ := C13_backward_s none none none
    (PlanView.mk ⟨0,0,0⟩ 0 false none none [] [] [] false) (by simp [PlanView.new]) ⟨1, 2, 3⟩ _ _ exHeap
    exPieces_describes (by
      intro q hq
      simp only [List.mem_cons, List.not_mem_nil, or_false] at hq
      rcases hq with rfl | rfl | rfl <;> simp [exHeap, NotPoly])
  refine ⟨st, h1, ?_⟩
  rw [h2]
  norm_num [totalLen, Shape.ofHeading, List.replicate]

/-! ## C14 -/

theorem place_move (sh : Shape) (φ tx ty : ℝ) (p : Pose ℝ) :
    sh.place (move φ tx ty p) = move φ tx ty (sh.place p) := by
  apply Pose.ext' <;> simp only [Shape.place, move, Real.cos_add, Real.sin_add] <;> ring

theorem layout_move (φ tx ty : ℝ) (pcs : List Piece) (hno : ∀ pc ∈ pcs, pc.heading = none) :
    ∀ (s : ℝ) (p : Pose ℝ),
      (layout s (move φ tx ty p) pcs).map (fun g => (poseOf g, g.s, g.length, g.geom)) =
        (layout s p pcs).map (fun g => (move φ tx ty (poseOf g), g.s, g.length, g.geom)) ∧
      finish (move φ tx ty p) pcs = move φ tx ty (finish p pcs) := by
  induction pcs with
  | nil => intro s p; exact ⟨rfl, rfl⟩
  | cons pc l ih =>
    intro s p
    have h0 : ∀ p, pc.start p = p := fun p => by simp [Piece.start, hno pc (by simp)]
    obtain ⟨i1, i2⟩ := ih (fun q hq => hno q (by simp [hq])) (s + pc.shape.len) (pc.shape.place p)
    constructor
    · simp only [layout, h0, place_move, List.map_cons, i1]
      rfl
    · simp only [finish, h0, place_move, i2]

/-- C14: placing the same road elsewhere moves every emitted geometry start and the end point by the
same rigid motion; distances, lengths and total length do not change. -/
theorem C14_rigid (x y h : Option ℝ) (pv : PlanView ℝ) (hpv : PlanView.new x y h = .ok pv)
    (pcs : List Piece) (geoms : Store (Geom ℝ)) (hd : Describes geoms pcs)
    (hno : ∀ pc ∈ pcs, pc.heading = none) (p : Pose ℝ) (φ tx ty : ℝ) :
    ∃ st st' q, PlanView.adjustGeometries false ⟨(addAll pv pcs).setStartPoint p, geoms⟩ =
        .ok () st ∧
      PlanView.adjustGeometries false ⟨(addAll pv pcs).setStartPoint (move φ tx ty p), geoms⟩ =
        .ok () st' ∧
      st'.pv.adjGeoms.map (fun g => (poseOf g, g.s, g.length, g.geom)) =
        st.pv.adjGeoms.map (fun g => (move φ tx ty (poseOf g), g.s, g.length, g.geom)) ∧
      st.pv.stop = some q ∧ st'.pv.stop = some (move φ tx ty q) ∧
      st'.pv.getTotalLength = st.pv.getTotalLength := by
  obtain ⟨h1, h2, h3, h4, h5⟩ := new_eq x y h pv hpv
  have run := fun p => adjust_forward_real ((addAll pv pcs).setStartPoint p) pcs geoms
    (by simp [addAll_eq, PlanView.setStartPoint, h1]) hd
    (by simpa [addAll_eq, PlanView.setStartPoint, h2] using headingAt_of_all pcs (Or.inl hno))
  obtain ⟨g1, e1, _⟩ := run p
  obtain ⟨g2, e2, _⟩ := run (move φ tx ty p)
  obtain ⟨i1, i2⟩ := layout_move φ tx ty pcs hno 0 p
  refine ⟨_, _, finish p pcs, e1, e2, ?_, rfl, ?_, ?_⟩
  · simpa [addAll_eq, PlanView.setStartPoint, h3, h4] using i1
  · simpa [PlanView.setStartPoint] using i2
  · simp [PlanView.getTotalLength, PlanView.setStartPoint]

example : ∃ st, PlanView.adjustGeometries false ⟨(addAll (PlanView.mk ⟨0,0,0⟩ 0 false none none
      [] [] [] false) exPieces).setStartPoint (move 1 2 3 ⟨4, 5, 6⟩), exHeap⟩ = .ok () st ∧
    st.pv.adjGeoms.length = 3 := by
  obtain ⟨st, st', q, h1, h2, h3, _⟩ := C14_rigid none none none
    (PlanView.mk ⟨0,0,0⟩ 0 false none none [] [] [] false) (by simp [PlanView.new]) exPieces exHeap
    exPieces_describes (by simp [exPieces]) ⟨4, 5, 6⟩ 1 2 3
  have := adjustGeometries_gen h2
  exact ⟨st', h2, by simpa [addAll_eq, PlanView.setStartPoint, exPieces] using congrArg List.length this.refs⟩

/-! ## C15 (planview part) -/

/-- C15: adjusting a planview forward a second time appends all geometries again, after the end of
the road, and doubles the length. -/
theorem C15_planview_twice (x y h : Option ℝ) (pv : PlanView ℝ)
    (hpv : PlanView.new x y h = .ok pv) (pcs : List Piece) (geoms : Store (Geom ℝ))
    (hd : Describes geoms pcs) (hno : ∀ pc ∈ pcs, pc.heading = none) :
    ∃ st1 st2, PlanView.adjustGeometries false ⟨addAll pv pcs, geoms⟩ = .ok () st1 ∧
      PlanView.adjustGeometries false st1 = .ok () st2 ∧
      st2.pv.adjGeoms = layout 0 ⟨x.getD 0, y.getD 0, h.getD 0⟩ (pcs ++ pcs) ∧
      st2.pv.adjGeoms.length = 2 * st1.pv.adjGeoms.length ∧
      st2.pv.getTotalLength = 2 * st1.pv.getTotalLength := by
  obtain ⟨h1, h2, h3, h4, h5⟩ := new_eq x y h pv hpv
  have hov := headingAt_of_all pcs (Or.inl hno)
  obtain ⟨g1, e1, s1, _⟩ := adjust_forward_real (addAll pv pcs) pcs geoms
    (by simp [addAll_eq, h1]) hd (by simpa [addAll_eq, h2] using hov)
  obtain ⟨g2, e2, _⟩ := adjust_forward_real { (addAll pv pcs) with
      present := finish (addAll pv pcs).present pcs
      presentS := (addAll pv pcs).presentS + totalLen pcs
      start := some (addAll pv pcs).present
      stop := some (finish (addAll pv pcs).present pcs)
      adjGeoms := (addAll pv pcs).adjGeoms ++ layout (addAll pv pcs).presentS
        (addAll pv pcs).present pcs
      adjusted := true } pcs g1
    (by simp [addAll_eq, h1]) (fun pc hpc => (s1 pc.ref).trans (hd pc hpc))
    (by simpa [addAll_eq, h2] using hov)
  refine ⟨_, _, e1, e2, ?_, ?_, ?_⟩
  · simp [addAll_eq, h3, h4, h5, layout_append]
  · simp [addAll_eq, h3, layout_length]; ring
  · simp [addAll_eq, h4, PlanView.getTotalLength]; ring

/-! ## C16 -/

/-- C16: `Road.get_end_point` of a road adjusted forward is the end of its planview. -/
theorem C16_forward {F : Type} [PyFloat F] (r : Road F) (geoms : Store (Geom F)) (st : PVState F)
    (h : PlanView.adjustGeometries false ⟨r.planview, geoms⟩ = .ok () st) :
    st.pv.stop = some ({ r with planview := st.pv } : Road F).getEndPoint := by
  simpa [Road.getEndPoint] using (adjustGeometries_gen h).stop

/-- C16 (violation): for a road adjusted from its end it is the start of the planview, with the
heading before it was turned. -/
theorem C16_backward {F : Type} [PyFloat F] (r : Road F) (geoms : Store (Geom F)) (st : PVState F)
    (h : PlanView.adjustGeometries true ⟨r.planview, geoms⟩ = .ok () st) :
    let e := ({ r with planview := st.pv } : Road F).getEndPoint
    st.pv.start = some ⟨e.x, e.y, PyFloat.add e.h PyFloat.pi⟩ := by
  simpa [Road.getEndPoint] using (adjustGeometries_gen h).start

/-- C16 (violation), witness: a 100 m line placed with its end at the origin reports (100, 0) as its
end point, but ends at (0, 0). -/
theorem C16_witness (r : Road ℝ) (hr : r.planview = PlanView.mk ⟨0,0,0⟩ 0 false none none
    [0] [] [] false) :
    ∃ st, PlanView.adjustGeometries true ⟨r.planview, ⟨fun _ => .line ⟨100⟩, 1⟩⟩ = .ok () st ∧
      st.pv.stop = some ⟨0, 0, Real.pi⟩ ∧
      ({ r with planview := st.pv } : Road ℝ).getEndPoint = ⟨100, 0, 0⟩ := by
  obtain ⟨p0, g', e1, e2, _⟩ := adjust_backward_real r.planview
    ⟨0, .ofHeading (fun _ => 0) 100, none⟩ [] ⟨fun _ => .line ⟨100⟩, 1⟩ (by simp [hr])
    (by simp [hr]) (by intro pc hpc; simp at hpc; subst hpc; simp [shapeOf])
    (by intro q hq; trivial)
  refine ⟨_, e1, by simp [hr, turned], ?_⟩
  simp only [List.map_cons, List.map_nil, finish, Piece.free, Piece.start, hr, turned, Shape.place,
    Shape.ofHeading, Pose.mk.injEq, zero_add, add_zero] at e2
  obtain ⟨ex, ey, eh⟩ := e2
  simp only [eh, Real.cos_pi, Real.sin_pi] at ex ey
  simp at ex ey
  simp only [Road.getEndPoint, Pose.mk.injEq, eh, sub_self, and_true]
  constructor <;> linarith

/-! ## C51, C52: headings given to `add_geometry` -/

/-- C51: if a heading is given for every geometry, every emitted geometry has exactly its heading,
and positions still join. -/
theorem C51_all_headings (x y h : Option ℝ) (pv : PlanView ℝ) (hpv : PlanView.new x y h = .ok pv)
    (pcs : List Piece) (geoms : Store (Geom ℝ)) (hd : Describes geoms pcs)
    (hh : ∀ pc ∈ pcs, ∃ h, pc.heading = some h) :
    ∃ st, PlanView.adjustGeometries false ⟨addAll pv pcs, geoms⟩ = .ok () st ∧
      st.pv.adjGeoms = layout 0 ⟨x.getD 0, y.getD 0, h.getD 0⟩ pcs ∧
      st.pv.adjGeoms.map (fun g => some g.heading) = pcs.map (·.heading) := by
  obtain ⟨st, h1, h2, _⟩ := C11_forward x y h pv hpv pcs geoms hd (Or.inr hh)
  refine ⟨st, h1, h2, ?_⟩
  rw [h2]
  have key : ∀ (l : List Piece) (s : ℝ) (p : Pose ℝ), (∀ pc ∈ l, ∃ h, pc.heading = some h) →
      (layout s p l).map (fun g => some g.heading) = l.map (·.heading) := by
    intro l
    induction l with
    | nil => intro _ _ _; rfl
    | cons a l ih =>
      intro s p hl
      obtain ⟨ha, ha'⟩ := hl a (by simp)
      simp [layout, ih _ _ (fun q hq => hl q (by simp [hq])), Piece.start, ha']
  exact key pcs _ _ hh

theorem fwdLoop_append {F : Type} [PyFloat F] (a b : List Nat) : ∀ (i : Nat) (st : PVState F),
    PlanView.fwdLoop i (a ++ b) st = (do PlanView.fwdLoop i a; PlanView.fwdLoop (i + a.length) b) st := by
  induction a with
  | nil => intro i st; rfl
  | cons r a ih =>
    intro i st
    simp only [List.cons_append, PlanView.fwdLoop]
    cases h1 : PlanView.fwdStep i r st with
    | error e s =>
      rw [bind_of_error h1, bind_of_error (bind_of_error h1)]
    | ok u s =>
      rw [bind_of_ok h1, ih]
      cases h2 : PlanView.fwdLoop (i + 1) a s with
      | error e s' =>
        rw [bind_of_error h2, bind_of_error]
        rw [bind_of_ok h1]; exact h2
      | ok u' s' =>
        rw [bind_of_ok h2, bind_of_ok (s₁ := s') (a := u')]
        · simp only [List.length_cons]
          rw [show i + 1 + a.length = i + (a.length + 1) by omega]
        · rw [bind_of_ok h1]; exact h2

/-- C52: if headings are given for some but not all geometries, adjusting the road forward raises
`IndexError` (whichever geometries the headings were given for). -/
theorem C52_some_headings (x y h : Option ℝ) (pv : PlanView ℝ) (hpv : PlanView.new x y h = .ok pv)
    (pcs : List Piece) (geoms : Store (Geom ℝ)) (hd : Describes geoms pcs)
    (h0 : pcs.filterMap (·.heading) ≠ [])
    (h1 : (pcs.filterMap (·.heading)).length < pcs.length) :
    ∃ st, PlanView.adjustGeometries false ⟨addAll pv pcs, geoms⟩ = .error .indexError st := by
  obtain ⟨k1, k2, k3, k4, k5⟩ := new_eq x y h pv hpv
  generalize hov : pcs.filterMap (·.heading) = ov at h0 h1
  -- the first `ov.length` geometries are laid out with the given headings
  let first : List Piece := (pcs.take ov.length).zipWith (fun pc h => ⟨pc.ref, pc.shape, some h⟩) ov
  have hlen : first.length = ov.length := by
    simp only [first, List.length_zipWith, List.length_take]; omega
  have hrefs : pcs.map (·.ref) = first.map (·.ref) ++ (pcs.drop ov.length).map (·.ref) := by
    have : first.map (·.ref) = (pcs.take ov.length).map (·.ref) := by
      apply List.ext_getElem
      · simp only [List.length_map, hlen, List.length_take]; omega
      · intro i hi1 hi2
        simp [first]
    rw [this, ← List.map_append, List.take_append_drop]
  have hraw : (addAll pv pcs).raw = first.map (·.ref) ++ (pcs.drop ov.length).map (·.ref) := by
    rw [← hrefs]; simp [addAll_eq, k1]
  have hovr : (addAll pv pcs).overridden = ov := by simp [addAll_eq, k2, hov]
  obtain ⟨g', e1, _⟩ := fwdLoop_real first 0
    ⟨{ (addAll pv pcs) with start := some (addAll pv pcs).present }, geoms⟩
    (by
      intro pc hpc
      obtain ⟨i, hi, rfl⟩ := List.getElem_of_mem hpc
      simp only [first, List.getElem_zipWith, List.getElem_take]
      exact hd _ (List.getElem_mem _))
    (by
      intro j hj
      right
      refine ⟨ov[j]'(by omega), ?_, ?_⟩
      · simp only [hovr, Nat.zero_add]
        exact List.getElem?_eq_getElem _
      · simp [first])
  obtain ⟨r0, rs, hrs⟩ : ∃ r0 rs, (pcs.drop ov.length).map (·.ref) = r0 :: rs := by
    cases hx : (pcs.drop ov.length).map (·.ref) with
    | nil => simp at hx; omega
    | cons a b => exact ⟨a, b, rfl⟩
  have hstep : ∀ st : PVState ℝ, st.pv.overridden = ov →
      PlanView.fwdStep ov.length r0 st = .error .indexError st := by
    intro st hst
    unfold PlanView.fwdStep
    rw [bind_of_ok (get_eq _), if_pos (by rw [hst]; exact List.length_pos_iff.mpr h0), hst]
    apply bind_of_error
    simp [orRaise, raise]
  refine ⟨⟨{ (addAll pv pcs) with
        start := some (addAll pv pcs).present
        present := finish (addAll pv pcs).present first
        presentS := (addAll pv pcs).presentS + totalLen first
        adjGeoms := (addAll pv pcs).adjGeoms ++ layout (addAll pv pcs).presentS
          (addAll pv pcs).present first }, g'⟩, ?_⟩
  unfold PlanView.adjustGeometries
  rw [bind_of_ok (get_eq _)]
  simp only [if_true]
  rw [bind_of_ok (modifyPV_eq _ _)]
  apply bind_of_error
  have e := fun rs (h : rs = first.map (·.ref) ++ (pcs.drop ov.length).map (·.ref)) =>
    Eq.trans (congrFun (congrArg (PlanView.fwdLoop (F := ℝ) 0) h) _)
      ((fwdLoop_append _ _ _ _).trans (bind_of_ok e1))
  refine (e _ hraw).trans ?_
  rw [hrs]
  simp only [List.length_map, hlen, Nat.zero_add, PlanView.fwdLoop]
  apply bind_of_error
  exact hstep _ hovr

/-- C52: headings are ignored when the road is adjusted from its end. -/
theorem C52_backward_ignores_headings (pv : PlanView ℝ) (pc : Piece) (rest : List Piece)
    (geoms : Store (Geom ℝ)) (hraw : pv.raw = (pc :: rest).map (·.ref)) (hadj : pv.adjGeoms = [])
    (hd : Describes geoms (pc :: rest)) (hp : ∀ q ∈ pc :: rest, NotPoly (geoms.cell q.ref)) :
    ∃ st p0, PlanView.adjustGeometries true ⟨pv, geoms⟩ = .ok () st ∧ st.pv.start = some p0 ∧
      st.pv.adjGeoms.reverse.map (fun g => (poseOf g, g.length)) =
        (layout 0 p0 ((pc :: rest).map fun pc => { pc with heading := none })).map
          (fun g => (poseOf g, g.length)) := by
  obtain ⟨p0, g', e1, e2, e3⟩ := adjust_backward_real pv pc rest geoms hraw hadj hd hp
  refine ⟨_, p0, e1, rfl, ?_⟩
  have hshift : ∀ (l : List Piece) (s s' : ℝ) (p : Pose ℝ),
      (layout s p l).map (fun g => (poseOf g, g.length)) =
      (layout s' p l).map (fun g => (poseOf g, g.length)) := by
    intro l
    induction l with
    | nil => intro _ _ _; rfl
    | cons a l ih => intro s s' p; simp only [layout, List.map_cons]; rw [ih _ (s' + a.shape.len)]; rfl
  simp only [List.reverse_append, List.reverse_reverse, List.map_append, List.map_map]
  simp only [layout, List.map_cons, Piece.start]
  have : ((fun g : AdjGeom ℝ => (poseOf g, g.length)) ∘ noS) =
      (fun g : AdjGeom ℝ => (poseOf g, g.length)) := rfl
  rw [this, hshift _ pc.shape.len (0 + pc.shape.len)]
  simp [poseOf]
  rfl

/-- Two lines, heading given for the second only: `IndexError`. -/
example : ∃ st, PlanView.adjustGeometries false ⟨addAll (PlanView.mk ⟨0,0,0⟩ 0 false none none
      [] [] [] false) [⟨0, .ofHeading (fun _ => 0) 10, none⟩, ⟨0, .ofHeading (fun _ => 0) 10, some 1⟩],
      exHeap⟩ = .error .indexError st :=
  C52_some_headings none none none _ (by simp [PlanView.new]) _ _
    (by intro pc hpc; simp at hpc; rcases hpc with rfl | rfl <;> simp [exHeap, shapeOf])
    (by simp) (by simp)

end Pyodrx.Props
