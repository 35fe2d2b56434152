import Verif.Proofs.NetworkReal
import Verif.Props.EmitDocument

/-! # The geometries of a placed network, as read from the document -/

namespace Pyodrx.Props
open Pyodrx Spec

/-! ## The heap during a run -/

theorem SameElements.refl {F : Type} (g : Store (Geom F)) : SameElements g g := fun _ => rfl
theorem SameElements.trans {F : Type} {a b c : Store (Geom F)} (h : SameElements a b) (h' : SameElements b c) :
    SameElements a c := fun j => (h' j).trans (h j)
theorem SameElements.symm {F : Type} {a b : Store (Geom F)} (h : SameElements a b) : SameElements b a :=
  fun j => (h j).symm

theorem notPoly_iff (g : Geom ℝ) : NotPoly g ↔ g.getElement.tag ≠ "paramPoly3" := by
  cases g <;> simp [NotPoly, Geom.getElement]

theorem knownRange_iff (g : Geom ℝ) : KnownRange g ↔ (g.getElement.tag = "paramPoly3" →
    g.getElement.attr "pRange" = some (.str "normalized") ∨ g.getElement.attr "pRange" = some (.str "arcLength")) := by
  cases g <;> simp [KnownRange, Geom.getElement, Xml.attr, Dict.get?]

/-- The heap still describes the same curves. -/
structure SameCurves (g g' : Store (Geom ℝ)) : Prop where
  shapes : SameShapes g g'
  elements : SameElements g g'

theorem SameCurves.refl (g : Store (Geom ℝ)) : SameCurves g g := ⟨.refl g, .refl g⟩
theorem SameCurves.trans {a b c : Store (Geom ℝ)} (h : SameCurves a b) (h' : SameCurves b c) : SameCurves a c :=
  ⟨h.shapes.trans h'.shapes, h.elements.trans h'.elements⟩
theorem SameCurves.notPoly {a b : Store (Geom ℝ)} (h : SameCurves a b) {j : Nat} (hj : NotPoly (a.cell j)) :
    NotPoly (b.cell j) := by
  rw [notPoly_iff] at hj ⊢; rwa [h.elements j]
theorem SameCurves.knownRange {a b : Store (Geom ℝ)} (h : SameCurves a b) {j : Nat}
    (hj : KnownRange (a.cell j)) : KnownRange (b.cell j) := by
  rw [knownRange_iff] at hj ⊢; rwa [h.elements j]
theorem SameCurves.describes {a b : Store (Geom ℝ)} (h : SameCurves a b) {pcs : List Piece}
    (hd : Describes a pcs) : Describes b pcs := fun pc hpc => (h.shapes pc.ref).trans (hd pc hpc)

theorem adjust_sameCurves {b : Bool} {pv : PlanView ℝ} {g : Store (Geom ℝ)} {st : PVState ℝ}
    (hev : Evaluable g pv) (h : PlanView.adjustGeometries b ⟨pv, g⟩ = .ok () st) : SameCurves g st.geoms := by
  obtain ⟨st', h', hs⟩ := adjust_total b pv g hev
  rw [h] at h'; cases h'
  have hk := Keeps.adjustGeometries b ⟨pv, g⟩
  rw [h] at hk
  exact ⟨hs, hk⟩

/-- How a road looks during a run: untouched, or adjusted once with a heap that describes the same curves. -/
def Once (A : String → Prop) (g0 : Store (Geom ℝ)) (k : String) (r0 r : Road ℝ) : Prop :=
  (r = r0 ∧ r.planview.adjusted = false) ∨
    (r.planview.adjusted = true ∧ ∃ b p g st, (b = true → ¬ A k) ∧ SameCurves g0 g ∧
      PlanView.adjustGeometries b ⟨r0.planview.setStartPoint p, g⟩ = .ok () st ∧
      r = { r0 with planview := st.pv })

/-- The state of a run. -/
def OnceAll (A : String → Prop) (net0 net : Net ℝ) : Prop :=
  SameCurves net0.geoms net.geoms ∧ ∀ k r, net.roads.get? k = some r →
    ∃ r0, net0.roads.get? k = some r0 ∧ Once A net0.geoms k r0 r

theorem OnceAll.put {A : String → Prop} {net0 net1 net2 : Net ℝ}
    (hev : ∀ k r, net0.roads.get? k = some r → Evaluable net0.geoms r.planview)
    {k0 : String} {p : Pose ℝ → Pose ℝ} {b : Bool} (hp : Put net1 k0 p b net2) (hb : b = true → ¬ A k0)
    (h : OnceAll A net0 net1) : OnceAll A net0 net2 := by
  obtain ⟨hs, ih⟩ := h
  have hp' := hp
  obtain ⟨r1, st, q1, q2, q5, q6⟩ := hp
  obtain ⟨r0, i1, i2⟩ := ih _ _ q1
  have hr1 : r1 = r0 := by
    rcases i2 with ⟨i2, _⟩ | ⟨i2, _⟩
    · exact i2
    · rw [q2] at i2; simp at i2
  subst hr1
  have hev' : Evaluable net1.geoms (r1.planview.setStartPoint (p r1.planview.present)) :=
    Evaluable.mono (hev _ _ i1) hs.shapes ⟨rfl, rfl, rfl⟩
  have hsc := adjust_sameCurves hev' q5
  refine ⟨by rw [q6]; exact hs.trans hsc, fun k r hr => ?_⟩
  by_cases hk : k = k0
  · subst hk
    have q3 : net2.roads.get? k = some { r1 with planview := st.pv } := by
      rw [q6]; simp [Dict.get?_set]
    rw [q3] at hr; cases hr
    exact ⟨r1, i1, .inr ⟨(adjustGeometries_gen q5).adjusted, b, _, _, st, hb, hs, q5, rfl⟩⟩
  · rw [hp'.other hk] at hr
    exact ih _ _ hr

theorem OnceAll.anchors {A : String → Prop} {roads0 : Dict (Road ℝ)} {net0 a b : Net ℝ} {m : Nat}
    (hev : ∀ k r, net0.roads.get? k = some r → Evaluable net0.geoms r.planview)
    (h : AnchorRun roads0 a m b) (ha : OnceAll A net0 a) : OnceAll A net0 b := by
  induction h with
  | refl => exact ha
  | anchor _ _ hp ih => exact ih.put hev hp (by simp)

theorem OnceAll.run {A : String → Prop} {roads0 : Dict (Road ℝ)} {net0 a b : Net ℝ} {m : Nat}
    (hev : ∀ k r, net0.roads.get? k = some r → Evaluable net0.geoms r.planview)
    (h : History roads0 a m b) (ha : OnceAll A net0 a)
    (hadj : ∀ k r, a.roads.get? k = some r → A k → r.planview.adjusted = true) : OnceAll A net0 b := by
  induction h with
  | refl => exact ha
  | anchor _ _ hp ih => exact ih.put hev hp (by simp)
  | @place net1 net2 m k nb e e' hh _ hp ih =>
    obtain ⟨_, _, _, _, _, _, _, hput⟩ := hp
    refine ih.put hev hput fun _ hA => ?_
    obtain ⟨r, _, q1, q2, _⟩ := hput
    obtain ⟨r0, h0, _⟩ := hh.same.2 _ _ q1
    have h1 := hadj _ _ h0 hA
    have h2 := hh.keep h0 h1
    rw [q1] at h2; cases h2
    rw [q2] at h1; simp at h1

/-- After a normal return every road was adjusted once, the anchors forward. -/
theorem startpoints_once {net net' : Net ℝ} (hn : net.roads.keys.Nodup) (hf : Fresh net.roads)
    (hev : ∀ k r, net.roads.get? k = some r → Evaluable net.geoms r.planview)
    (h : Net.adjustStartpoints net = .ok () net') : OnceAll (Anchor net.roads) net net' := by
  rw [adjustStartpoints_eq] at h
  obtain ⟨c, s1, h1, h⟩ := bind_ok.mp h
  obtain ⟨i1, _, i3, _⟩ := anchors_history hn hf h1
  obtain ⟨m, hm, hh⟩ := passes_history (roads0 := net.roads) _ _ _ _ rfl h
  have h0 : OnceAll (Anchor net.roads) net net := ⟨.refl _, fun k r hr => ⟨r, hr, .inl ⟨rfl, (hf k r hr).1⟩⟩⟩
  exact (h0.anchors hev i1).run hev hh fun k r hr hA => (i3 k r hr).mpr hA

/-! ## A road of several geometries that is placed from its end -/

section
variable {F : Type} [PyFloat F]

theorem bwdStep_s {r : Nat} {st st' : PVState F} {lo : Option F} (h : PlanView.bwdStep r st = .ok lo st') :
    ∃ g, g.s = none ∧ st'.pv.adjGeoms = st.pv.adjGeoms ++ [g] := by
  unfold PlanView.bwdStep at h
  rw [bind_of_ok (get_eq _)] at h
  obtain ⟨g, s1, h1, h⟩ := bind_ok.mp h
  obtain ⟨⟨p, len⟩, s2, h2, h⟩ := bind_ok.mp h
  dsimp only at h
  rw [bind_of_ok (modifyPV_eq _ _)] at h
  cases h
  have e1 : s1.pv = st.pv := by
    unfold AdjGeom.new at h1
    obtain ⟨v, s, h3, h4⟩ := bind_ok.mp h1
    cases h4
    unfold callEnd at h3
    split at h3 <;> cases h3
    rfl
  have e2 : s2.pv = s1.pv := by
    unfold callStart at h2
    split at h2 <;> cases h2
    rfl
  exact ⟨{ g with x := p.x, y := p.y, heading := PyFloat.add p.h PyFloat.pi, s := none, length := lo }, rfl,
    by rw [← e1, ← e2]⟩

theorem bwdLoop_s (rs : List Nat) : ∀ {st st' : PVState F} {ls : List (Option F)},
    PlanView.bwdLoop rs st = .ok ls st' → ∃ E, (∀ g ∈ E, g.s = none) ∧ E.length = rs.length ∧
      st'.pv.adjGeoms = st.pv.adjGeoms ++ E := by
  induction rs with
  | nil => intro st st' ls h; cases h; exact ⟨[], by simp, rfl, by simp⟩
  | cons r rs ih =>
    intro st st' ls h
    unfold PlanView.bwdLoop at h
    obtain ⟨l, s1, h1, h⟩ := bind_ok.mp h
    obtain ⟨ls', s2, h2, h⟩ := bind_ok.mp h
    cases h
    obtain ⟨g, hg, e1⟩ := bwdStep_s h1
    obtain ⟨E, hE, hl, e2⟩ := ih h2
    refine ⟨g :: E, ?_, by simp [hl], by simp [e2, e1]⟩
    intro x hx
    rcases List.mem_cons.mp hx with rfl | hx
    · exact hg
    · exact hE x hx

theorem sLoop_s (ls : List F) : ∀ {st st' : PVState F} {u : Unit} {a b : AdjGeom F} {E : List (AdjGeom F)},
    st.pv.adjGeoms = a :: b :: E → a.s = none → PlanView.sLoop ls st = .ok u st' →
    a ∈ st'.pv.adjGeoms := by
  induction ls with
  | nil => intro st st' u a b E hE _ h; cases h; simp [hE]
  | cons l ls ih =>
    intro st st' u a b E hE ha h
    unfold PlanView.sLoop at h
    rw [bind_of_ok (modifyPV_eq _ _), bind_of_ok (modifyPV_eq _ _)] at h
    have key : ∃ b' E', setLastS st.pv.adjGeoms st.pv.presentS = a :: b' :: E' := by
      rw [hE]
      unfold setLastS
      rw [List.getLast?_eq_some_getLast (by simp)]
      simp only [List.dropLast_cons₂, List.cons_append]
      cases hd : (b :: E).dropLast with
      | nil => exact ⟨_, _, rfl⟩
      | cons c l => exact ⟨_, _, rfl⟩
    obtain ⟨b', E', hk⟩ := key
    exact ih (a := a) (b := b') (E := E') hk ha h

/-- Read of a planview fails if a geometry has no s. -/
theorem readPlanView_none {geoms : Store (Geom F)} {pv : PlanView F} {a : AdjGeom F} (ha : a ∈ pv.adjGeoms)
    (hs : a.s = none) : readPlanView (pv.getElement geoms) = none := by
  rw [readPlanView, PlanView.getElement, Xml.tag_elem, if_pos rfl, Xml.children_elem]
  refine mapM_none_of _ _ (AdjGeom.getElement geoms a) (List.mem_map.mpr ⟨a, ha, rfl⟩) ?_
  simp [readGeometry, AdjGeom.getElement, need, Xml.attr, Dict.get?, hs, Val.ofOpt, numOf]

theorem backward_unreadable {pv : PlanView F} {g g' : Store (Geom F)} {st : PVState F}
    (h : PlanView.adjustGeometries true ⟨pv, g⟩ = .ok () st) (hadj : pv.adjGeoms = [])
    (hl : 2 ≤ pv.raw.length) : readPlanView (st.pv.getElement g') = none := by
  unfold PlanView.adjustGeometries at h
  rw [bind_of_ok (get_eq _)] at h
  simp only [Bool.true_eq_false, if_false] at h
  rw [bind_of_ok (modifyPV_eq _ _)] at h
  obtain ⟨ls, s1, h1, h⟩ := bind_ok.mp h
  rw [bind_of_ok (modifyPV_eq _ _)] at h
  obtain ⟨ls', s2, h2, h⟩ := bind_ok.mp h
  obtain ⟨_, rfl⟩ := orRaise_ok.mp h2
  rw [bind_of_ok (modifyPV_eq _ _)] at h
  obtain ⟨_, s3, h3, h⟩ := bind_ok.mp h
  rw [modifyPV_ok] at h
  subst h
  obtain ⟨E, hE, hEl, e⟩ := bwdLoop_s _ h1
  rw [List.length_reverse] at hEl
  simp only [hadj, List.nil_append] at e
  match E, hEl, hE, e with
  | [], h0, _, _ => simp at h0; omega
  | [_], h0, _, _ => simp at h0; omega
  | a :: b :: E, _, hE, e =>
    have hs : a.s = none := hE a (by simp)
    have hm := sLoop_s (a := a) (b := b) (E := E) ls' (by exact e) hs h3
    exact readPlanView_none (a := a) hm hs

end

/-! ## What a reader sees of an adjusted planview -/

theorem chained_ends {s e : ℝ} {p q : Pose ℝ} {gs : List (RGeometry ℝ)} (h : Chained s p gs e q)
    (hne : gs ≠ []) : gs.head?.map RGeometry.start = some p ∧ gs.getLast?.map RGeometry.stop = some q := by
  induction gs generalizing s p with
  | nil => exact absurd rfl hne
  | cons g gs ih =>
    obtain ⟨_, h2, h3⟩ := h
    refine ⟨by simp [h2], ?_⟩
    cases gs with
    | nil => obtain ⟨_, h4⟩ := h3; simp [h4]
    | cons g' gs => simpa using (ih h3 (by simp)).2

theorem readPlanView_same {g g' : Store (Geom ℝ)} (h : SameElements g g') (pv : PlanView ℝ) :
    readPlanView (pv.getElement g') = readPlanView (pv.getElement g) := by
  have he : ∀ a : AdjGeom ℝ, AdjGeom.getElement g' a = AdjGeom.getElement g a := by
    intro a
    simp only [AdjGeom.getElement, h a.geom]
  simp only [PlanView.getElement, List.map_congr_left (fun a _ => he a)]

/-- A planview with the geometries `pcs` added and nothing adjusted. -/
structure Plan (geoms : Store (Geom ℝ)) (pcs : List Piece) (pv : PlanView ℝ) : Prop where
  made : ∃ x y h pv0, PlanView.new x y h = .ok pv0 ∧ pv = addAll pv0 pcs
  nonempty : pcs ≠ []
  describes : Describes geoms pcs
  headings : ∀ pc ∈ pcs, pc.heading = none
  range : ∀ pc ∈ pcs, KnownRange (geoms.cell pc.ref)

theorem Plan.fields {geoms : Store (Geom ℝ)} {pcs : List Piece} {pv : PlanView ℝ} (h : Plan geoms pcs pv) :
    pv.raw = pcs.map (·.ref) ∧ pv.overridden = [] ∧ pv.adjGeoms = [] ∧ pv.presentS = 0 ∧
      pv.adjusted = false := by
  obtain ⟨x, y, h', pv0, h1, rfl⟩ := h.made
  obtain ⟨e1, e2, e3, e4, _⟩ := new_eq x y h' pv0 h1
  have e5 : pv0.adjusted = false := by
    cases x <;> cases y <;> cases h' <;> simp [PlanView.new] at h1 <;> subst h1 <;> rfl
  refine ⟨by simp [addAll_eq, e1], ?_, by simp [addAll_eq, e3], by simp [addAll_eq, e4],
    by simp [addAll_eq, e5]⟩
  rw [addAll_eq]
  simp only [e2, List.nil_append, List.filterMap_eq_nil_iff]
  exact h.headings

theorem Plan.evaluable {geoms : Store (Geom ℝ)} {pcs : List Piece} {pv : PlanView ℝ} (h : Plan geoms pcs pv) :
    Evaluable geoms pv := by
  refine ⟨fun g hg => ?_, .inl h.fields.2.1⟩
  rw [h.fields.1, List.mem_map] at hg
  obtain ⟨pc, hpc, rfl⟩ := hg
  rw [h.describes pc hpc]; rfl

/-- What a reader sees of the planview after it was adjusted: one line, from its start to its end. -/
theorem Plan.read_shapes {g0 g g' : Store (Geom ℝ)} {pcs : List Piece} {pv : PlanView ℝ} (h : Plan g0 pcs pv)
    {b : Bool} {p : Pose ℝ} {st : PVState ℝ}
    (hg : SameCurves g0 g) (hg' : SameCurves g0 g')
    (hadj : PlanView.adjustGeometries b ⟨pv.setStartPoint p, g⟩ = .ok () st)
    (hp : b = true → ∀ pc, pcs = [pc] → NotPoly (g0.cell pc.ref)) :
    (b = false ∨ pcs.length = 1 → ∃ gs, readPlanView (st.pv.getElement g') = some gs) ∧
    ∀ gs, readPlanView (st.pv.getElement g') = some gs →
      gs.map (fun g => g.curve.shape g.length) = pcs.map (·.shape) ∧ gs ≠ [] ∧
      ∃ p0 q, st.pv.start = some p0 ∧ st.pv.stop = some q ∧ Chained 0 p0 gs st.pv.getTotalLength q := by
  obtain ⟨f1, f2, f3, f4, _⟩ := h.fields
  have hd := hg.describes h.describes
  have hr : ∀ pc ∈ pcs, KnownRange (g.cell pc.ref) := fun pc hpc => hg.knownRange (h.range pc hpc)
  have hse : SameElements g g' := hg.elements.symm.trans hg'.elements
  cases b with
  | false =>
    obtain ⟨gx, h1, _, _⟩ := adjust_forward_real (pv.setStartPoint p) pcs g f1 hd
      (fun j hj => .inl ⟨f2, h.headings _ (List.getElem_mem hj)⟩)
    rw [h1] at hadj; cases hadj
    obtain ⟨gs, e1, e2, _, _, e5⟩ := readLayout g pcs hd hr 0 p
    have hread : readPlanView (PlanView.getElement g' { pv.setStartPoint p with
        present := finish (pv.setStartPoint p).present pcs
        presentS := (pv.setStartPoint p).presentS + totalLen pcs
        start := some (pv.setStartPoint p).present
        stop := some (finish (pv.setStartPoint p).present pcs)
        adjGeoms := (pv.setStartPoint p).adjGeoms ++ layout (pv.setStartPoint p).presentS (pv.setStartPoint p).present pcs
        adjusted := true }) = some gs := by
      rw [readPlanView_same hse]
      simp only [readPlanView, PlanView.getElement, Xml.tag_elem, if_true, Xml.children_elem,
        PlanView.setStartPoint, f3, f4, List.nil_append]
      exact e1
    refine ⟨fun _ => ⟨gs, hread⟩, fun gs' hgs' => ?_⟩
    rw [hread] at hgs'; cases hgs'
    refine ⟨e2, ?_, _, _, rfl, rfl, ?_⟩
    · intro h0
      subst h0
      have := congrArg List.length e2
      simp at this
      exact h.nonempty (List.length_eq_zero_iff.mp this.symm)
    · have := e5 h.headings
      simpa [PlanView.getTotalLength, PlanView.setStartPoint, f4] using this
  | true =>
    match pcs, h, hd, hr, f1, hp with
    | [], h, _, _, _, _ => exact absurd rfl h.nonempty
    | [pc], h, hd, hr, f1, hp =>
      have hnp : NotPoly (g.cell pc.ref) := hg.notPoly (hp rfl pc rfl)
      obtain ⟨p0, gx, e1, e2, _⟩ := adjust_backward_real (pv.setStartPoint p) pc [] g f1 f3 hd (by simpa using hnp)
      rw [e1] at hadj; cases hadj
      obtain ⟨gg, r1, r2, r3, r4, r5⟩ := readGeometry_of g pc.ref pc.shape (hd pc (by simp)) (hr pc (by simp)) 0 p0
      have htl : totalLen [] = 0 := rfl
      have hread : ∀ P : PlanView ℝ, P.adjGeoms = ((layout pc.shape.len (pc.shape.place p0) (([] : List Piece).map Piece.free)).map
            noS).reverse ++ [⟨some (totalLen []), p0.x, p0.y, p0.h, some pc.shape.len, pc.ref⟩] →
          readPlanView (P.getElement g') = some [gg] := by
        intro P hP
        rw [readPlanView_same hse]
        simp only [readPlanView, PlanView.getElement, Xml.tag_elem, if_true, Xml.children_elem, hP,
          List.map_nil, layout, List.reverse_nil, List.nil_append, List.map_cons, htl,
          List.mapM_cons, List.mapM_nil, r1]
        rfl
      refine ⟨fun _ => ⟨_, hread _ rfl⟩, fun gs' hgs' => ?_⟩
      rw [hread _ rfl] at hgs'; cases hgs'
      refine ⟨by simp [r5], by simp, _, _, rfl, rfl, r2, r3, ?_, ?_⟩
      · simp [PlanView.getTotalLength, totalLen, r4]
      · have hf : finish p0 ([pc].map Piece.free) = pc.shape.place p0 := rfl
        rw [hf] at e2
        rw [RGeometry.stop, r5, r3, e2]
    | pc :: pc2 :: rest, h, hd, hr, f1, hp =>
      have hn : readPlanView (st.pv.getElement g') = none :=
        backward_unreadable hadj f3 (by
          show 2 ≤ pv.raw.length
          rw [f1]; simp)
      refine ⟨by simp, fun gs' hgs' => ?_⟩
      rw [hn] at hgs'; cases hgs'

theorem Plan.read {g0 g g' : Store (Geom ℝ)} {pcs : List Piece} {pv : PlanView ℝ} (h : Plan g0 pcs pv)
    {b : Bool} {p : Pose ℝ} {st : PVState ℝ}
    (hg : SameCurves g0 g) (hg' : SameCurves g0 g')
    (hadj : PlanView.adjustGeometries b ⟨pv.setStartPoint p, g⟩ = .ok () st)
    (hp : b = true → ∀ pc, pcs = [pc] → NotPoly (g0.cell pc.ref)) :
    (b = false ∨ pcs.length = 1 → ∃ gs, readPlanView (st.pv.getElement g') = some gs) ∧
    ∀ gs, readPlanView (st.pv.getElement g') = some gs → gs ≠ [] ∧
      ∃ p0 q, st.pv.start = some p0 ∧ st.pv.stop = some q ∧ Chained 0 p0 gs st.pv.getTotalLength q :=
  ⟨(h.read_shapes hg hg' hadj hp).1, fun gs hgs => ((h.read_shapes hg hg' hadj hp).2 gs hgs).2⟩

/-! ## Reading is possible only if the planviews are readable -/

section
variable {F : Type} [PyFloat F]

theorem readRoad_planView {hp : Heap F} {r : Road F} {x : Xml F} {rd : RRoad F} (hx : r.getElement hp = .ok x)
    (h : readRoad x = some rd) : ∃ gs, readPlanView (r.planview.getElement hp.geoms) = some gs := by
  obtain ⟨l, hl, rfl⟩ := road_ok hx
  have hpv : childWith (.elem "road" r.getAttributes
      ([Links.getElement r.links, r.planview.getElement hp.geoms, l] ++
       (if r.signals.isEmpty then []
        else [.elem "signals" [] (r.signals.map fun i => (hp.so.sigs.cell i).getElement)]) ++
       (if r.objects.isEmpty then []
        else [.elem "objects" [] (r.objects.map fun i => (hp.so.objs.cell i).getElement)])) : Xml F) "planView" =
      some (some (r.planview.getElement hp.geoms)) := by
    obtain ⟨cs, hcs, rfl⟩ := lanes_ok hl
    unfold childWith
    cases r.signals <;> cases r.objects <;> simp [Links.getElement, PlanView.getElement]
  generalize (Xml.elem "road" _ _ : Xml F) = X at h hpv
  unfold readRoad at h
  split at h
  · rw [hpv] at h
    change Option.bind (childWith X "lanes") _ = _ at h
    obtain ⟨c1, -, h⟩ := Option.bind_eq_some_iff.mp h
    obtain ⟨c2, -, h⟩ := Option.bind_eq_some_iff.mp h
    obtain ⟨c3, -, h⟩ := Option.bind_eq_some_iff.mp h
    obtain ⟨c4, -, h⟩ := Option.bind_eq_some_iff.mp h
    obtain ⟨c5, -, h⟩ := Option.bind_eq_some_iff.mp h
    obtain ⟨c6, -, h⟩ := Option.bind_eq_some_iff.mp h
    obtain ⟨c7, -, h⟩ := Option.bind_eq_some_iff.mp h
    obtain ⟨c8, -, h⟩ := Option.bind_eq_some_iff.mp h
    obtain ⟨gs, hgs, h⟩ := Option.bind_eq_some_iff.mp h
    exact ⟨gs, hgs⟩
  · cases h

theorem mapM_option_mem {α β : Type} {f : α → Option β} : ∀ {l : List α} {bs : List β}, l.mapM f = some bs →
    ∀ a ∈ l, ∃ b, f a = some b := by
  intro l bs h a ha
  cases hf : f a with
  | some b => exact ⟨b, rfl⟩
  | none => rw [mapM_none_of f l a ha hf] at h; cases h

theorem forall₂_left {α β : Type} {R : α → β → Prop} {as : List α} {bs : List β} (h : List.Forall₂ R as bs) :
    ∀ a ∈ as, ∃ b ∈ bs, R a b := by
  induction h with
  | nil => simp
  | cons h1 _ ih =>
    intro a ha
    rcases List.mem_cons.mp ha with rfl | ha
    · exact ⟨_, by simp, h1⟩
    · obtain ⟨y, hy, hy'⟩ := ih a ha
      exact ⟨y, by simp [hy], hy'⟩

theorem readDocument_planViews {hp : Heap F} {date : String} {o : OpenDrive F} {x : Xml F} {doc : RDocument F}
    (h : o.getElement hp date = .ok x) (hd : readDocument x = some doc) :
    ∀ kv ∈ o.roads, ∃ gs, readPlanView (kv.2.planview.getElement hp.geoms) = some gs := by
  unfold OpenDrive.getElement at h
  cases hr : o.roads.mapM (fun kv => kv.2.getElement hp) with
  | error e => rw [hr] at h; cases h
  | ok rs =>
    rw [hr] at h
    cases h
    have hf := roadsOk hp _ _ hr
    unfold readDocument at hd
    simp only [Xml.tag_elem, if_true, Xml.children_elem, Option.bind_eq_bind] at hd
    obtain ⟨c, -, hd⟩ := Option.bind_eq_some_iff.mp hd
    obtain ⟨c', -, hd⟩ := Option.bind_eq_some_iff.mp hd
    obtain ⟨nm, -, hd⟩ := Option.bind_eq_some_iff.mp hd
    obtain ⟨rds, hm, hd⟩ := Option.bind_eq_some_iff.mp hd
    intro kv hkv
    obtain ⟨y, hy, hy'⟩ := forall₂_left hf kv hkv
    obtain ⟨rd, hrd⟩ := mapM_option_mem hm y (by
      rw [List.mem_filter]
      refine ⟨by simp [hy], by simp [(C43_road hp _ _ hy').1]⟩)
    exact readRoad_planView hy' hrd

end

end Pyodrx.Props
