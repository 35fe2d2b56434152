import Verif.Props.EmitLinks
import Verif.Props.PlanView
import Verif.Spec.ReadCurve

/-! # Property C54: what a reader sees of the geometry of a road -/

namespace Pyodrx.Props
open Pyodrx Spec

/-! ## Evaluation does not change what a geometry object emits -/

section elements
variable {F : Type}

/-- Every object in the heap emits the same element. -/
def SameElements (g g' : Store (Geom F)) : Prop :=
  ∀ r, (g'.cell r).getElement = (g.cell r).getElement

/-- The program never changes what a geometry object emits, whether it raises or not. -/
def Keeps {α : Type} (m : EStateM PyErr (PVState F) α) : Prop :=
  ∀ st, SameElements st.geoms (stateAfter (m st)).geoms

theorem Keeps.bind {α β : Type} {m : EStateM PyErr (PVState F) α}
    {f : α → EStateM PyErr (PVState F) β} (hm : Keeps m) (hf : ∀ a, Keeps (f a)) :
    Keeps (m >>= f) := by
  intro st r
  have h1 := hm st r
  cases h : m st with
  | ok a s1 =>
    rw [bind_of_ok h]
    rw [h] at h1
    exact (hf a s1 r).trans h1
  | error e s1 => rw [bind_of_error h]; rw [h] at h1; exact h1

theorem Keeps.pure {α : Type} (a : α) : Keeps (pure a : EStateM PyErr (PVState F) α) :=
  fun _ _ => rfl
theorem Keeps.get : Keeps (get : EStateM PyErr (PVState F) _) := fun _ _ => rfl
theorem Keeps.modifyPV (f : PlanView F → PlanView F) : Keeps (modifyPV f) := fun _ _ => rfl
theorem Keeps.orRaise {α : Type} (e : PyErr) (o : Option α) :
    Keeps (orRaise e o : EStateM PyErr (PVState F) α) := by
  intro st r; cases o <;> rfl

variable [PyFloat F]

theorem element_end (p : Pose F) (g : Geom F) :
    (stateAfter (Geom.getEndData p g)).getElement = g.getElement := by
  cases g with
  | line l => rfl
  | spiral s => unfold Geom.getEndData; dsimp only; split <;> rfl
  | arc a =>
    unfold Geom.getEndData Arc.getEndData Arc.eval
    dsimp only
    split <;> rename_i h <;> split at h <;> cases h <;> rfl
  | poly q =>
    unfold Geom.getEndData ParamPoly3.getEndData
    dsimp only
    split <;> rename_i h <;> split at h <;> cases h <;> rfl

theorem element_start (p : Pose F) (g : Geom F) :
    (stateAfter (Geom.getStartData p g)).getElement = g.getElement := by
  cases g with
  | line l => rfl
  | spiral s => unfold Geom.getStartData; dsimp only; split <;> rfl
  | arc a =>
    unfold Geom.getStartData Arc.getStartData Arc.eval
    dsimp only
    split <;> rename_i h <;> split at h <;> cases h <;> rfl
  | poly q =>
    unfold Geom.getStartData ParamPoly3.getStartData
    dsimp only
    split <;> rename_i h <;> split at h <;> cases h <;> rfl

theorem Keeps.callEnd (r : Nat) (p : Pose F) : Keeps (callEnd r p) := by
  intro st j
  have h := element_end p (st.geoms.cell r)
  unfold Pyodrx.callEnd
  cases h1 : Geom.getEndData p (st.geoms.cell r) with
  | ok v g =>
    rw [h1] at h
    simp only [stateAfter, Store.put_cell] at h ⊢
    split
    · rename_i e; subst e; exact h
    · rfl
  | error v g =>
    rw [h1] at h
    simp only [stateAfter, Store.put_cell] at h ⊢
    split
    · rename_i e; subst e; exact h
    · rfl

theorem Keeps.callStart (r : Nat) (p : Pose F) : Keeps (callStart r p) := by
  intro st j
  have h := element_start p (st.geoms.cell r)
  unfold Pyodrx.callStart
  cases h1 : Geom.getStartData p (st.geoms.cell r) with
  | ok v g =>
    rw [h1] at h
    simp only [stateAfter, Store.put_cell] at h ⊢
    split
    · rename_i e; subst e; exact h
    · rfl
  | error v g =>
    rw [h1] at h
    simp only [stateAfter, Store.put_cell] at h ⊢
    split
    · rename_i e; subst e; exact h
    · rfl

theorem Keeps.adjGeomNew (s : F) (p : Pose F) (r : Nat) : Keeps (AdjGeom.new s p r) :=
  Keeps.bind (Keeps.callEnd r p) fun _ => Keeps.pure _

theorem Keeps.fwdStep (i r : Nat) : Keeps (PlanView.fwdStep (F := F) i r) := by
  unfold PlanView.fwdStep
  refine Keeps.bind Keeps.get fun st => ?_
  have h : Keeps (do
      let st ← (MonadState.get : EStateM PyErr (PVState F) _)
      let g ← AdjGeom.new st.pv.presentS st.pv.present r
      let (p, len) ← Pyodrx.callEnd r ⟨g.x, g.y, g.heading⟩
      Pyodrx.modifyPV fun pv => { pv with present := p }
      let l ← Pyodrx.orRaise .typeError len
      Pyodrx.modifyPV fun pv => { pv with presentS := PyFloat.add pv.presentS l }
      Pyodrx.modifyPV fun pv => { pv with adjGeoms := pv.adjGeoms ++ [g] }) := by
    refine Keeps.bind Keeps.get fun st => Keeps.bind (Keeps.adjGeomNew _ _ _) fun g =>
      Keeps.bind (Keeps.callEnd _ _) fun v => Keeps.bind (Keeps.modifyPV _) fun _ =>
      Keeps.bind (Keeps.orRaise _ _) fun l => Keeps.bind (Keeps.modifyPV _) fun _ =>
      Keeps.modifyPV _
  split
  · exact Keeps.bind (Keeps.orRaise _ _) fun h' => Keeps.bind (Keeps.modifyPV _) fun _ => h
  · exact h

theorem Keeps.fwdLoop (rs : List Nat) : ∀ i, Keeps (PlanView.fwdLoop (F := F) i rs) := by
  induction rs with
  | nil => intro i; exact Keeps.pure ()
  | cons r rs ih => intro i; exact Keeps.bind (Keeps.fwdStep i r) fun _ => ih (i + 1)

theorem Keeps.bwdStep (r : Nat) : Keeps (PlanView.bwdStep (F := F) r) :=
  Keeps.bind Keeps.get fun _ => Keeps.bind (Keeps.adjGeomNew _ _ _) fun _ =>
    Keeps.bind (Keeps.callStart _ _) fun _ => Keeps.bind (Keeps.modifyPV _) fun _ => Keeps.pure _

theorem Keeps.bwdLoop (rs : List Nat) : Keeps (PlanView.bwdLoop (F := F) rs) := by
  induction rs with
  | nil => exact Keeps.pure []
  | cons r rs ih =>
    exact Keeps.bind (Keeps.bwdStep r) fun _ => Keeps.bind ih fun _ => Keeps.pure _

theorem Keeps.sLoop (ls : List F) : Keeps (PlanView.sLoop (F := F) ls) := by
  induction ls with
  | nil => exact Keeps.pure ()
  | cons r rs ih =>
    exact Keeps.bind (Keeps.modifyPV _) fun _ => Keeps.bind (Keeps.modifyPV _) fun _ => ih

/-- Adjusting a planview never changes what a geometry object emits. -/
theorem Keeps.adjustGeometries (fromEnd : Bool) :
    Keeps (PlanView.adjustGeometries (F := F) fromEnd) := by
  unfold PlanView.adjustGeometries
  refine Keeps.bind Keeps.get fun st => ?_
  cases fromEnd
  · exact Keeps.bind (Keeps.modifyPV _) fun _ => Keeps.bind (Keeps.fwdLoop _ _) fun _ =>
      Keeps.bind (Keeps.modifyPV _) fun _ => Keeps.modifyPV _
  · exact Keeps.bind (Keeps.modifyPV _) fun _ => Keeps.bind (Keeps.bwdLoop _) fun _ =>
      Keeps.bind (Keeps.modifyPV _) fun _ => Keeps.bind (Keeps.orRaise _ _) fun _ =>
      Keeps.bind (Keeps.modifyPV _) fun _ => Keeps.bind (Keeps.sLoop _) fun _ => Keeps.modifyPV _

end elements

/-! ## Reading a geometry -/

/-- A ParamPoly3 uses one of the two ranges of OpenDRIVE. -/
def KnownRange : Geom ℝ → Prop
  | .poly g => g.prange = "normalized" ∨ g.prange = "arcLength"
  | _ => True

theorem readCurve_shape (g : Geom ℝ) (sh : Shape) (h : shapeOf g = some sh) (hr : KnownRange g) :
    ∃ c, readCurve g.getElement = some c ∧ c.shape sh.len = sh := by
  cases g with
  | line l =>
    simp only [shapeOf, Option.some.injEq] at h
    subst h
    exact ⟨.line, by simp [readCurve, Geom.getElement], rfl⟩
  | spiral sp =>
    obtain ⟨L, h0, hl, rfl⟩ := shapeOf_spiral h
    exact ⟨.spiral sp.curvstart sp.curvend, by
      simp [readCurve, Geom.getElement, need, Xml.attr, Dict.get?, numOf_num], rfl⟩
  | arc a =>
    obtain ⟨h0, L, hL, hl, rfl⟩ := shapeOf_arc h
    exact ⟨.arc a.curvature, by
      simp [readCurve, Geom.getElement, need, Xml.attr, Dict.get?, numOf_num], rfl⟩
  | poly q =>
    refine ⟨.paramPoly3 q.au q.bu q.cu q.du q.av q.bv q.cv q.dv (q.prange = "normalized"), ?_, ?_⟩
    · simp only [KnownRange] at hr
      rcases hr with hr | hr <;>
      simp [readCurve, Geom.getElement, need, Xml.attr, Dict.get?, numOf_num, readRange, hr, textOf_str]
    · simp only [shapeOf, polyEnd] at h
      by_cases hn : q.prange = "normalized"
      · simp only [hn, if_true, Option.map_some, Option.some.injEq] at h
        subst h
        simp [RCurve.shape, hn]
      · simp only [hn, if_false] at h
        cases hl : q.length with
        | none => simp [hl] at h
        | some l =>
          simp only [hl, Option.map_some, Option.some.injEq] at h
          subst h
          simp [RCurve.shape, hn]

theorem readGeometry_of (geoms : Store (Geom ℝ)) (ref : Nat) (sh : Shape)
    (h : shapeOf (geoms.cell ref) = some sh) (hr : KnownRange (geoms.cell ref)) (s : ℝ) (p : Pose ℝ) :
    ∃ g, readGeometry (AdjGeom.getElement geoms ⟨some s, p.x, p.y, p.h, some sh.len, ref⟩) = some g ∧
      g.s = s ∧ g.start = p ∧ g.length = sh.len ∧ g.curve.shape g.length = sh := by
  obtain ⟨c, h1, h2⟩ := readCurve_shape _ sh h hr
  refine ⟨⟨s, p.x, p.y, p.h, sh.len, c⟩, ?_, rfl, rfl, rfl, h2⟩
  simp [readGeometry, AdjGeom.getElement, need, Xml.attr, Dict.get?, numOf_num, Val.ofOpt, h1]

theorem readLayout (geoms : Store (Geom ℝ)) (pcs : List Piece)
    (hd : Describes geoms pcs) (hr : ∀ pc ∈ pcs, KnownRange (geoms.cell pc.ref)) :
    ∀ (s : ℝ) (p : Pose ℝ), ∃ gs,
      ((layout s p pcs).map (AdjGeom.getElement geoms)).mapM readGeometry = some gs ∧
      gs.map (fun g => g.curve.shape g.length) = pcs.map (·.shape) ∧
      ChainedPositions s p.x p.y gs (s + totalLen pcs) (finish p pcs).x (finish p pcs).y ∧
      (∀ (i : Nat) (h : ℝ), pcs[i]?.bind Piece.heading = some h →
        gs[i]?.map RGeometry.hdg = some h) ∧
      ((∀ pc ∈ pcs, pc.heading = none) →
        Chained s p gs (s + totalLen pcs) (finish p pcs)) := by
  induction pcs with
  | nil => intro s p; exact ⟨[], rfl, rfl, by simp [ChainedPositions, totalLen, finish], by simp,
      by simp [Chained, totalLen, finish]⟩
  | cons pc pcs ih =>
    intro s p
    obtain ⟨g, h1, h2, h3, h4, h5⟩ := readGeometry_of geoms pc.ref pc.shape (hd pc (by simp))
      (hr pc (by simp)) s (pc.start p)
    obtain ⟨gs, e1, e2, e3, e4, e5⟩ := ih (fun q hq => hd q (by simp [hq])) (fun q hq => hr q (by simp [hq]))
      (s + pc.shape.len) (pc.shape.place (pc.start p))
    have hstop : g.stop = pc.shape.place (pc.start p) := by rw [RGeometry.stop, h5, h3]
    refine ⟨g :: gs, ?_, by simp [e2, h5], ?_, ?_, ?_⟩
    · simp only [layout, List.map_cons, List.mapM_cons, h1, e1]; rfl
    · refine ⟨h2, ?_, ?_, ?_⟩
      · have : g.x = (pc.start p).x := congrArg Pose.x h3
        rw [this]; unfold Piece.start; cases pc.heading <;> rfl
      · have : g.y = (pc.start p).y := congrArg Pose.y h3
        rw [this]; unfold Piece.start; cases pc.heading <;> rfl
      · rw [h4, hstop, totalLen_cons, ← add_assoc]; exact e3
    · intro i h hi
      cases i with
      | zero =>
        simp only [List.getElem?_cons_zero, Option.bind_some] at hi
        have : g.hdg = (pc.start p).h := congrArg Pose.h h3
        simp [this, Piece.start, hi]
      | succ i => simpa using e4 i h (by simpa using hi)
    · intro hn
      have h0 : pc.start p = p := by simp [Piece.start, hn pc (by simp)]
      refine ⟨h2, h3.trans h0, ?_⟩
      rw [h4, hstop, totalLen_cons, ← add_assoc]
      exact e5 fun q hq => hn q (by simp [hq])

/-- C54: the planView emitted after `adjust_geometries()` on a new planview is readable: one geometry
per added one, in order, each describing the shape of the geometry object; together they form one
reference line from the start point, at s = 0, to the end point, at s = the total length. -/
theorem C54_forward (x y h : Option ℝ) (pv : PlanView ℝ) (hpv : PlanView.new x y h = .ok pv)
    (pcs : List Piece) (geoms : Store (Geom ℝ)) (hd : Describes geoms pcs)
    (hr : ∀ pc ∈ pcs, KnownRange (geoms.cell pc.ref)) (hn : ∀ pc ∈ pcs, pc.heading = none) :
    ∃ st gs q, PlanView.adjustGeometries false ⟨addAll pv pcs, geoms⟩ = .ok () st ∧
      readPlanView (st.pv.getElement st.geoms) = some gs ∧
      gs.map (fun g => g.curve.shape g.length) = pcs.map (·.shape) ∧
      st.pv.stop = some q ∧
      Chained 0 ⟨x.getD 0, y.getD 0, h.getD 0⟩ gs st.pv.getTotalLength q := by
  obtain ⟨st, h1, h2, h3, h4, h5, h6⟩ := C11_forward x y h pv hpv pcs geoms hd (Or.inl hn)
  have hk := Keeps.adjustGeometries false ⟨addAll pv pcs, geoms⟩
  rw [h1] at hk
  obtain ⟨gs, e1, e2, -, -, e4⟩ := readLayout geoms pcs hd hr 0 ⟨x.getD 0, y.getD 0, h.getD 0⟩
  refine ⟨st, gs, _, h1, ?_, e2, h5, ?_⟩
  · have he : ∀ g : AdjGeom ℝ, AdjGeom.getElement st.geoms g = AdjGeom.getElement geoms g := by
      intro g
      have : (st.geoms.cell g.geom).getElement = (geoms.cell g.geom).getElement := hk g.geom
      simp only [AdjGeom.getElement, this]
    rw [readPlanView, PlanView.getElement, Xml.tag_elem, if_pos rfl, Xml.children_elem, h2,
      List.map_congr_left (fun g _ => he g)]
    exact e1
  · have := e4 hn
    rw [h3]
    simpa using this

/-- C54: with a heading forced for every geometry the positions still form one line, with the forced
headings. -/
theorem C54_headings (x y h : Option ℝ) (pv : PlanView ℝ) (hpv : PlanView.new x y h = .ok pv)
    (pcs : List Piece) (geoms : Store (Geom ℝ)) (hd : Describes geoms pcs)
    (hr : ∀ pc ∈ pcs, KnownRange (geoms.cell pc.ref)) (hn : ∀ pc ∈ pcs, ∃ h, pc.heading = some h) :
    ∃ st gs q, PlanView.adjustGeometries false ⟨addAll pv pcs, geoms⟩ = .ok () st ∧
      readPlanView (st.pv.getElement st.geoms) = some gs ∧
      gs.map (fun g => g.curve.shape g.length) = pcs.map (·.shape) ∧
      gs.map (fun g => some g.hdg) = pcs.map (·.heading) ∧
      st.pv.stop = some q ∧
      ChainedPositions 0 (x.getD 0) (y.getD 0) gs st.pv.getTotalLength q.x q.y := by
  obtain ⟨st, h1, h2, h3, h4, h5, h6⟩ := C11_forward x y h pv hpv pcs geoms hd (Or.inr hn)
  have hk := Keeps.adjustGeometries false ⟨addAll pv pcs, geoms⟩
  rw [h1] at hk
  obtain ⟨gs, e1, e2, e3, e5, e4⟩ := readLayout geoms pcs hd hr 0 ⟨x.getD 0, y.getD 0, h.getD 0⟩
  refine ⟨st, gs, _, h1, ?_, e2, ?_, h5, ?_⟩
  · have he : ∀ g : AdjGeom ℝ, AdjGeom.getElement st.geoms g = AdjGeom.getElement geoms g := by
      intro g
      have : (st.geoms.cell g.geom).getElement = (geoms.cell g.geom).getElement := hk g.geom
      simp only [AdjGeom.getElement, this]
    rw [readPlanView, PlanView.getElement, Xml.tag_elem, if_pos rfl, Xml.children_elem, h2,
      List.map_congr_left (fun g _ => he g)]
    exact e1
  · have hlen : gs.length = pcs.length := by simpa using congrArg List.length e2
    apply List.ext_getElem
    · simp [hlen]
    · intro i a b
      have hi : i < pcs.length := by simpa using b
      obtain ⟨h', hh'⟩ := hn _ (List.getElem_mem hi)
      have := e5 i h' (by simp [List.getElem?_eq_getElem hi, hh'])
      have hi' : i < gs.length := by omega
      simp only [List.getElem?_eq_getElem hi', Option.map_some] at this
      simp only [List.getElem_map, this, hh']
  · rw [h3]
    simpa using e3

theorem mapM_none_of {α β : Type} (f : α → Option β) (l : List α) (a : α) (ha : a ∈ l)
    (h : f a = none) : l.mapM f = none := by
  induction l with
  | nil => simp at ha
  | cons b l ih =>
    rw [List.mapM_cons]
    rcases List.mem_cons.mp ha with rfl | ha
    · rw [h]; rfl
    · rw [ih ha]; cases f b <;> rfl

/-- C54 (violated): a road of two or more geometries that was adjusted from its end is emitted
unreadable: a geometry has the text `None` as its s. -/
theorem C54_backward_unreadable (x y h : Option ℝ) (pv : PlanView ℝ)
    (hpv : PlanView.new x y h = .ok pv) (target : Pose ℝ) (pc pc2 : Piece) (rest : List Piece)
    (geoms : Store (Geom ℝ)) (hd : Describes geoms (pc :: pc2 :: rest))
    (hp : ∀ q ∈ pc :: pc2 :: rest, NotPoly (geoms.cell q.ref)) :
    ∃ st, PlanView.adjustGeometries true
        ⟨(addAll pv (pc :: pc2 :: rest)).setStartPoint target, geoms⟩ = .ok () st ∧
      readPlanView (st.pv.getElement st.geoms) = none := by
  obtain ⟨st, h1, h2, -⟩ := C13_backward_s x y h pv hpv target pc (pc2 :: rest) geoms hd hp
  refine ⟨st, h1, ?_⟩
  rw [readPlanView, PlanView.getElement, Xml.tag_elem, if_pos rfl, Xml.children_elem]
  have hm : none ∈ st.pv.adjGeoms.map (·.s) := by rw [h2]; simp [List.replicate_succ]
  obtain ⟨g, hg, hs⟩ := List.mem_map.mp hm
  refine mapM_none_of _ _ (AdjGeom.getElement st.geoms g) (List.mem_map.mpr ⟨g, hg, rfl⟩) ?_
  simp [readGeometry, AdjGeom.getElement, need, Xml.attr, Dict.get?, hs, Val.ofOpt, numOf]

/-- C54: a road of one geometry adjusted from its end is readable, and ends at the target. -/
theorem C54_backward_single (x y h : Option ℝ) (pv : PlanView ℝ)
    (hpv : PlanView.new x y h = .ok pv) (target : Pose ℝ) (pc : Piece)
    (geoms : Store (Geom ℝ)) (hd : Describes geoms [pc]) (hp : NotPoly (geoms.cell pc.ref)) :
    ∃ st g p0, PlanView.adjustGeometries true ⟨(addAll pv [pc]).setStartPoint target, geoms⟩ =
        .ok () st ∧
      readPlanView (st.pv.getElement st.geoms) = some [g] ∧
      g.curve.shape g.length = pc.shape ∧ st.pv.start = some p0 ∧
      Chained 0 p0 [g] st.pv.getTotalLength (turned target) := by
  obtain ⟨h1, h2, h3, h4, h5⟩ := new_eq x y h pv hpv
  obtain ⟨p0, g', e1, e2, e3⟩ := adjust_backward_real
    ((addAll pv [pc]).setStartPoint target) pc [] geoms
    (by simp [addAll_eq, PlanView.setStartPoint, h1])
    (by simp [addAll_eq, PlanView.setStartPoint, h3]) hd (by simpa using hp)
  have hr : KnownRange (geoms.cell pc.ref) := by
    unfold NotPoly at hp; unfold KnownRange; split at hp <;> simp_all
  obtain ⟨g, r1, r2, r3, r4, r5⟩ := readGeometry_of geoms pc.ref pc.shape (hd pc (by simp)) hr 0 p0
  have hk := Keeps.adjustGeometries true ⟨(addAll pv [pc]).setStartPoint target, geoms⟩
  rw [e1] at hk
  refine ⟨_, g, p0, e1, ?_, r5, rfl, ?_⟩
  · have he : ∀ g : AdjGeom ℝ, AdjGeom.getElement g' g = AdjGeom.getElement geoms g := by
      intro g
      have : (g'.cell g.geom).getElement = (geoms.cell g.geom).getElement := hk g.geom
      simp only [AdjGeom.getElement, this]
    have htl : totalLen [] = 0 := rfl
    simp only [readPlanView, PlanView.getElement, Xml.tag_elem, if_true, Xml.children_elem,
      List.map_nil, layout, List.reverse_nil, List.nil_append, List.map_cons, he, htl,
      List.mapM_cons, List.mapM_nil, r1]
    rfl
  · have hf : finish p0 ([pc].map Piece.free) = pc.shape.place p0 := rfl
    rw [hf] at e2
    refine ⟨r2, r3, ?_, ?_⟩
    · simp [PlanView.getTotalLength, totalLen, r4]
    · rw [RGeometry.stop, r5, r3, e2]; rfl

/-- Non-vacuity: the three pieces of `exPieces` (line, arc, line) meet the hypotheses of
`C54_forward` and, without the last, of `C54_backward_unreadable`. -/
example : Describes exHeap exPieces ∧ (∀ pc ∈ exPieces, KnownRange (exHeap.cell pc.ref)) ∧
    (∀ pc ∈ exPieces, pc.heading = none) ∧ (∀ pc ∈ exPieces, NotPoly (exHeap.cell pc.ref)) := by
  refine ⟨exPieces_describes, ?_, by simp [exPieces], ?_⟩ <;>
  · intro pc hpc
    simp only [exPieces, List.mem_cons, List.not_mem_nil, or_false] at hpc
    rcases hpc with rfl | rfl | rfl <;> simp [exHeap, KnownRange, NotPoly]

end Pyodrx.Props
