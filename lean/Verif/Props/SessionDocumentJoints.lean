import Verif.Props.SessionDocument
import Verif.Props.SessionJoints
import Verif.Props.SessionGeometries

/-! # C97: the joints of roads in the document of a program of calls, and its file -/

namespace Pyodrx.Props
open Pyodrx Pyodrx.Spec PyFloat

variable {R : Rounding}

/-- The geometries of an added road. -/
theorem added_raw (p : List (Call (Fl R))) (hd : Drawing p) (s : Session (Fl R)) {v : Nat} {i : PyId} {pv l : Nat} {t : Int}
    {n ru : Option String} (h : .road v i pv l t n ru ∈ p) :
    ((runCalls p s).2.planviews.cell pv).raw = (geometryCalls pv p).map (·.1) ∧
      ∀ j ∈ ((runCalls p s).2.planviews.cell pv).raw, ∃ hd', .addGeometry pv j hd' ∈ p ∧
        .geometry j ((runCalls p s).2.geoms.cell j) ∈ p := by
  obtain ⟨-, hu⟩ := num_program p hd.proper s
  obtain ⟨c, hc, hm⟩ : Made p (.planView pv) := hu _ h _ (.inl rfl)
  cases c <;> simp [Makes] at hm
  case planView v' x y h' =>
    subst hm
    have h1 := (C93_planview p hd.proper hd.once s _ x y h' hc (hd.poses _ _ _ _ hc)).1
    refine ⟨h1, fun j hj => ?_⟩
    rw [h1, List.mem_map] at hj
    obtain ⟨⟨j', hd'⟩, hj, rfl⟩ := hj
    rw [geometryCalls, List.mem_filterMap] at hj
    obtain ⟨c, hc', he⟩ := hj
    cases c <;> simp at he
    case addGeometry pv' g' h'' =>
      obtain ⟨rfl, rfl, rfl⟩ := he
      obtain ⟨c, hc'', hm⟩ : Made p (.geometry g') := hu _ hc' _ (.inr rfl)
      cases c <;> simp [Makes] at hm
      case geometry g'' G =>
        subst hm
        refine ⟨_, hc', ?_⟩
        rw [C93_geometry p hd.proper hd.once s _ G hc'']
        exact hc''

/-- The network of such a program. -/
theorem program_drawn (p : List (Call (Fl R))) (s : Session (Fl R)) (hs : Blank s) (o : Nat) (h : LaidOut p o) (hg : DrawnGeometry p o) :
    DrawnNetFl (worldOf (runCalls p s).2 o).net ∧
      (∀ k r, (worldOf (runCalls p s).2 o).net.roads.get? k = some r → ¬ Anchor (worldOf (runCalls p s).2 o).net.roads k →
        r.planview.raw.length = 1) ∧
      ∀ k r, (worldOf (runCalls p s).2 o).net.roads.get? k = some r → ∀ i ∈ r.planview.raw, ∀ x,
        polyOf ((worldOf (runCalls p s).2 o).net.geoms.cell i) = some x → x.prange = "normalized" ∨ x.prange = "arcLength" := by
  obtain ⟨name, ho⟩ := h.document
  obtain ⟨n1, n2, n3, -, -⟩ := C88_drawn p h.drawing s hs o name ho
  have road : ∀ {k r}, (worldOf (runCalls p s).2 o).net.roads.get? k = some r →
      ∃ v i pv l t n ru, .addRoad o v ∈ p ∧ .road v i pv l t n ru ∈ p ∧ (¬ Anchor (worldOf (runCalls p s).2 o).net.roads k → ¬ AnchorRoad p o v) ∧
        r.planview = (runCalls p s).2.planviews.cell pv := by
    intro k r hr
    obtain ⟨v, i, pv, l, t, n, ru, a1, a2, rfl, -, -, a6, -⟩ := drawn_road p h.drawing s o name ho hr
    refine ⟨v, i, pv, l, t, n, ru, a1, a2, fun hn ha => hn ?_, a6⟩
    exact (anchor_iff p h.drawing s hs o name ho h.linked ⟨a1, _, _, _, _, a2⟩).mpr ha
  refine ⟨⟨n1, n2, n3, ?_⟩, ?_, ?_⟩
  · intro k r j hr hna hraw
    obtain ⟨v, i, pv, l, t, n, ru, a1, a2, a3, a4⟩ := road hr
    obtain ⟨-, hgeo⟩ := added_raw p h.drawing s a2
    rw [← a4, hraw] at hgeo
    obtain ⟨hd', b1, b2⟩ := hgeo j (by simp)
    show polyOf ((runCalls p s).2.geoms.cell j) = none
    cases hx : (runCalls p s).2.geoms.cell j with
    | poly x => rw [hx] at b2; exact absurd b2 (hg.poly v i pv l t n ru j hd' x a1 a2 (a3 hna) b1)
    | _ => rfl
  · intro k r hr hna
    obtain ⟨v, i, pv, l, t, n, ru, a1, a2, a3, a4⟩ := road hr
    rw [a4, (added_raw p h.drawing s a2).1, List.length_map]
    exact hg.one v i pv l t n ru a1 a2 (a3 hna)
  · intro k r hr j hj x hx
    obtain ⟨v, i, pv, l, t, n, ru, a1, a2, a3, a4⟩ := road hr
    rw [a4] at hj
    obtain ⟨hd', b1, b2⟩ := (added_raw p h.drawing s a2).2 j hj
    change polyOf ((runCalls p s).2.geoms.cell j) = some x at hx
    cases hy : (runCalls p s).2.geoms.cell j with
    | poly y =>
      rw [hy] at b2 hx
      have := hg.range j y b2
      simp only [polyOf, Option.some.injEq] at hx
      subst hx
      exact this
    | _ => rw [hy] at hx; cases hx

/-- The objects that `adjust_roads_and_lanes` changes. -/
theorem adjust_objects (p : List (Call (Fl R))) (s : Session (Fl R)) (hs : Blank s) (o : Nat) (h : LaidOut p o) :
    ∃ pvs geoms lanes, (runCalls (p ++ [.adjust o]) s).2 = { (runCalls p s).2 with planviews := pvs, geoms := geoms, laneObjs := lanes } := by
  obtain ⟨name, ho⟩ := h.document
  obtain ⟨n1, -, -, own, -⟩ := C88_drawn p h.drawing s hs o name ho
  rw [worldOf_keys] at n1
  have hav := adjust_values _ o n1 own
  have hret := (C92_returns p h.drawing s hs o name ho h.linked h.fitting).1.mpr h.reached
  rw [adjust_run]
  simp only [Call.step, Call.run] at hret ⊢
  cases hs2 : Session.adjust o (runCalls p s).2 with
  | error er s2 => rw [hs2] at hret; cases hret
  | ok _ s2 =>
    rw [hs2] at hav
    obtain ⟨-, pvs, geoms, lanes, e1, -⟩ := hav
    exact ⟨pvs, geoms, lanes, e1⟩

/-- C97: the geometries of every road in the document are those that were made and added to its PlanView, in the order of the calls. -/
theorem C97_geometries (p : List (Call (Fl R))) (s : Session (Fl R)) (hs : Blank s) (o : Nat) (h : LaidOut p o)
    (date : String) (element : Xml (Fl R)) (he : (runCalls (p ++ [.adjust o]) s).2.getElement o date = .ok element)
    (doc : RDocument (Fl R)) (hdoc : readDocument element = some doc) (rd : RRoad (Fl R)) (hrd : rd ∈ doc.roads) :
    ∃ v i pv l n ru, .addRoad o v ∈ p ∧ .road v i pv l rd.junction n ru ∈ p ∧ rd.id = i.toStr ∧
      List.Forall₂ (fun c g => ∃ G, .geometry c.1 G ∈ p ∧ GeometryShown G g) (geometryCalls pv p) rd.planView := by
  obtain ⟨name, ho⟩ := h.document
  have hp := proper_adjust h.drawing.proper ⟨name, ho⟩
  obtain ⟨hadj, hgood⟩ := drawing_adjusted p h.drawing s hs o name ho (laidOut_returns p s hs o h)
  have hadj' := adjustRoadsAndLanes_net hadj
  have ho' : .openDrive o name ∈ p ++ [.adjust o] := List.mem_append_left _ ho
  have hids := laidOut_ids h
  obtain ⟨n1, n2, -, -, -⟩ := C88_drawn p h.drawing s hs o name ho
  have hfresh : Fresh (worldOf (runCalls p s).2 o).net.roads :=
    fun k r hr => ⟨(n2 k r hr).fields.2.2.2.2, (n2 k r hr).fields.2.2.1⟩
  have hkeys := (C18_placed_once _ _ n1 hfresh hadj').1
  obtain ⟨pvs, geoms, lanes, hs2⟩ := adjust_objects p s hs o h
  generalize p ++ [.adjust o] = q at *
  obtain ⟨gs, hgs, hdict, rfl⟩ := doc_form q hp s o name ho' hids date element he doc hdoc hgood
  obtain ⟨v, hv, rfl⟩ := List.mem_map.mp hrd
  rw [← hdict, List.mem_map] at hv
  obtain ⟨⟨k, v'⟩, hv, rfl⟩ := hv
  have hmem : (k, (runCalls q s).2.readRoad ((runCalls q s).2.roads.cell v')) ∈ (worldOf (runCalls q s).2 o).net.roads :=
    List.mem_map.mpr ⟨(k, v'), hv, rfl⟩
  have hnd : (worldOf (runCalls q s).2 o).net.roads.keys.Nodup := by rw [hkeys]; exact n1
  have hr := Dict.mem_get? hnd hmem
  obtain ⟨r0, h0, h1⟩ := network_shown n1 hfresh hadj' hr (startpoints_all n1 hfresh hadj' hr) (hgs _ hmem)
  obtain ⟨w, i, pv, l, t, n, ru, a1, a2, a3, -, a5, a6, -⟩ := drawn_road p h.drawing s o name ho h0
  obtain ⟨hraw, hgeo⟩ := added_raw p h.drawing s a2
  have e1 : (runCalls q s).2.openDrives = (runCalls p s).2.openDrives := by rw [hs2]
  have e2 : (runCalls q s).2.roads = (runCalls p s).2.roads := by rw [hs2]
  rw [e1] at hv
  obtain ⟨b1, b2, b3⟩ := dict_road p h.drawing s o name ho hv
  have hvw := h.linked.ids _ _ _ _ _ _ ⟨b1, _, _, _, _, b2.made⟩ ⟨a1, _, _, _, _, a2⟩ (b3.trans a3.symm)
  subst hvw
  have hm := made_once h.drawing.proper (x := .road v') a2 b2.made rfl rfl
  injection hm with _ _ _ _ et
  refine ⟨v', i, pv, l, n, ru, a1, ?_, ?_, ?_⟩
  · have : (shownRoad (runCalls q s).2.heap ((runCalls q s).2.readRoad ((runCalls q s).2.roads.cell v'))
        (gs ((runCalls q s).2.readRoad ((runCalls q s).2.roads.cell v')))).junction = t := by
      simp only [shownRoad, Session.readRoad, e2]; exact et.symm
    rw [this]; exact a2
  · simp only [shownRoad, Session.readRoad, e2]
    exact b3.trans a3.symm
  · rw [a6] at h1
    show List.Forall₂ _ _ (gs _)
    have h1' : List.Forall₂ (fun j g => ∃ G, Call.geometry j G ∈ p ∧ GeometryShown G g) ((runCalls p s).2.planviews.cell pv).raw
        (gs ((runCalls q s).2.readRoad ((runCalls q s).2.roads.cell v'))) := by
      rw [List.forall₂_iff_get] at h1 ⊢
      refine ⟨h1.1, fun i hi hi' => ?_⟩
      obtain ⟨hd', -, c2⟩ := hgeo _ (List.get_mem _ ⟨i, hi⟩)
      exact ⟨_, c2, h1.2 i hi hi'⟩
    rw [hraw, List.forall₂_map_left_iff] at h1'
    exact h1'

/-- C97: in the document of a laid out program without loops, at every declared joint the ends of the two roads, computed from the
geometries in the document, meet up to rounding errors: shifted by the declared lane offset, in opposite directions. (`f`, `a`: the
accuracies of Fresnel integrals and arctan2, see C86.) -/
theorem C97_joints (f a : ℝ) (hf : FresnelAccurate R f) (ha : ArctanAccurate R a) (p : List (Call (Fl R))) (s : Session (Fl R)) (hs : Blank s)
    (o : Nat) (h : LaidOut p o) (hn : NoLoopsProgram p o) (hg : DrawnGeometry p o)
    (date : String) (element : Xml (Fl R)) (he : (runCalls (p ++ [.adjust o]) s).2.getElement o date = .ok element)
    (doc : RDocument (Fl R)) (hdoc : readDocument element = some doc)
    (v w : Nat) (e e' : ContactPoint) (hd : Declares p o v e w e') (i j : PyId) (t u : Int) (hv : AddsRoad p o v i t) (hw : AddsRoad p o w j u) :
    ∃ rd ∈ doc.roads, ∃ rd' ∈ doc.roads, rd.id = i.toStr ∧ rd'.id = j.toStr ∧ ∃ P Q, rd.NearlyAt f a e P ∧ rd'.NearlyAt f a e' Q ∧
      (MeetsNearly R.u (offsetCall v p e) e P e' Q ∨ MeetsNearly R.u (offsetCall w p e') e' Q e P) := by
  obtain ⟨hv1, pv, l, n, ru, hv2⟩ := hv
  obtain ⟨hw1, pw, m, n', ru', hw2⟩ := hw
  obtain ⟨name, ho⟩ := h.document
  obtain ⟨hret, P, Q, c1, c2, c3⟩ := C96_joints p s hs o h hn v w e e' hd i j pv pw l m t u n ru n' ru' hv2 hw2
  obtain ⟨hnet, -, -⟩ := program_drawn p s hs o h hg
  have hp := proper_adjust h.drawing.proper ⟨name, ho⟩
  obtain ⟨hadj, hgood⟩ := drawing_adjusted p h.drawing s hs o name ho (laidOut_returns p s hs o h)
  have hadj' := adjustRoadsAndLanes_net hadj
  have ho' : .openDrive o name ∈ p ++ [.adjust o] := List.mem_append_left _ ho
  have hids := laidOut_ids h
  obtain ⟨n1, -, -, own, n5⟩ := C88_drawn p h.drawing s hs o name ho
  have hkeys := (C18_placed_once _ _ hnet.nodup hnet.fresh hadj').1
  have hrun := adjust_run p s o
  rw [worldOf_keys] at n1
  have hav := adjust_values _ o n1 own
  have hstep : ∃ pvs geoms lanes, (runCalls (p ++ [.adjust o]) s).2 = { (runCalls p s).2 with planviews := pvs, geoms := geoms, laneObjs := lanes } := by
    rw [hrun]
    simp only [Call.step, Call.run] at hret ⊢
    cases hs2 : Session.adjust o (runCalls p s).2 with
    | error er s2 => rw [hs2] at hret; cases hret
    | ok _ s2 =>
      rw [hs2] at hav
      obtain ⟨-, pvs, geoms, lanes, e1, -⟩ := hav
      exact ⟨pvs, geoms, lanes, e1⟩
  rw [← hrun] at c1 c2
  clear hrun hav hret
  generalize p ++ [.adjust o] = q at *
  obtain ⟨pvs, geoms, lanes, hs2⟩ := hstep
  obtain ⟨gs, hgs, hdict, rfl⟩ := doc_form q hp s o name ho' hids date element he doc hdoc hgood
  have key : ∀ {v i pv l t n ru e P}, .addRoad o v ∈ p → .road v i pv l t n ru ∈ p → posePoint (runCalls q s).2 pv e = some P →
      ∃ rd ∈ (keepFirst (roadCalls o q)).map fun v => shownRoad (runCalls q s).2.heap ((runCalls q s).2.readRoad ((runCalls q s).2.roads.cell v))
            (gs ((runCalls q s).2.readRoad ((runCalls q s).2.roads.cell v))), rd.id = i.toStr ∧ rd.NearlyAt f a e (real P) := by
    intro v i pv l t n ru e P h1 h2 h3
    have hk : i.toStr ∈ (worldOf (runCalls q s).2 o).net.roads.keys := by
      rw [hkeys]; exact (n5 _).mpr ⟨v, i, pv, l, t, n, ru, h2, h1, rfl⟩
    obtain ⟨r, hr⟩ := Option.isSome_iff_exists.mp ((Dict.get?_isSome _ _).mpr hk)
    obtain ⟨b1, -⟩ := adjusted_road p s o h hs2 h1 h2 hr e
    have b2 := hnet.pose hf ha hadj' (hp := (runCalls q s).2.heap) rfl hgs hr (b1.trans h3)
    obtain ⟨v', hv', rfl⟩ := worldOf_get hr
    refine ⟨_, List.mem_map.mpr ⟨v', ?_, rfl⟩, ?_, b2⟩
    · rw [← hdict]; exact List.mem_map.mpr ⟨_, hv', rfl⟩
    · have e1 : (runCalls q s).2.openDrives = (runCalls p s).2.openDrives := by rw [hs2]
      have e2 : (runCalls q s).2.roads = (runCalls p s).2.roads := by rw [hs2]
      rw [e1] at hv'
      obtain ⟨-, -, b3⟩ := dict_road p h.drawing s o name ho hv'
      simp only [shownRoad, Session.readRoad, e2]
      exact b3
  obtain ⟨rd, r1, r2, r3⟩ := key hv1 hv2 c1
  obtain ⟨rd', r1', r2', r3'⟩ := key hw1 hw2 c2
  exact ⟨rd, r1, rd', r1', r2, r2', _, _, r3, r3', c3⟩

/-- C97: the file of such a program: it is written, and what is read of it (plain or pretty printed) is the document above. The
hypotheses about texts and numbers are those of C63, C64. -/
theorem C97_file (p : List (Call (Fl R))) (s : Session (Fl R)) (hs : Blank s) (o : Nat) (h : LaidOut p o) (hg : DrawnGeometry p o)
    (s2 : Session (Fl R)) (h2 : s2 = (runCalls (p ++ [.adjust o]) s).2)
    (date : String) (element : Xml (Fl R)) (he : s2.getElement o date = .ok element)
    (show' : Fl R → String) (readNum : String → Option (Fl R)) (hnone : readNum "None" = none)
    (hnum : ∀ x, Occurs (.num x) element → readNum (show' x) = some x)
    (hrep : ∀ i, RepeatsNamed (s2.objs.cell i))
    (hshow : ∀ x, ∀ c ∈ (show' x).toList, XmlParser.isXmlChar c = true ∧ c ≠ '\n' ∧ c ≠ '\r' ∧ c ≠ '\t')
    (hlegal : ∀ t ∈ userTexts s2.heap date (s2.readOpenDrive (s2.openDrives.cell o)),
      ∀ c ∈ t.toList, XmlParser.isXmlChar c = true)
    (filename : Option String) (pretty : Bool)
    (hplain : pretty = true → ∀ t ∈ userTexts s2.heap date (s2.readOpenDrive (s2.openDrives.cell o)),
      ∀ c ∈ t.toList, c ≠ '\n' ∧ c ≠ '\r' ∧ c ≠ '\t') :
    ∃ text doc, (s2.readOpenDrive (s2.openDrives.cell o)).writeXml show' s2.heap date filename pretty =
        .ok (filename.getD ((s2.openDrives.cell o).name ++ ".xodr"), text) ∧
      readFile readNum text = some doc ∧ readDocument element = some doc ∧ DocumentShown p o doc := by
  obtain ⟨name, ho⟩ := h.document
  obtain ⟨hnet, hone, hrange⟩ := program_drawn p s hs o h hg
  obtain ⟨hadj, hgood⟩ := drawing_adjusted p h.drawing s hs o name ho (laidOut_returns p s hs o h)
  obtain ⟨element', he', hshown⟩ := C97_adjusted p s hs o h date
  rw [← h2] at hadj hgood he'
  have : element' = element := by rw [he] at he'; cases he'; rfl
  subst this
  obtain ⟨doc, hdoc⟩ := C86_readable _ _ hnet hadj (s2.readOpenDrive (s2.openDrives.cell o)) s2.heap date rfl rfl hgood element' he hone hrange
  have he2 : (s2.readOpenDrive (s2.openDrives.cell o)).getElement s2.heap date = .ok element' := he
  obtain ⟨l1, l2⟩ := C63_texts show' s2.heap date _ element' he2 (fun _ _ i _ => hrep i)
  have hl := l1 (fun x c hc => (hshow x c hc).1) hlegal
  cases pretty with
  | false =>
    obtain ⟨text, h1, _, h3⟩ := C63_plain show' s2.heap date _ filename element' he2 (fun _ _ i _ => hrep i) hl
    exact ⟨text, doc, h1, (readFile_of hnone he2 hnum (fun _ _ i _ => hrep i) h3).trans hdoc, hdoc, hshown doc hdoc⟩
  | true =>
    obtain ⟨text, h1, _, h3⟩ := C63_pretty show' s2.heap date _ filename element' he2 (fun _ _ i _ => hrep i) hl
    exact ⟨text, doc, h1, (readFile_of hnone he2 hnum (fun _ _ i _ => hrep i)
      (h3.mpr (l2 (fun x c hc => (hshow x c hc).2) (hplain rfl)))).trans hdoc, hdoc, hshown doc hdoc⟩

end Pyodrx.Props
