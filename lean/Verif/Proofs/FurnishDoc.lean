import Verif.Proofs.Furnish
import Verif.Props.Objects

/-! # The document of a furnished network -/

namespace Pyodrx.Props
open Pyodrx Spec

variable {F : Type}

theorem zip_pick {α β : Type} (P : Int → Bool) (f : Nat → β) : ∀ (A : List (Int × α)) (B : List (Int × Nat)),
    B.map (·.1) = A.map (·.1) → ((A.zip (B.map fun p => f p.2)).filter fun p => P p.1.1).map (·.2) =
      (B.filter fun p => P p.1).map fun p => f p.2 := by
  intro A
  induction A with
  | nil => intro B h; cases B with
    | nil => rfl
    | cons => simp at h
  | cons a A ih =>
    intro B h
    cases B with
    | nil => simp at h
    | cons b B =>
      rw [List.map_cons, List.map_cons, List.cons.injEq] at h
      have := ih B h.2
      rw [List.map_cons, List.zip_cons_cons, List.filter_cons, List.filter_cons]
      simp only [← h.1]
      split
      · rw [List.map_cons, List.map_cons, this]
      · exact this

theorem pick_eq (log : List (Int × Nat)) (k : Int) {β : Type} (f : Nat → β) :
    (pick log (.int k)).map f = (log.filter fun p => decide (strInt p.1 = strInt k)).map fun p => f p.2 := by
  unfold pick
  rw [List.map_map]
  congr 1
  refine List.filter_congr fun p _ => ?_
  rw [decide_eq_decide]
  constructor
  · intro h; rw [PyId.int.inj h]
  · intro h; rw [strInt_injective h]

/-- The objects of a call, seen in the document, are those that were made. -/
theorem objectsOf_shown (hp : Heap ℝ) (r : Road ℝ) (gs : List (RGeometry ℝ)) (c : FurnishCall ℝ) :
    c.objectsOf (shownRoad hp r gs) = c.made hp.lanes r := by
  cases c with
  | signals l => rfl
  | objects l => rfl
  | roadside o d sOff tOff side =>
    have hrep : ∀ h : Option ℝ, repeatHeight none h = Val.ofOpt h := by intro h; cases h <;> rfl
    simp only [FurnishCall.objectsOf, FurnishCall.made, shownRoad, List.flatMap_map, List.map_flatMap]
    congr 1
    funext sec
    have e1 : ((shownSection hp.lanes sec).left.map RLane.a).sum = sumWidths hp.lanes sec.left := by
      rw [sumWidths_real]; simp [shownSection, shownLanes, shownLane, Function.comp_def]
    have e2 : ((shownSection hp.lanes sec).right.map RLane.a).sum = sumWidths hp.lanes sec.right := by
      rw [sumWidths_real]; simp [shownSection, shownLanes, shownLane, Function.comp_def]
    have e3 : (shownSection hp.lanes sec).s = sec.s := rfl
    have l1 : roadsideObject o r.planview.getTotalLength d sOff tOff ⟨sec.s, 1, sumWidths hp.lanes sec.left⟩ =
        besideRoad o (sOff + sec.s) (sumWidths hp.lanes sec.left + tOff) Real.pi
          (r.planview.getTotalLength - sOff - sec.s) d := by
      simp [roadsideObject, besideRoad, Obj.repeat, attrIfSome, hrep]
    have l2 : roadsideObject o r.planview.getTotalLength d sOff tOff ⟨sec.s, -1, sumWidths hp.lanes sec.right⟩ =
        besideRoad o (sOff + sec.s) (-(sumWidths hp.lanes sec.right + tOff)) 0
          (r.planview.getTotalLength - sOff - sec.s) d := by
      simp [roadsideObject, besideRoad, Obj.repeat, attrIfSome, hrep]
    rw [e1, e2, e3, ← l1, ← l2]
    cases side <;> simp [roadsideEntries]

section
variable [PyFloat F]

/-- Signals and objects do not hinder the document. -/
theorem getElement_fit {w : World F} {so so' : SOState F} {name date : String} {js : List Junction} {element : Xml F}
    (ol sl : List (Int × Nat))
    (he : OpenDrive.getElement ⟨w.net.geoms, w.lanes, so⟩ date ⟨name, w.net.roads, js⟩ = .ok element) :
    ∃ element', OpenDrive.getElement ⟨w.net.geoms, w.lanes, so'⟩ date ⟨name, fitDict ol sl w.net.roads, js⟩ = .ok element' := by
  unfold OpenDrive.getElement at he ⊢
  cases hr : w.net.roads.mapM (fun kv => kv.2.getElement ⟨w.net.geoms, w.lanes, so⟩) with
  | error e => rw [hr] at he; cases he
  | ok rs =>
    have h1 := roadsOk _ _ _ hr
    have h2 : ∃ rs', (fitDict ol sl w.net.roads).mapM (fun kv => kv.2.getElement ⟨w.net.geoms, w.lanes, so'⟩) = .ok rs' := by
      have : ∃ rs', List.Forall₂ (fun kv x => (kv : String × Road F).2.getElement ⟨w.net.geoms, w.lanes, so'⟩ = .ok x)
          (fitDict ol sl w.net.roads) rs' := by
        clear hr
        unfold fitDict dressRoads
        generalize w.net.roads = d at h1
        induction h1 with
        | nil => exact ⟨[], .nil⟩
        | @cons kv x0 d0 xs0 h _ ih =>
          obtain ⟨l, h1, -⟩ := road_ok h
          obtain ⟨xs, hxs⟩ := ih
          have hx : ∃ x, Road.getElement ⟨w.net.geoms, w.lanes, so'⟩ (Road.dress (pick ol) (pick sl) kv.2) = .ok x :=
            ⟨_, by
              unfold Road.getElement
              show (Lanes.getElement w.lanes _ >>= _) = _
              rw [show Lanes.getElement w.lanes (Road.dress (pick ol) (pick sl) kv.2).lanesections = .ok l from h1]
              rfl⟩
          obtain ⟨x, hx⟩ := hx
          exact ⟨x :: xs, .cons hx hxs⟩
      obtain ⟨rs', h⟩ := this
      exact ⟨rs', mapM_except_ok _ _ h⟩
    obtain ⟨rs', h2⟩ := h2
    exact ⟨_, by rw [show (⟨name, fitDict ol sl w.net.roads, js⟩ : OpenDrive F).roads = fitDict ol sl w.net.roads from rfl, h2]; rfl⟩

end

/-- What is read of the line of a road. -/
noncomputable def readLine (geoms : Store (Geom ℝ)) (r : Road ℝ) : List (RGeometry ℝ) :=
  (readPlanView (r.planview.getElement geoms)).getD []

theorem document_lines {hp : Heap ℝ} {date : String} {o : OpenDrive ℝ} {element : Xml ℝ} {doc : RDocument ℝ}
    (he : o.getElement hp date = .ok element) (hgood : ∀ kv ∈ o.roads, GoodRoad hp kv.2)
    (hdoc : readDocument element = some doc) :
    (∀ kv ∈ o.roads, ∃ gs, readPlanView (kv.2.planview.getElement hp.geoms) = some gs) ∧
    doc = ⟨o.name, o.roads.map (fun kv => shownRoad hp kv.2 (readLine hp.geoms kv.2)), o.junctions.map shownJunction⟩ := by
  have h1 := readDocument_planViews he hdoc
  refine ⟨h1, ?_⟩
  have h2 := C59_document hp date o element he (readLine hp.geoms) (fun kv hkv => by
    obtain ⟨gs, hgs⟩ := h1 kv hkv
    exact ⟨hgood kv hkv, by simp [readLine, hgs]⟩)
  rw [hdoc] at h2
  exact Option.some.inj h2

theorem Gained.each {α : Type} {getId : α → Option PyId} {setId : PyId → α → α} {st st' : Store α} {u v : List String}
    {g : List α} {r : List Nat} (h : Gained getId setId st st' u v g r) :
    List.Forall₂ (fun x i => ∃ j, st'.cell i = setId j x) g r := by
  obtain ⟨got, h1, -, h3⟩ := h.ids
  have hc := h1.count
  rw [List.length_map, List.length_map] at hc
  clear h h1
  induction r generalizing g got with
  | nil =>
    cases g with
    | nil => exact .nil
    | cons x g => cases got with
      | nil => simp at hc
      | cons => simp at h3
  | cons i r ih =>
    cases g with
    | nil => simp at h3
    | cons x g =>
      cases got with
      | nil => simp at h3
      | cons j got =>
        rw [List.map_cons, List.zipWith_cons_cons, List.cons.injEq] at h3
        exact .cons ⟨j, h3.1⟩ (ih got h3.2 (by simpa using hc))

theorem zipWith_map_id {α β : Type} {setId : PyId → α → α} {f : α → β} {show' : PyId → β} (hf : ∀ i x, f (setId i x) = show' i) :
    ∀ (got : List PyId) (g : List α), got.length = g.length → (List.zipWith setId got g).map f = got.map show' := by
  intro got
  induction got with
  | nil => intro g _; simp
  | cons i got ih =>
    intro g h
    cases g with
    | nil => simp at h
    | cons x g => rw [List.zipWith_cons_cons, List.map_cons, List.map_cons, hf, ih g (by simpa using h)]

theorem find_fit {d : Dict (Road ℝ)} {ol sl : List (Int × Nat)} {hp : Heap ℝ} {k : Int} {r : Road ℝ}
    {gs : Road ℝ → List (RGeometry ℝ)}
    (hd : ∀ kv ∈ d, ∃ j : Int, kv.1 = strInt j ∧ kv.2.id = .int j) (h : d.get? (strInt k) = some r) :
    ((fitDict ol sl d).map fun kv => shownRoad hp kv.2 (gs kv.2)).find? (fun a => decide (a.id = strInt k)) =
      some (shownRoad hp (fit ol sl r) (gs (fit ol sl r))) := by
  induction d with
  | nil => simp [Dict.get?] at h
  | cons kv d ih =>
    obtain ⟨key, q⟩ := kv
    obtain ⟨j, hj, hq⟩ := hd (key, q) (by simp)
    simp only at hj hq
    subst hj
    change (if strInt j = strInt k then some q else Dict.get? d (strInt k)) = some r at h
    have hid : (shownRoad hp (fit ol sl q) (gs (fit ol sl q))).id = strInt j := by
      show (q.id).toStr = _
      rw [hq]; rfl
    show List.find? _ (shownRoad hp (fit ol sl q) (gs (fit ol sl q)) ::
      (fitDict ol sl d).map fun kv => shownRoad hp kv.2 (gs kv.2)) = _
    rw [List.find?_cons]
    by_cases hjk : strInt j = strInt k
    · rw [if_pos hjk] at h
      obtain rfl := Option.some.inj h
      rw [hid, decide_eq_true hjk]
    · rw [if_neg hjk] at h
      rw [hid, decide_eq_false hjk]
      exact ih (fun x hx => hd x (by simp [hx])) h

/-- The document of a network whose roads were furnished before and after the adjustment. -/
theorem finish_core {roads : Dict (Road ℝ)} {geoms : Store (Geom ℝ)} {lanes lanes0 : Store (Lane ℝ)} {w : World ℝ}
    (hn : roads.keys.Nodup) (hd : ∀ kv ∈ roads, ∃ j : Int, kv.1 = strInt j ∧ kv.2.id = .int j)
    (hplain : ∀ kv ∈ roads, kv.2.objects = [] ∧ kv.2.signals = []) (hf : Fresh roads)
    (hadj : World.adjustRoadsAndLanes ⟨⟨roads, geoms⟩, lanes⟩ = .ok () w)
    {before after : List (Int × FurnishCall ℝ)} (hb : ∀ c ∈ before, ¬ c.2.NeedsAdjusted)
    (hnamed : ∀ c ∈ before ++ after, strInt c.1 ∈ roads.keys)
    (hsig : ∀ c ∈ before ++ after, ∀ g ∈ c.2.signalsOf, g.base.typ = .str g.type)
    {so so0 so1 : SOState ℝ} {ol sl : List (Int × Nat)} {road0 : Int → Road ℝ}
    (hl : Logged lanes0 road0 before so so1 ol sl) {name date : String} {js : List Junction} {element : Xml ℝ}
    {doc : RDocument ℝ}
    (he : OpenDrive.getElement ⟨w.net.geoms, w.lanes, so0⟩ date ⟨name, w.net.roads, js⟩ = .ok element)
    (hgood : ∀ kv ∈ w.net.roads, GoodRoad ⟨w.net.geoms, w.lanes, so0⟩ kv.2) (hdoc : readDocument element = some doc) :
    World.adjustRoadsAndLanes ⟨⟨fitDict ol sl roads, geoms⟩, lanes⟩ =
      .ok () ⟨⟨fitDict ol sl w.net.roads, w.net.geoms⟩, w.lanes⟩ ∧
    ∃ roads2 so2 element' doc', furnishDict w.lanes after (fitDict ol sl w.net.roads) so1 = .ok (roads2, so2) ∧
      OpenDrive.getElement ⟨w.net.geoms, w.lanes, so2⟩ date ⟨name, roads2, js⟩ = .ok element' ∧
      readDocument element' = some doc' ∧ doc'.unfurnished = doc ∧
      ShowsFurniture (usedIds so "Signal") (usedIds so "Object") (before ++ after) doc' := by
  have hstart := adjustRoadsAndLanes_net hadj
  obtain ⟨m, hh, -⟩ := startpoints_history (net := ⟨roads, geoms⟩) hn hf hstart
  have hsame := hh.same
  have hkeys : w.net.roads.keys = roads.keys := hsame.1
  have hnw : w.net.roads.keys.Nodup := by rw [hkeys]; exact hn
  have hold : ∀ kv ∈ w.net.roads, ∃ r0, (kv.1, r0) ∈ roads ∧ r0.same kv.2 ∧ kv.2.planview.adjusted = true := by
    intro kv hkv
    have hg := Dict.mem_get? hnw hkv
    obtain ⟨r0, h1, h2⟩ := hsame.2 _ _ hg
    exact ⟨r0, Dict.get?_some_mem h1, h2, startpoints_all (net := ⟨roads, geoms⟩) hn hf hstart hg⟩
  have hdw : ∀ kv ∈ w.net.roads, ∃ j : Int, kv.1 = strInt j ∧ kv.2.id = .int j := by
    intro kv hkv
    obtain ⟨r0, h1, h2, -⟩ := hold kv hkv
    obtain ⟨j, h3, h4⟩ := hd _ h1
    exact ⟨j, h3, by rw [h2.1]; exact h4⟩
  have hplainw : ∀ kv ∈ w.net.roads, kv.2.objects = [] ∧ kv.2.signals = [] := by
    intro kv hkv
    obtain ⟨r0, h1, h2, -⟩ := hold kv hkv
    obtain ⟨h3, h4⟩ := hplain _ h1
    exact ⟨by rw [h2.1]; exact h3, by rw [h2.1]; exact h4⟩
  have hdress : World.adjustRoadsAndLanes ⟨⟨fitDict ol sl roads, geoms⟩, lanes⟩ =
      .ok () ⟨⟨fitDict ol sl w.net.roads, w.net.geoms⟩, w.lanes⟩ := by
    have := adjust_dress (o := pick ol) (s := pick sl) (⟨⟨roads, geoms⟩, lanes⟩ : World ℝ)
    rw [hadj] at this
    exact this
  refine ⟨hdress, ?_⟩
  -- the roads of the calls
  obtain ⟨road, hroad⟩ : ∃ road : Int → Road ℝ, ∀ c ∈ before ++ after, w.net.roads.get? (strInt c.1) = some (road c.1) := by
    by_cases hemp : before ++ after = []
    · exact ⟨road0, by rw [hemp]; simp⟩
    · refine ⟨fun k => (w.net.roads.get? (strInt k)).getD (road0 0), fun c hc => ?_⟩
      have := hnamed c hc
      rw [← hkeys, ← Dict.get?_isSome, Option.isSome_iff_exists] at this
      obtain ⟨r, hr⟩ := this
      simp [hr]
  obtain ⟨ol', sl', so2, f1, f2⟩ := furnishDict_fit w.lanes road after w.net.roads hnw hdw
    (fun kv hkv => (hold kv hkv).choose_spec.2.2) (fun c hc => hroad c (by simp [hc])) ol sl so1
  have hlog : Logged w.lanes road (before ++ after) so so2 (ol ++ ol') (sl ++ sl') := (hl.plain hb).append f2
  generalize hOL : ol ++ ol' = OL at *
  generalize hSL : sl ++ sl' = SL at *
  obtain ⟨element', he'⟩ := getElement_fit (so' := so2) OL SL he
  obtain ⟨hlines, rfl⟩ := document_lines he hgood hdoc
  have hgs := hlog.gain.signals.each
  have hgood' : ∀ kv ∈ fitDict OL SL w.net.roads, GoodRoad ⟨w.net.geoms, w.lanes, so2⟩ kv.2 := by
    intro kv hkv
    obtain ⟨kv0, h0, rfl⟩ := List.mem_map.mp hkv
    refine ⟨(hgood kv0 h0).marks, ?_⟩
    intro i hi
    have hi : i ∈ SL.map (·.2) := by
      obtain ⟨p, hp, rfl⟩ := List.mem_map.mp (show i ∈ pick SL kv0.2.id from hi)
      exact List.mem_map_of_mem (List.mem_filter.mp hp).1
    obtain ⟨n, hn', rfl⟩ := List.mem_iff_getElem.mp hi
    have hlen := hgs.length_eq
    obtain ⟨j, hj⟩ := hgs.get (by omega) hn'
    simp only [List.get_eq_getElem] at hj
    have hmem := List.getElem_mem (l := (orderedSignals (before ++ after)).map (·.2)) (n := n) (by omega)
    obtain ⟨p, hp, hpe⟩ := List.mem_map.mp hmem
    obtain ⟨c, hc, hcp⟩ := List.mem_flatMap.mp hp
    obtain ⟨g, hg, rfl⟩ := List.mem_map.mp hcp
    have ht := hsig c hc g hg
    simp only at hpe
    rw [← hpe] at hj
    rw [hj]
    exact ht
  have hread : readDocument element' = some ⟨name, (fitDict OL SL w.net.roads).map (fun kv =>
      shownRoad ⟨w.net.geoms, w.lanes, so2⟩ kv.2 (readLine w.net.geoms kv.2)), js.map shownJunction⟩ := by
    refine C59_document ⟨w.net.geoms, w.lanes, so2⟩ date ⟨name, fitDict OL SL w.net.roads, js⟩ element' he'
      (readLine w.net.geoms) fun kv hkv => ⟨hgood' kv hkv, ?_⟩
    obtain ⟨kv0, h0, rfl⟩ := List.mem_map.mp hkv
    obtain ⟨gs, h1⟩ := hlines kv0 h0
    have h1' : readPlanView (PlanView.getElement w.net.geoms (Road.dress (pick OL) (pick SL) kv0.2).planview) = some gs := h1
    simp only [readLine]
    rw [h1']; rfl
  refine ⟨_, so2, element', _, f1, he', hread, ?_, ?_⟩
  · unfold RDocument.unfurnished
    simp only [RDocument.mk.injEq, true_and, and_true]
    rw [List.map_map]
    unfold fitDict dressRoads
    rw [List.map_map]
    refine List.map_congr_left fun kv hkv => ?_
    obtain ⟨h1, h2⟩ := hplainw kv hkv
    simp only [Function.comp, RRoad.unfurnished, shownRoad, h1, h2, List.map_nil, Road.dress]
    rfl
  · refine ⟨?_, ?_⟩
    · obtain ⟨got, g1, -, g3⟩ := hlog.gain.signals.ids
      have hcnt := g1.count
      rw [List.length_map, List.length_map] at hcnt
      refine ⟨SL.map fun p => shownSignal (so2.sigs.cell p.2), ?_, ?_, ?_⟩
      · have := hgs
        rw [List.forall₂_map_left_iff, List.forall₂_map_right_iff] at this
        rw [List.forall₂_map_right_iff]
        exact this.imp fun a b ⟨j, hj⟩ => ⟨j, by rw [hj]; rfl⟩
      · have e1 : ((SL.map fun p => shownSignal (so2.sigs.cell p.2)).map fun x => x.placed.id) = got.map PyId.toStr := by
          have := congrArg (List.map fun g : Signal ℝ => (shownSignal g).placed.id) g3
          rw [zipWith_map_id (setId := sigWithId) (show' := PyId.toStr) (fun i x => rfl) _ _ hcnt] at this
          rw [← this]
          simp [List.map_map, Function.comp_def]
        rw [e1]
        simpa [List.map_map, Function.comp_def] using g1
      · intro a ha
        obtain ⟨kv, hkv, rfl⟩ := List.mem_map.mp ha
        obtain ⟨kv0, h0, rfl⟩ := List.mem_map.mp hkv
        obtain ⟨j, -, h2⟩ := hdw kv0 h0
        show (pick SL kv0.2.id).map (fun i => shownSignal (so2.sigs.cell i)) = _
        have hid : (shownRoad ⟨w.net.geoms, w.lanes, so2⟩ (Road.dress (pick OL) (pick SL) kv0.2)
            (readLine w.net.geoms (Road.dress (pick OL) (pick SL) kv0.2))).id = strInt j := by
          show kv0.2.id.toStr = _
          rw [h2]; rfl
        rw [hid, h2, pick_eq, ← zip_pick (fun i => decide (strInt i = strInt j)) (fun i => shownSignal (so2.sigs.cell i))
          (orderedSignals (before ++ after)) SL hlog.signals]
    · have hob : orderedObjects ⟨name, (fitDict OL SL w.net.roads).map (fun kv =>
          shownRoad ⟨w.net.geoms, w.lanes, so2⟩ kv.2 (readLine w.net.geoms kv.2)), js.map shownJunction⟩ (before ++ after) =
          madeBy w.lanes road (before ++ after) := by
        unfold orderedObjects madeBy
        refine List.flatMap_congr fun c hc => ?_
        simp only
        rw [find_fit hdw (hroad c hc)]
        simp only
        rw [objectsOf_shown]
        cases c.2 <;> rfl
      rw [hob]
      have hgo := hlog.gain.objects.each
      obtain ⟨got, g1, -, g3⟩ := hlog.gain.objects.ids
      have hcnt := g1.count
      rw [List.length_map, List.length_map] at hcnt
      refine ⟨OL.map fun p => shownObject (so2.objs.cell p.2), ?_, ?_, ?_⟩
      · have := hgo
        rw [List.forall₂_map_left_iff, List.forall₂_map_right_iff] at this
        rw [List.forall₂_map_right_iff]
        exact this.imp fun a b ⟨j, hj⟩ => ⟨j, by rw [hj]; rfl⟩
      · have e1 : ((OL.map fun p => shownObject (so2.objs.cell p.2)).map fun x => x.placed.id) = got.map PyId.toStr := by
          have := congrArg (List.map fun g : Obj ℝ => (shownObject g).placed.id) g3
          rw [zipWith_map_id (setId := objWithId) (show' := PyId.toStr) (fun i x => rfl) _ _ hcnt] at this
          rw [← this]
          simp [List.map_map, Function.comp_def]
        rw [e1]
        simpa [List.map_map, Function.comp_def] using g1
      · intro a ha
        obtain ⟨kv, hkv, rfl⟩ := List.mem_map.mp ha
        obtain ⟨kv0, h0, rfl⟩ := List.mem_map.mp hkv
        obtain ⟨j, -, h2⟩ := hdw kv0 h0
        show (pick OL kv0.2.id).map (fun i => shownObject (so2.objs.cell i)) = _
        have hid : (shownRoad ⟨w.net.geoms, w.lanes, so2⟩ (Road.dress (pick OL) (pick SL) kv0.2)
            (readLine w.net.geoms (Road.dress (pick OL) (pick SL) kv0.2))).id = strInt j := by
          show kv0.2.id.toStr = _
          rw [h2]; rfl
        rw [hid, h2, pick_eq, ← zip_pick (fun i => decide (strInt i = strInt j)) (fun i => shownObject (so2.objs.cell i))
          (madeBy w.lanes road (before ++ after)) OL hlog.objects]

end Pyodrx.Props
