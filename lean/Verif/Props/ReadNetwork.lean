import Verif.Props.NetworkLinks
import Verif.Props.UserTexts
import Verif.Proofs.ReadNetwork
import Verif.Spec.ReadNetwork

/-! # Property C65: the roads of the written file join -/

namespace Pyodrx.Props
open Pyodrx Spec

theorem _root_.Pyodrx.Dict.get?_some_mem {α : Type} {d : Dict α} {k : String} {v : α} (h : d.get? k = some v) :
    (k, v) ∈ d := by
  induction d with
  | nil => simp [Dict.get?] at h
  | cons kv d ih =>
    obtain ⟨k', v'⟩ := kv
    simp only [Dict.get?] at h
    split at h
    · rename_i hk; subst hk; cases h; simp
    · simp [ih h]

theorem linkPairs_net {F : Type} (ks : List (String × String)) : ∀ {w w' : World F} {u : Unit},
    World.linkPairs ks w = .ok u w' → w'.net = w.net := by
  induction ks with
  | nil => intro w w' u h; cases h; rfl
  | cons k ks ih =>
    intro w w' u h
    unfold World.linkPairs at h
    obtain ⟨_, s1, h1, h⟩ := bind_ok.mp h
    have e1 : s1.net = w.net := by
      unfold World.linkPair at h1
      split at h1
      · split at h1 <;> cases h1
        rfl
      · cases h1
    exact (ih h).trans e1

theorem adjustRoadsAndLanes_net {F : Type} [PyFloat F] {w w' : World F}
    (h : World.adjustRoadsAndLanes w = .ok () w') : Net.adjustStartpoints w.net = .ok () w'.net := by
  unfold World.adjustRoadsAndLanes at h
  split at h
  · cases h
  · rename_i net h1
    rw [linkPairs_net _ h]
    exact h1

/-- A road as the user draws it: it is stored under its id (`add_road`), its predecessor and successor are among
its links (`add_predecessor`, `add_successor`, C24), and its planview has at least one geometry, all of them
curves of known range without forced headings. `pcs` are the geometries. -/
structure Drawn (geoms : Store (Geom ℝ)) (k : String) (pcs : List Piece) (r : Road ℝ) : Prop where
  id : r.id.toStr = k
  pred : ∀ l, r.predecessor = some l → l ∈ r.links ∧ l.kind = .predecessor
  succ : ∀ l, r.successor = some l → l ∈ r.links ∧ l.kind = .successor
  plan : Plan geoms pcs r.planview

/-- The user has drawn a network: different keys, drawn roads; a road that consists of one ParamPoly3 is an
anchor (placing a ParamPoly3 from its end is wrong, C12). -/
structure DrawnNet (net : Net ℝ) (pcs : String → List Piece) : Prop where
  nodup : net.roads.keys.Nodup
  drawn : ∀ k r, net.roads.get? k = some r → Drawn net.geoms k (pcs k) r
  poly : ∀ k pc, ¬ Anchor net.roads k → pcs k = [pc] → NotPoly (net.geoms.cell pc.ref)

theorem DrawnNet.fresh {net : Net ℝ} {pcs : String → List Piece} (h : DrawnNet net pcs) : Fresh net.roads :=
  fun k r hr => ⟨(h.drawn k r hr).plan.fields.2.2.2.2, (h.drawn k r hr).plan.fields.2.2.1⟩

/-- What a reader sees of a placed road. -/
theorem DrawnNet.read_shapes {net net' : Net ℝ} {pcs : String → List Piece} (h : DrawnNet net pcs)
    (hadj : Net.adjustStartpoints net = .ok () net') {k : String} {r : Road ℝ} (hr : net'.roads.get? k = some r) :
    ∃ r0, net.roads.get? k = some r0 ∧ r = { r0 with planview := r.planview } ∧
      (Anchor net.roads k ∨ (pcs k).length = 1 → ∃ gs, readPlanView (r.planview.getElement net'.geoms) = some gs) ∧
      ∀ gs, readPlanView (r.planview.getElement net'.geoms) = some gs →
        gs.map (fun g => g.curve.shape g.length) = (pcs k).map (·.shape) ∧ gs ≠ [] ∧
        ∃ p0 q, r.planview.start = some p0 ∧ r.planview.stop = some q ∧
          Chained 0 p0 gs r.planview.getTotalLength q := by
  have hf := h.fresh
  obtain ⟨hs, ho⟩ := startpoints_once h.nodup hf (fun k r hr => (h.drawn k r hr).plan.evaluable) hadj
  obtain ⟨r0, h0, h1⟩ := ho k r hr
  have ha := startpoints_all h.nodup hf hadj hr
  rcases h1 with ⟨_, h1⟩ | ⟨_, b, p, g, st, hb, hg, e1, e2⟩
  · rw [ha] at h1; simp at h1
  · have hpl := (h.drawn k r0 h0).plan
    obtain ⟨a1, a2⟩ := hpl.read_shapes hg hs e1 (fun hb' pc hpc => h.poly k pc (hb hb') hpc)
    have hpv : r.planview = st.pv := by rw [e2]
    refine ⟨r0, h0, by rw [e2], ?_, by rw [hpv]; exact a2⟩
    rw [hpv]
    rintro (hA | hl)
    · refine a1 (.inl ?_)
      cases b
      · rfl
      · exact absurd hA (hb rfl)
    · exact a1 (.inr hl)

theorem DrawnNet.read {net net' : Net ℝ} {pcs : String → List Piece} (h : DrawnNet net pcs)
    (hadj : Net.adjustStartpoints net = .ok () net') {k : String} {r : Road ℝ} (hr : net'.roads.get? k = some r) :
    ∃ r0, net.roads.get? k = some r0 ∧ r = { r0 with planview := r.planview } ∧
      (Anchor net.roads k ∨ (pcs k).length = 1 → ∃ gs, readPlanView (r.planview.getElement net'.geoms) = some gs) ∧
      ∀ gs, readPlanView (r.planview.getElement net'.geoms) = some gs → gs ≠ [] ∧
        ∃ p0 q, r.planview.start = some p0 ∧ r.planview.stop = some q ∧
          Chained 0 p0 gs r.planview.getTotalLength q := by
  obtain ⟨r0, h0, e, a1, a2⟩ := h.read_shapes hadj hr
  exact ⟨r0, h0, e, a1, fun gs hgs => (a2 gs hgs).2⟩

theorem shownLink_fields (l : Link) : (shownLink l).tag = l.kind.text ∧ (shownLink l).id = l.elementId.toStr ∧
    (shownLink l).elementType = l.elementType ∧ (shownLink l).contactPoint = l.contactPoint :=
  ⟨rfl, rfl, rfl, rfl⟩

section
variable {net net' : Net ℝ} {pcs : String → List Piece} (h : DrawnNet net pcs)
  (hadj : Net.adjustStartpoints net = .ok () net') {hp : Heap ℝ} (hgeoms : hp.geoms = net'.geoms)
  {gs : Road ℝ → List (RGeometry ℝ)}
  (hgs : ∀ kv ∈ net'.roads, readPlanView (kv.2.planview.getElement hp.geoms) = some (gs kv.2))
include h hadj hgeoms hgs

theorem DrawnNet.pose {k : String} {r : Road ℝ} (hr : net'.roads.get? k = some r) (e : ContactPoint) :
    (shownRoad hp r (gs r)).poseAt e = endPose r e := by
  obtain ⟨r0, h0, _, _, h1⟩ := h.read hadj hr
  have hm := Dict.get?_some_mem hr
  obtain ⟨hne, p0, q, e1, e2, e3⟩ := h1 (gs r) (by rw [← hgeoms]; exact hgs (k, r) hm)
  obtain ⟨c1, c2⟩ := chained_ends e3 hne
  cases e with
  | start => exact c1.trans e1.symm
  | «end» => exact c2.trans e2.symm

omit hgeoms hgs in
theorem DrawnNet.linked {k nb : String} {e e' : ContactPoint} (hl : PlacedBy net.roads k e nb e')
    {r n : Road ℝ} (hr : net'.roads.get? k = some r) (hn : net'.roads.get? nb = some n) :
    (shownRoad hp r (gs r)).LinkedTo e (shownRoad hp n (gs n)) e' := by
  obtain ⟨r0, h0, er, _⟩ := h.read hadj hr
  obtain ⟨n0, hn0, en, _⟩ := h.read hadj hn
  have dr := h.drawn k r0 h0
  have dn := h.drawn nb n0 hn0
  have idr : r.id.toStr = k := by rw [er]; exact dr.id
  have idn : n.id.toStr = nb := by rw [en]; exact dn.id
  have lr : r.links = r0.links := by rw [er]
  have ln : n.links = n0.links := by rw [en]
  have tn : n.roadType = n0.roadType := by rw [en]
  cases hl with
  | @pred _ r1 l cp h1 h2 h3 h4 =>
    rw [h0] at h1; cases h1
    refine .inl ⟨shownLink l, ?_, ?_, h3, idn.symm, h4⟩
    · simp only [shownRoad, lr]
      exact List.mem_map.mpr ⟨l, List.mem_filter.mpr ⟨(dr.pred l h2).1, by simp [(dr.pred l h2).2]⟩, rfl⟩
    · simp [shownLink, (dr.pred l h2).2, LinkKind.text, linkTag]
  | @succ _ r1 l cp h1 h2 h3 h4 =>
    rw [h0] at h1; cases h1
    refine .inl ⟨shownLink l, ?_, ?_, h3, idn.symm, h4⟩
    · simp only [shownRoad, lr]
      exact List.mem_map.mpr ⟨l, List.mem_filter.mpr ⟨(dr.succ l h2).1, by simp [(dr.succ l h2).2]⟩, rfl⟩
    · simp [shownLink, (dr.succ l h2).2, LinkKind.text, linkTag]
  | @connPred _ r1 l h1 h2 h3 =>
    rw [hn0] at h1; cases h1
    refine .inr ⟨by simpa [shownRoad, tn] using h2, shownLink l, ?_, ?_, idr.symm, rfl⟩
    · simp only [shownRoad, ln]
      exact List.mem_map.mpr ⟨l, List.mem_filter.mpr ⟨(dn.pred l h3).1, by simp [(dn.pred l h3).2]⟩, rfl⟩
    · simp [shownLink, (dn.pred l h3).2, LinkKind.text, linkTag]
  | @connSucc _ r1 l h1 h2 h3 =>
    rw [hn0] at h1; cases h1
    refine .inr ⟨by simpa [shownRoad, tn] using h2, shownLink l, ?_, ?_, idr.symm, rfl⟩
    · simp only [shownRoad, ln]
      exact List.mem_map.mpr ⟨l, List.mem_filter.mpr ⟨(dn.succ l h3).1, by simp [(dn.succ l h3).2]⟩, rfl⟩
    · simp [shownLink, (dn.succ l h3).2, LinkKind.text, linkTag]

theorem DrawnNet.joins {k nb : String} (hj : JoinedTo net.roads net'.roads k nb)
    {r n : Road ℝ} (hr : net'.roads.get? k = some r) (hn : net'.roads.get? nb = some n) :
    (shownRoad hp r (gs r)).Joins (declaredOffset net.roads k) (shownRoad hp n (gs n)) := by
  obtain ⟨e, e', r', n', p, q, h1, h2, h3, h4, h5, h6⟩ := hj
  rw [hr] at h2; cases h2
  rw [hn] at h3; cases h3
  refine ⟨e, e', p, q, h.linked hadj h1 hr hn, (h.pose hadj hgeoms hgs hr e).trans h4,
    (h.pose hadj hgeoms hgs hn e').trans h5, ?_⟩
  obtain ⟨r0, h0, er, _⟩ := h.read hadj hr
  have : declaredOffset net.roads k e = offsetAt r e := by
    rw [declaredOffset, h0, er]
    cases e <;> rfl
  rwa [this]

end

/-- The document of the network: if it can be read then it is what the user described, and so can be its
planviews. -/
theorem document_read {F : Type} [PyFloat F] {hp : Heap F} {date : String} {o : OpenDrive F} {element : Xml F}
    {doc : RDocument F} (he : o.getElement hp date = .ok element) (hgood : ∀ kv ∈ o.roads, GoodRoad hp kv.2)
    (hdoc : readDocument element = some doc) :
    ∃ gs : Road F → List (RGeometry F),
      (∀ kv ∈ o.roads, readPlanView (kv.2.planview.getElement hp.geoms) = some (gs kv.2)) ∧
      doc = ⟨o.name, o.roads.map (fun kv => shownRoad hp kv.2 (gs kv.2)), o.junctions.map shownJunction⟩ := by
  have h1 := readDocument_planViews he hdoc
  refine ⟨fun r => (readPlanView (r.planview.getElement hp.geoms)).getD [], ?_, ?_⟩
  · intro kv hkv
    obtain ⟨gs, hgs⟩ := h1 kv hkv
    simp [hgs]
  · have h2 := C59_document hp date o element he
      (fun r => (readPlanView (r.planview.getElement hp.geoms)).getD []) (fun kv hkv => by
        obtain ⟨gs, hgs⟩ := h1 kv hkv
        exact ⟨hgood kv hkv, by simp [hgs]⟩)
    rw [hdoc] at h2
    exact Option.some.inj h2

/-- C65: after a normal return of `adjust_roads_and_lanes` on a drawn network, whoever reads the emitted document
finds: the geometries of every road form one line of the length of the road, from s = 0; and every road is an
anchor, or is linked *in the document* to another road of the document which it joins: computed from the
geometries in the document, the ends of the two roads are at the same place (up to the declared lane offset)
and have opposite outgoing directions; and going on so one comes to an anchor. -/
theorem C65_document (w w' : World ℝ) (pcs : String → List Piece) (hw : DrawnNet w.net pcs)
    (h : World.adjustRoadsAndLanes w = .ok () w') (o : OpenDrive ℝ) (hp : Heap ℝ) (date : String)
    (ho : o.roads = w'.net.roads) (hgeoms : hp.geoms = w'.net.geoms)
    (hgood : ∀ kv ∈ o.roads, GoodRoad hp kv.2) (element : Xml ℝ) (he : o.getElement hp date = .ok element)
    (doc : RDocument ℝ) (hdoc : readDocument element = some doc) :
    ∀ rd ∈ doc.roads, rd.OneLine ∧
      doc.Leads (Anchor w.net.roads) (declaredOffset w.net.roads) rd := by
  have hadj := adjustRoadsAndLanes_net h
  obtain ⟨gs, hgs, rfl⟩ := document_read he hgood hdoc
  rw [ho] at hgs
  have hkeys : w'.net.roads.keys = w.net.roads.keys := (C18_placed_once w.net w'.net hw.nodup hw.fresh hadj).1
  have hnd : w'.net.roads.keys.Nodup := by rw [hkeys]; exact hw.nodup
  intro rd hrd
  rw [List.mem_map] at hrd
  obtain ⟨⟨k, r⟩, hkr, rfl⟩ := hrd
  rw [ho] at hkr
  have hr : w'.net.roads.get? k = some r := Dict.mem_get? hnd hkr
  constructor
  · obtain ⟨r0, h0, _, _, h1⟩ := hw.read hadj hr
    obtain ⟨_, p0, q, _, _, e3⟩ := h1 (gs r) (by rw [← hgeoms]; exact hgs (k, r) hkr)
    exact ⟨p0, q, e3⟩
  · have hc := C19_connected_with_offset w.net w'.net hw.nodup hw.fresh hadj k
      (by rw [← hkeys]; exact Dict.mem_keys_of_get? hr)
    have hid : ∀ {k : String} {r : Road ℝ}, w'.net.roads.get? k = some r → r.id.toStr = k := by
      intro k r hr
      obtain ⟨r0, h0, er, _⟩ := hw.read hadj hr
      rw [er]; exact (hw.drawn k r0 h0).id
    clear hkr
    induction hc generalizing r with
    | @anchor k hA =>
      refine .anchor ?_
      show Anchor w.net.roads r.id.toStr
      rw [hid hr]; exact hA
    | @step k nb hj _ ih =>
      obtain ⟨n, hn⟩ : ∃ n, w'.net.roads.get? nb = some n := by
        obtain ⟨e, e', _, n, _, _, _, _, hn, _⟩ := hj
        exact ⟨n, hn⟩
      refine .step (b := shownRoad hp n (gs n)) ?_ ?_ (ih n hn)
      · exact List.mem_map.mpr ⟨(nb, n), by rw [ho]; exact Dict.get?_some_mem hn, rfl⟩
      · have := hw.joins hadj hgeoms hgs hj hr hn
        show RRoad.Joins (declaredOffset w.net.roads r.id.toStr) _ _
        rwa [hid hr]

/-- C65: the document can be read if every road that is not an anchor has only one geometry. (A road of several
geometries that is placed from its end cannot be read, C54.) -/
theorem C65_readable (w w' : World ℝ) (pcs : String → List Piece) (hw : DrawnNet w.net pcs)
    (h : World.adjustRoadsAndLanes w = .ok () w') (o : OpenDrive ℝ) (hp : Heap ℝ) (date : String)
    (ho : o.roads = w'.net.roads) (hgeoms : hp.geoms = w'.net.geoms)
    (hgood : ∀ kv ∈ o.roads, GoodRoad hp kv.2) (element : Xml ℝ) (he : o.getElement hp date = .ok element)
    (hone : ∀ k ∈ w.net.roads.keys, ¬ Anchor w.net.roads k → (pcs k).length = 1) :
    ∃ doc, readDocument element = some doc := by
  have hadj := adjustRoadsAndLanes_net h
  have hkeys : w'.net.roads.keys = w.net.roads.keys := (C18_placed_once w.net w'.net hw.nodup hw.fresh hadj).1
  have hnd : w'.net.roads.keys.Nodup := by rw [hkeys]; exact hw.nodup
  refine ⟨_, C59_document hp date o element he
    (fun r => (readPlanView (r.planview.getElement hp.geoms)).getD []) (fun kv hkv => ?_)⟩
  refine ⟨hgood kv hkv, ?_⟩
  rw [ho] at hkv
  have hr : w'.net.roads.get? kv.1 = some kv.2 := Dict.mem_get? hnd hkv
  obtain ⟨r0, h0, _, h1, _⟩ := hw.read hadj hr
  obtain ⟨gs, hgs⟩ := h1 (by
    by_cases hA : Anchor w.net.roads kv.1
    · exact .inl hA
    · exact .inr (hone kv.1 (Dict.mem_keys_of_get? h0) hA))
  rw [hgeoms, hgs]; rfl

/-- C65: and so in the file: what a reader of the text written by `write_xml` (plain or pretty printed) finds
has these properties. `show'` prints numbers, `readNum` reads them (see C64). -/
theorem C65_file (w w' : World ℝ) (pcs : String → List Piece) (hw : DrawnNet w.net pcs)
    (h : World.adjustRoadsAndLanes w = .ok () w') (o : OpenDrive ℝ) (hp : Heap ℝ) (date : String)
    (ho : o.roads = w'.net.roads) (hgeoms : hp.geoms = w'.net.geoms)
    (hgood : ∀ kv ∈ o.roads, GoodRoad hp kv.2) (element : Xml ℝ) (he : o.getElement hp date = .ok element)
    (hone : ∀ k ∈ w.net.roads.keys, ¬ Anchor w.net.roads k → (pcs k).length = 1)
    (show' : ℝ → String) (readNum : String → Option ℝ) (hnone : readNum "None" = none)
    (hnum : ∀ x, Occurs (.num x) element → readNum (show' x) = some x)
    (hrep : ∀ kv ∈ o.roads, ∀ i ∈ kv.2.objects, RepeatsNamed (hp.so.objs.cell i))
    (hshow : ∀ x, ∀ c ∈ (show' x).toList, XmlParser.isXmlChar c = true ∧ c ≠ '\n' ∧ c ≠ '\r' ∧ c ≠ '\t')
    (hlegal : ∀ s ∈ userTexts hp date o, ∀ c ∈ s.toList, XmlParser.isXmlChar c = true)
    (filename : Option String) (pretty : Bool)
    (hplain : pretty = true → ∀ s ∈ userTexts hp date o, ∀ c ∈ s.toList, c ≠ '\n' ∧ c ≠ '\r' ∧ c ≠ '\t') :
    ∃ text doc, o.writeXml show' hp date filename pretty = .ok (filename.getD (o.name ++ ".xodr"), text) ∧
      readFile readNum text = some doc ∧ doc.roads.map RRoad.id = w.net.roads.keys ∧
      ∀ rd ∈ doc.roads, rd.OneLine ∧
        doc.Leads (Anchor w.net.roads) (declaredOffset w.net.roads) rd := by
  obtain ⟨doc, hdoc⟩ := C65_readable w w' pcs hw h o hp date ho hgeoms hgood element he hone
  have hids : doc.roads.map RRoad.id = w.net.roads.keys := by
    have hadj := adjustRoadsAndLanes_net h
    have hkeys : w'.net.roads.keys = w.net.roads.keys := (C18_placed_once w.net w'.net hw.nodup hw.fresh hadj).1
    have hnd : w'.net.roads.keys.Nodup := by rw [hkeys]; exact hw.nodup
    obtain ⟨gs, _, rfl⟩ := document_read he hgood hdoc
    rw [← hkeys, ho, List.map_map]
    refine List.map_congr_left fun kv hkv => ?_
    have hr : w'.net.roads.get? kv.1 = some kv.2 := Dict.mem_get? hnd hkv
    obtain ⟨r0, h0, er, _⟩ := hw.read hadj hr
    show kv.2.id.toStr = kv.1
    rw [er]; exact (hw.drawn _ r0 h0).id
  have hconc := C65_document w w' pcs hw h o hp date ho hgeoms hgood element he doc hdoc
  obtain ⟨l1, l2⟩ := C63_texts show' hp date o element he hrep
  have hl := l1 (fun x c hc => (hshow x c hc).1) hlegal
  cases pretty with
  | false =>
    obtain ⟨text, h1, _, h3⟩ := C63_plain show' hp date o filename element he hrep hl
    exact ⟨text, doc, h1, (readFile_of hnone he hnum hrep h3).trans hdoc, hids, hconc⟩
  | true =>
    obtain ⟨text, h1, _, h3⟩ := C63_pretty show' hp date o filename element he hrep hl
    exact ⟨text, doc, h1, (readFile_of hnone he hnum hrep (h3.mpr (l2 (fun x c hc => (hshow x c hc).2) (hplain rfl)))).trans hdoc, hids, hconc⟩

/-! ## Non-vacuity: the network of four roads of `Props/NetworkLinks.lean` -/

noncomputable def exLanePieces (k : String) : List Piece :=
  match exLaneNet.roads.get? k with
  | some r => r.planview.raw.map fun g => ⟨g, .ofHeading (fun _ => 0) ((g : ℝ) + 1), none⟩
  | none => []

theorem exLaneNet_drawn : DrawnNet exLaneNet exLanePieces := by
  have e1 : strInt 1 = "1" := by decide
  have e2 : strInt 2 = "2" := by decide
  have e3 : strInt 3 = "3" := by decide
  have e4 : strInt 4 = "4" := by decide
  refine ⟨exLaneNet_wellFormed.nodup, ?_, fun _ _ _ _ => trivial⟩
  intro k r h
  have hp : exLanePieces k = r.planview.raw.map fun g => ⟨g, .ofHeading (fun _ => 0) ((g : ℝ) + 1), none⟩ := by
    rw [exLanePieces, h]
  rw [hp]
  have hplan : Plan exLaneNet.geoms (r.planview.raw.map fun g => ⟨g, .ofHeading (fun _ => 0) ((g : ℝ) + 1), none⟩)
      r.planview := by
    refine ⟨⟨none, none, none, _, rfl, ?_⟩, ?_, ?_, ?_, ?_⟩
    · rcases exLaneNet_get h with ⟨_, rfl⟩ | ⟨_, rfl⟩ | ⟨_, rfl⟩ | ⟨_, rfl⟩ <;>
        simp [addAll, PlanView.addGeometry, exLR1, exLR2, exLR3, exLR4, exLaneRoad, Road.new, PyFloat.ofInt]
    · rcases exLaneNet_get h with ⟨_, rfl⟩ | ⟨_, rfl⟩ | ⟨_, rfl⟩ | ⟨_, rfl⟩ <;>
        simp [exLR1, exLR2, exLR3, exLR4, exLaneRoad, Road.new]
    · intro pc hpc
      obtain ⟨g, _, rfl⟩ := List.mem_map.mp hpc
      rfl
    · intro pc hpc
      obtain ⟨g, _, rfl⟩ := List.mem_map.mp hpc
      rfl
    · intro pc hpc
      trivial
  refine ⟨?_, ?_, ?_, hplan⟩
  · rcases exLaneNet_get h with ⟨rfl, rfl⟩ | ⟨rfl, rfl⟩ | ⟨rfl, rfl⟩ | ⟨rfl, rfl⟩ <;> assumption
  · intro l hl
    rcases exLaneNet_get h with ⟨rfl, rfl⟩ | ⟨rfl, rfl⟩ | ⟨rfl, rfl⟩ | ⟨rfl, rfl⟩ <;> cases hl <;>
      simp [exLR1, exLR2, exLR3, exLR4, exLaneRoad]
  · intro l hl
    rcases exLaneNet_get h with ⟨rfl, rfl⟩ | ⟨rfl, rfl⟩ | ⟨rfl, rfl⟩ | ⟨rfl, rfl⟩ <;> cases hl <;>
      simp [exLR1, exLR2, exLR3, exLR4, exLaneRoad]

theorem dueAt_ids {F : Type} {roads : Dict (Road F)} {lanes : Store (Lane F)} {x : Nat} {l : Link} (h : l ∈ dueAt roads lanes x) :
    ∃ n, l.elementId = .str (strInt n) := by
  have ht : ∀ {k : LinkKind} {s off : Int} {side other : List Nat} {y : Nat × Link},
      y ∈ toward lanes k s off side other → ∃ n, y.2.elementId = .str (strInt n) := by
    intro k s off side other y hy
    obtain ⟨z, _, rfl⟩ := List.mem_map.mp hy
    exact ⟨_, rfl⟩
  obtain ⟨k, _, h⟩ := List.mem_flatMap.mp h
  split at h
  · rename_i a b _ _
    obtain ⟨y, hy, rfl⟩ := List.mem_map.mp h
    have hy := (List.mem_filter.mp hy).1
    unfold dueLinks at hy
    rcases List.mem_append.mp hy with hy | hy
    · split at hy
      · unfold jointLinks at hy
        split at hy
        · simp only [List.mem_append] at hy
          rcases hy with (hy | hy) | hy | hy <;> exact ht hy
        · cases hy
      · cases hy
    · split at hy
      · rcases List.mem_append.mp hy with hy | hy
        all_goals
          unfold connectionLinks at hy
          repeat' split at hy
          all_goals first | (cases hy; done) | skip
          simp only [List.mem_append] at hy
          rcases hy with hy | hy <;> exact ht hy
      · cases hy
  · cases h

/-- All hypotheses of `C65_document`, `C65_readable` and `C65_file` hold of the example, so the document is read, and in it
road 2 leads to the anchor, road 1. -/
theorem exLaneNet_read (so : SOState ℝ) : ∃ w' element doc,
    World.adjustRoadsAndLanes ⟨exLaneNet, exLanes⟩ = .ok () w' ∧
    (OpenDrive.getElement ⟨w'.net.geoms, w'.lanes, so⟩ "today" ⟨"doc", w'.net.roads, []⟩) = .ok element ∧
    readDocument element = some doc ∧ doc.roads.map RRoad.id = ["1", "2", "3", "4"] ∧
    (∀ rd ∈ doc.roads, rd.OneLine ∧
      doc.Leads (Anchor exLaneNet.roads) (declaredOffset exLaneNet.roads) rd) ∧
    ∃ (show' : ℝ → String) (readNum : String → Option ℝ) (text : List Char) (doc' : RDocument ℝ),
      OpenDrive.writeXml show' ⟨w'.net.geoms, w'.lanes, so⟩ "today"
        ⟨"doc", w'.net.roads, []⟩ none true = .ok ("doc.xodr", text) ∧ readFile readNum text = some doc' ∧
      doc'.roads.map RRoad.id = ["1", "2", "3", "4"] := by
  obtain ⟨net', hadj⟩ := (C20_succeeds_iff exLaneNet exLaneNet_wellFormed).mpr exLaneNet_reachable
  obtain ⟨lanes', h, _, hc⟩ := C30_all_links exLaneNet net' exLanes exLaneNet_wellFormed.nodup
    exLaneNet_fresh hadj exLaneNet_linkable
  have hkeys : net'.roads.keys = exLaneNet.roads.keys :=
    (C18_placed_once exLaneNet net' exLaneNet_wellFormed.nodup exLaneNet_fresh hadj).1
  have hnd : net'.roads.keys.Nodup := by rw [hkeys]; exact exLaneNet_wellFormed.nodup
  have hcell : ∀ x, (lanes'.cell x).laneId = some (exLaneNo x) ∧ (lanes'.cell x).roadmark = none := by
    intro x
    obtain ⟨new, e, _⟩ := hc x
    rw [e]; exact ⟨rfl, rfl⟩
  have hsame : ∀ kv ∈ net'.roads, ∃ r0, exLaneNet.roads.get? kv.1 = some r0 ∧
      kv.2 = { r0 with planview := kv.2.planview } := by
    intro kv hkv
    obtain ⟨r0, h0, e, _⟩ := exLaneNet_drawn.read hadj (Dict.mem_get? hnd hkv)
    exact ⟨r0, h0, e⟩
  obtain ⟨element, he⟩ := (C43_error ⟨net'.geoms, lanes', so⟩ "today" ⟨"doc", net'.roads, []⟩).1.mpr (by
    intro kv _ sec _ r _
    rw [show (Heap.lanes ⟨net'.geoms, lanes', so⟩) = lanes' from rfl, (hcell r).1]; simp)
  have hgood : ∀ kv ∈ net'.roads, GoodRoad ⟨net'.geoms, lanes', so⟩ kv.2 := by
    intro kv hkv
    refine ⟨fun sec _ l _ m hm => ?_, fun i hi => ?_⟩
    · rw [show (Heap.lanes ⟨net'.geoms, lanes', so⟩) = lanes' from rfl, (hcell l).2] at hm
      cases hm
    · obtain ⟨r0, h0, e⟩ := hsame kv hkv
      rw [e] at hi
      rcases exLaneNet_get h0 with ⟨_, rfl⟩ | ⟨_, rfl⟩ | ⟨_, rfl⟩ | ⟨_, rfl⟩ <;> cases hi
  have hone : ∀ k ∈ exLaneNet.roads.keys, ¬ Anchor exLaneNet.roads k → (exLanePieces k).length = 1 := by
    intro k hk _
    obtain ⟨⟨k', r⟩, hkr, rfl⟩ := List.mem_map.mp hk
    have hr := Dict.mem_get? exLaneNet_wellFormed.nodup hkr
    rw [exLanePieces, hr]
    rcases exLaneNet_get hr with ⟨_, rfl⟩ | ⟨_, rfl⟩ | ⟨_, rfl⟩ | ⟨_, rfl⟩ <;> rfl
  obtain ⟨doc, hdoc⟩ := C65_readable ⟨exLaneNet, exLanes⟩ ⟨net', lanes'⟩ exLanePieces exLaneNet_drawn h
    ⟨"doc", net'.roads, []⟩ ⟨net'.geoms, lanes', so⟩ "today" rfl rfl hgood element he hone
  refine ⟨_, element, doc, h, he, hdoc, ?_, C65_document ⟨exLaneNet, exLanes⟩ ⟨net', lanes'⟩ exLanePieces
    exLaneNet_drawn h _ _ "today" rfl rfl hgood element he doc hdoc, ?_⟩
  rotate_left
  · obtain ⟨show', readNum, p1, p2, p3⟩ := exists_printer element
    have hrep : ∀ kv ∈ net'.roads, ∀ i ∈ kv.2.objects, RepeatsNamed (so.objs.cell i) := by
      intro kv hkv i hi
      obtain ⟨r0, h0, e⟩ := hsame kv hkv
      rw [e] at hi
      rcases exLaneNet_get h0 with ⟨_, rfl⟩ | ⟨_, rfl⟩ | ⟨_, rfl⟩ | ⟨_, rfl⟩ <;> cases hi
    have htexts : ∀ s ∈ userTexts ⟨net'.geoms, lanes', so⟩ "today" ⟨"doc", net'.roads, []⟩, printable s = true := by
      intro s hs
      simp only [userTexts, List.mem_append, List.flatMap_nil, List.not_mem_nil, or_false, List.mem_cons] at hs
      rcases hs with (rfl | rfl) | hs
      · decide
      · decide
      obtain ⟨kv, hkv, hs⟩ := List.mem_flatMap.mp hs
      obtain ⟨r0, h0, e⟩ := hsame kv hkv
      have hg : ∀ g : Nat, geomTexts (net'.geoms.cell g) = [] := by
        intro g
        have := (startpoints_once exLaneNet_wellFormed.nodup exLaneNet_fresh
          (fun k r hr => (exLaneNet_drawn.drawn k r hr).plan.evaluable) hadj).1.elements g
        cases hx : net'.geoms.cell g with
        | poly p => rw [hx] at this; simp [exLaneNet, Geom.getElement] at this
        | line _ => rfl
        | spiral _ => rfl
        | arc _ => rfl
      have hsec : ∀ sec : LaneSection ℝ, ∀ s ∈ sectionTexts lanes' sec, printable s = true := by
        intro sec s hs
        obtain ⟨x, _, hs⟩ := List.mem_flatMap.mp hs
        obtain ⟨l, hl, hs⟩ := List.mem_flatMap.mp hs
        obtain ⟨new, e, hperm⟩ := hc x
        rw [e] at hl
        have hl : l ∈ new := by simpa [exLanes, Lane.new] using hl
        obtain ⟨n, hn⟩ := dueAt_ids (hperm.mem_iff.mp hl)
        rw [hn] at hs
        rw [List.mem_singleton.mp hs]
        exact printable_strInt n
      unfold roadTexts at hs
      simp only [List.mem_append] at hs
      have e1 : kv.2.name = none ∧ kv.2.rule = none ∧ idTexts kv.2.id = [] ∧ linkTexts kv.2.links = [] ∧
          kv.2.signals = [] ∧ kv.2.objects = [] := by
        rw [e]
        rcases exLaneNet_get h0 with ⟨_, rfl⟩ | ⟨_, rfl⟩ | ⟨_, rfl⟩ | ⟨_, rfl⟩ <;> exact ⟨rfl, rfl, rfl, rfl, rfl, rfl⟩
      obtain ⟨a1, a2, a3, a4, a5, a6⟩ := e1
      rw [a1, a2, a3, a4, a5, a6] at hs
      rcases hs with ((((((hs | hs) | hs) | hs) | hs) | hs) | hs) | hs
      · cases hs
      · cases hs
      · cases hs
      · cases hs
      · obtain ⟨g, _, hs⟩ := List.mem_flatMap.mp hs
        rw [hg] at hs
        cases hs
      · obtain ⟨sec, _, hs⟩ := List.mem_flatMap.mp hs
        exact hsec sec s hs
      · cases hs
      · cases hs
    obtain ⟨text, doc', t1, t2, t3, _⟩ := C65_file ⟨exLaneNet, exLanes⟩ ⟨net', lanes'⟩ exLanePieces exLaneNet_drawn h
      ⟨"doc", net'.roads, []⟩ ⟨net'.geoms, lanes', so⟩ "today" rfl rfl hgood element he hone show' readNum p1 p2 hrep p3
      (fun s hs c hc => printable_legal (printable_mem (htexts s hs) hc).1 (printable_mem (htexts s hs) hc).2)
      none true (fun _ s hs c hc => printable_plain (printable_mem (htexts s hs) hc).1)
    exact ⟨show', readNum, text, doc', t1, t2, t3⟩
  obtain ⟨gs, _, rfl⟩ := document_read he hgood hdoc
  have : exLaneNet.roads.keys = ["1", "2", "3", "4"] := rfl
  rw [← this, ← hkeys, List.map_map]
  refine List.map_congr_left fun kv hkv => ?_
  obtain ⟨r0, h0, e⟩ := hsame kv hkv
  show kv.2.id.toStr = kv.1
  rw [e]; exact (exLaneNet_drawn.drawn _ r0 h0).id

end Pyodrx.Props
