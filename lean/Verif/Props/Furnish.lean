import Verif.Proofs.FurnishDoc
import Verif.Props.Program
import Verif.Props.ReadJunction
import Verif.Props.Objects

/-! # C79: signals and objects in whole programs -/

namespace Pyodrx.Props
open Pyodrx Spec

variable {F : Type}

/-! ## The rest of the document does not depend on signals and objects -/

theorem unfurnished_mem {doc : RDocument ℝ} {a : RRoad ℝ} (h : a ∈ doc.roads) : a.unfurnished ∈ doc.unfurnished.roads :=
  List.mem_map_of_mem h

theorem mem_unfurnished {doc : RDocument ℝ} {a : RRoad ℝ} (h : a ∈ doc.unfurnished.roads) :
    ∃ b ∈ doc.roads, a = b.unfurnished := by
  obtain ⟨b, hb, rfl⟩ := List.mem_map.mp h
  exact ⟨b, hb, rfl⟩

theorem touch_unfurnished {a b : RRoad ℝ} {e e' : ContactPoint} {i j : Int} :
    Touch a.unfurnished e i b.unfurnished e' j ↔ Touch a e i b e' j :=
  ⟨fun h => ⟨h.lane, h.outer, h.inner⟩, fun h => ⟨h.lane, h.outer, h.inner⟩⟩

theorem poseAt_unfurnished (a : RRoad ℝ) (e : ContactPoint) : a.unfurnished.poseAt e = a.poseAt e := by cases e <;> rfl

theorem showsRoad_of_unfurnished {c : RoadCall ℝ} {a : RRoad ℝ} (h : ShowsRoad c a.unfurnished) : ShowsRoad c a :=
  ⟨h.id, h.junction, h.curves, h.oneLine, h.links, h.sections⟩

theorem shows_of_unfurnished {calls : List (RoadCall ℝ)} {L : List (CallEnd × CallEnd)} {doc : RDocument ℝ}
    (h : Shows calls L doc.unfurnished) : Shows calls L doc := by
  refine ⟨?_, ?_, ?_, ?_, ?_⟩
  · exact (List.forall₂_map_right_iff.mp h.roads).imp fun _ _ => showsRoad_of_unfurnished
  · intro c hc a ha hid hB
    exact h.origin c hc a.unfurnished (unfurnished_mem ha) hid hB
  · intro c hc d hd a ha b hb ea eb e e' n hj
    exact h.joints c hc d hd _ (unfurnished_mem ha) _ (unfurnished_mem hb) ea eb e e' n hj
  · intro c hc d hd a ha b hb ea eb e e' n hj s hs x hx
    obtain ⟨h1, h2⟩ := h.lanes c hc d hd _ (unfurnished_mem ha) _ (unfurnished_mem hb) ea eb e e' n hj s hs x hx
    exact ⟨h1, touch_unfurnished.mp h2⟩
  · intro c hc a ha ea j s hs x hx
    exact h.onlyLanes c hc _ (unfurnished_mem ha) ea j s hs x hx

theorem showsConnection_of_unfurnished {doc : RDocument ℝ} {c : RoadCall ℝ} {e : ContactPoint} {k : Int} {e' : ContactPoint}
    {n : Int} {x : RConnection} (h : ShowsConnection doc.unfurnished c e k e' n x) : ShowsConnection doc c e k e' n x := by
  refine ⟨h.incoming, h.connecting, h.contact, ?_, ?_⟩
  · intro h1 h2
    obtain ⟨a1, a2, a3⟩ := h.lanes h1 h2
    exact ⟨a1, a2, fun a ha b hb ea eb y hy =>
      touch_unfurnished.mp (a3 _ (unfurnished_mem ha) _ (unfurnished_mem hb) ea eb y hy)⟩
  · intro h1 h2 a ha b hb ea eb y hy
    exact fun ht => h.wrong h1 h2 _ (unfurnished_mem ha) _ (unfurnished_mem hb) ea eb y hy (touch_unfurnished.mpr ht)

theorem showsAny_of_unfurnished {calls : List (RoadCall ℝ)} {doc : RDocument ℝ} {j : AnyJunction} {x : RJunction}
    (h : ShowsAny calls doc.unfurnished j x) : ShowsAny calls doc j x := by
  cases j with
  | create j =>
    obtain ⟨h1, h2, h3, h4⟩ := (show ShowsJunctionCall calls doc.unfurnished j x from h)
    refine (⟨h1, h2, h3, fun m i c hm hc e k e' n hj => ?_⟩ : ShowsJunctionCall calls doc j x)
    obtain ⟨y, y1, y2, y3⟩ := h4 m i c hm hc e k e' n hj
    exact ⟨y, y1, y2, showsConnection_of_unfurnished y3⟩
  | drawn j =>
    obtain ⟨h1, h2, h3, h4⟩ := (show ShowsDrawn calls doc.unfurnished j x from h)
    exact (⟨h1, h2, h3, fun y hy c hc ht hid e' n hj a ha b hb ea eb i w hl hm =>
      touch_unfurnished.mp (h4 y hy c hc ht hid e' n hj _ (unfurnished_mem ha) _ (unfurnished_mem hb) ea eb i w hl hm)⟩ :
      ShowsDrawn calls doc j x)

theorem showsJunction_of_unfurnished {doc : RDocument ℝ} {ids : List String} {junction startnum : Int} {nl : Nat}
    (h : doc.unfurnished.ShowsJunction ids junction startnum nl) : doc.ShowsJunction ids junction startnum nl := by
  refine ⟨?_, ?_, ?_, ?_, h.junction⟩
  · rw [← h.roads]
    unfold RDocument.unfurnished
    rw [List.map_map]
    rfl
  · intro rd hrd
    exact h.oneLine rd.unfurnished (unfurnished_mem hrd)
  · intro i id hid
    obtain ⟨a, ha, h1, h2, h3⟩ := h.given i id hid
    obtain ⟨b, hb, rfl⟩ := mem_unfurnished ha
    exact ⟨b, hb, h1, h2, h3⟩
  · intro idx i j a b hp ha hia hb hib
    obtain ⟨c, hc, h1, h2⟩ := h.connecting idx i j _ _ hp (unfurnished_mem ha) hia (unfurnished_mem hb) hib
    obtain ⟨c', hc', rfl⟩ := mem_unfurnished hc
    refine ⟨c', hc', h1, h2.junction, h2.links, ?_, ?_, h2.lanes⟩
    · have := h2.begins
      simpa only [poseAt_unfurnished] using this
    · have := h2.ends
      simpa only [poseAt_unfurnished] using this

theorem closes_of_unfurnished {doc : RDocument ℝ} {d e : ℝ} (h : doc.unfurnished.Closes d e) : doc.Closes d e := by
  intro c hc b hb hj hl
  have := h _ (unfurnished_mem hc) _ (unfurnished_mem hb) hj hl
  simpa only [poseAt_unfurnished] using this

/-! ## C79 -/

section
variable [PyFloat F]

/-- C79: `adjust_roads_and_lanes` does not look at signals and objects: whatever signals and objects the roads have, it
fails with the same exception or gives the same network, with these signals and objects. -/
theorem C79_adjust (objects signals : PyId → List Nat) (w : World F) :
    World.adjustRoadsAndLanes (w.dress objects signals) =
      match World.adjustRoadsAndLanes w with
      | .ok u w' => .ok u (w'.dress objects signals)
      | .error e w' => .error e (w'.dress objects signals) := by
  rw [adjust_dress]
  cases World.adjustRoadsAndLanes w <;> rfl

/-- C79: nor do `create_junction_roads` and `create_junction`. -/
theorem C79_junctions (objects signals : PyId → List Nat) (angles : List F) (r : F) (junction : Int) (spiralPart arcPart : F)
    (startnum : Int) (roads : List (Road F)) (st : GenState F) (jrs : List (Road F)) (id : PyId) :
    (createJunctionRoads angles r junction spiralPart arcPart startnum (roads.map (Road.dress objects signals), st) =
      match createJunctionRoads angles r junction spiralPart arcPart startnum (roads, st) with
      | .ok jrs x => .ok jrs (x.1.map (Road.dress objects signals), x.2)
      | .error e x => .error e (x.1.map (Road.dress objects signals), x.2)) ∧
    createJunction (jrs.map (Road.dress objects signals)) id (roads.map (Road.dress objects signals)) =
      createJunction jrs id roads := by
  refine ⟨?_, createJunction_dress jrs id roads⟩
  rw [createJunctionRoads_keeps (o := objects) (s := signals) angles r junction spiralPart arcPart startnum roads st]
  cases createJunctionRoads angles r junction spiralPart arcPart startnum (roads, st) <;> rfl

end

theorem fit_plain {roads : List (Road ℝ)} (h : ∀ r ∈ roads, r.objects = [] ∧ r.signals = []) : roads.map (fit [] []) = roads := by
  conv_rhs => rw [← List.map_id roads]
  refine List.map_congr_left fun r hr => ?_
  obtain ⟨h1, h2⟩ := h r hr
  unfold fit Road.dress pick
  cases r
  simp only at h1 h2
  subst h1 h2
  rfl

theorem finish_eq {roads rs : List (Road ℝ)} {js : List Junction} {before after : List (Int × FurnishCall ℝ)}
    {geoms : Store (Geom ℝ)} {lanes : Store (Lane ℝ)} {so so1 so2 : SOState ℝ} {w : World ℝ} {d : Dict (Road ℝ)}
    (h1 : furnishRoads lanes before roads so = .ok (rs, so1))
    (h2 : World.adjustRoadsAndLanes ⟨⟨rs.foldl addRoad [], geoms⟩, lanes⟩ = .ok () w)
    (h3 : furnishDict w.lanes after w.net.roads so1 = .ok (d, so2)) :
    finishProgram roads js before after geoms lanes so = .ok ⟨js, ⟨⟨d, w.net.geoms⟩, w.lanes⟩, so2⟩ := by
  simp only [finishProgram, h1, bind, Except.bind, h2, h3]

theorem furnishRoad_early [PyFloat F] (lanes : Store (Lane F)) (k : Int) (c : FurnishCall F) (roads : List (Road F))
    (hu : ∀ r ∈ roads, r.planview.adjusted = false) (hk : PyId.int k ∈ roads.map (·.id)) (so : SOState F) :
    (c.NeedsAdjusted → furnishRoad lanes k c roads so = .error .roadsAndLanesNotAdjusted) ∧
    (¬ c.NeedsAdjusted → ∃ roads' so', furnishRoad lanes k c roads so = .ok (roads', so') ∧
      roads'.map (·.id) = roads.map (·.id) ∧ ∀ r ∈ roads', r.planview.adjusted = false) := by
  induction roads with
  | nil => simp at hk
  | cons r rs ih =>
    have hr := hu r (by simp)
    by_cases h : r.id = .int k
    · cases c with
      | signals l =>
        refine ⟨fun h => h.elim, fun _ => ⟨_, _, by rw [furnishRoad, if_pos h]; rfl, ?_, ?_⟩⟩
        · simp [Road.addSignal]
        · intro q hq
          rcases List.mem_cons.mp hq with rfl | hq
          · exact hr
          · exact hu q (by simp [hq])
      | objects l =>
        refine ⟨fun h => h.elim, fun _ => ⟨_, _, by rw [furnishRoad, if_pos h]; rfl, ?_, ?_⟩⟩
        · simp [Road.addObject]
        · intro q hq
          rcases List.mem_cons.mp hq with rfl | hq
          · exact hr
          · exact hu q (by simp [hq])
      | roadside o d sOff tOff side =>
        refine ⟨fun _ => ?_, fun h => absurd trivial h⟩
        simp only [furnishRoad, if_pos h, FurnishCall.run, C38_not_adjusted _ _ _ _ _ _ _ _ hr, bind, Except.bind]
    · have hk' : PyId.int k ∈ rs.map (·.id) := by
        rw [List.map_cons, List.mem_cons] at hk
        exact hk.resolve_left fun e => h e.symm
      obtain ⟨h1, h2⟩ := ih (fun q hq => hu q (by simp [hq])) hk'
      refine ⟨fun hc => ?_, fun hc => ?_⟩
      · simp only [furnishRoad, if_neg h, h1 hc, bind, Except.bind]
      · obtain ⟨roads', so', h3, h4, h5⟩ := h2 hc
        refine ⟨r :: roads', so', by simp only [furnishRoad, if_neg h, h3, bind, Except.bind], by simp [h4], ?_⟩
        intro q hq
        rcases List.mem_cons.mp hq with rfl | hq
        · exact hr
        · exact h5 q hq

/-- C79: objects beside the road cannot be ordered before `adjust_roads_and_lanes`: the program ends with
`RoadsAndLanesNotAdjusted`. -/
theorem C79_early [PyFloat F] (roads : List (Road F)) (js : List Junction) (before after : List (Int × FurnishCall F))
    (geoms : Store (Geom F)) (lanes : Store (Lane F)) (so : SOState F)
    (hu : ∀ r ∈ roads, r.planview.adjusted = false) (hk : ∀ c ∈ before, PyId.int c.1 ∈ roads.map (·.id))
    (hb : ∃ c ∈ before, c.2.NeedsAdjusted) :
    finishProgram roads js before after geoms lanes so = .error .roadsAndLanesNotAdjusted := by
  suffices h : furnishRoads lanes before roads so = .error .roadsAndLanesNotAdjusted by
    simp only [finishProgram, h, bind, Except.bind]
  induction before generalizing roads so with
  | nil => simp at hb
  | cons c cs ih =>
    obtain ⟨h1, h2⟩ := furnishRoad_early lanes c.1 c.2 roads hu (hk c (by simp)) so
    by_cases hc : c.2.NeedsAdjusted
    · simp only [furnishRoads, h1 hc, bind, Except.bind]
    · obtain ⟨roads', so', h3, h4, h5⟩ := h2 hc
      simp only [furnishRoads, h3, bind, Except.bind]
      refine ih roads' so' h5 (fun d hd => by rw [h4]; exact hk d (by simp [hd])) ?_
      obtain ⟨d, hd, hd'⟩ := hb
      rcases List.mem_cons.mp hd with rfl | hd
      · exact absurd hd' hc
      · exact ⟨d, hd, hd'⟩

/-- C79: the roads of a program can be given signals and objects before and (with `add_object_roadside` too) after they
are adjusted. If the program without them runs and writes a document, it does so with them; the documents are the same
but for the signals and objects, and these are shown as they were ordered, on the roads to which they were given, in the
order of the calls, with ids that are all different. -/
theorem C79_document (roads : List (Road ℝ)) (js : List Junction) (before after : List (Int × FurnishCall ℝ))
    (geoms : Store (Geom ℝ)) (lanes : Store (Lane ℝ)) (so : SOState ℝ) (ids : List Int) (w : World ℝ) (name date : String)
    (element : Xml ℝ) (doc : RDocument ℝ)
    (hids : roads.map (·.id) = ids.map PyId.int) (hn : ids.Nodup)
    (hplain : ∀ r ∈ roads, r.objects = [] ∧ r.signals = [])
    (hfresh : ∀ r ∈ roads, r.planview.adjusted = false ∧ r.planview.adjGeoms = [])
    (hadj : World.adjustRoadsAndLanes ⟨⟨roads.foldl addRoad [], geoms⟩, lanes⟩ = .ok () w)
    (he : OpenDrive.getElement ⟨w.net.geoms, w.lanes, so⟩ date ⟨name, w.net.roads, js⟩ = .ok element)
    (hgood : ∀ kv ∈ w.net.roads, GoodRoad ⟨w.net.geoms, w.lanes, so⟩ kv.2) (hdoc : readDocument element = some doc)
    (hfit : CallsFit ids (before ++ after)) (hb : ∀ c ∈ before, ¬ c.2.NeedsAdjusted) :
    ∃ p element' doc', finishProgram roads js before after geoms lanes so = .ok p ∧ p.junctions = js ∧
      OpenDrive.getElement ⟨p.world.net.geoms, p.world.lanes, p.so⟩ date ⟨name, p.world.net.roads, p.junctions⟩ =
        .ok element' ∧
      readDocument element' = some doc' ∧ doc'.unfurnished = doc ∧
      ShowsFurniture (usedIds so "Signal") (usedIds so "Object") (before ++ after) doc' := by
  have hids' : (roads.map fun r => r.id.toStr) = ids.map strInt := by
    have := congrArg (List.map PyId.toStr) hids
    simpa [List.map_map, Function.comp_def, PyId.toStr] using this
  have hnd : (roads.map fun r => r.id.toStr).Nodup := by rw [hids']; exact hn.map strInt_injective
  obtain ⟨f1, f2⟩ := foldl_addRoad_distinct roads hnd
  have hk : (roads.foldl addRoad []).keys.Nodup := by rw [f1]; exact hnd
  have hmem : ∀ kv ∈ roads.foldl addRoad [], kv.2 ∈ roads ∧ kv.2.id.toStr = kv.1 := fun kv hkv =>
    (f2 kv.1 kv.2).mp (Dict.mem_get? hk hkv)
  have hd : ∀ kv ∈ roads.foldl addRoad [], ∃ j : Int, kv.1 = strInt j ∧ kv.2.id = .int j := by
    intro kv hkv
    obtain ⟨h1, h2⟩ := hmem kv hkv
    have : kv.2.id ∈ ids.map PyId.int := by rw [← hids]; exact List.mem_map_of_mem h1
    obtain ⟨j, -, hj⟩ := List.mem_map.mp this
    exact ⟨j, by rw [← h2, ← hj]; rfl, hj.symm⟩
  have hb' : ∀ c ∈ before, PyId.int c.1 ∈ roads.map (·.id) := by
    intro c hc
    rw [hids]
    exact List.mem_map_of_mem (hfit.named c (by simp [hc]))
  by_cases hemp : roads = []
  · subst hemp
    have hi : ids = [] := by simpa using hids.symm
    subst hi
    have hno : before ++ after = [] := by
      cases hba : before ++ after with
      | nil => rfl
      | cons c cs => exact absurd (hfit.named c (by rw [hba]; simp)) (by simp)
    rw [List.append_eq_nil_iff] at hno
    obtain ⟨rfl, rfl⟩ := hno
    have hw : w.net.roads = [] := by
      have := (C18_placed_once ⟨[], geoms⟩ w.net (by simp [Dict.keys]) (by intro k r h; simp [Dict.get?] at h)
        (adjustRoadsAndLanes_net hadj)).1
      simpa [Dict.keys] using this
    obtain ⟨-, rfl⟩ := document_lines he hgood hdoc
    refine ⟨⟨js, w, so⟩, element, _, ?_, rfl, he, hdoc, ?_, ?_⟩
    · exact finish_eq (rs := []) (so1 := so) rfl hadj rfl
    · simp [RDocument.unfurnished, hw]
    · refine ⟨⟨[], ?_, ?_, ?_⟩, ⟨[], ?_, ?_, ?_⟩⟩ <;>
        simp [orderedSignals, orderedObjects, hw, GoodIds.nil]
  · obtain ⟨r0, rs, hroads⟩ : ∃ r0 rs, roads = r0 :: rs := by
      cases roads with
      | nil => exact absurd rfl hemp
      | cons a l => exact ⟨a, l, rfl⟩
    obtain ⟨ol, sl, so1, b1, b2⟩ := furnishRoads_fit lanes (fun _ => r0) before hb roads
      (by rw [hids]; exact hn.map fun _ _ h => PyId.int.inj h) hb' [] [] so
    rw [fit_plain hplain, List.nil_append, List.nil_append] at b1
    obtain ⟨c1, roads2, so2, element', doc', c2, c3, c4, c5, c6⟩ := finish_core hk hd
      (fun kv hkv => hplain _ (hmem kv hkv).1) (fun k r hkr => hfresh r ((f2 k r).mp hkr).1) hadj hb
      (by
        intro c hc
        rw [f1, hids']
        exact List.mem_map_of_mem (hfit.named c hc)) hfit.signals b2 he hgood hdoc
    refine ⟨⟨js, ⟨⟨roads2, w.net.geoms⟩, w.lanes⟩, so2⟩, element', doc', ?_, rfl, c3, c4, c5, c6⟩
    have hdr : (roads.map (fit ol sl)).foldl addRoad [] = fitDict ol sl (roads.foldl addRoad []) :=
      (dressRoads_add (o := pick ol) (s := pick sl) roads []).symm
    exact finish_eq (w := ⟨⟨fitDict ol sl w.net.roads, w.net.geoms⟩, w.lanes⟩) b1 (by rw [hdr]; exact c1) c2

/-- C79 for networks (C76): the document shows the network as ordered, and the signals and objects. -/
theorem C79_network (calls : List (RoadCall ℝ)) (L : List (CallEnd × CallEnd)) (hs : Sound calls L)
    (junctions : List AnyJunction) (hj : ∀ j ∈ junctions, AnySound calls j) (before after : List (Int × FurnishCall ℝ))
    (hfit : CallsFit (calls.map (·.id)) (before ++ after)) (hb : ∀ c ∈ before, ¬ c.2.NeedsAdjusted)
    (st : GenState ℝ) (so : SOState ℝ) (name date : String) :
    ∃ p element doc, furnishedNetwork calls junctions before after st so = .ok p ∧
      OpenDrive.getElement ⟨p.world.net.geoms, p.world.lanes, p.so⟩ date ⟨name, p.world.net.roads, p.junctions⟩ =
        .ok element ∧
      readDocument element = some doc ∧ doc.name = name ∧ Shows calls L doc ∧
      List.Forall₂ (ShowsAny calls doc) junctions doc.junctions ∧
      ShowsFurniture (usedIds so "Signal") (usedIds so "Object") (before ++ after) doc := by
  obtain ⟨r0, st', roads, h1, h2, h3⟩ := program_prepared hs st
  obtain ⟨xs, h4, h5⟩ := h3.junctions hs junctions hj
  obtain ⟨w', h6, h7⟩ := h3.run hs
  obtain ⟨element, doc, h8, h9, h10⟩ := h3.written hs h6 h7 name date so xs
  have hf : Finished calls L st st' roads w' name date so xs doc := ⟨h3, hs, h7, h10⟩
  have hdr := h3.drawn hs
  have hids : roads.map (·.id) = (calls.map (·.id)).map PyId.int := by
    have := h3.ready
    clear * - this
    induction this with
    | nil => rfl
    | cons hb _ ih => rw [List.map_cons, List.map_cons, List.map_cons, ih, hb.id]
  obtain ⟨p, element', doc', p1, p2, p3, p4, p5, p6⟩ := C79_document roads xs before after st'.geoms st'.lanes so
    (calls.map (·.id)) w' name date element doc hids hs.ids
    (fun r hr => by
      obtain ⟨c, -, hb⟩ := h3.call hr
      exact ⟨hb.empty.1, hb.empty.2.1⟩)
    (fun r hr => hdr.fresh r.id.toStr r (((foldl_addRoad_distinct roads (h3.nodup hs)).2 _ r).mpr ⟨hr, rfl⟩))
    h6 h8 h10.good h9 hfit hb
  subst p5
  have hname : doc'.name = name := by
    obtain ⟨gs, -, e⟩ := document_read h8 h10.good h9
    exact congrArg RDocument.name e
  refine ⟨p, element', doc', ?_, p3, p4, hname, shows_of_unfurnished hf.shows, ?_, p6⟩
  · unfold furnishedNetwork
    rw [h1]
    show (connectRoads calls r0 >>= fun roads => _) = _
    rw [h2]
    show (makeJunctions roads junctions >>= fun roads => _) = _
    rw [h4]
    exact p1
  · exact (hf.junctions hj h5).imp fun _ _ => showsAny_of_unfurnished

/-- C79: so ends every network program (C76) that orders an object beside a road too early. -/
theorem C79_early_network (calls : List (RoadCall ℝ)) (L : List (CallEnd × CallEnd)) (hs : Sound calls L)
    (junctions : List AnyJunction) (hj : ∀ j ∈ junctions, AnySound calls j) (before after : List (Int × FurnishCall ℝ))
    (hfit : CallsFit (calls.map (·.id)) before) (hb : ∃ c ∈ before, c.2.NeedsAdjusted)
    (st : GenState ℝ) (so : SOState ℝ) :
    furnishedNetwork calls junctions before after st so = .error .roadsAndLanesNotAdjusted := by
  obtain ⟨r0, st', roads, h1, h2, h3⟩ := program_prepared hs st
  obtain ⟨xs, h4, h5⟩ := h3.junctions hs junctions hj
  have hdr := h3.drawn hs
  have hids : roads.map (·.id) = (calls.map (·.id)).map PyId.int := by
    have := h3.ready
    clear * - this
    induction this with
    | nil => rfl
    | cons hb _ ih => rw [List.map_cons, List.map_cons, List.map_cons, ih, hb.id]
  unfold furnishedNetwork
  rw [h1]
  show (connectRoads calls r0 >>= fun roads => _) = _
  rw [h2]
  show (makeJunctions roads junctions >>= fun roads => _) = _
  rw [h4]
  refine C79_early _ _ _ _ _ _ _ (fun r hr => ?_) (fun c hc => ?_) hb
  · exact (hdr.fresh r.id.toStr r (((foldl_addRoad_distinct roads (h3.nodup hs)).2 _ r).mpr ⟨hr, rfl⟩)).1
  · rw [hids]; exact List.mem_map_of_mem (hfit.named c hc)

/-- The ids of all roads of the junction program: the given ones, then the connecting ones. -/
def junctionIds (ids : List Int) (startnum : Int) : List Int :=
  ids ++ (List.range (pairs ids.length).length).map fun idx : Nat => startnum + idx

section
variable {st : GenState ℝ} {nl nr : Nat} {arm : Nat → List Piece} {startnum : Int} {roads : List (Road ℝ)} {angles : List ℝ}
  {r sp ap : ℝ} {junction : Int} {so : SOState ℝ}

/-- C79 for junctions (C66): if the roads of a junction program are given signals and objects before the junction is made,
or any of its roads after the adjustment, the document is that of the program without them, except that it shows them. -/
theorem C79_junction (hA : Arms st nl nr arm startnum roads) (hnl : 1 ≤ nl) (hnn : nl ≤ nr)
    (hang : roads.length ≤ angles.length) (hr : 0 < r) (hsmall : r ≤ 1000000000) (hsp : 0 < sp)
    (hap : 0 < ap) (hj : junction ≠ -1) (hid : strInt junction ∈ allIds roads startnum)
    (hC : ∀ (i : Nat) (a : Road ℝ), roads[i]? = some a → Complete st so (arm i) a) (ids : List Int)
    (hids : roads.map (·.id) = ids.map PyId.int) (hplain : ∀ a ∈ roads, a.objects = [] ∧ a.signals = [])
    (before after : List (Int × FurnishCall ℝ)) (hfit : CallsFit ids before)
    (hfit' : CallsFit (junctionIds ids startnum) after) (hb : ∀ c ∈ before, ¬ c.2.NeedsAdjusted) (name date : String) :
    ∃ res element0 doc0 p element doc, junctionProgram roads angles r junction sp ap startnum st = .ok res ∧
      OpenDrive.getElement ⟨res.world.net.geoms, res.world.lanes, so⟩ date
        ⟨name, res.world.net.roads, [res.junction]⟩ = .ok element0 ∧
      readDocument element0 = some doc0 ∧
      furnishedJunction roads angles r junction sp ap startnum before after st so = .ok p ∧
      OpenDrive.getElement ⟨p.world.net.geoms, p.world.lanes, p.so⟩ date ⟨name, p.world.net.roads, p.junctions⟩ =
        .ok element ∧
      readDocument element = some doc ∧ doc.unfurnished = doc0 ∧
      ShowsFurniture (usedIds so "Signal") (usedIds so "Object") (before ++ after) doc := by
  obtain ⟨res, roads', st', pcs, pos, hrun, h1, h2, h3, hR⟩ := junction_run_steps hA hnl hnn hang hr hsmall hsp hap hj hid
  obtain ⟨element0, gs, he, hdoc, -⟩ := hR.document hA hC name date
  have hB := hR.built
  have hstr : ids.map strInt = roads.map fun a => a.id.toStr := by
    have := congrArg (List.map PyId.toStr) hids
    simpa [List.map_map, Function.comp_def, PyId.toStr] using this.symm
  have hlen : ids.length = roads.length := by simpa using (congrArg List.length hids).symm
  have hndi : ids.Nodup := by
    have := hA.ids
    rw [← hstr] at this
    exact List.Nodup.of_map _ this
  have hkd : (docRoads roads' res.connecting).keys = allIds roads startnum := docRoads_keys hA hB
  have hkn : (docRoads roads' res.connecting).keys.Nodup := by rw [hkd]; exact arms_nodup hA
  have hinfo : ∀ ro ∈ roads' ++ res.connecting, (∃ j : Int, ro.id = .int j) ∧ ro.objects = [] ∧ ro.signals = [] := by
    intro ro hro
    have hg := (docRoads_get hA hB ro.id.toStr ro).mpr ⟨hro, rfl⟩
    rcases docRoads_cases hA hB hg with ⟨i, a, g1, g2, g3⟩ | ⟨idx, i, j, g1, g2, g3, g4⟩
    · have hm := List.mem_of_getElem? g1
      obtain ⟨p1, p2⟩ := hplain a hm
      have : a.id ∈ ids.map PyId.int := by rw [← hids]; exact List.mem_map_of_mem hm
      obtain ⟨j, -, hj'⟩ := List.mem_map.mp this
      rw [g3]
      refine ⟨⟨j, by rw [joinJunction_id]; exact hj'.symm⟩, ?_, ?_⟩
      · rw [← p1]; cases armEnd i <;> rfl
      · rw [← p2]; cases armEnd i <;> rfl
    · exact ⟨⟨_, g4.id⟩, g4.empty.1, g4.empty.2.1⟩
  have hd : ∀ kv ∈ docRoads roads' res.connecting, ∃ j : Int, kv.1 = strInt j ∧ kv.2.id = .int j := by
    intro kv hkv
    obtain ⟨h4, h5⟩ := (docRoads_get hA hB kv.1 kv.2).mp (Dict.mem_get? hkn hkv)
    obtain ⟨⟨j, hj'⟩, -⟩ := hinfo _ h4
    exact ⟨j, by rw [← h5, hj']; rfl, hj'⟩
  have hall : (junctionIds ids startnum).map strInt = allIds roads startnum := by
    unfold junctionIds allIds
    rw [List.map_append, hstr, List.map_map, hlen]
    rfl
  -- the calls before
  obtain ⟨r0, hr0⟩ : ∃ r0, roads[0]? = some r0 := ⟨roads[0]'(by have := hA.two; omega), by
    exact List.getElem?_eq_getElem _⟩
  obtain ⟨ol, sl, so1, b1, b2⟩ := furnishRoads_fit st.lanes (fun _ => r0) before hb roads
    (by rw [hids]; exact hndi.map fun _ _ h => PyId.int.inj h)
    (fun c hc => by rw [hids]; exact List.mem_map_of_mem (hfit.named c hc)) [] [] so
  rw [fit_plain hplain, List.nil_append, List.nil_append] at b1
  have hkeep := createJunctionRoads_keeps (o := pick ol) (s := pick sl) angles r junction sp ap startnum roads st
  rw [h1] at hkeep
  have hlogs : ∀ (log : List (Int × Nat)), (∀ p ∈ log, p.1 ∈ ids) → ∀ jr ∈ res.connecting, pick log jr.id = [] := by
    intro log hlog jr hjr
    obtain ⟨idx, hidx, rfl⟩ := List.mem_iff_getElem.mp hjr
    have hlt : idx < (pairs roads.length).length := by rw [← hB.count]; exact hidx
    obtain ⟨jr', g1, g2⟩ := hB.conn idx _ _ (List.getElem?_eq_getElem hlt)
    rw [List.getElem?_eq_getElem hidx] at g1
    obtain rfl := Option.some.inj g1
    unfold pick
    rw [List.filter_eq_nil_iff.mpr, List.map_nil]
    intro p hp
    simp only [decide_eq_true_eq]
    rw [g2.id]
    intro e
    have hm : strInt p.1 ∈ roads.map fun a => a.id.toStr := by rw [← hstr]; exact List.mem_map_of_mem (hlog p hp)
    obtain ⟨a, ha, hae⟩ := List.mem_map.mp hm
    obtain ⟨i, hi⟩ := List.mem_iff_getElem?.mp ha
    exact hA.free i idx a hi hlt (by rw [hae, PyId.int.inj e])
  have hol : ∀ p ∈ ol, p.1 ∈ ids := by
    intro p hp
    have : p.1 ∈ ol.map (·.1) := List.mem_map_of_mem hp
    rw [b2.objects] at this
    obtain ⟨q, hq, e⟩ := List.mem_map.mp this
    obtain ⟨c, hc, hq⟩ := List.mem_flatMap.mp hq
    obtain ⟨g, -, rfl⟩ := List.mem_map.mp hq
    rw [← e]
    exact hfit.named c hc
  have hsl : ∀ p ∈ sl, p.1 ∈ ids := by
    intro p hp
    have : p.1 ∈ sl.map (·.1) := List.mem_map_of_mem hp
    rw [b2.signals] at this
    obtain ⟨q, hq, e⟩ := List.mem_map.mp this
    obtain ⟨c, hc, hq⟩ := List.mem_flatMap.mp hq
    obtain ⟨g, -, rfl⟩ := List.mem_map.mp hq
    rw [← e]
    exact hfit.named c hc
  have hjrs : res.connecting.map (fit ol sl) = res.connecting := by
    conv_rhs => rw [← List.map_id res.connecting]
    refine List.map_congr_left fun jr hjr => ?_
    obtain ⟨-, e1, e2⟩ := hinfo jr (List.mem_append_right _ hjr)
    unfold fit Road.dress
    rw [hlogs ol hol jr hjr, hlogs sl hsl jr hjr]
    cases jr
    simp only at e1 e2
    subst e1 e2
    rfl
  have hdr : (roads'.map (fit ol sl) ++ res.connecting).foldl addRoad [] = fitDict ol sl (docRoads roads' res.connecting) := by
    conv_lhs => rw [← hjrs]
    rw [← List.map_append]
    exact (dressRoads_add (o := pick ol) (s := pick sl) (roads' ++ res.connecting) []).symm
  obtain ⟨c1, roads2, so2, element', doc', c2, c3, c4, c5, c6⟩ := finish_core hkn hd
    (fun kv hkv => (hinfo _ ((docRoads_get hA hB kv.1 kv.2).mp (Dict.mem_get? hkn hkv)).1).2)
    (docRoads_fresh hR.plans) h3 hb (by
      intro c hc
      rw [hkd, ← hall]
      rcases List.mem_append.mp hc with hc | hc
      · exact List.mem_map_of_mem (List.mem_append_left _ (hfit.named c hc))
      · exact List.mem_map_of_mem (hfit'.named c hc))
    (by
      intro c hc
      rcases List.mem_append.mp hc with hc | hc
      · exact hfit.signals c hc
      · exact hfit'.signals c hc) b2 he
    (fun kv hkv => hR.good hA hC (Dict.mem_get? (by rw [hR.keys hA]; exact arms_nodup hA) hkv)) hdoc
  refine ⟨res, element0, _, ⟨[res.junction], ⟨⟨roads2, res.world.net.geoms⟩, res.world.lanes⟩, so2⟩, element', doc', hrun, he,
    hdoc, ?_, c3, c4, c5, c6⟩
  have hfin := finish_eq (before := []) (js := [res.junction]) (so := so1) (roads := roads'.map (fit ol sl) ++ res.connecting)
    (w := ⟨⟨fitDict ol sl res.world.net.roads, res.world.net.geoms⟩, res.world.lanes⟩) rfl (by rw [hdr]; exact c1) c2
  have hcj : createJunction res.connecting (.int junction) (roads'.map (fit ol sl)) = .ok res.junction := by
    rw [← h2, ← createJunction_dress (o := pick ol) (s := pick sl) res.connecting (.int junction) roads']
    exact congrArg (fun l => createJunction l (.int junction) (roads'.map (fit ol sl))) hjrs.symm
  have hkeep' : createJunctionRoads angles r junction sp ap startnum (roads.map (fit ol sl), st) =
      .ok res.connecting (roads'.map (fit ol sl), st') := hkeep
  simp only [furnishedJunction, b1, bind, Except.bind, hkeep', hcj]
  exact hfin

end

end Pyodrx.Props
