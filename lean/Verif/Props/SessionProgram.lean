import Verif.Proofs.SessionProgram
import Verif.Props.FloatFileExample

/-! # C88: programs in any order up to the written file -/

namespace Pyodrx.Props
open Pyodrx Pyodrx.Spec PyFloat

theorem get?_mem {α : Type} {d : Dict α} {k : String} {v : α} (h : d.get? k = some v) : (k, v) ∈ d := by
  induction d with
  | nil => cases h
  | cons e d ih =>
    obtain ⟨k', v'⟩ := e
    simp only [Dict.get?] at h
    split at h
    · next e => cases h; simp_all
    · exact List.mem_cons_of_mem _ (ih h)

section
variable {F : Type} [PyFloat F]

/-- C88: if no two roads of the `OpenDrive` have the same PlanView, `adjust_roads_and_lanes` on the objects does what it does
on roads that contain their parts as values (to which all other claims apply), with the same exception or none; of all other
objects only the links of lanes change. -/
theorem C88_by_value (s : Session F) (o : Nat) (hn : (s.openDrives.cell o).roads.keys.Nodup)
    (ho : OwnPlanViews (s.net o)) :
    match Session.adjust o s with
    | .ok _ s' => World.adjustRoadsAndLanes (worldOf s o) = .ok () (worldOf s' o) ∧
        ∃ pvs geoms lanes, s' = { s with planviews := pvs, geoms := geoms, laneObjs := lanes } ∧ SameButLinks s.laneObjs lanes
    | .error e s' => World.adjustRoadsAndLanes (worldOf s o) = .error e (worldOf s' o) ∧
        ∃ pvs geoms lanes, s' = { s with planviews := pvs, geoms := geoms, laneObjs := lanes } ∧ SameButLinks s.laneObjs lanes :=
  adjust_values s o hn ho

end

variable {R : Rounding}

theorem worldOf_keys {F : Type} (s : Session F) (o : Nat) :
    (worldOf s o).net.roads.keys = (s.openDrives.cell o).roads.keys := by
  simp [worldOf, Session.readOpenDrive, Dict.keys, List.map_map, Function.comp_def]

theorem worldOf_get {F : Type} {s : Session F} {o : Nat} {k : String} {r : Road F} (h : (worldOf s o).net.roads.get? k = some r) :
    ∃ v, (k, v) ∈ (s.openDrives.cell o).roads ∧ r = s.readRoad (s.roads.cell v) := by
  have := get?_mem h
  simp only [worldOf, Session.readOpenDrive, List.mem_map] at this
  obtain ⟨⟨k', v⟩, h1, h2⟩ := this
  cases h2
  exact ⟨v, h1, rfl⟩

theorem geomCalls_mem {F : Type} {v : Nat} {p : List (Call F)} {x : Nat × Option F} (h : x ∈ geomCalls v p) :
    .addGeometry v x.1 x.2 ∈ p := by
  rw [geomCalls, List.mem_filterMap] at h
  obtain ⟨c, hc, hx⟩ := h
  cases c <;> simp only [reduceCtorEq] at hx
  split at hx
  · next e => cases hx; subst e; exact hc
  · cases hx

theorem mem_geomCalls {F : Type} {v g : Nat} {h : Option F} {p : List (Call F)} (hc : .addGeometry v g h ∈ p) :
    (g, h) ∈ geomCalls v p := by
  rw [geomCalls, List.mem_filterMap]
  exact ⟨_, hc, by simp⟩

theorem made_once {F : Type} {p : List (Call F)} (hp : Proper p) {c d : Call F} {x : Part} (hc : c ∈ p) (hd : d ∈ p)
    (mc : Makes c x) (md : Makes d x) : c = d := by
  obtain ⟨b, r, rfl⟩ := List.append_of_mem hc
  rcases List.mem_append.mp hd with h | h
  · exact absurd ⟨d, h, md⟩ ((hp b c r rfl).2 x mc)
  · rcases List.mem_cons.mp h with h | h
    · exact h.symm
    · obtain ⟨b', r', rfl⟩ := List.append_of_mem h
      exact absurd ⟨c, by simp, mc⟩ ((hp (b ++ c :: b') d r' (by simp)).2 x md)

theorem road_once {F : Type} {p : List (Call F)} (hp : Proper p) {v : Nat} {i i' : PyId} {pv l pv' l' : Nat} {t t' : Int}
    {n ru n' ru' : Option String} (h : .road v i pv l t n ru ∈ p) (h' : .road v i' pv' l' t' n' ru' ∈ p) : i = i' := by
  have := made_once hp (x := .road v) h h' rfl rfl
  cases this; rfl

/-- C88: whatever the order of its calls, a drawing program leaves a drawn network: each road is stored under its id, has its own
PlanView with at least one geometry and without forced headings, and its links are those that were made. The roads are
those that were added. -/
theorem C88_drawn (p : List (Call (Fl R))) (hd : Drawing p) (s : Session (Fl R)) (hs : Blank s)
    (o : Nat) (name : String) (ho : .openDrive o name ∈ p) :
    let net := (worldOf (runCalls p s).2 o).net
    net.roads.keys.Nodup ∧ (∀ k r, net.roads.get? k = some r → DrawnFl k r) ∧ ArcsCurved net.geoms ∧
      OwnPlanViews ((runCalls p s).2.net o) ∧
      ∀ k, k ∈ net.roads.keys ↔ ∃ v i pv l t n ru, .road v i pv l t n ru ∈ p ∧ .addRoad o v ∈ p ∧ i.toStr = k := by
  have inv := inv_drawing p hd hs
  have hm : Made p (.openDrive o) := ⟨_, ho, rfl⟩
  obtain ⟨n1, n2⟩ := inv.odrs o hm
  have key := worldOf_keys (runCalls p s).2 o
  dsimp only
  refine ⟨by rw [key]; exact n1, ?_, inv.blank.arcs, ?_, ?_⟩
  · intro k r hr
    obtain ⟨v, h1, rfl⟩ := worldOf_get hr
    obtain ⟨h2, h3⟩ := n2 _ h1
    obtain ⟨i, pv, l, t, n, ru, r1, r2, r3, r4⟩ := inv.roads v h2
    obtain ⟨x, y, h, pv0, g1, g2, g3⟩ := inv.pvs pv (inv.plans _ _ _ _ _ _ _ r1)
    refine ⟨h3, r4.1, r4.2, x, y, h, pv0, geomCalls pv p, g2, ?_, ?_, ?_⟩
    · simp only [Session.readRoad, r2, g3]
    · obtain ⟨g, hg⟩ := hd.nonempty _ _ _ _ g1
      exact List.ne_nil_of_mem (mem_geomCalls hg)
    · exact fun c hc => hd.headings _ _ _ (geomCalls_mem hc)
  · intro k k' r r' hr hr' hne he
    have m1 := get?_mem hr
    have m2 := get?_mem hr'
    simp only [Session.net, List.mem_map] at m1 m2
    obtain ⟨⟨k1, v1⟩, a1, a2⟩ := m1
    obtain ⟨⟨k2, v2⟩, b1, b2⟩ := m2
    cases a2; cases b2
    obtain ⟨i, pv, l, t, n, ru, r1, r2, r3, r4⟩ := inv.roads v1 (n2 _ a1).1
    obtain ⟨i', pv', l', t', n', ru', q1, q2, q3, q4⟩ := inv.roads v2 (n2 _ b1).1
    have : pv = pv' := by rw [← r2, ← q2]; exact he
    subst this
    have hv := hd.own _ _ _ _ _ _ _ _ _ _ _ _ _ r1 q1
    subst hv
    exact hne (((n2 _ a1).2).symm.trans (n2 _ b1).2)
  · intro k
    rw [key, inv.added o hm k]
    constructor
    · rintro ⟨v, h1, h2⟩
      obtain ⟨i, pv, l, t, n, ru, r1, r2, r3, r4⟩ := inv.roads v (inv.puts o v h1).2
      exact ⟨v, i, pv, l, t, n, ru, r1, h1, by rw [← r3]; exact h2⟩
    · rintro ⟨v, i, pv, l, t, n, ru, h1, h2, h3⟩
      obtain ⟨i', pv', l', t', n', ru', r1, r2, r3, r4⟩ := inv.roads v (inv.puts o v h2).2
      refine ⟨v, h2, ?_⟩
      have : i' = i := road_once hd.proper r1 h1
      rw [r3, this]; exact h3

theorem runCalls_append {F : Type} [PyFloat F] (p q : List (Call F)) : ∀ s, runCalls (p ++ q) s =
    ((runCalls p s).1 ++ (runCalls q (runCalls p s).2).1, (runCalls q (runCalls p s).2).2) := by
  induction p with
  | nil => intro s; rfl
  | cons c p ih => intro s; simp [runCalls, ih]

/-- What `adjust_roads_and_lanes` after a drawing program has left. -/
theorem drawing_adjusted (p : List (Call (Fl R))) (hd : Drawing p) (s : Session (Fl R)) (hs : Blank s)
    (o : Nat) (name : String) (ho : .openDrive o name ∈ p)
    (hok : (.adjust o, none) ∈ (runCalls (p ++ [.adjust o]) s).1) :
    World.adjustRoadsAndLanes (worldOf (runCalls p s).2 o) = .ok () (worldOf (runCalls (p ++ [.adjust o]) s).2 o) ∧
      ∀ kv ∈ ((runCalls (p ++ [.adjust o]) s).2.readOpenDrive ((runCalls (p ++ [.adjust o]) s).2.openDrives.cell o)).roads,
        GoodRoad (runCalls (p ++ [.adjust o]) s).2.heap kv.2 := by
  have inv := inv_drawing p hd hs
  obtain ⟨n1, -, -, own, -⟩ := C88_drawn p hd s hs o name ho
  rw [worldOf_keys] at n1
  rw [runCalls_append] at hok ⊢
  have hno : ∀ (q : List (Call (Fl R))) s, .adjust o ∉ q → (.adjust o, none) ∉ (runCalls q s).1 := by
    intro q
    induction q with
    | nil => intro s _ h; cases h
    | cons c q ih =>
      intro s hq h
      rcases List.mem_cons.mp h with h | h
      · exact hq (by rw [(Prod.mk.inj h).1]; simp)
      · exact ih _ (fun h => hq (List.mem_cons_of_mem _ h)) h
  have hlast : ((Call.adjust o).step (runCalls p s).2).1 = none := by
    rcases List.mem_append.mp hok with h | h
    · exact absurd h (hno p s (hd.once o))
    · have := List.mem_singleton.mp h
      exact ((Prod.mk.inj this).2).symm
  have hv := adjust_values _ o n1 own
  have hstep : (runCalls [.adjust o] (runCalls p s).2).2 = ((Call.adjust o).step (runCalls p s).2).2 := rfl
  dsimp only
  rw [hstep]
  unfold Call.step at hlast ⊢
  simp only [Call.run] at hlast ⊢
  cases ha : Session.adjust o (runCalls p s).2 with
  | error e s2 => rw [ha] at hlast; cases hlast
  | ok u s2 =>
    rw [ha] at hv
    obtain ⟨v1, pvs, geoms, lanes, rfl, v3⟩ := hv
    refine ⟨v1, fun kv hkv => ⟨fun sec _ l _ m hm => ?_, fun i _ => inv.blank.signals i⟩⟩
    refine inv.blank.marks l m ?_
    have := congrArg Lane.roadmark (v3.2 l)
    exact this.trans hm

/-- `C86_document` for objects. -/
theorem session_document (f a : ℝ) (hf : FresnelAccurate R f) (ha : ArctanAccurate R a) (s1 s2 : Session (Fl R)) (o : Nat)
    (hnet : DrawnNetFl (worldOf s1 o).net) (hadj : World.adjustRoadsAndLanes (worldOf s1 o) = .ok () (worldOf s2 o))
    (hgood : ∀ kv ∈ (s2.readOpenDrive (s2.openDrives.cell o)).roads, GoodRoad s2.heap kv.2) (date : String)
    (element : Xml (Fl R)) (he : s2.getElement o date = .ok element)
    (doc : RDocument (Fl R)) (hdoc : readDocument element = some doc) :
    doc.roads.map RRoad.id = (worldOf s1 o).net.roads.keys ∧ ∀ rd ∈ doc.roads, rd.OneLineNearly f a ∧
      doc.LeadsNearly f a (Anchor (worldOf s1 o).net.roads) (declaredOffset (worldOf s1 o).net.roads) rd :=
  C86_document f a hf ha _ _ hnet hadj (s2.readOpenDrive (s2.openDrives.cell o)) s2.heap date rfl rfl hgood element he doc hdoc

/-- C88: a program makes, connects, fills and adds roads in any order and then calls `adjust_roads_and_lanes`, which returns
normally. Whoever reads the document finds the roads that were added; each is nearly one line and leads, from joint to nearly
meeting joint, to an anchor. -/
theorem C88_document (f a : ℝ) (hf : FresnelAccurate R f) (ha : ArctanAccurate R a)
    (p : List (Call (Fl R))) (hd : Drawing p) (s : Session (Fl R)) (hs : Blank s) (o : Nat) (name : String)
    (ho : .openDrive o name ∈ p) (hok : (.adjust o, none) ∈ (runCalls (p ++ [.adjust o]) s).1)
    (hpoly : ∀ k r i, (worldOf (runCalls p s).2 o).net.roads.get? k = some r →
      ¬ Anchor (worldOf (runCalls p s).2 o).net.roads k → r.planview.raw = [i] →
      polyOf ((runCalls p s).2.geoms.cell i) = none)
    (date : String) (element : Xml (Fl R)) (he : (runCalls (p ++ [.adjust o]) s).2.getElement o date = .ok element)
    (doc : RDocument (Fl R)) (hdoc : readDocument element = some doc) :
    (∀ k, k ∈ doc.roads.map RRoad.id ↔ ∃ v i pv l t n ru, .road v i pv l t n ru ∈ p ∧ .addRoad o v ∈ p ∧ i.toStr = k) ∧
      ∀ rd ∈ doc.roads, rd.OneLineNearly f a ∧
        doc.LeadsNearly f a (Anchor (worldOf (runCalls p s).2 o).net.roads)
          (declaredOffset (worldOf (runCalls p s).2 o).net.roads) rd := by
  obtain ⟨n1, n2, n3, n4, n5⟩ := C88_drawn p hd s hs o name ho
  obtain ⟨hadj, hgood⟩ := drawing_adjusted p hd s hs o name ho hok
  obtain ⟨c1, c2⟩ := session_document f a hf ha _ _ o ⟨n1, n2, n3, hpoly⟩ hadj hgood date element he doc hdoc
  exact ⟨fun k => by rw [c1]; exact n5 k, c2⟩

/-- `C86_file` for objects. -/
theorem session_file (f a : ℝ) (hf : FresnelAccurate R f) (ha : ArctanAccurate R a) (s1 s2 : Session (Fl R)) (o : Nat)
    (hnet : DrawnNetFl (worldOf s1 o).net) (hadj : World.adjustRoadsAndLanes (worldOf s1 o) = .ok () (worldOf s2 o))
    (hgood : ∀ kv ∈ (s2.readOpenDrive (s2.openDrives.cell o)).roads, GoodRoad s2.heap kv.2)
    (hone : ∀ k r, (worldOf s1 o).net.roads.get? k = some r → ¬ Anchor (worldOf s1 o).net.roads k → r.planview.raw.length = 1)
    (hrange : ∀ k r, (worldOf s1 o).net.roads.get? k = some r → ∀ i ∈ r.planview.raw, ∀ x,
      polyOf (s1.geoms.cell i) = some x → x.prange = "normalized" ∨ x.prange = "arcLength")
    (date : String) (element : Xml (Fl R)) (he : s2.getElement o date = .ok element)
    (show' : Fl R → String) (readNum : String → Option (Fl R)) (hnone : readNum "None" = none)
    (hnum : ∀ x, Occurs (.num x) element → readNum (show' x) = some x)
    (hrep : ∀ i, RepeatsNamed (s2.objs.cell i))
    (hshow : ∀ x, ∀ c ∈ (show' x).toList, XmlParser.isXmlChar c = true ∧ c ≠ '\n' ∧ c ≠ '\r' ∧ c ≠ '\t')
    (hlegal : ∀ t ∈ userTexts s2.heap date (s2.readOpenDrive (s2.openDrives.cell o)),
      ∀ c ∈ t.toList, XmlParser.isXmlChar c = true)
    (filename : Option String) (pretty : Bool)
    (hplain : pretty = true → ∀ t ∈ userTexts s2.heap date (s2.readOpenDrive (s2.openDrives.cell o)),
      ∀ c ∈ t.toList, c ≠ '\n' ∧ c ≠ '\r' ∧ c ≠ '\t') :
    ∃ text doc, (s2.readOpenDrive (s2.openDrives.cell o)).writeXml show' s2.heap date filename pretty =
        .ok (filename.getD ((s2.openDrives.cell o).name ++ ".xodr"), text) ∧
      readFile readNum text = some doc ∧ doc.roads.map RRoad.id = (worldOf s1 o).net.roads.keys ∧
      ∀ rd ∈ doc.roads, rd.OneLineNearly f a ∧
        doc.LeadsNearly f a (Anchor (worldOf s1 o).net.roads) (declaredOffset (worldOf s1 o).net.roads) rd :=
  C86_file f a hf ha _ _ hnet hadj (s2.readOpenDrive (s2.openDrives.cell o)) s2.heap date rfl rfl hgood element he hone hrange
    show' readNum hnone hnum (fun _ _ i _ => hrep i) hshow hlegal filename pretty hplain

/-- C88: and so it is in the written file. `s1` are the objects before, `s2` those after `adjust_roads_and_lanes`. The roads that
are not anchors have one geometry, the ParamPoly3 have a range of OpenDRIVE; the other hypotheses say that numbers are
printed and read back and that texts are legal in XML (C63, C64). -/
theorem C88_file (f a : ℝ) (hf : FresnelAccurate R f) (ha : ArctanAccurate R a)
    (p : List (Call (Fl R))) (hd : Drawing p) (s s1 s2 : Session (Fl R)) (hs : Blank s) (o : Nat) (name : String)
    (h1 : s1 = (runCalls p s).2) (h2 : s2 = (runCalls (p ++ [.adjust o]) s).2)
    (ho : .openDrive o name ∈ p) (hok : (.adjust o, none) ∈ (runCalls (p ++ [.adjust o]) s).1)
    (hpoly : ∀ k r i, (worldOf s1 o).net.roads.get? k = some r → ¬ Anchor (worldOf s1 o).net.roads k →
      r.planview.raw = [i] → polyOf (s1.geoms.cell i) = none)
    (hone : ∀ k r, (worldOf s1 o).net.roads.get? k = some r → ¬ Anchor (worldOf s1 o).net.roads k → r.planview.raw.length = 1)
    (hrange : ∀ k r, (worldOf s1 o).net.roads.get? k = some r → ∀ i ∈ r.planview.raw, ∀ x,
      polyOf (s1.geoms.cell i) = some x → x.prange = "normalized" ∨ x.prange = "arcLength")
    (date : String) (element : Xml (Fl R)) (he : s2.getElement o date = .ok element)
    (show' : Fl R → String) (readNum : String → Option (Fl R)) (hnone : readNum "None" = none)
    (hnum : ∀ x, Occurs (.num x) element → readNum (show' x) = some x)
    (hrep : ∀ i, RepeatsNamed (s2.objs.cell i))
    (hshow : ∀ x, ∀ c ∈ (show' x).toList, XmlParser.isXmlChar c = true ∧ c ≠ '\n' ∧ c ≠ '\r' ∧ c ≠ '\t')
    (hlegal : ∀ t ∈ userTexts s2.heap date (s2.readOpenDrive (s2.openDrives.cell o)),
      ∀ c ∈ t.toList, XmlParser.isXmlChar c = true)
    (filename : Option String) (pretty : Bool)
    (hplain : pretty = true → ∀ t ∈ userTexts s2.heap date (s2.readOpenDrive (s2.openDrives.cell o)),
      ∀ c ∈ t.toList, c ≠ '\n' ∧ c ≠ '\r' ∧ c ≠ '\t') :
    ∃ text doc, (s2.readOpenDrive (s2.openDrives.cell o)).writeXml show' s2.heap date filename pretty =
        .ok (filename.getD ((s2.openDrives.cell o).name ++ ".xodr"), text) ∧
      readFile readNum text = some doc ∧
      (∀ k, k ∈ doc.roads.map RRoad.id ↔ ∃ v i pv l t n ru, .road v i pv l t n ru ∈ p ∧ .addRoad o v ∈ p ∧ i.toStr = k) ∧
      ∀ rd ∈ doc.roads, rd.OneLineNearly f a ∧
        doc.LeadsNearly f a (Anchor (worldOf s1 o).net.roads) (declaredOffset (worldOf s1 o).net.roads) rd := by
  obtain ⟨n1, n2, n3, n4, n5⟩ := C88_drawn p hd s hs o name ho
  obtain ⟨hadj, hgood⟩ := drawing_adjusted p hd s hs o name ho hok
  rw [← h1] at n1 n2 n3 n5 hadj
  rw [← h2] at hadj hgood
  obtain ⟨text, doc, t1, t2, t3, t4⟩ := session_file f a hf ha s1 s2 o ⟨n1, n2, n3, hpoly⟩ hadj hgood hone hrange date
    element he show' readNum hnone hnum hrep hshow hlegal filename pretty hplain
  exact ⟨text, doc, t1, t2, fun k => by rw [t3]; exact n5 k, t4⟩

end Pyodrx.Props
