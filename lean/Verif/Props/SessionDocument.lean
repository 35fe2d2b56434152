import Verif.Spec.SessionDocument
import Verif.Props.SessionJoints
import Verif.Props.SessionContents

/-! # C97: the document of a program of calls, in terms of its calls -/

namespace Pyodrx.Props
open Pyodrx Pyodrx.Spec PyFloat

section
variable {F : Type}

theorem keepFirst_map_on {α β : Type} [DecidableEq α] [DecidableEq β] (f : α → β) : ∀ (l : List α),
    (∀ a ∈ l, ∀ b ∈ l, f a = f b → a = b) → keepFirst (l.map f) = (keepFirst l).map f := by
  intro l
  induction l with
  | nil => intro _; rfl
  | cons a l ih =>
    intro hf
    rw [List.map_cons, keepFirst, keepFirst, ih fun x hx y hy => hf x (by simp [hx]) y (by simp [hy]), List.map_cons, List.filter_map]
    congr 2
    refine List.filter_congr fun b hb => ?_
    have hb' := (keepFirst_mem _ _).mp hb
    have : f b = f a ↔ b = a := ⟨fun h => hf b (by simp [hb']) a (by simp) h, fun h => by rw [h]⟩
    simp [this]

theorem map_inj_on {α β : Type} (f : α → β) : ∀ (l m : List α), (∀ a ∈ l, ∀ b ∈ m, f a = f b → a = b) → l.map f = m.map f → l = m := by
  intro l
  induction l with
  | nil => intro m _ h; cases m with | nil => rfl | cons => simp at h
  | cons a l ih =>
    intro m hf h
    cases m with
    | nil => simp at h
    | cons b m =>
      simp only [List.map_cons, List.cons.injEq] at h
      rw [hf a (by simp) b (by simp) h.1, ih m (fun x hx y hy => hf x (by simp [hx]) y (by simp [hy])) h.2]

/-- The first of the calls that satisfy something. -/
theorem first_call {α : Type} (P : α → Prop) : ∀ {l : List α} {x : α}, x ∈ l → P x → ∃ a y b, l = a ++ y :: b ∧ P y ∧ ∀ z ∈ a, ¬ P z := by
  intro l
  induction l with
  | nil => intro x h; cases h
  | cons c l ih =>
    intro x hx hP
    by_cases hc : P c
    · exact ⟨[], c, l, rfl, hc, by simp⟩
    · rcases List.mem_cons.mp hx with rfl | hx
      · exact absurd hP hc
      · obtain ⟨a, y, b, rfl, h2, h3⟩ := ih hx hP
        exact ⟨c :: a, y, b, rfl, h2, by simpa [hc] using h3⟩

variable [PyFloat F]

/-- What is read of a lane. -/
theorem lane_shown (p : List (Call F)) (hp : Proper p) (s : Session F) (x : Nat) (hx : Made p (.lane x)) (n : Int) :
    LaneShown p x (shownLane ((runCalls p s).2.laneObjs.cell x) n) := by
  obtain ⟨d, hd, hm⟩ := hx
  cases d <;> simp [Makes] at hm
  case lane v t a b c d so =>
    subst hm
    obtain ⟨e1, e2, e3, e4, e5, e6, e7⟩ := C93_lane p hp s x t a b c d so hd
    refine ⟨?_, rfl, ?_⟩
    · simp only [shownLane, e1, e2, e3, e4, e5, e6]; exact hd
    · simp only [shownLane, e7]

theorem map_getElem_ids {α : Type} (f : α → Int) (g : Nat → Int) (l : List α) (h : ∀ n x, l[n]? = some x → f x = g n) :
    l.map f = (List.range l.length).map g := by
  refine List.ext_getElem? fun n => ?_
  rw [List.getElem?_map, List.getElem?_map]
  by_cases hn : n < l.length
  · rw [List.getElem?_eq_getElem hn, List.getElem?_range hn]
    simp [h n _ (List.getElem?_eq_getElem hn)]
  · rw [List.getElem?_eq_none (by omega), List.getElem?_eq_none (by simpa using hn)]
    rfl

/-- What is read of a lane section. -/
theorem section_shown (p : List (Call F)) (hp : Proper p) (s : Session F) (sec : Nat) (hsec : Made p (.laneSection sec))
    (hone : ∀ x ∈ leftCalls sec p ++ rightCalls sec p, (puts x p).length = 1) :
    SectionShown p sec (shownSection (runCalls p s).2.laneObjs ((runCalls p s).2.sections.cell sec)) := by
  obtain ⟨hn, hu⟩ := num_program p hp s
  obtain ⟨sc, ce, h1, -⟩ := hn.secs sec hsec
  obtain ⟨e1, e2, e3, e4⟩ := (C89_sections p hp s).1 sec sc ce h1
  have hmade : ∀ x ∈ leftCalls sec p ++ rightCalls sec p, Made p (.lane x) := by
    intro x hx
    rcases List.mem_append.mp hx with h | h
    · exact hu _ (leftCalls_mem.mp h) _ (.inr rfl)
    · exact hu _ (rightCalls_mem.mp h) _ (.inr rfl)
  refine ⟨?_, ?_, ?_, ?_, ce, _, by simp only [shownSection, e1]; exact h1, by simp only [shownSection, shownLanes, e2]; rfl,
    lane_shown p hp s ce (hu _ h1 _ rfl) _, ?_⟩
  · simp only [shownSection, shownLanes, e3]
    rw [List.forall₂_map_right_iff, List.forall₂_same]
    exact fun x hx => lane_shown p hp s x (hmade x (List.mem_append_left _ hx)) _
  · simp only [shownSection, shownLanes, e4]
    rw [List.forall₂_map_right_iff, List.forall₂_same]
    exact fun x hx => lane_shown p hp s x (hmade x (List.mem_append_right _ hx)) _
  · simp only [shownSection, shownLanes, e3, List.map_map]
    refine map_getElem_ids _ _ _ fun n x hx => ?_
    have := (C89_numbered p hp s sec sc ce h1 n x (hone x (List.mem_append_left _ (List.mem_of_getElem? hx)))).1 (e3.symm ▸ hx)
    simp [shownLane, this]
  · simp only [shownSection, shownLanes, e4, List.map_map]
    refine map_getElem_ids _ _ _ fun n x hx => ?_
    have := (C89_numbered p hp s sec sc ce h1 n x (hone x (List.mem_append_right _ (List.mem_of_getElem? hx)))).2 (e4.symm ▸ hx)
    simp [shownLane, this]
  · intro h
    have := C89_center p hp s sec sc ce h1 (fun sec' => (h sec').1) (fun sec' => (h sec').2)
    simp [shownLane, this]

theorem signal_shown (p : List (Call F)) (hp : Proper p) (s : Session F) (x : Nat) (hx : Made p (.signal x)) :
    SignalShown p x (shownSignal ((runCalls p s).2.sigs.cell x)) := by
  obtain ⟨d, hd, hm⟩ := hx
  cases d <;> simp [Makes] at hm
  case signal v g =>
    subst hm
    have h := C93_signal p hp s x g hd
    refine ⟨g, ((runCalls p s).2.sigs.cell x).base.id, hd, congrArg shownSignal ?_⟩
    have := congrArg (fun g : Signal F => { g with base := { g.base with id := ((runCalls p s).2.sigs.cell x).base.id } }) h
    exact this

theorem repeats_id (cs : List (F × F × RepeatArgs F)) (id : Option PyId) : ∀ ob : Obj F,
    cs.foldl (fun ob c => ob.repeat c.1 c.2.1 c.2.2) { ob with base := { ob.base with id := id } } =
      { cs.foldl (fun ob c => ob.repeat c.1 c.2.1 c.2.2) ob with
        base := { (cs.foldl (fun ob c => ob.repeat c.1 c.2.1 c.2.2) ob).base with id := id } } := by
  induction cs with
  | nil => intro ob; rfl
  | cons c cs ih => intro ob; rw [List.foldl_cons, List.foldl_cons, ← ih]; rfl

theorem object_shown (p : List (Call F)) (hp : Proper p) (s : Session F) (x : Nat) (hx : Made p (.object x)) :
    ObjectShown p x (shownObject ((runCalls p s).2.objs.cell x)) := by
  obtain ⟨d, hd, hm⟩ := hx
  cases d <;> simp [Makes] at hm
  case object v g =>
    subst hm
    have h := C93_object p hp s x g hd
    refine ⟨g, ((runCalls p s).2.objs.cell x).base.id, hd, congrArg shownObject ?_⟩
    have := congrArg (fun g : Obj F => { g with base := { g.base with id := ((runCalls p s).2.objs.cell x).base.id } }) h
    rw [show Obj.anonymous g = { g with base := { g.base with id := none } } from rfl] at this
    rw [repeats_id] at this ⊢
    exact this

theorem connection_shown (p : List (Call F)) (hp : Proper p) (s : Session F) (j x : Nat) (hx : x ∈ connectionCalls j p) :
    ConnectionShown p x (shownConnection ((runCalls p s).2.connections.cell x)) := by
  have hu := (num_program p hp s).2
  have hmem := connectionCalls_mem.mp hx
  obtain ⟨inc, con, cp, id, i, h1, -, -, -⟩ := con_program p hp s x (hu _ hmem _ (.inr rfl))
  obtain ⟨a, y, b, e, ⟨j', rfl⟩, h3⟩ := first_call (fun c => ∃ j', c = Call.addConnection j' x) hmem ⟨j, rfl⟩
  have := (C89_connections p hp s).2 a b j' x inc con cp id e h1 (fun j'' h => h3 _ h ⟨j'', rfl⟩)
  rw [this]
  refine ⟨inc, con, id, h1, rfl, rfl, rfl, ?_⟩
  rintro n rfl
  rfl

theorem junction_shown (p : List (Call F)) (hp : Proper p) (s : Session F) (j : Nat) (hj : Made p (.junction j)) :
    JunctionShown p j (shownJunction ((runCalls p s).2.readJunction ((runCalls p s).2.junctions.cell j))) := by
  obtain ⟨d, hd, hm⟩ := hj
  cases d <;> simp [Makes] at hm
  case junction v name id =>
    subst hm
    rw [(C89_connections p hp s).1 j name id hd]
    refine ⟨id, hd, rfl, ?_⟩
    simp only [shownJunction, List.map_map]
    rw [List.forall₂_map_right_iff, List.forall₂_same]
    exact fun x hx => connection_shown p hp s j x hx

/-- The roads of the document are the added roads, each once. -/
theorem doc_form (p : List (Call F)) (hp : Proper p) (s : Session F) (o : Nat) (name : String) (ho : .openDrive o name ∈ p)
    (hids : ∀ v i pv l t n ru w j pv' l' t' n' ru', .addRoad o v ∈ p → .addRoad o w ∈ p → .road v i pv l t n ru ∈ p →
      .road w j pv' l' t' n' ru' ∈ p → i.toStr = j.toStr → v = w)
    (date : String) (element : Xml F) (he : (runCalls p s).2.getElement o date = .ok element) (doc : RDocument F)
    (hdoc : readDocument element = some doc)
    (hgood : ∀ kv ∈ ((runCalls p s).2.readOpenDrive ((runCalls p s).2.openDrives.cell o)).roads, GoodRoad (runCalls p s).2.heap kv.2) :
    ∃ gs : Road F → List (RGeometry F),
      (∀ kv ∈ ((runCalls p s).2.readOpenDrive ((runCalls p s).2.openDrives.cell o)).roads,
        readPlanView (kv.2.planview.getElement (runCalls p s).2.heap.geoms) = some (gs kv.2)) ∧
      ((runCalls p s).2.openDrives.cell o).roads.map (·.2) = keepFirst (roadCalls o p) ∧
      doc = ⟨name, (keepFirst (roadCalls o p)).map fun v =>
          shownRoad (runCalls p s).2.heap ((runCalls p s).2.readRoad ((runCalls p s).2.roads.cell v))
            (gs ((runCalls p s).2.readRoad ((runCalls p s).2.roads.cell v))),
        (junctionCalls o p).map fun j => shownJunction ((runCalls p s).2.readJunction ((runCalls p s).2.junctions.cell j))⟩ := by
  obtain ⟨name', roads, h1, h2, h3, h4⟩ := odrIs_program p hp s o ⟨_, ho, rfl⟩
  cases made_once hp (x := .openDrive o) ho h1 rfl rfl
  have hkeys := (idsInv_program p hp s).keys o ⟨_, ho, rfl⟩
  rw [h2] at hkeys
  obtain ⟨k1, k2⟩ := hkeys
  obtain ⟨gs, hgs, rfl⟩ := document_read he hgood hdoc
  obtain ⟨hn, hu⟩ := num_program p hp s
  have hmade : ∀ v ∈ roadCalls o p, Made p (.road v) := fun v hv => hu _ (roadCalls_mem.mp hv) _ (.inr rfl)
  have hr : ∀ v ∈ roadCalls o p, RoadIs v p ((runCalls p s).2.roads.cell v) := fun v hv => roadIs_program p hp s v (hmade v hv)
  have hinj : ∀ v ∈ roadCalls o p, ∀ w ∈ roadCalls o p, roadText (runCalls p s).2 v = roadText (runCalls p s).2 w → v = w :=
    fun v hv w hw e => hids _ _ _ _ _ _ _ _ _ _ _ _ _ _ (roadCalls_mem.mp hv) (roadCalls_mem.mp hw) (hr v hv).made (hr w hw).made e
  have hdict : roads.map (·.2) = keepFirst (roadCalls o p) := by
    refine map_inj_on (roadText (runCalls p s).2) _ _ (fun v hv w hw => ?_) ?_
    · obtain ⟨⟨k, v⟩, hkv, rfl⟩ := List.mem_map.mp hv
      have hg := h4 k
      rw [Dict.mem_get? k1 hkv] at hg
      obtain ⟨a, b, e, -, -⟩ := filter_getLast hg.symm
      exact hinj v (by rw [e]; simp) w ((keepFirst_mem _ _).mp hw)
    · rw [← keepFirst_map_on _ _ hinj, ← h3, List.map_map]
      exact List.map_congr_left fun kv hkv => (k2 kv hkv).2
  refine ⟨gs, hgs, by rw [h2]; exact hdict, ?_⟩
  rw [← hdict, h2]
  simp only [Session.readOpenDrive, List.map_map]
  rfl

/-- C97: in a program of calls in any order (`adjust_roads_and_lanes` may be among them) that adds roads with different ids and puts
each lane of their sections into one place, what is read of the document is what the calls say. -/
theorem C97_document (p : List (Call F)) (hp : Proper p) (s : Session F) (o : Nat) (name : String) (ho : .openDrive o name ∈ p)
    (hids : ∀ v i pv l t n ru w j pv' l' t' n' ru', .addRoad o v ∈ p → .addRoad o w ∈ p → .road v i pv l t n ru ∈ p →
      .road w j pv' l' t' n' ru' ∈ p → i.toStr = j.toStr → v = w)
    (honce : ∀ v i pv l t n ru sec x, .addRoad o v ∈ p → .road v i pv l t n ru ∈ p → sec ∈ sectionCalls l p →
      x ∈ leftCalls sec p ++ rightCalls sec p → (puts x p).length = 1)
    (date : String) (element : Xml F) (he : (runCalls p s).2.getElement o date = .ok element) (doc : RDocument F)
    (hdoc : readDocument element = some doc)
    (hgood : ∀ kv ∈ ((runCalls p s).2.readOpenDrive ((runCalls p s).2.openDrives.cell o)).roads, GoodRoad (runCalls p s).2.heap kv.2) :
    DocumentShown p o doc := by
  obtain ⟨gs, -, -, rfl⟩ := doc_form p hp s o name ho hids date element he doc hdoc hgood
  obtain ⟨hn, hu⟩ := num_program p hp s
  have hmade : ∀ v ∈ roadCalls o p, Made p (.road v) := fun v hv => hu _ (roadCalls_mem.mp hv) _ (.inr rfl)
  have hr : ∀ v ∈ roadCalls o p, RoadIs v p ((runCalls p s).2.roads.cell v) := fun v hv => roadIs_program p hp s v (hmade v hv)
  refine ⟨?_, ?_, ?_⟩
  · exact ho
  · rw [List.forall₂_map_right_iff, List.forall₂_same]
    intro v hv
    have hv := (keepFirst_mem _ _).mp hv
    have hm := hr v hv
    obtain ⟨-, -, -, l1, l2, l3, l4⟩ := C91_links p hp s v _ _ _ _ _ _ hm.made _ rfl
    obtain ⟨b1, b2⟩ := C90_roads p hp s v _ _ _ _ _ _ hm.made
    refine ⟨⟨_, _, _, _, _, hm.made, rfl, rfl, rfl, ?_⟩, ⟨((runCalls p s).2.roads.cell v).attrs.links, ?_, l4, l1, l2, l3⟩, ?_, ?_⟩
    · simp only [shownRoad, Session.readRoad, List.map_map]
      rw [hn.lanes _ (hn.roads v (hmade v hv)), List.forall₂_map_right_iff, List.forall₂_same]
      intro sec hsec
      obtain ⟨ls, hls⟩ := sectionCalls_mem.mp hsec
      exact section_shown p hp s sec (hu _ hls _ (.inr (.inl rfl)))
        fun x hx => honce v _ _ _ _ _ _ sec x (roadCalls_mem.mp hv) hm.made hsec hx
    · have hk := hm.links.kinds
      show shownLinks ((runCalls p s).2.roads.cell v).attrs.links = _
      unfold shownLinks
      rw [List.filter_eq_self.mpr]
      intro l hl
      rcases hk l hl with h | h | h <;> simp [h]
    · simp only [shownRoad, Session.readRoad, b2]
      rw [List.forall₂_map_right_iff, List.forall₂_same]
      intro x hx
      obtain ⟨c, hc, hx⟩ := List.mem_flatMap.mp hx
      refine signal_shown p hp s x ?_
      cases c <;> simp at hx
      case addSignal r os => exact hu _ hc _ (.inr ⟨x, hx.2, rfl⟩)
    · simp only [shownRoad, Session.readRoad, b1]
      rw [List.forall₂_map_right_iff, List.forall₂_same]
      intro x hx
      obtain ⟨c, hc, hx⟩ := List.mem_flatMap.mp hx
      refine object_shown p hp s x ?_
      cases c <;> simp at hx
      case addObject r os => exact hu _ hc _ (.inr ⟨x, hx.2, rfl⟩)
  · rw [List.forall₂_map_right_iff, List.forall₂_same]
    intro j hj
    refine junction_shown p hp s j ?_
    rw [junctionCalls, List.mem_filterMap] at hj
    obtain ⟨c, hc, hx⟩ := hj
    cases c <;> simp only [reduceCtorEq] at hx
    split at hx
    · cases hx
      exact hu _ hc _ (.inr rfl)
    · cases hx

theorem proper_adjust {p : List (Call F)} (hp : Proper p) {o : Nat} (ho : ∃ name, .openDrive o name ∈ p) : Proper (p ++ [.adjust o]) := by
  intro before c rest e
  rcases List.eq_nil_or_concat rest with rfl | ⟨rest', d, rfl⟩
  · obtain ⟨rfl, h⟩ := List.append_inj' e (by simp)
    cases h
    refine ⟨fun x hx => ?_, fun x hx => by cases hx⟩
    obtain ⟨name, ho⟩ := ho
    cases hx
    exact ⟨_, ho, rfl⟩
  · have e' : p ++ [.adjust o] = (before ++ c :: rest') ++ [d] := by rw [e]; simp
    obtain ⟨h, -⟩ := List.append_inj' e' (by simp)
    exact hp before c rest' h

/-- The call `adjust_roads_and_lanes` adds nothing to what the calls say. -/
theorem shown_adjust {p : List (Call F)} {o o' : Nat} {doc : RDocument F} (h : DocumentShown (p ++ [.adjust o']) o doc) :
    DocumentShown p o doc := by
  have e1 : ∀ x, markCalls x (p ++ [.adjust o']) = markCalls x p := fun x => by simp [markCalls]
  have e2 : ∀ x, leftCalls x (p ++ [.adjust o']) = leftCalls x p := fun x => by simp [leftCalls]
  have e3 : ∀ x, rightCalls x (p ++ [.adjust o']) = rightCalls x p := fun x => by simp [rightCalls]
  have e4 : ∀ x, sectionCalls x (p ++ [.adjust o']) = sectionCalls x p := fun x => by simp [sectionCalls]
  have e5 : ∀ x, laneLinkCalls x (p ++ [.adjust o']) = laneLinkCalls x p := fun x => by simp [laneLinkCalls]
  have e6 : ∀ x, connectionCalls x (p ++ [.adjust o']) = connectionCalls x p := fun x => by simp [connectionCalls]
  have e7 : ∀ x, repeatCalls x (p ++ [.adjust o']) = repeatCalls x p := fun x => by simp [repeatCalls]
  have e8 : ∀ x, predecessorCalls x (p ++ [.adjust o']) = predecessorCalls x p := fun x => by simp [predecessorCalls]
  have e9 : ∀ x, successorCalls x (p ++ [.adjust o']) = successorCalls x p := fun x => by simp [successorCalls]
  have e10 : ∀ x, neighborCalls x (p ++ [.adjust o']) = neighborCalls x p := fun x => by simp [neighborCalls]
  have e11 : ∀ x, linkCalls x (p ++ [.adjust o']) = linkCalls x p := fun x => by
    simp [linkCalls, predecessorCalls, successorCalls, neighborCalls]
  have e12 : ∀ x, signalCalls x (p ++ [.adjust o']) = signalCalls x p := fun x => by simp [signalCalls]
  have e13 : ∀ x, objectCalls x (p ++ [.adjust o']) = objectCalls x p := fun x => by simp [objectCalls]
  have e14 : ∀ x, roadCalls x (p ++ [.adjust o']) = roadCalls x p := fun x => by simp [roadCalls]
  have e15 : ∀ x, junctionCalls x (p ++ [.adjust o']) = junctionCalls x p := fun x => by simp [junctionCalls]
  have hl : ∀ x L, LaneShown (p ++ [.adjust o']) x L → LaneShown p x L := fun x L h => by
    simpa [LaneShown, e1] using h
  have hs : ∀ x S, SectionShown (p ++ [.adjust o']) x S → SectionShown p x S := by
    rintro x S ⟨h1, h2, h3, h4, c, L, h5, h6, h7, h8⟩
    rw [e2] at h1 h3
    rw [e3] at h2 h4
    exact ⟨h1.imp (fun x L => hl x L), h2.imp (fun x L => hl x L), h3, h4, c, L, by simpa using h5, h6, hl _ _ h7, by simpa using h8⟩
  refine ⟨by simpa using h.name, ?_, ?_⟩
  · have := h.roads
    rw [e14] at this
    refine this.imp ?_
    rintro v rd ⟨⟨i, pv, l, n, ru, m1, m2, m3, m4, m5⟩, h2, h3, h4⟩
    rw [e4] at m5
    rw [e8, e9, e10, e11] at h2
    rw [e12] at h3
    rw [e13] at h4
    refine ⟨⟨i, pv, l, n, ru, by simpa using m1, m2, m3, m4, m5.imp (fun x S => hs x S)⟩, h2, h3.imp ?_, h4.imp ?_⟩
    · rintro x G ⟨g, id, g1, g2⟩
      exact ⟨g, id, by simpa using g1, g2⟩
    · rintro x G ⟨g, id, g1, g2⟩
      rw [e7] at g2
      exact ⟨g, id, by simpa using g1, g2⟩
  · have := h.junctions
    rw [e15] at this
    refine this.imp ?_
    rintro j J ⟨id, j1, j2, j3⟩
    rw [e6] at j3
    refine ⟨id, by simpa using j1, j2, j3.imp ?_⟩
    rintro x C ⟨inc, con, i, c1, c2, c3, c4, c5⟩
    rw [e5] at c4
    exact ⟨inc, con, i, by simpa using c1, c2, c3, c4, c5⟩

end

section
variable {R : Rounding}

theorem adjust_run (p : List (Call (Fl R))) (s : Session (Fl R)) (o : Nat) :
    (runCalls (p ++ [.adjust o]) s).2 = ((Call.adjust o).step (runCalls p s).2).2 := by
  rw [runCalls_append]; rfl

theorem laidOut_returns (p : List (Call (Fl R))) (s : Session (Fl R)) (hs : Blank s) (o : Nat) (h : LaidOut p o) :
    (.adjust o, none) ∈ (runCalls (p ++ [.adjust o]) s).1 := by
  obtain ⟨name, ho⟩ := h.document
  rw [runCalls_append]
  refine List.mem_append_right _ ?_
  have := (C92_returns p h.drawing s hs o name ho h.linked h.fitting).1.mpr h.reached
  show (Call.adjust o, none) ∈ [(Call.adjust o, ((Call.adjust o).step (runCalls p s).2).1)]
  rw [this]; simp

theorem laidOut_ids {p : List (Call (Fl R))} {o : Nat} (h : LaidOut p o) :
    ∀ v i pv l t n ru w j pv' l' t' n' ru', .addRoad o v ∈ p ++ [.adjust o] → .addRoad o w ∈ p ++ [.adjust o] →
      .road v i pv l t n ru ∈ p ++ [.adjust o] → .road w j pv' l' t' n' ru' ∈ p ++ [.adjust o] → i.toStr = j.toStr → v = w := by
  intro v i pv l t n ru w j pv' l' t' n' ru' h1 h2 h3 h4 e
  simp only [List.mem_append, List.mem_singleton, reduceCtorEq, or_false] at h1 h2 h3 h4
  exact h.linked.ids v i t w j t' ⟨h1, _, _, _, _, h3⟩ ⟨h2, _, _, _, _, h4⟩ e

/-- C97: the document of a laid out program after `adjust_roads_and_lanes` can be emitted, and what is read of it is what the calls
say. -/
theorem C97_adjusted (p : List (Call (Fl R))) (s : Session (Fl R)) (hs : Blank s) (o : Nat) (h : LaidOut p o) (date : String) :
    ∃ element, (runCalls (p ++ [.adjust o]) s).2.getElement o date = .ok element ∧
      ∀ doc, readDocument element = some doc → DocumentShown p o doc := by
  obtain ⟨name, ho⟩ := h.document
  have hp := proper_adjust h.drawing.proper ⟨name, ho⟩
  obtain ⟨-, hgood⟩ := drawing_adjusted p h.drawing s hs o name ho (laidOut_returns p s hs o h)
  have hids := laidOut_ids h
  have key : ∀ doc, DocumentShown (p ++ [.adjust o]) o doc → DocumentShown p o doc := fun doc => shown_adjust
  have honce : ∀ v i pv l t n ru sec x, .addRoad o v ∈ p ++ [.adjust o] → .road v i pv l t n ru ∈ p ++ [.adjust o] →
      sec ∈ sectionCalls l (p ++ [.adjust o]) → x ∈ leftCalls sec (p ++ [.adjust o]) ++ rightCalls sec (p ++ [.adjust o]) →
      (puts x (p ++ [.adjust o])).length = 1 := by
    intro v i pv l t n ru sec x h1 h2 h3 h4
    have e1 : sectionCalls l (p ++ [.adjust o]) = sectionCalls l p := by simp [sectionCalls]
    have e2 : leftCalls sec (p ++ [.adjust o]) = leftCalls sec p := by simp [leftCalls]
    have e3 : rightCalls sec (p ++ [.adjust o]) = rightCalls sec p := by simp [rightCalls]
    have e4 : puts x (p ++ [.adjust o]) = puts x p := by simp [puts]
    rw [e1] at h3
    rw [e2, e3] at h4
    rw [e4]
    simp only [List.mem_append, List.mem_singleton, reduceCtorEq, or_false] at h1 h2
    exact h.fitting.once v i l t sec x ⟨h1, _, _, _, h2⟩ h3 h4
  have ho' : .openDrive o name ∈ p ++ [.adjust o] := List.mem_append_left _ ho
  generalize p ++ [.adjust o] = q at hp hgood hids key honce ho' ⊢
  obtain ⟨element, he⟩ := C89_emits q hp s o name ho' date
  exact ⟨element, he, fun doc hdoc => key doc (C97_document q hp s o name ho' hids honce date element he doc hdoc hgood)⟩

theorem linkTag_kind (k : LinkKind) (e : ContactPoint) : k.text = linkTag e ↔ k = kindAt e := by
  cases k <;> cases e <;> decide

/-- The links that are read of a lane are those that `adjust_roads_and_lanes` has given it. -/
theorem lane_links (p : List (Call (Fl R))) (s : Session (Fl R)) (hs : Blank s) (o : Nat) (h : LaidOut p o) (hpl : PlainLanes p)
    (x : Nat) (hx : Made p (.lane x)) (n : Int) :
    let L := shownLane (((Call.adjust o).step (runCalls p s).2).2.laneObjs.cell x) n
    let new := newLinks (runCalls p s).2.laneObjs ((Call.adjust o).step (runCalls p s).2).2.laneObjs x
    (∀ e, L.linksTo (linkTag e) = (new (kindAt e)).map shownLink) ∧ ∀ k ∈ L.links, ∃ K, k.tag = K.text ∧ new K ≠ [] := by
  obtain ⟨d, hd, hm⟩ := hx
  cases d <;> simp [Makes] at hm
  case lane v t a b c d so =>
    subst hm
    have h0 : ((runCalls p s).2.laneObjs.cell x).links = [] := by
      rw [C93_lane_links p h.drawing.proper h.drawing.once hpl.linkers s x t a b c d so hd]
      rw [laneAddLinkCalls, List.filterMap_eq_nil_iff]
      intro c hc
      cases c <;> simp
      case addLaneLink l k id => exact absurd hc (hpl.links l k id)
    intro L new
    have e0 : ∀ K, new K = (((Call.adjust o).step (runCalls p s).2).2.laneObjs.cell x).links.filter (·.kind = K) := by
      intro K
      simp only [new, newLinks, h0, List.length_nil, List.drop_zero]
    refine ⟨fun e => ?_, fun k hk => ?_⟩
    · rw [e0]
      simp only [L, RLane.linksTo, shownLane, shownLinks, List.filter_map, List.filter_filter]
      congr 1
      refine List.filter_congr fun l _ => ?_
      have e1 : (l.kind.text = linkTag e ∧ l.kind ≠ .pyNone) ↔ l.kind = kindAt e := by
        rw [linkTag_kind]
        refine ⟨And.left, fun h => ⟨h, ?_⟩⟩
        rw [h]
        cases e <;> decide
      rw [Bool.eq_iff_iff, Bool.and_eq_true, decide_eq_true_iff, decide_eq_true_iff, ← e1]
      have e2 : (shownLink l).tag = l.kind.text := rfl
      simp only [Function.comp_apply, e2, decide_eq_true_iff]
    · simp only [L, shownLane, shownLinks, List.mem_map, List.mem_filter] at hk
      obtain ⟨l, ⟨hl, -⟩, rfl⟩ := hk
      refine ⟨l.kind, rfl, ?_⟩
      rw [e0]
      exact List.ne_nil_of_mem (List.mem_filter.mpr ⟨hl, by simp⟩)

/-- A road of the document, by its id: its sections are those of the calls, with the lanes as they are after
`adjust_roads_and_lanes`. -/
theorem doc_sections (p : List (Call (Fl R))) (s : Session (Fl R)) (hs : Blank s) (o : Nat) (h : LaidOut p o) (date : String)
    (element : Xml (Fl R)) (he : (runCalls (p ++ [.adjust o]) s).2.getElement o date = .ok element) (doc : RDocument (Fl R))
    (hdoc : readDocument element = some doc) {rd : RRoad (Fl R)} (hrd : rd ∈ doc.roads) :
    ∃ v i l, AddsLanes p o v i l rd.junction ∧ rd.id = i.toStr ∧
      rd.sections = (sectionCalls l p).map fun sec =>
        shownSection ((Call.adjust o).step (runCalls p s).2).2.laneObjs (((Call.adjust o).step (runCalls p s).2).2.sections.cell sec) := by
  obtain ⟨name, ho⟩ := h.document
  have hp := proper_adjust h.drawing.proper ⟨name, ho⟩
  obtain ⟨-, hgood⟩ := drawing_adjusted p h.drawing s hs o name ho (laidOut_returns p s hs o h)
  have ho' : .openDrive o name ∈ p ++ [.adjust o] := List.mem_append_left _ ho
  have hids := laidOut_ids h
  have e1 : ∀ l, sectionCalls l (p ++ [.adjust o]) = sectionCalls l p := fun l => by simp [sectionCalls]
  have hrun := adjust_run p s o
  have hmem : ∀ v, .addRoad o v ∈ p ++ [.adjust o] → .addRoad o v ∈ p := fun v h => by simpa using h
  have hmem' : ∀ v i pv l t n ru, .road v i pv l t n ru ∈ p ++ [.adjust o] → .road v i pv l t n ru ∈ p := fun v i pv l t n ru h => by
    simpa using h
  generalize p ++ [.adjust o] = q at hp hgood hids ho' he e1 hrun hmem hmem'
  generalize ((Call.adjust o).step (runCalls p s).2).2 = s2 at hrun ⊢
  obtain ⟨gs, -, -, rfl⟩ := doc_form q hp s o name ho' hids date element he doc hdoc hgood
  obtain ⟨v, hv, rfl⟩ := List.mem_map.mp hrd
  have hv := roadCalls_mem.mp ((keepFirst_mem _ _).mp hv)
  obtain ⟨hn, hu⟩ := num_program q hp s
  have hm : Made q (.road v) := hu _ hv _ (.inr rfl)
  have hr := roadIs_program q hp s v hm
  have hl := hn.lanes _ (hn.roads v hm)
  rw [e1] at hl
  refine ⟨v, _, _, ⟨hmem v hv, _, _, _, hmem' _ _ _ _ _ _ _ hr.made⟩, rfl, ?_⟩
  rw [← hrun]
  simp only [shownRoad, Session.readRoad, List.map_map, hl]
  rfl

/-- The road `v` in the document. -/
theorem doc_sections_of (p : List (Call (Fl R))) (s : Session (Fl R)) (hs : Blank s) (o : Nat) (h : LaidOut p o) (date : String)
    (element : Xml (Fl R)) (he : (runCalls (p ++ [.adjust o]) s).2.getElement o date = .ok element) (doc : RDocument (Fl R))
    (hdoc : readDocument element = some doc) {rd : RRoad (Fl R)} (hrd : rd ∈ doc.roads) {v : Nat} {i : PyId} {l : Nat} {t : Int}
    (hv : AddsLanes p o v i l t) (hid : rd.id = i.toStr) (e : ContactPoint) :
    rd.endSection e = (sectionCall l p e).map fun sec =>
        shownSection ((Call.adjust o).step (runCalls p s).2).2.laneObjs (((Call.adjust o).step (runCalls p s).2).2.sections.cell sec) := by
  obtain ⟨w, j, m, ⟨h1, pw, nw, rw', h1'⟩, h2, h3⟩ := doc_sections p s hs o h date element he doc hdoc hrd
  obtain ⟨h4, pv, n, ru, h4'⟩ := hv
  have := h.linked.ids v i t w j _ ⟨h4, _, _, _, _, h4'⟩ ⟨h1, _, _, _, _, h1'⟩ (hid.symm.trans h2)
  subst this
  have := made_once h.drawing.proper (x := .road v) h4' h1' rfl rfl
  injection this with _ _ _ e4
  subst e4
  cases e
  · simp only [RRoad.endSection, sectionCall, h3, List.head?_map]
  · simp only [RRoad.endSection, sectionCall, h3, List.getLast?_map]

/-- The lanes of a section in the document. -/
theorem doc_lanes (p : List (Call (Fl R))) (s : Session (Fl R)) (hs : Blank s) (o : Nat) (h : LaidOut p o)
    {v : Nat} {i : PyId} {l : Nat} {t : Int} (hv : AddsLanes p o v i l t) {sec : Nat} (hsec : sec ∈ sectionCalls l p) {L : RLane (Fl R)} :
    let s2 := ((Call.adjust o).step (runCalls p s).2).2
    let S := shownSection s2.laneObjs (s2.sections.cell sec)
    (L ∈ S.left → ∃ (n : Nat) (x : Nat), (leftCalls sec p)[n]? = some x ∧ Made p (.lane x) ∧ L = shownLane (s2.laneObjs.cell x) ((n : Int) + 1)) ∧
    (L ∈ S.right → ∃ (n : Nat) (x : Nat), (rightCalls sec p)[n]? = some x ∧ Made p (.lane x) ∧ L = shownLane (s2.laneObjs.cell x) (-((n : Int) + 1))) ∧
    (L ∈ S.center → ∃ sc x, .laneSection sec sc x ∈ p ∧ Made p (.lane x) ∧ ∃ n, L = shownLane (s2.laneObjs.cell x) n) := by
  intro s2 S
  obtain ⟨name, ho⟩ := h.document
  have hp := proper_adjust h.drawing.proper ⟨name, ho⟩
  obtain ⟨-, hu⟩ := num_program p h.drawing.proper s
  obtain ⟨ls, hls⟩ := sectionCalls_mem.mp hsec
  obtain ⟨hn, -⟩ := num_program (p ++ [.adjust o]) hp s
  obtain ⟨sc, ce, h1, -⟩ := (num_program p h.drawing.proper s).1.secs sec (hu _ hls _ (.inr (.inl rfl)))
  have h1' : .laneSection sec sc ce ∈ p ++ [.adjust o] := List.mem_append_left _ h1
  obtain ⟨e1, e2, e3, e4⟩ := (C89_sections (p ++ [.adjust o]) hp s).1 sec sc ce h1'
  have e5 : leftCalls sec (p ++ [.adjust o]) = leftCalls sec p := by simp [leftCalls]
  have e6 : rightCalls sec (p ++ [.adjust o]) = rightCalls sec p := by simp [rightCalls]
  have hone : ∀ x ∈ leftCalls sec p ++ rightCalls sec p, (puts x (p ++ [.adjust o])).length = 1 := by
    intro x hx
    have e4 : puts x (p ++ [.adjust o]) = puts x p := by simp [puts]
    rw [e4]
    exact h.fitting.once v i l t sec x hv hsec hx
  have hnum := fun i x hx => C89_numbered (p ++ [.adjust o]) hp s sec sc ce h1' i x (hone x hx)
  rw [adjust_run] at e1 e2 e3 e4 hnum
  rw [e5] at e3
  rw [e6] at e4
  rw [e3, e4] at hnum
  refine ⟨fun hL => ?_, fun hL => ?_, fun hL => ?_⟩
  · simp only [S, shownSection, shownLanes, s2, e3, List.mem_map] at hL
    obtain ⟨x, hx, rfl⟩ := hL
    obtain ⟨n, hn⟩ := List.getElem?_of_mem hx
    refine ⟨n, x, hn, hu _ (leftCalls_mem.mp hx) _ (.inr rfl), ?_⟩
    rw [(hnum n x (List.mem_append_left _ hx)).1 hn]; rfl
  · simp only [S, shownSection, shownLanes, s2, e4, List.mem_map] at hL
    obtain ⟨x, hx, rfl⟩ := hL
    obtain ⟨n, hn⟩ := List.getElem?_of_mem hx
    refine ⟨n, x, hn, hu _ (rightCalls_mem.mp hx) _ (.inr rfl), ?_⟩
    rw [(hnum n x (List.mem_append_right _ hx)).2 hn]; rfl
  · simp only [S, shownSection, shownLanes, s2, e2, List.map_cons, List.map_nil, List.mem_singleton] at hL
    exact ⟨sc, ce, h1, hu _ h1 _ rfl, _, hL⟩

theorem shown_laneLink (e : ContactPoint) (n : Int) : shownLink (laneLink (kindAt e) n) = readLaneLinkTo (linkTag e) n := by
  cases e <;> rfl

/-- C97: where two normal roads are declared to follow each other, each lane of the last section of the first road *in the document* has
one successor link, to the lane with its own number, and each lane of the first section of the second road one predecessor link. -/
theorem C97_consecutive (p : List (Call (Fl R))) (s : Session (Fl R)) (hs : Blank s) (o : Nat) (h : LaidOut p o) (hpl : PlainLanes p)
    (date : String) (element : Xml (Fl R)) (he : (runCalls (p ++ [.adjust o]) s).2.getElement o date = .ok element)
    (doc : RDocument (Fl R)) (hdoc : readDocument element = some doc)
    (v w : Nat) (i j : PyId) (l m : Nat) (hne : v ≠ w) (hv : AddsLanes p o v i l (-1)) (hw : AddsLanes p o w j m (-1))
    (hc : Consecutive p v i w j) (rd rd' : RRoad (Fl R)) (hrd : rd ∈ doc.roads) (hrd' : rd' ∈ doc.roads) (hid : rd.id = i.toStr)
    (hid' : rd'.id = j.toStr) :
    ∃ S S', rd.endSection .end = some S ∧ rd'.endSection .start = some S' ∧
      (∀ L ∈ S.left ++ S.right, L.linksTo "successor" = [readLaneLinkTo "successor" L.id]) ∧
      ∀ L ∈ S'.left ++ S'.right, L.linksTo "predecessor" = [readLaneLinkTo "predecessor" L.id] := by
  obtain ⟨⟨a, a1, a2, a3⟩, ⟨b, b1, b2, b3⟩⟩ := id hc
  obtain ⟨-, -, sa, sb, -, f1, f2, -⟩ := h.fitting.joints v i l w j m a b hne hv hw a1 a2 a3 b1 b2 b3
  have key := C95_joint p s hs o h v w i j l m hne hv hw hc sa sb f1 f2
  refine ⟨_, _, by rw [doc_sections_of p s hs o h date element he doc hdoc hrd hv hid, f1]; rfl,
    by rw [doc_sections_of p s hs o h date element he doc hdoc hrd' hw hid', f2]; rfl, ?_, ?_⟩
  · intro L hL
    obtain ⟨d1, d2, -⟩ := doc_lanes p s hs o h hv (sectionCall_mem f1) (L := L)
    rcases List.mem_append.mp hL with hL | hL
    · obtain ⟨n, x, x1, x2, rfl⟩ := d1 hL
      have := (lane_links p s hs o h hpl x x2 ((n : Int) + 1)).1 .end
      rw [show kindAt .end = .successor from rfl, (key n x).1 x1] at this
      exact this
    · obtain ⟨n, x, x1, x2, rfl⟩ := d2 hL
      have := (lane_links p s hs o h hpl x x2 (-((n : Int) + 1))).1 .end
      rw [show kindAt .end = .successor from rfl, (key n x).2.1 x1] at this
      exact this
  · intro L hL
    obtain ⟨d1, d2, -⟩ := doc_lanes p s hs o h hw (sectionCall_mem f2) (L := L)
    rcases List.mem_append.mp hL with hL | hL
    · obtain ⟨n, x, x1, x2, rfl⟩ := d1 hL
      have := (lane_links p s hs o h hpl x x2 ((n : Int) + 1)).1 .start
      rw [show kindAt .start = .predecessor from rfl, (key n x).2.2.1 x1] at this
      exact this
    · obtain ⟨n, x, x1, x2, rfl⟩ := d2 hL
      have := (lane_links p s hs o h hpl x x2 (-((n : Int) + 1))).1 .start
      rw [show kindAt .start = .predecessor from rfl, (key n x).2.2.2 x1] at this
      exact this

/-- C97: each lane of the section at a linked end of a connecting road in the document has one link there, to the lane with its number
(in the direction of the other road) plus the declared lane offset. -/
theorem C97_connecting (p : List (Call (Fl R))) (s : Session (Fl R)) (hs : Blank s) (o : Nat) (h : LaidOut p o) (hpl : PlainLanes p)
    (date : String) (element : Xml (Fl R)) (he : (runCalls (p ++ [.adjust o]) s).2.getElement o date = .ok element)
    (doc : RDocument (Fl R)) (hdoc : readDocument element = some doc)
    (v w : Nat) (i j : PyId) (l m : Nat) (t u : Int) (ht : t ≠ -1) (hv : AddsLanes p o v i l t) (hw : AddsLanes p o w j m u)
    (e : ContactPoint) (a : Link) (ha : linkCall v p e = some a) (hj : a.elementId = j)
    (rd : RRoad (Fl R)) (hrd : rd ∈ doc.roads) (hid : rd.id = i.toStr) :
    ∃ S, rd.endSection e = some S ∧ ∀ L ∈ S.left ++ S.right, L.linksTo (linkTag e) =
      [readLaneLinkTo (linkTag e) (directionSign e a.contactPoint * L.id + offsetCall v p e)] := by
  obtain ⟨sec, -, -, f1, -⟩ := h.fitting.lanes v i l t w j m u e a hv ht hw ha hj
  have key := C95_connecting p s hs o h v w i j l m t u ht hv hw e a ha hj sec f1
  refine ⟨_, by rw [doc_sections_of p s hs o h date element he doc hdoc hrd hv hid, f1]; rfl, ?_⟩
  intro L hL
  obtain ⟨d1, d2, -⟩ := doc_lanes p s hs o h hv (sectionCall_mem f1) (L := L)
  rcases List.mem_append.mp hL with hL | hL
  · obtain ⟨n, x, x1, x2, rfl⟩ := d1 hL
    have := (lane_links p s hs o h hpl x x2 ((n : Int) + 1)).1 e
    rw [(key n x).1 x1, List.map_cons, List.map_nil, shown_laneLink] at this
    exact this
  · obtain ⟨n, x, x1, x2, rfl⟩ := d2 hL
    have := (lane_links p s hs o h hpl x x2 (-((n : Int) + 1))).1 e
    rw [(key n x).2 x1, List.map_cons, List.map_nil, shown_laneLink] at this
    exact this

/-- C97: and there are no other lane links in the document. -/
theorem C97_no_other_links (p : List (Call (Fl R))) (s : Session (Fl R)) (hs : Blank s) (o : Nat) (h : LaidOut p o) (hpl : PlainLanes p)
    (date : String) (element : Xml (Fl R)) (he : (runCalls (p ++ [.adjust o]) s).2.getElement o date = .ok element)
    (doc : RDocument (Fl R)) (hdoc : readDocument element = some doc) (rd : RRoad (Fl R)) (hrd : rd ∈ doc.roads)
    (S : RSection (Fl R)) (hS : S ∈ rd.sections) (L : RLane (Fl R)) (hL : L ∈ S.left ++ S.center ++ S.right) (k : RLink) (hk : k ∈ L.links) :
    L ∉ S.center ∧ ∃ e v i l w j m, k.tag = linkTag e ∧ rd.endSection e = some S ∧ v ≠ w ∧ AddsLanes p o v i l rd.junction ∧
      rd.id = i.toStr ∧ AddsLanes p o w j m (-1) ∧
      ((rd.junction = -1 ∧ e = .end ∧ Consecutive p v i w j) ∨ (rd.junction = -1 ∧ e = .start ∧ Consecutive p w j v i) ∨
        (rd.junction ≠ -1 ∧ ∃ a, linkCall v p e = some a ∧ a.elementId = j)) := by
  obtain ⟨v, i, l, hv, hid, hsecs⟩ := doc_sections p s hs o h date element he doc hdoc hrd
  rw [hsecs, List.mem_map] at hS
  obtain ⟨sec, hsec, rfl⟩ := hS
  obtain ⟨d1, d2, d3⟩ := doc_lanes p s hs o h hv hsec (L := L)
  have main : ∀ x n, Made p (.lane x) → L = shownLane (((Call.adjust o).step (runCalls p s).2).2.laneObjs.cell x) n →
      ∃ e v' i' l' t' w j m sec', k.tag = linkTag e ∧ v' ≠ w ∧ AddsLanes p o v' i' l' t' ∧ AddsLanes p o w j m (-1) ∧
        sectionCall l' p e = some sec' ∧ x ∈ leftCalls sec' p ++ rightCalls sec' p ∧
      ((t' = -1 ∧ e = .end ∧ Consecutive p v' i' w j) ∨ (t' = -1 ∧ e = .start ∧ Consecutive p w j v' i') ∨
        (t' ≠ -1 ∧ ∃ a, linkCall v' p e = some a ∧ a.elementId = j)) := by
    rintro x n hx rfl
    obtain ⟨K, hK, hnew⟩ := (lane_links p s hs o h hpl x hx n).2 k hk
    obtain ⟨e, v', i', l', t', w, j, m, sec', rfl, h2, h3, h4, h5, h6, h7⟩ := C95_no_others p s hs o h x K hnew
    exact ⟨e, v', i', l', t', w, j, m, sec', hK.trans ((linkTag_kind _ e).mpr rfl), h2, h3, h4, h5, h6, h7⟩
  have side : ∀ x n, Made p (.lane x) → L = shownLane (((Call.adjust o).step (runCalls p s).2).2.laneObjs.cell x) n →
      x ∈ leftCalls sec p ++ rightCalls sec p → ∃ e v i l w j m, k.tag = linkTag e ∧ rd.endSection e =
        some (shownSection ((Call.adjust o).step (runCalls p s).2).2.laneObjs (((Call.adjust o).step (runCalls p s).2).2.sections.cell sec)) ∧
        v ≠ w ∧ AddsLanes p o v i l rd.junction ∧ rd.id = i.toStr ∧ AddsLanes p o w j m (-1) ∧
      ((rd.junction = -1 ∧ e = .end ∧ Consecutive p v i w j) ∨ (rd.junction = -1 ∧ e = .start ∧ Consecutive p w j v i) ∨
        (rd.junction ≠ -1 ∧ ∃ a, linkCall v p e = some a ∧ a.elementId = j)) := by
    intro x n hx hLx hmem
    obtain ⟨e, v', i', l', t', w, j, m, sec', h1, h2, h3, h4, h5, h6, h7⟩ := main x n hx hLx
    have hone := h.fitting.once v i l _ sec x hv hsec hmem
    have := puts_section hone hmem h6
    subst this
    have hsec' := sectionCall_mem h5
    have hlm : l = l' := by
      by_contra hne
      have := sections_lanes sec p hne
      have a1 := List.one_le_count_iff.mpr hsec
      have a2 := List.one_le_count_iff.mpr hsec'
      have := h.own.sections v _ l _ sec hv hsec
      omega
    subst hlm
    have := h.own.lanes v _ l _ v' _ _ hv h3
    subst this
    obtain ⟨-, _, _, _, x1⟩ := hv
    obtain ⟨y0, _, _, _, y1⟩ := h3
    have := made_once h.drawing.proper (x := .road v) x1 y1 rfl rfl
    injection this with _ e1 _ _ e2
    subst e1 e2
    refine ⟨e, v, i, l, w, j, m, h1, ?_, h2, ⟨y0, _, _, _, y1⟩, hid, h4, h7⟩
    rw [doc_sections_of p s hs o h date element he doc hdoc hrd ⟨y0, _, _, _, y1⟩ hid, h5]
    rfl
  have nocenter : L ∉ (shownSection ((Call.adjust o).step (runCalls p s).2).2.laneObjs
      (((Call.adjust o).step (runCalls p s).2).2.sections.cell sec)).center := by
    intro hc
    obtain ⟨sc, x, x1, x2, n, x3⟩ := d3 hc
    obtain ⟨e, v', i', l', t', w, j, m, sec', -, -, h3, -, h5, h6, -⟩ := main x n x2 x3
    have hone := h.fitting.once v' i' l' t' sec' x h3 (sectionCall_mem h5) h6
    have m1 : .laneSection sec sc x ∈ puts x p := List.mem_filter.mpr ⟨x1, by simp⟩
    rw [List.length_eq_one_iff] at hone
    obtain ⟨c, hc'⟩ := hone
    rw [hc'] at m1
    rcases List.mem_append.mp h6 with h6 | h6
    · have m2 : .addLeftLane sec' x ∈ puts x p := List.mem_filter.mpr ⟨leftCalls_mem.mp h6, by simp⟩
      rw [hc'] at m2
      have := (List.mem_singleton.mp m1).trans (List.mem_singleton.mp m2).symm
      cases this
    · have m2 : .addRightLane sec' x ∈ puts x p := List.mem_filter.mpr ⟨rightCalls_mem.mp h6, by simp⟩
      rw [hc'] at m2
      have := (List.mem_singleton.mp m1).trans (List.mem_singleton.mp m2).symm
      cases this
  refine ⟨nocenter, ?_⟩
  rcases List.mem_append.mp hL with hL | hL
  · rcases List.mem_append.mp hL with hL | hL
    · obtain ⟨n, x, x1, x2, x3⟩ := d1 hL
      exact side x _ x2 x3 (List.mem_append_left _ (List.mem_of_getElem? x1))
    · exact absurd hL nocenter
  · obtain ⟨n, x, x1, x2, x3⟩ := d2 hL
    exact side x _ x2 x3 (List.mem_append_right _ (List.mem_of_getElem? x1))

end

end Pyodrx.Props
