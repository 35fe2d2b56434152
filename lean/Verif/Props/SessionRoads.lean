import Verif.Proofs.SessionRoads

/-! # C91: roads and their links in the document of a program of calls -/

namespace Pyodrx.Props
open Pyodrx Pyodrx.Spec PyFloat

section
variable {F : Type} [PyFloat F]

/-- C91: whatever a program does in between, and in whatever order the roads are connected and added, a road has the id, type, name and
rule that it was made with, and refers to its PlanView and Lanes objects; its predecessor is the first one that was declared, with the
lane offset of that call, and so is its successor; its links are that predecessor, that successor and the first two neighbors with a
direction, in the order of the calls. -/
theorem C91_links (p : List (Call F)) (hp : Proper p) (s : Session F) (v : Nat) (i : PyId) (pv l : Nat) (t : Int)
    (n ru : Option String) (hv : .road v i pv l t n ru ∈ p) (r : RoadRef F) (hr : r = (runCalls p s).2.roads.cell v) :
    (r.attrs.id = i ∧ r.attrs.roadType = t ∧ r.attrs.name = n ∧ r.attrs.rule = ru ∧ r.pv = pv ∧ r.lanes = l) ∧
    (r.attrs.predecessor = (predecessorCalls v p).head?.map (·.1) ∧
      r.attrs.laneOffsetPred = ((predecessorCalls v p).head?.map (·.2)).getD 0) ∧
    (r.attrs.successor = (successorCalls v p).head?.map (·.1) ∧
      r.attrs.laneOffsetSuc = ((successorCalls v p).head?.map (·.2)).getD 0) ∧
    r.attrs.links.filter (·.kind = .predecessor) = ((predecessorCalls v p).take 1).map (·.1) ∧
    r.attrs.links.filter (·.kind = .successor) = ((successorCalls v p).take 1).map (·.1) ∧
    r.attrs.links.filter (·.kind = .neighbor) = (neighborCalls v p).take 2 ∧ r.attrs.links.Sublist (linkCalls v p) := by
  subst hr
  have h := roadIs_program p hp s v ⟨_, hv, rfl⟩
  have := made_once hp (x := .road v) h.made hv rfl rfl
  simp only [Call.road.injEq, true_and] at this
  obtain ⟨e1, e2, e3, e4, e5, e6⟩ := this
  exact ⟨⟨e1, e4, e5, e6, e2, e3⟩, ⟨h.links.pred, h.links.predOff⟩, ⟨h.links.succ, h.links.succOff⟩, h.links.preds, h.links.succs,
    h.links.neighbors, h.links.order⟩

/-- C91: a second predecessor or successor of a road raises ValueError, and so does a third neighbor or one without a direction;
otherwise these calls raise nothing. -/
theorem C91_raises (before : List (Call F)) (hp : Proper before) (s : Session F) (v : Nat) (hv : ∃ d ∈ before, Makes d (.road v))
    (et : ElementType) (id : PyId) (cp : Option ContactPoint) (off : Int) (dir : Option Direction) :
    (((Call.addPredecessor v et id cp off).step (runCalls before s).2).1 =
      if predecessorCalls v before = [] then none else some .valueError) ∧
    (((Call.addSuccessor v et id cp off).step (runCalls before s).2).1 =
      if successorCalls v before = [] then none else some .valueError) ∧
    ((Call.addNeighbor v et id dir).step (runCalls before s).2).1 =
      if dir.isSome ∧ (neighborCalls v before).length ≤ 1 then none else some .valueError := by
  have h := (roadIs_program before hp s v hv).links
  refine ⟨?_, ?_, ?_⟩
  · rw [withRoad_step _ v _ rfl]
    have e := h.pred
    cases hc : predecessorCalls v before with
    | nil =>
      rw [hc] at e
      have e : ((runCalls before s).2.roads.cell v).attrs.predecessor = none := e
      simp [withRoadStep, Road.addPredecessor, e, Link.new, after]
    | cons x xs =>
      rw [hc] at e
      have e : ((runCalls before s).2.roads.cell v).attrs.predecessor = some x.1 := e
      simp [withRoadStep, Road.addPredecessor, e, after]
  · rw [withRoad_step _ v _ rfl]
    have e := h.succ
    cases hc : successorCalls v before with
    | nil =>
      rw [hc] at e
      have e : ((runCalls before s).2.roads.cell v).attrs.successor = none := e
      simp [withRoadStep, Road.addSuccessor, e, Link.new, after]
    | cons x xs =>
      rw [hc] at e
      have e : ((runCalls before s).2.roads.cell v).attrs.successor = some x.1 := e
      simp [withRoadStep, Road.addSuccessor, e, after]
  · rw [withRoad_step _ v _ rfl]
    have e := h.count
    rw [List.length_take] at e
    by_cases hn : (neighborCalls v before).length ≤ 1
    · have : ¬ ((runCalls before s).2.roads.cell v).attrs.neighborAdded > 1 := by omega
      cases dir <;> simp [withRoadStep, Road.addNeighbor, this, Link.new, after, hn]
    · have : ((runCalls before s).2.roads.cell v).attrs.neighborAdded > 1 := by omega
      simp [withRoadStep, Road.addNeighbor, this, after, hn]

/-! ### The roads of an OpenDrive -/

theorem keepFirst_append {α : Type} [DecidableEq α] (l : List α) (a : α) :
    keepFirst (l ++ [a]) = if a ∈ l then keepFirst l else keepFirst l ++ [a] := by
  induction l with
  | nil => simp [keepFirst]
  | cons b l ih =>
    simp only [List.cons_append, keepFirst, ih]
    by_cases h : a = b
    · subst h
      by_cases hl : a ∈ l <;> simp [hl, List.filter_append]
    · by_cases hl : a ∈ l <;> simp [hl, h, List.filter_append]

theorem keepFirst_mem {α : Type} [DecidableEq α] (l : List α) (a : α) : a ∈ keepFirst l ↔ a ∈ l := by
  induction l with
  | nil => simp [keepFirst]
  | cons b l ih =>
    simp only [keepFirst, List.mem_cons, List.mem_filter, ih]
    by_cases h : a = b <;> simp [h]

theorem keepFirst_map {α β : Type} [DecidableEq α] [DecidableEq β] (f : α → β) (hf : Function.Injective f) (l : List α) :
    keepFirst (l.map f) = (keepFirst l).map f := by
  induction l with
  | nil => rfl
  | cons a l ih =>
    simp only [List.map_cons, keepFirst, ih, List.filter_map]
    congr 2
    refine List.filter_congr fun b _ => ?_
    simp [hf.eq_iff]

/-- The id text of a road object. -/
def roadText (s : Session F) (v : Nat) : String := (s.roads.cell v).attrs.id.toStr

/-- What the calls made so far have left in an OpenDrive. -/
def OdrIs (o : Nat) (done : List (Call F)) (s : Session F) : Prop :=
  ∃ name roads, .openDrive o name ∈ done ∧ s.openDrives.cell o = ⟨name, roads, junctionCalls o done⟩ ∧
    roads.keys = keepFirst ((roadCalls o done).map (roadText s)) ∧
    ∀ k, roads.get? k = ((roadCalls o done).filter fun v => roadText s v = k).getLast?

omit [PyFloat F] in
theorem roadCalls_mem {o v : Nat} {p : List (Call F)} : v ∈ roadCalls o p ↔ .addRoad o v ∈ p := by
  rw [roadCalls, List.mem_filterMap]
  constructor
  · rintro ⟨c, hc, hx⟩
    cases c <;> simp only [reduceCtorEq] at hx
    split at hx
    · next e => cases hx; subst e; exact hc
    · cases hx
  · exact fun h => ⟨_, h, by simp⟩

omit [PyFloat F] in
theorem junctionCalls_mem {o v : Nat} {p : List (Call F)} : v ∈ junctionCalls o p ↔ .addJunction o v ∈ p := by
  rw [junctionCalls, List.mem_filterMap]
  constructor
  · rintro ⟨c, hc, hx⟩
    cases c <;> simp only [reduceCtorEq] at hx
    split at hx
    · next e => cases hx; subst e; exact hc
    · cases hx
  · exact fun h => ⟨_, h, by simp⟩

theorem odrIs_step {done : List (Call F)} {c : Call F} {s : Session F} (h : ∀ o, Made done (.openDrive o) → OdrIs o done s)
    (hu : UsesMade done) (hc : ∀ x, Uses c x → Made done x) (hm : ∀ x, Makes c x → ¬ Made done x) (o : Nat)
    (ho : Made (done ++ [c]) (.openDrive o)) : OdrIs o (done ++ [c]) (c.step s).2 := by
  have texts : ∀ v ∈ roadCalls o done, roadText (c.step s).2 v = roadText s v := fun v hv => by
    have : Made done (.road v) := hu _ (roadCalls_mem.mp hv) _ (.inr rfl)
    exact congrArg PyId.toStr (step_roadId c s v fun hx => hm _ hx this)
  have e1 : (roadCalls o done).map (roadText (c.step s).2) = (roadCalls o done).map (roadText s) := List.map_congr_left texts
  have e2 : ∀ k, (roadCalls o done).filter (fun v => roadText (c.step s).2 v = k) = (roadCalls o done).filter fun v => roadText s v = k :=
    fun k => List.filter_congr fun v hv => by rw [texts v hv]
  have old : Made done (.openDrive o) → roadCalls o [c] = [] →
      (c.step s).2.openDrives.cell o = { s.openDrives.cell o with junctions := (s.openDrives.cell o).junctions ++ junctionCalls o [c] } →
      OdrIs o (done ++ [c]) (c.step s).2 := by
    intro hd hr he
    obtain ⟨name, roads, h1, h2, h3, h4⟩ := h o hd
    refine ⟨name, roads, List.mem_append_left _ h1, ?_, ?_, fun k => ?_⟩
    · rw [he, h2, junctionCalls_append]
    · rw [roadCalls_append, hr, List.append_nil, e1]; exact h3
    · rw [roadCalls_append, hr, List.append_nil, e2]; exact h4 k
  by_cases ht : Touches c (.openDrive o)
  · cases c <;> simp [Touches] at ht
    case openDrive v n =>
      subst ht
      have hn : ¬ Made done (.openDrive o) := hm _ rfl
      have r0 : roadCalls o done = [] := List.eq_nil_iff_forall_not_mem.mpr fun x hx => hn (hu _ (roadCalls_mem.mp hx) _ (.inl rfl))
      have j0 : junctionCalls o done = [] := List.eq_nil_iff_forall_not_mem.mpr fun x hx => hn (hu _ (junctionCalls_mem.mp hx) _ (.inl rfl))
      refine ⟨n, [], by simp, ?_, ?_, fun k => ?_⟩
      · rw [junctionCalls_append, j0]
        simp [Call.step, Call.run, Store.put, junctionCalls]
      · rw [roadCalls_append, r0]; rfl
      · rw [roadCalls_append, r0]; rfl
    case addRoad v r =>
      subst ht
      obtain ⟨name, roads, h1, h2, h3, h4⟩ := h o (hc _ (.inl rfl))
      have er : roadCalls o [Call.addRoad (F := F) o r] = [r] := by simp [roadCalls]
      have ej : junctionCalls o [Call.addRoad (F := F) o r] = [] := rfl
      have et : roadText ((Call.addRoad o r).step s).2 r = roadText s r := rfl
      refine ⟨name, roads.set (roadText s r) r, List.mem_append_left _ h1, ?_, ?_, fun k => ?_⟩
      · rw [junctionCalls_append, ej, List.append_nil]
        simp only [Call.step, Call.run, Store.modify, if_true]
        rw [h2]; rfl
      · rw [roadCalls_append, er, List.map_append, e1, Dict.keys_set, h3]
        simp only [List.map_cons, List.map_nil, et, keepFirst_append, keepFirst_mem]
      · rw [roadCalls_append, er, List.filter_append, e2, Dict.get?_set]
        simp only [List.filter_cons, List.filter_nil, et]
        by_cases hk : roadText s r = k
        · simp [hk]
        · simp [hk, h4]
    case addJunction v j =>
      subst ht
      refine old (hc _ (.inl rfl)) rfl ?_
      simp [Call.step, Call.run, Store.modify, junctionCalls]
    case adjust v =>
      obtain ⟨pvs, geoms, lanes, g1, g2⟩ := adjust_frame s v
      refine old (((made_append _ _ _).mp ho).resolve_right fun h => h.elim) rfl ?_
      rw [g1]
      simp [junctionCalls]
  · refine old (((made_append _ _ _).mp ho).resolve_right fun hx => ht (makes_touches _ _ hx)) ?_ ?_
    · refine List.eq_nil_iff_forall_not_mem.mpr fun x hx => ht ?_
      rw [roadCalls_mem, List.mem_singleton] at hx
      rw [← hx]; exact .inl rfl
    · have : junctionCalls o [c] = [] := List.eq_nil_iff_forall_not_mem.mpr fun x hx => ht (by
        rw [junctionCalls_mem, List.mem_singleton] at hx
        rw [← hx]; rfl)
      rw [← show s.openDrives.cell o = _ from step_frame c s _ ht, this, List.append_nil]

theorem odrIs_program (p : List (Call F)) (hp : Proper p) (s : Session F) (o : Nat) (ho : Made p (.openDrive o)) :
    OdrIs o p (runCalls p s).2 :=
  invariant_program (fun done s => ∀ o, Made done (.openDrive o) → OdrIs o done s)
    (fun _ _ _ h hu hc hm => odrIs_step h hu hc hm) p hp s (by simp [Made]) o ho

omit [PyFloat F] in
theorem roadIdCall_of {p : List (Call F)} (hp : Proper p) {v : Nat} {i : PyId} {pv l : Nat} {t : Int} {n ru : Option String}
    (h : .road v i pv l t n ru ∈ p) : roadIdCall v p = some i.toStr := by
  cases hf : roadIdCall v p with
  | none =>
    have := List.findSome?_eq_none_iff.mp hf _ h
    simp at this
  | some x =>
    obtain ⟨c, hc, hx⟩ := List.exists_of_findSome?_eq_some hf
    cases c <;> simp only [reduceCtorEq] at hx
    split at hx
    · next e =>
      subst e
      have := made_once hp hc h rfl rfl
      cases this
      exact hx.symm
    · cases hx

theorem roadIdCall_text {p : List (Call F)} (hp : Proper p) (s : Session F) {v : Nat} (hv : Made p (.road v)) :
    roadIdCall v p = some (roadText (runCalls p s).2 v) :=
  roadIdCall_of hp (roadIs_program p hp s v hv).made

theorem filter_getLast {α : Type} {l : List α} {f : α → Bool} {x : α} (h : (l.filter f).getLast? = some x) :
    ∃ a b, l = a ++ x :: b ∧ f x = true ∧ ∀ y ∈ b, f y = false := by
  induction l using List.reverseRecOn with
  | nil => simp at h
  | append_singleton l y ih =>
    rw [List.filter_append] at h
    by_cases hy : f y = true
    · simp [List.filter_cons, hy] at h
      subst h
      exact ⟨l, [], rfl, hy, by simp⟩
    · have hy : f y = false := by simpa using hy
      simp only [List.filter_cons, hy, List.filter_nil, Bool.false_eq_true, if_false, List.append_nil] at h
      obtain ⟨a, b, e, h1, h2⟩ := ih h
      refine ⟨a, b ++ [y], by rw [e]; simp, h1, fun z hz => ?_⟩
      rcases List.mem_append.mp hz with hz | hz
      · exact h2 z hz
      · rw [List.mem_singleton.mp hz]; exact hy

/-- C91: whoever reads the document of a program finds the name of the OpenDrive and its roads, in the order in which their ids were
first added. Each is the road that was added last under its id, with its type, name and rule; its links are those of C91_links. The
junctions are those that were added. -/
theorem C91_document (p : List (Call F)) (hp : Proper p) (s : Session F) (o : Nat) (name : String) (ho : .openDrive o name ∈ p)
    (date : String) (element : Xml F) (he : (runCalls p s).2.getElement o date = .ok element) (doc : RDocument F)
    (hdoc : readDocument element = some doc)
    (hgood : ∀ kv ∈ ((runCalls p s).2.readOpenDrive ((runCalls p s).2.openDrives.cell o)).roads, GoodRoad (runCalls p s).2.heap kv.2) :
    doc.name = name ∧ doc.roads.map (fun rd => some rd.id) = keepFirst ((roadCalls o p).map (roadIdCall · p)) ∧
    (∀ rd ∈ doc.roads, ∃ a v b i pv l t n ru, roadCalls o p = a ++ v :: b ∧ (∀ w ∈ b, roadIdCall w p ≠ some rd.id) ∧
      .road v i pv l t n ru ∈ p ∧ rd.id = i.toStr ∧ rd.junction = t ∧ rd.name = nonempty n ∧ rd.rule = nonempty ru ∧
      ∃ ls : List Link, rd.links = ls.map shownLink ∧ ls.Sublist (linkCalls v p) ∧
        ls.filter (·.kind = .predecessor) = ((predecessorCalls v p).take 1).map (·.1) ∧
        ls.filter (·.kind = .successor) = ((successorCalls v p).take 1).map (·.1) ∧
        ls.filter (·.kind = .neighbor) = (neighborCalls v p).take 2) ∧
    doc.junctions = (junctionCalls o p).map fun j =>
      shownJunction ((runCalls p s).2.readJunction ((runCalls p s).2.junctions.cell j)) := by
  obtain ⟨name', roads, h1, h2, h3, h4⟩ := odrIs_program p hp s o ⟨_, ho, rfl⟩
  have := made_once hp (x := .openDrive o) ho h1 rfl rfl
  cases this
  have hkeys := (idsInv_program p hp s).keys o ⟨_, ho, rfl⟩
  rw [h2] at hkeys
  obtain ⟨k1, k2⟩ := hkeys
  obtain ⟨gs, -, rfl⟩ := document_read he hgood hdoc
  have hu := (num_program p hp s).2
  have hmade : ∀ v ∈ roadCalls o p, Made p (.road v) := fun v hv => hu _ (roadCalls_mem.mp hv) _ (.inr rfl)
  refine ⟨?_, ?_, ?_, ?_⟩
  · show ((runCalls p s).2.openDrives.cell o).name = name
    rw [h2]
  · have e1 : (roadCalls o p).map (roadIdCall · p) = ((roadCalls o p).map (roadText (runCalls p s).2)).map some := by
      rw [List.map_map]
      exact List.map_congr_left fun v hv => roadIdCall_text hp s (hmade v hv)
    rw [e1, keepFirst_map some (Option.some_injective _), ← h3]
    simp only [Session.readOpenDrive, h2, List.map_map, Dict.keys]
    refine List.map_congr_left fun kv hkv => ?_
    exact congrArg some (k2 kv hkv).2
  · intro rd hrd
    simp only [Session.readOpenDrive, h2, List.map_map, List.mem_map] at hrd
    obtain ⟨⟨k, v⟩, hkv, rfl⟩ := hrd
    have hg := h4 k
    rw [Dict.mem_get? k1 hkv] at hg
    obtain ⟨a, b, e, e1, e2⟩ := filter_getLast hg.symm
    have hv : v ∈ roadCalls o p := by rw [e]; simp
    have hr := roadIs_program p hp s v (hmade v hv)
    obtain ⟨-, -, -, l1, l2, l3, l4⟩ := C91_links p hp s v _ _ _ _ _ _ hr.made _ rfl
    have hid : ((runCalls p s).2.roads.cell v).attrs.id.toStr = k := (k2 _ hkv).2
    refine ⟨a, v, b, _, _, _, _, _, _, e, fun w hw => ?_, hr.made, rfl, rfl, rfl, rfl,
      ((runCalls p s).2.roads.cell v).attrs.links, ?_, l4, l1, l2, l3⟩
    · have hwm : w ∈ roadCalls o p := by rw [e]; simp [hw]
      rw [roadIdCall_text hp s (hmade w hwm)]
      intro h
      have : roadText (runCalls p s).2 w = k := by
        rw [← hid]; exact Option.some.inj h
      have := e2 w hw
      simp_all
    · have hk := hr.links.kinds
      show shownLinks ((runCalls p s).2.roads.cell v).attrs.links = _
      unfold shownLinks
      rw [List.filter_eq_self.mpr]
      intro l hl
      rcases hk l hl with h | h | h <;> simp [h]
  · simp only [Session.readOpenDrive, h2, List.map_map, Function.comp_def]

/-! A program that meets the hypotheses: three roads, of which the last has the id of the first; it is connected after it was added,
to a second predecessor in vain, and has a neighbor without direction in vain. -/

def exRoads : List (Call F) :=
  [.openDrive 0 "doc", .planView 0 none none none, .lanes 0, .road 0 (.int 1) 0 0 (-1) none none,
   .road 1 (.int 2) 0 0 5 (some "b") none, .road 2 (.str "1") 0 0 (-1) none none, .addRoad 0 0, .addRoad 0 1, .addRoad 0 2,
   .addNeighbor 2 .road (.int 7) none, .addNeighbor 2 .road (.int 8) (some .same), .addPredecessor 2 .road (.int 2) (some .end) 1,
   .addPredecessor 2 .road (.int 3) (some .start) 0, .addSuccessor 1 .road (.int 1) (some .start) 0]

theorem exRoads_proper : Proper (exRoads (F := F)) := proper_by _ rfl

theorem exRoads_doc (s : Session F) (date : String) : ∃ element doc, (runCalls exRoads s).2.getElement 0 date = .ok element ∧
    readDocument element = some doc ∧ doc.name = "doc" ∧ doc.roads.map (·.id) = ["1", "2"] ∧
    ∃ r1 r2, doc.roads = [r1, r2] ∧ r1.links = [⟨"neighbor", "8", some .road, none, some .same⟩, ⟨"predecessor", "2", some .road, some .end, none⟩] ∧
      r2.name = some "b" := by
  obtain ⟨x, hx⟩ := C89_emits exRoads exRoads_proper s 0 "doc" (by simp [exRoads]) date
  have e : ((runCalls (exRoads (F := F)) s).2.openDrives.cell 0).roads = [("1", 2), ("2", 1)] := rfl
  have hroads : ∀ kv ∈ ((runCalls (exRoads (F := F)) s).2.readOpenDrive ((runCalls exRoads s).2.openDrives.cell 0)).roads,
      kv.2.lanesections = [] ∧ kv.2.planview = (runCalls exRoads s).2.planviews.cell 0 ∧ kv.2.signals = [] := by
    intro kv hkv
    simp only [Session.readOpenDrive, e, List.map_cons, List.map_nil, List.mem_cons, List.not_mem_nil, or_false] at hkv
    rcases hkv with rfl | rfl
    · exact ⟨rfl, rfl, rfl⟩
    · exact ⟨rfl, rfl, rfl⟩
  have hgood : ∀ kv ∈ ((runCalls (exRoads (F := F)) s).2.readOpenDrive ((runCalls exRoads s).2.openDrives.cell 0)).roads,
      GoodRoad (runCalls exRoads s).2.heap kv.2 := by
    intro kv hkv
    obtain ⟨h1, -, h2⟩ := hroads kv hkv
    exact ⟨by simp [h1], by simp [h2]⟩
  have hd := C59_document _ date _ x hx (fun _ => []) fun kv hkv => ⟨hgood kv hkv, by
    rw [(hroads kv hkv).2.1]; rfl⟩
  obtain ⟨h1, h2, -, -⟩ := C91_document exRoads exRoads_proper s 0 "doc" (by simp [exRoads]) date x hx _ hd hgood
  refine ⟨x, _, hx, hd, h1, ?_, ?_⟩
  · have : (keepFirst ((roadCalls 0 (exRoads (F := F))).map (roadIdCall · (exRoads (F := F))))) = [some "1", some "2"] := by rfl
    rw [this] at h2
    refine List.map_injective_iff.mpr (Option.some_injective _) ?_
    rw [List.map_map]; exact h2
  · simp only [Session.readOpenDrive, e, List.map_cons, List.map_nil]
    exact ⟨_, _, rfl, rfl, rfl⟩

/-- The calls in vain raise ValueError. -/
example (s : Session F) : ((Call.addPredecessor 2 .road (.int 3) (some .start) 0).step (runCalls (exRoads.take 12) s).2).1 =
    some .valueError := by
  rw [(C91_raises (exRoads.take 12) (proper_by _ rfl) s 2 ⟨.road 2 (.str "1") 0 0 (-1) none none, by simp [exRoads], rfl⟩
    .road (.int 3) (some .start) 0 none).1]
  rfl

example (s : Session F) : (((runCalls exRoads s).2.roads.cell 2).attrs.predecessor, ((runCalls exRoads s).2.roads.cell 2).attrs.laneOffsetPred) =
    (some ⟨.predecessor, .int 2, some .road, some .end, none⟩, 1) := by
  obtain ⟨-, ⟨h1, h2⟩, -⟩ := C91_links exRoads exRoads_proper s 2 (.str "1") 0 0 (-1) none none (by simp [exRoads]) _ rfl
  rw [h1, h2]
  rfl

end

end Pyodrx.Props
