import Verif.Spec.SessionRoadside
import Verif.Props.SessionDocumentJoints

/-! # C99: `add_object_roadside` in a program of calls -/

namespace Pyodrx.Props
open Pyodrx Pyodrx.Spec PyFloat

section
variable {F : Type} [PyFloat F]

theorem allocAll_refs {α : Type} : ∀ (l : List α) (st : Store α), (allocAll st l).2 = List.range' st.next l.length
  | [], st => rfl
  | a :: l, st => by
    simp only [allocAll, Store.alloc, allocAll_refs l, List.length_cons, List.range'_succ]

/-- What the calls of `makeBeside` do. -/
theorem makeBeside_run (total dist so : F) : ∀ (obs : List (Obj F × F)) (n : Nat) (s : Session F),
    (runCalls (makeBeside total dist so n obs) s).2 = { s with objs :=
      { (allocAll ⟨s.objs.cell, n⟩ (obs.map fun o => o.1.repeat (total -. so -. o.2) dist {})).1 with next := s.objs.next } }
  | [], n, s => rfl
  | (ob, start) :: obs, n, s => by
    rw [makeBeside]
    simp only [runCalls]
    rw [makeBeside_run total dist so obs (n + 1)]
    have e : ∀ i, (((s.objs.put n ob).modify n fun x => x.repeat (total -. so -. start) dist {}).cell i) =
        if i = n then ob.repeat (total -. so -. start) dist {} else s.objs.cell i := by
      intro i
      simp only [Store.put, Store.modify]
      split <;> simp_all
    have e' : (((s.objs.put n ob).modify n fun x => x.repeat (total -. so -. start) dist {}).cell) =
        fun i => if i = n then ob.repeat (total -. so -. start) dist {} else s.objs.cell i := funext e
    simp only [Call.step, Call.run, List.map_cons, allocAll, Store.alloc, e']
    rfl

/-- Ids do not depend on where the next object is allocated. -/
theorem updateObjIds_next (os : List Nat) (A : Store (Obj F)) (k : Nat) (sigs : Store (Signal F)) (reg : Registry) :
    os.foldl SOState.updateObjId ⟨{ A with next := k }, sigs, reg⟩ =
      { os.foldl SOState.updateObjId ⟨A, sigs, reg⟩ with objs := { (os.foldl SOState.updateObjId ⟨A, sigs, reg⟩).objs with next := k } } := by
  induction os generalizing A reg with
  | nil => rfl
  | cons x os ih =>
    simp only [List.foldl_cons]
    exact ih (SOState.updateObjId ⟨A, sigs, reg⟩ x).objs (SOState.updateObjId ⟨A, sigs, reg⟩ x).reg

theorem sumWidths_eq (lanes : Store (Lane F)) (l : List Nat) :
    sumWidths lanes l = (l.map fun x => (lanes.cell x).a).foldl (· +. ·) (ofInt 0) := by
  rw [sumWidths, List.foldl_map]

theorem made_widths (p : List (Call F)) (hp : Proper p) (s : Session F) (xs : List Nat) (h : ∀ x ∈ xs, Made p (.lane x)) :
    MadeWidths p xs (xs.map fun x => ((runCalls p s).2.laneObjs.cell x).a) := by
  rw [MadeWidths, List.forall₂_map_right_iff, List.forall₂_same]
  intro x hx
  obtain ⟨d, hd, hm⟩ := h x hx
  cases d <;> simp [Makes] at hm
  case lane v t a b c d so =>
    subst hm
    obtain ⟨e1, e2, e3, e4, e5, e6, e7⟩ := C93_lane p hp s x t a b c d so hd
    exact ⟨t, b, c, d, so, by rw [e2]; exact hd⟩

theorem object_now (p : List (Call F)) (hp : Proper p) (s : Session F) (x : Nat) (ob : Obj F) (hx : .object x ob ∈ p) :
    ObjectNow p x ((runCalls p s).2.objs.cell x) := by
  have h := C93_object p hp s x ob hx
  refine ⟨ob, ((runCalls p s).2.objs.cell x).base.id, hx, ?_⟩
  have := congrArg (fun g : Obj F => { g with base := { g.base with id := ((runCalls p s).2.objs.cell x).base.id } }) h
  rw [show Obj.anonymous ob = { ob with base := { ob.base with id := none } } from rfl] at this
  rw [repeats_id] at this ⊢
  exact this

/-- C99: `add_object_roadside` is the calls it abbreviates: for every lane section and side in order, an object like the prototype (with its
repeats, and with its id) is made, set up outside of the lanes and repeated up to the end of the road; then all of them are added to the road. -/
theorem C99_calls (p : List (Call F)) (hp : Proper p) (s : Session F) (v : Nat) (i : PyId) (pv l : Nat) (t : Int) (n ru : Option String)
    (hv : .road v i pv l t n ru ∈ p) (hadj : ((runCalls p s).2.planviews.cell pv).adjusted = true)
    (proto : Nat) (ob : Obj F) (hproto : .object proto ob ∈ p) (names : Nat) (dist so tof : F) (side : RoadSide) :
    ∃ P obs, ObjectNow p proto P ∧
      List.Forall₂ (fun place x => Beside p P so tof place x.2 x.1) (roadsidePlaces p l side) obs ∧
      Session.addObjectRoadside names v proto dist so tof side (runCalls p s).2 = .ok () (runCalls
        (makeBeside ((runCalls p s).2.planviews.cell pv).getTotalLength dist so names obs ++
          [.addObject v (List.range' names obs.length)]) (runCalls p s).2).2 := by
  obtain ⟨hn, hu⟩ := num_program p hp s
  have hr := roadIs_program p hp s v ⟨_, hv, rfl⟩
  have hm := made_once hp (x := .road v) hv hr.made rfl rfl
  injection hm with _ _ hpv hl
  have hl' : (runCalls p s).2.lanesObjs.cell l = sectionCalls l p := hn.lanes l (hu _ hv _ (.inr rfl))
  have hP := object_now p hp s proto ob hproto
  set s2 := (runCalls p s).2 with hs2
  obtain ⟨P, hPdef⟩ : ∃ P, s2.objs.cell proto = P := ⟨_, rfl⟩
  rw [hPdef] at hP
  let entry : Nat × Int → Obj F × F := fun place =>
    (setBeside so tof (s2.sections.cell place.1).s ((placeLanes p place).map fun x => (s2.laneObjs.cell x).a) place.2 P,
      (s2.sections.cell place.1).s)
  have hplace : ∀ place ∈ roadsidePlaces p l side, ∃ c, .laneSection place.1 (s2.sections.cell place.1).s c ∈ p ∧
      (s2.sections.cell place.1).left = leftCalls place.1 p ∧ (s2.sections.cell place.1).right = rightCalls place.1 p := by
    intro place hpl
    rw [roadsidePlaces, List.mem_flatMap] at hpl
    obtain ⟨sec, hsec, hpl⟩ := hpl
    have e : place.1 = sec := by
      cases side <;> simp at hpl
      · rcases hpl with rfl | rfl <;> rfl
      · rw [hpl]
      · rw [hpl]
    obtain ⟨ls, hls⟩ := sectionCalls_mem.mp hsec
    obtain ⟨sc, ce, h1, -⟩ := hn.secs sec (hu _ hls _ (.inr (.inl rfl)))
    obtain ⟨e1, e2, e3, e4⟩ := (C89_sections p hp s).1 sec sc ce h1
    rw [e, hs2, e1]
    exact ⟨ce, h1, e3, e4⟩
  refine ⟨P, (roadsidePlaces p l side).map entry, hP, ?_, ?_⟩
  · rw [List.forall₂_map_right_iff, List.forall₂_same]
    intro place hpl
    obtain ⟨c, h1, -, -⟩ := hplace place hpl
    refine ⟨c, _, h1, made_widths p hp s _ ?_, rfl⟩
    intro x hx
    unfold placeLanes at hx
    split at hx
    · exact hu _ (leftCalls_mem.mp hx) _ (.inr rfl)
    · exact hu _ (rightCalls_mem.mp hx) _ (.inr rfl)
  · have hentries : ((s2.readRoad (s2.roads.cell v)).lanesections.flatMap (roadsideEntries s2.laneObjs side)).map
        (roadsideObject P (s2.readRoad (s2.roads.cell v)).planview.getTotalLength dist so tof) =
        ((roadsidePlaces p l side).map entry).map fun o => o.1.repeat ((s2.planviews.cell pv).getTotalLength -. so -. o.2) dist {} := by
      simp only [Session.readRoad, ← hpv, ← hl, hl', List.map_map]
      rw [List.flatMap_map, roadsidePlaces, List.map_flatMap, List.map_flatMap]
      refine List.flatMap_congr fun sec hsec => ?_
      have hleft : (sec, (1 : Int)) ∈ roadsidePlaces p l .both := List.mem_flatMap.mpr ⟨sec, hsec, by simp⟩
      obtain ⟨ls, hls⟩ := sectionCalls_mem.mp hsec
      obtain ⟨sc, ce, h1, -⟩ := hn.secs sec (hu _ hls _ (.inr (.inl rfl)))
      obtain ⟨e1, e2, e3, e4⟩ := (C89_sections p hp s).1 sec sc ce h1
      rw [← hs2] at e1 e3 e4
      cases side <;> simp [roadsideEntries, roadsideObject, entry, setBeside, placeLanes, sumWidths_eq, e3, e4]
    have hlen := congrArg List.length hentries
    have hadj' : (s2.readRoad (s2.roads.cell v)).planview.adjusted = true := by
      simp only [Session.readRoad, ← hpv]; exact hadj
    generalize hE : (s2.readRoad (s2.roads.cell v)).lanesections.flatMap (roadsideEntries s2.laneObjs side) = E at hentries hlen
    generalize (s2.planviews.cell pv).getTotalLength = total at hentries ⊢
    generalize hobs : (roadsidePlaces p l side).map entry = obs at hentries hlen ⊢
    rw [List.length_map, List.length_map] at hlen
    have hlhs : Road.addObjectRoadside s2.laneObjs proto dist so tof side
        (s2.readRoad (s2.roads.cell v), ⟨{ s2.objs with next := names }, s2.sigs, s2.reg⟩) = .ok ()
        ((s2.readRoad (s2.roads.cell v)).addObject (List.range' names obs.length)
          ⟨(allocAll ⟨s2.objs.cell, names⟩ (obs.map fun o => o.1.repeat (total -. so -. o.2) dist {})).1, s2.sigs, s2.reg⟩) := by
      unfold Road.addObjectRoadside
      simp only [hadj', Bool.true_eq_false, if_false, hE, hPdef]
      rw [hentries, allocAll_refs, List.length_map]
    unfold Session.addObjectRoadside
    rw [hlhs, runCalls_append]
    simp only [runCalls, makeBeside_run, Call.step, Call.run, Road.addObject]
    generalize (allocAll ⟨s2.objs.cell, names⟩ (obs.map fun o => o.1.repeat (total -. so -. o.2) dist {})).1 = A
    rw [updateObjIds_next _ A s2.objs.next]
    congr 2

/-- C99: before the road is adjusted, `add_object_roadside` raises RoadsAndLanesNotAdjusted and changes nothing. -/
theorem C99_not_adjusted (p : List (Call F)) (hp : Proper p) (s : Session F) (v : Nat) (i : PyId) (pv l : Nat) (t : Int)
    (n ru : Option String) (hv : .road v i pv l t n ru ∈ p) (hadj : ((runCalls p s).2.planviews.cell pv).adjusted = false)
    (proto names : Nat) (dist so tof : F) (side : RoadSide) :
    Session.addObjectRoadside names v proto dist so tof side (runCalls p s).2 =
      .error .roadsAndLanesNotAdjusted (runCalls p s).2 := by
  have hr := roadIs_program p hp s v ⟨_, hv, rfl⟩
  have hm := made_once hp (x := .road v) hv hr.made rfl rfl
  injection hm with _ _ hpv hl
  unfold Session.addObjectRoadside Road.addObjectRoadside
  have hadj' : ((runCalls p s).2.readRoad ((runCalls p s).2.roads.cell v)).planview.adjusted = false := by
    simp only [Session.readRoad, ← hpv]; exact hadj
  simp only [hadj', if_true]

theorem roadside_adjusted (p : List (Call F)) (hp : Proper p) (s : Session F) (v : Nat) (i : PyId) (pv l : Nat) (t : Int)
    (n ru : Option String) (hv : .road v i pv l t n ru ∈ p) (proto names : Nat) (dist so tof : F) (side : RoadSide) (s3 : Session F)
    (h : Session.addObjectRoadside names v proto dist so tof side (runCalls p s).2 = .ok () s3) :
    ((runCalls p s).2.planviews.cell pv).adjusted = true := by
  cases hadj : ((runCalls p s).2.planviews.cell pv).adjusted with
  | true => rfl
  | false => rw [C99_not_adjusted p hp s v i pv l t n ru hv hadj proto names dist so tof side] at h; cases h

/-! ## The document -/

theorem makeBeside_mem {total dist so : F} {c : Call F} : ∀ {obs : List (Obj F × F)} {n : Nat}, c ∈ makeBeside total dist so n obs →
    ∃ k x, obs[k]? = some x ∧ (c = .object (n + k) x.1 ∨ c = .repeatObject (n + k) (total -. so -. x.2) dist {})
  | [], n, h => by cases h
  | (ob, start) :: obs, n, h => by
    rcases List.mem_cons.mp h with rfl | h
    · exact ⟨0, _, rfl, .inl rfl⟩
    · rcases List.mem_cons.mp h with rfl | h
      · exact ⟨0, _, rfl, .inr rfl⟩
      · obtain ⟨k, x, h1, h2⟩ := makeBeside_mem h
        exact ⟨k + 1, x, h1, by rw [show n + (k + 1) = n + 1 + k by omega]; exact h2⟩

theorem makeBeside_object {total dist so : F} : ∀ {obs : List (Obj F × F)} {n k : Nat} {x : Obj F × F}, obs[k]? = some x →
    .object (n + k) x.1 ∈ makeBeside total dist so n obs
  | [], n, k, x, h => by simp at h
  | (ob, start) :: obs, n, 0, x, h => by
    simp at h; subst h; simp [makeBeside]
  | (ob, start) :: obs, n, k + 1, x, h => by
    have := makeBeside_object (total := total) (dist := dist) (so := so) (n := n + 1) (k := k) (x := x) (obs := obs) (by simpa using h)
    rw [makeBeside]
    rw [show n + (k + 1) = n + 1 + k by omega]
    exact List.mem_cons_of_mem _ (List.mem_cons_of_mem _ this)

theorem makeBeside_repeats {total dist so : F} (z : Nat) : ∀ (obs : List (Obj F × F)) (n : Nat),
    repeatCalls z (makeBeside total dist so n obs) =
      if n ≤ z then ((obs[z - n]?).map fun x => (total -. so -. x.2, dist, ({} : RepeatArgs F))).toList else []
  | [], n => by simp [makeBeside, repeatCalls]
  | (ob, start) :: obs, n => by
    have ih := makeBeside_repeats (total := total) (dist := dist) (so := so) z obs (n + 1)
    rw [makeBeside]
    have : repeatCalls z (.object n ob :: .repeatObject n (total -. so -. start) dist {} :: makeBeside total dist so (n + 1) obs) =
        (if n = z then [(total -. so -. start, dist, ({} : RepeatArgs F))] else []) ++ repeatCalls z (makeBeside total dist so (n + 1) obs) := by
      simp only [repeatCalls, List.filterMap_cons]
      split <;> simp_all
    rw [this, ih]
    by_cases h1 : n = z
    · subst h1; simp
    · by_cases h2 : n ≤ z
      · obtain ⟨k, rfl⟩ : ∃ k, z = n + 1 + k := ⟨z - n - 1, by omega⟩
        rw [if_neg h1, if_pos h2, if_pos (by omega), show n + 1 + k - (n + 1) = k by omega, show n + 1 + k - n = k + 1 by omega]
        simp
      · rw [if_neg h1, if_neg h2, if_neg (by omega)]
        rfl

theorem proper_snoc {p : List (Call F)} (hp : Proper p) {c : Call F} (h1 : ∀ x, Uses c x → ∃ d ∈ p, Makes d x)
    (h2 : ∀ x, Makes c x → ¬ ∃ d ∈ p, Makes d x) : Proper (p ++ [c]) := by
  intro before c' rest e
  rcases List.eq_nil_or_concat rest with rfl | ⟨rest', d, rfl⟩
  · obtain ⟨rfl, h⟩ := List.append_inj' e (by simp)
    cases h
    exact ⟨h1, h2⟩
  · have e' : p ++ [c] = (before ++ c' :: rest') ++ [d] := by rw [e]; simp
    obtain ⟨h, -⟩ := List.append_inj' e' (by simp)
    exact hp before c' rest' h

theorem makeBeside_proper {total dist so : F} : ∀ (obs : List (Obj F × F)) (n : Nat) (p : List (Call F)), Proper p →
    (∀ x ob, .object x ob ∈ p → x < n) → Proper (p ++ makeBeside total dist so n obs)
  | [], n, p, hp, h => by rw [makeBeside, List.append_nil]; exact hp
  | (ob, start) :: obs, n, p, hp, h => by
    have h1 : Proper (p ++ [.object n ob]) := by
      refine proper_snoc hp (fun x hx => by cases hx) ?_
      rintro x rfl ⟨d, hd, hm⟩
      cases d <;> simp [Makes] at hm
      case object v g =>
        subst hm
        exact lt_irrefl _ (h _ _ hd)
    have h2 : Proper (p ++ [.object n ob] ++ [.repeatObject n (total -. so -. start) dist {}]) := by
      refine proper_snoc h1 ?_ (fun x hx => by cases hx)
      rintro x rfl
      exact ⟨.object n ob, by simp, rfl⟩
    have := makeBeside_proper (total := total) (dist := dist) (so := so) obs (n + 1) _ h2 (by
      intro x ob' hx
      simp only [List.mem_append, List.mem_singleton, reduceCtorEq, or_false] at hx
      rcases hx with hx | hx
      · have := h _ _ hx; omega
      · cases hx; omega)
    simpa [makeBeside] using this

/-- The calls that make objects and give them to roads. -/
def furnishes : Call F → Bool
  | .object _ _ => true
  | .repeatObject _ _ _ _ => true
  | .addObject _ _ => true
  | _ => false

section
variable {p cs : List (Call F)} (hcs : ∀ c ∈ cs, furnishes c = true)
include hcs

omit [PyFloat F] in
theorem not_furnishing {c : Call F} (h : c ∈ p ++ cs) (hc : furnishes c = false) : c ∈ p := by
  rcases List.mem_append.mp h with h | h
  · exact h
  · rw [hcs c h] at hc; cases hc

omit [PyFloat F] in
theorem silent_filterMap {α : Type} (f : Call F → Option α) (h1 : ∀ x ob, f (.object x ob) = none)
    (h2 : ∀ x a b c, f (.repeatObject x a b c) = none) (h3 : ∀ r os, f (.addObject r os) = none) : (p ++ cs).filterMap f = p.filterMap f := by
  have : cs.filterMap f = [] := by
    rw [List.filterMap_eq_nil_iff]
    intro c hc
    have := hcs c hc
    cases c <;> simp only [furnishes, reduceCtorEq] at this
    · exact h1 _ _
    · exact h2 _ _ _ _
    · exact h3 _ _
  rw [List.filterMap_append, this, List.append_nil]

omit [PyFloat F] in
theorem silent_flatMap {α : Type} (f : Call F → List α) (h1 : ∀ x ob, f (.object x ob) = [])
    (h2 : ∀ x a b c, f (.repeatObject x a b c) = []) (h3 : ∀ r os, f (.addObject r os) = []) : (p ++ cs).flatMap f = p.flatMap f := by
  have : cs.flatMap f = [] := by
    rw [List.flatMap_eq_nil_iff]
    intro c hc
    have := hcs c hc
    cases c <;> simp only [furnishes, reduceCtorEq] at this
    · exact h1 _ _
    · exact h2 _ _ _ _
    · exact h3 _ _
  rw [List.flatMap_append, this, List.append_nil]

omit [PyFloat F] in
theorem silent_filter (f : Call F → Bool) (h1 : ∀ x ob, f (.object x ob) = false)
    (h2 : ∀ x a b c, f (.repeatObject x a b c) = false) (h3 : ∀ r os, f (.addObject r os) = false) : (p ++ cs).filter f = p.filter f := by
  have : cs.filter f = [] := by
    rw [List.filter_eq_nil_iff]
    intro c hc
    have := hcs c hc
    cases c <;> simp only [furnishes, reduceCtorEq] at this
    · simp [h1]
    · simp [h2]
    · simp [h3]
  rw [List.filter_append, this, List.append_nil]

omit [PyFloat F] in
/-- Such calls do not belong to the other parts of the document. -/
theorem silent_calls : (∀ x, markCalls x (p ++ cs) = markCalls x p) ∧ (∀ x, leftCalls x (p ++ cs) = leftCalls x p) ∧
    (∀ x, rightCalls x (p ++ cs) = rightCalls x p) ∧ (∀ x, sectionCalls x (p ++ cs) = sectionCalls x p) ∧
    (∀ x, laneLinkCalls x (p ++ cs) = laneLinkCalls x p) ∧ (∀ x, connectionCalls x (p ++ cs) = connectionCalls x p) ∧
    (∀ x, predecessorCalls x (p ++ cs) = predecessorCalls x p) ∧ (∀ x, successorCalls x (p ++ cs) = successorCalls x p) ∧
    (∀ x, neighborCalls x (p ++ cs) = neighborCalls x p) ∧ (∀ x, signalCalls x (p ++ cs) = signalCalls x p) ∧
    (∀ x, roadCalls x (p ++ cs) = roadCalls x p) ∧ (∀ x, junctionCalls x (p ++ cs) = junctionCalls x p) ∧
    ∀ x, puts x (p ++ cs) = puts x p :=
  ⟨fun _ => silent_filterMap hcs _ (fun _ _ => rfl) (fun _ _ _ _ => rfl) (fun _ _ => rfl),
    fun _ => silent_filterMap hcs _ (fun _ _ => rfl) (fun _ _ _ _ => rfl) (fun _ _ => rfl),
    fun _ => silent_filterMap hcs _ (fun _ _ => rfl) (fun _ _ _ _ => rfl) (fun _ _ => rfl),
    fun _ => silent_filterMap hcs _ (fun _ _ => rfl) (fun _ _ _ _ => rfl) (fun _ _ => rfl),
    fun _ => silent_filterMap hcs _ (fun _ _ => rfl) (fun _ _ _ _ => rfl) (fun _ _ => rfl),
    fun _ => silent_filterMap hcs _ (fun _ _ => rfl) (fun _ _ _ _ => rfl) (fun _ _ => rfl),
    fun _ => silent_filterMap hcs _ (fun _ _ => rfl) (fun _ _ _ _ => rfl) (fun _ _ => rfl),
    fun _ => silent_filterMap hcs _ (fun _ _ => rfl) (fun _ _ _ _ => rfl) (fun _ _ => rfl),
    fun _ => silent_filterMap hcs _ (fun _ _ => rfl) (fun _ _ _ _ => rfl) (fun _ _ => rfl),
    fun _ => silent_flatMap hcs _ (fun _ _ => rfl) (fun _ _ _ _ => rfl) (fun _ _ => rfl),
    fun _ => silent_filterMap hcs _ (fun _ _ => rfl) (fun _ _ _ _ => rfl) (fun _ _ => rfl),
    fun _ => silent_filterMap hcs _ (fun _ _ => rfl) (fun _ _ _ _ => rfl) (fun _ _ => rfl),
    fun _ => silent_filter hcs _ (fun _ _ => rfl) (fun _ _ _ _ => rfl) (fun _ _ => rfl)⟩

/-- But for the objects, a road is shown as without such calls. -/
theorem road_back {w : Nat} {rd : RRoad F} (h : RoadShown (p ++ cs) w rd) {os : List (RObject F)}
    (hos : List.Forall₂ (ObjectShown p) (objectCalls w p) os) : RoadShown p w { rd with objects := os } := by
  obtain ⟨e1, e2, e3, e4, e5, e6, e7, e8, e9, e10, -, -, -⟩ := silent_calls (p := p) hcs
  have e11 : ∀ x, linkCalls x (p ++ cs) = linkCalls x p := fun _ =>
    silent_flatMap hcs _ (fun _ _ => rfl) (fun _ _ _ _ => rfl) (fun _ _ => rfl)
  have hl : ∀ x L, LaneShown (p ++ cs) x L → LaneShown p x L := by
    rintro x L ⟨h1, h2, h3⟩
    exact ⟨not_furnishing hcs h1 rfl, h2, by rw [h3, e1]⟩
  have hs : ∀ x S, SectionShown (p ++ cs) x S → SectionShown p x S := by
    rintro x S ⟨h1, h2, h3, h4, c, L, h5, h6, h7, h8⟩
    rw [e2] at h1 h3
    rw [e3] at h2 h4
    exact ⟨h1.imp (fun x L => hl x L), h2.imp (fun x L => hl x L), h3, h4, c, L, not_furnishing hcs h5 rfl, h6, hl _ _ h7,
      fun k => h8 fun sec' => ⟨fun a => (k sec').1 (not_furnishing hcs a rfl), fun a => (k sec').2 (not_furnishing hcs a rfl)⟩⟩
  obtain ⟨⟨i, pv, l, n, ru, m1, m2, m3, m4, m5⟩, h2, h3, h4⟩ := h
  rw [e4] at m5
  rw [e7, e8, e9, e11] at h2
  rw [e10] at h3
  refine ⟨⟨i, pv, l, n, ru, not_furnishing hcs m1 rfl, m2, m3, m4, m5.imp (fun x S => hs x S)⟩, h2, h3.imp ?_, hos⟩
  rintro x G ⟨g, id, g1, g2⟩
  exact ⟨g, id, not_furnishing hcs g1 rfl, g2⟩

omit [PyFloat F] in
theorem junction_back {j : Nat} {J : RJunction} (h : JunctionShown (p ++ cs) j J) : JunctionShown p j J := by
  obtain ⟨-, -, -, -, e5, e6, -⟩ := silent_calls (p := p) hcs
  obtain ⟨id, j1, j2, j3⟩ := h
  rw [e6] at j3
  refine ⟨id, not_furnishing hcs j1 rfl, j2, j3.imp ?_⟩
  rintro x C ⟨inc, con, i, c1, c2, c3, c4, c5⟩
  rw [e5] at c4
  exact ⟨inc, con, i, not_furnishing hcs c1 rfl, c2, c3, c4, c5⟩

end

/-- What the calls change. -/
theorem roadside_state (total dist so : F) (obs : List (Obj F × F)) (names v : Nat) (os : List Nat) (s : Session F) :
    ∃ objs reg, (runCalls (makeBeside total dist so names obs ++ [.addObject v os]) s).2 = { s with
      roads := s.roads.modify v fun y => { y with attrs := { y.attrs with objects := y.attrs.objects ++ os } }, objs := objs, reg := reg } := by
  rw [runCalls_append]
  simp only [runCalls, makeBeside_run, Call.step, Call.run, Road.addObject]
  exact ⟨_, _, rfl⟩

/-- C99: a program of calls in any order (with `adjust_roads_and_lanes` and other calls) that adds roads with different ids and puts each
lane into one place, followed by `add_object_roadside` for an adjusted road of it. The document shows what the calls say, and after the
objects that were added to the road before, one object for every lane section and side wanted, outside of the lanes and repeated up to the
end of the road. If no object was added twice, all objects of the document have different ids. -/
theorem C99_document (p : List (Call F)) (hp : Proper p) (s : Session F) (o : Nat) (name : String) (ho : .openDrive o name ∈ p)
    (hids : ∀ v i pv l t n ru w j pv' l' t' n' ru', .addRoad o v ∈ p → .addRoad o w ∈ p → .road v i pv l t n ru ∈ p →
      .road w j pv' l' t' n' ru' ∈ p → i.toStr = j.toStr → v = w)
    (honce : ∀ v i pv l t n ru sec x, .addRoad o v ∈ p → .road v i pv l t n ru ∈ p → sec ∈ sectionCalls l p →
      x ∈ leftCalls sec p ++ rightCalls sec p → (puts x p).length = 1)
    (hgood : ∀ kv ∈ ((runCalls p s).2.readOpenDrive ((runCalls p s).2.openDrives.cell o)).roads, GoodRoad (runCalls p s).2.heap kv.2)
    (v : Nat) (i : PyId) (pv l : Nat) (t : Int) (n ru : Option String) (hadd : .addRoad o v ∈ p)
    (hv : .road v i pv l t n ru ∈ p) (hadj : ((runCalls p s).2.planviews.cell pv).adjusted = true)
    (proto : Nat) (ob : Obj F) (hproto : .object proto ob ∈ p) (names : Nat) (hnames : ∀ x ob', .object x ob' ∈ p → x < names)
    (dist so tof : F) (side : RoadSide) :
    ∃ s3, Session.addObjectRoadside names v proto dist so tof side (runCalls p s).2 = .ok () s3 ∧
      ∀ date, ∃ element, s3.getElement o date = .ok element ∧ ∀ doc, readDocument element = some doc →
        DocumentShown p o (doc.withoutObjects i.toStr (objectCalls v p).length) ∧
        (∀ rd ∈ doc.roads, rd.id = i.toStr → List.Forall₂ (BesideShown p proto rd.length dist so tof) (roadsidePlaces p l side)
          (rd.objects.drop (objectCalls v p).length)) ∧
        ((addedObjects p).Nodup → (doc.roads.flatMap fun r => r.objects.map (·.placed.id)).Nodup) := by
  obtain ⟨P, obs, hP, hobs, hrun⟩ := C99_calls p hp s v i pv l t n ru hv hadj proto ob hproto names dist so tof side
  refine ⟨_, hrun, fun date => ?_⟩
  obtain ⟨objs, reg, hs3⟩ := roadside_state ((runCalls p s).2.planviews.cell pv).getTotalLength dist so obs names v
    (List.range' names obs.length) (runCalls p s).2
  generalize htot : ((runCalls p s).2.planviews.cell pv).getTotalLength = total at *
  generalize hcs : makeBeside total dist so names obs ++ [.addObject v (List.range' names obs.length)] = cs at *
  -- the calls
  have hc1 : ∀ c ∈ cs, (∃ k x, obs[k]? = some x ∧ (c = .object (names + k) x.1 ∨ c = .repeatObject (names + k) (total -. so -. x.2) dist {})) ∨
      c = .addObject v (List.range' names obs.length) := by
    intro c hc
    rw [← hcs] at hc
    rcases List.mem_append.mp hc with hc | hc
    · exact .inl (makeBeside_mem hc)
    · exact .inr (List.mem_singleton.mp hc)
  have hc2 : ∀ {k x}, obs[k]? = some x → .object (names + k) x.1 ∈ cs := fun h =>
    hcs ▸ List.mem_append_left _ (makeBeside_object h)
  have hc3 : ∀ z, repeatCalls z cs =
      if names ≤ z then ((obs[z - names]?).map fun x => (total -. so -. x.2, dist, ({} : RepeatArgs F))).toList else [] := by
    intro z
    rw [← hcs, repeatCalls_append, makeBeside_repeats]
    simp [repeatCalls]
  have hc4 : objectCalls v cs = List.range' names obs.length ∧ ∀ w, w ≠ v → objectCalls w cs = [] := by
    have : ∀ w, objectCalls w (makeBeside total dist so names obs) = [] := by
      intro w
      rw [objectCalls, List.flatMap_eq_nil_iff]
      intro c hc
      obtain ⟨k, x, -, rfl | rfl⟩ := makeBeside_mem hc <;> rfl
    refine ⟨?_, fun w hw => ?_⟩
    · rw [← hcs, objectCalls_append, this]; simp [objectCalls]
    · rw [← hcs, objectCalls_append, this]; simp [objectCalls, hw.symm]
  have hp' : Proper (p ++ cs) := by
    rw [← hcs, ← List.append_assoc]
    refine proper_snoc (makeBeside_proper obs names p hp hnames) ?_ (fun x hx => by cases hx)
    rintro x (rfl | ⟨y, hy, rfl⟩)
    · exact ⟨_, List.mem_append_left _ hv, rfl⟩
    · obtain ⟨k, hk, rfl⟩ := List.mem_range'.mp hy
      rw [Nat.one_mul]
      exact ⟨_, List.mem_append_right _ (makeBeside_object (List.getElem?_eq_getElem hk)), rfl⟩
  have hrun' : (runCalls (p ++ cs) s).2 = (runCalls cs (runCalls p s).2).2 := by rw [runCalls_append]
  rw [← hrun'] at hs3 ⊢
  -- what is as before
  have hf : ∀ c ∈ cs, furnishes c = true := by
    intro c hc
    rcases hc1 c hc with ⟨k, x, -, rfl | rfl⟩ | rfl <;> rfl
  obtain ⟨-, e2, e3, e4, -, -, -, -, -, e10, e11, e12, e13⟩ := silent_calls (p := p) hf
  have ho' : .openDrive o name ∈ p ++ cs := List.mem_append_left _ ho
  have hids' : ∀ v i pv l t n ru w j pv' l' t' n' ru', .addRoad o v ∈ p ++ cs → .addRoad o w ∈ p ++ cs → .road v i pv l t n ru ∈ p ++ cs →
      .road w j pv' l' t' n' ru' ∈ p ++ cs → i.toStr = j.toStr → v = w := fun _ _ _ _ _ _ _ _ _ _ _ _ _ _ h1 h2 h3 h4 e =>
    hids _ _ _ _ _ _ _ _ _ _ _ _ _ _ (not_furnishing hf h1 rfl) (not_furnishing hf h2 rfl) (not_furnishing hf h3 rfl)
      (not_furnishing hf h4 rfl) e
  have honce' : ∀ v i pv l t n ru sec x, .addRoad o v ∈ p ++ cs → .road v i pv l t n ru ∈ p ++ cs → sec ∈ sectionCalls l (p ++ cs) →
      x ∈ leftCalls sec (p ++ cs) ++ rightCalls sec (p ++ cs) → (puts x (p ++ cs)).length = 1 := by
    intro v i pv l t n ru sec x h1 h2 h3 h4
    rw [e4] at h3
    rw [e2, e3] at h4
    rw [e13]
    exact honce _ _ _ _ _ _ _ _ _ (not_furnishing hf h1 rfl) (not_furnishing hf h2 rfl) h3 h4
  have hgood' : ∀ kv ∈ ((runCalls (p ++ cs) s).2.readOpenDrive ((runCalls (p ++ cs) s).2.openDrives.cell o)).roads,
      GoodRoad (runCalls (p ++ cs) s).2.heap kv.2 := by
    rw [hs3]
    intro kv hkv
    simp only [Session.readOpenDrive, List.mem_map] at hkv
    obtain ⟨kv0, h0, rfl⟩ := hkv
    have := hgood _ (List.mem_map.mpr ⟨kv0, h0, rfl⟩)
    refine ⟨?_, ?_⟩
    · have := this.marks
      simp only [Session.readRoad, Store.modify, Session.heap] at this ⊢
      split
      · rename_i h
        rw [h] at this
        exact this
      · exact this
    · have := this.signals
      simp only [Session.readRoad, Store.modify, Session.heap] at this ⊢
      split
      · rename_i h
        rw [h] at this
        exact this
      · exact this
  obtain ⟨element, he⟩ := C89_emits (p ++ cs) hp' s o name ho' date
  refine ⟨element, he, fun doc hdoc => ?_⟩
  have hshown := C97_document (p ++ cs) hp' s o name ho' hids' honce' date element he doc hdoc hgood'
  obtain ⟨gs, -, -, hdoc'⟩ := doc_form (p ++ cs) hp' s o name ho' hids' date element he doc hdoc hgood'
  have hu := (num_program p hp s).2
  have hobj : ∀ r os, .addObject r os ∈ p → ∀ x ∈ os, x < names := by
    intro r os h x hx
    obtain ⟨d, hd, hm⟩ := hu _ h _ (.inr ⟨x, hx, rfl⟩)
    cases d <;> simp [Makes] at hm
    case object y g =>
      subst hm
      exact hnames _ _ hd
  have hback : ∀ x O, x < names → ObjectShown (p ++ cs) x O → ObjectShown p x O := by
    rintro x O hx ⟨g, id, g1, g2⟩
    rw [repeatCalls_append, hc3, if_neg (by omega), List.append_nil] at g2
    refine ⟨g, id, ?_, g2⟩
    rcases List.mem_append.mp g1 with g1 | g1
    · exact g1
    · rcases hc1 _ g1 with ⟨k, y, -, h | h⟩ | h
      · cases h; omega
      · cases h
      · cases h
  have hkey : ∀ w rd, RoadShown (p ++ cs) w rd → .addRoad o w ∈ p → (rd.id = i.toStr ↔ w = v) := by
    intro w rd h hw
    obtain ⟨⟨j, pv', l', n', ru', m1, m2, -⟩, -⟩ := h
    constructor
    · intro e
      exact hids _ _ _ _ _ _ _ _ _ _ _ _ _ _ hw hadd (not_furnishing hf m1 rfl) hv (m2.symm.trans e)
    · rintro rfl
      cases made_once hp (x := .road w) hv (not_furnishing hf m1 rfl) rfl rfl
      exact m2
  refine ⟨⟨not_furnishing hf hshown.name rfl, ?_, ?_⟩, ?_, ?_⟩
  · have := hshown.roads
    rw [e11] at this
    simp only [RDocument.withoutObjects]
    rw [List.forall₂_map_right_iff]
    rw [List.forall₂_iff_get] at this ⊢
    refine ⟨this.1, fun k h1 h2 => ?_⟩
    have hr := this.2 k h1 h2
    have hw : .addRoad o ((keepFirst (roadCalls o p)).get ⟨k, h1⟩) ∈ p := roadCalls_mem.mp ((keepFirst_mem _ _).mp (List.get_mem _ _))
    generalize (keepFirst (roadCalls o p)).get ⟨k, h1⟩ = w at hr hw ⊢
    generalize doc.roads.get ⟨k, h2⟩ = rd at hr ⊢
    have hos := hr.objects
    have hmem : ∀ x ∈ objectCalls w p, x < names := by
      intro x hx
      obtain ⟨c, hc, hx⟩ := List.mem_flatMap.mp hx
      cases c <;> simp at hx
      case addObject r os => exact hobj _ _ hc x hx.2
    have hold : ∀ os : List (RObject F), List.Forall₂ (ObjectShown (p ++ cs)) (objectCalls w p) os →
        List.Forall₂ (ObjectShown p) (objectCalls w p) os := by
      intro os h
      rw [List.forall₂_iff_get] at h ⊢
      exact ⟨h.1, fun j j1 j2 => hback _ _ (hmem _ (List.get_mem _ _)) (h.2 j j1 j2)⟩
    by_cases hwv : w = v
    · rw [if_pos ((hkey w rd hr hw).mpr hwv)]
      refine road_back hf hr (hold _ ?_)
      subst hwv
      rw [objectCalls_append] at hos
      have := List.forall₂_take (objectCalls w p).length hos
      rwa [List.take_left] at this
    · rw [if_neg fun e => hwv ((hkey w rd hr hw).mp e)]
      rw [objectCalls_append, hc4.2 w hwv, List.append_nil] at hos
      exact road_back hf hr (hold _ hos)
  · have := hshown.junctions
    rw [e12] at this
    exact this.imp fun j J => junction_back hf
  · intro rd hrd hid
    have hlen : rd.length = total := by
      rw [hdoc'] at hrd
      obtain ⟨w, hw, rfl⟩ := List.mem_map.mp hrd
      have hw' : .addRoad o w ∈ p ++ cs := roadCalls_mem.mp ((keepFirst_mem _ _).mp hw)
      have hw'' : .addRoad o w ∈ p := not_furnishing hf hw' rfl
      have hwr := roadIs_program p hp s w (hu _ hw'' _ (.inr rfl))
      have hid' : ((runCalls p s).2.roads.cell w).attrs.id.toStr = i.toStr := by
        rw [hs3] at hid
        simp only [shownRoad, Session.readRoad, Store.modify] at hid
        split at hid
        · rename_i h; rw [h]; exact hid
        · exact hid
      have hwv := hids _ _ _ _ _ _ _ _ _ _ _ _ _ _ hw'' hadd hwr.made hv hid'
      subst hwv
      have hm := made_once hp (x := .road w) hv hwr.made rfl rfl
      injection hm with _ _ hpv hl
      rw [hs3]
      simp only [shownRoad, Session.readRoad, Store.modify, if_true]
      rw [← hpv]
      exact htot
    obtain ⟨w, hw, hr⟩ : ∃ w, .addRoad o w ∈ p ∧ RoadShown (p ++ cs) w rd := by
      have := hshown.roads
      rw [e11, List.forall₂_iff_get] at this
      obtain ⟨⟨k, hk⟩, rfl⟩ := List.get_of_mem hrd
      have hk' : k < (keepFirst (roadCalls o p)).length := this.1 ▸ hk
      exact ⟨_, roadCalls_mem.mp ((keepFirst_mem _ _).mp (List.get_mem _ ⟨k, hk'⟩)), this.2 k hk' hk⟩
    have hwv := (hkey w rd hr hw).mp hid
    subst hwv
    have hos := hr.objects
    rw [objectCalls_append, hc4.1] at hos
    have hos := List.forall₂_drop (objectCalls w p).length hos
    rw [List.drop_left] at hos
    rw [hlen]
    rw [List.forall₂_iff_get] at hos hobs ⊢
    have hl1 : obs.length = (rd.objects.drop (objectCalls w p).length).length := by
      rw [← hos.1, List.length_range']
    refine ⟨hobs.1.trans hl1, fun k k1 k2 => ?_⟩
    have k3 : k < obs.length := hl1 ▸ k2
    have hB := hobs.2 k k1 k3
    obtain ⟨g, id, g1, g2⟩ := hos.2 k (by simpa using k3) k2
    simp only [List.get_eq_getElem, List.getElem_range', Nat.one_mul] at g1 g2 hB ⊢
    have hx : obs[k]? = some obs[k] := List.getElem?_eq_getElem k3
    have hmade := made_once hp' (x := .object (names + k)) g1 (List.mem_append_right _ (hc2 hx)) rfl rfl
    injection hmade with _ hg
    subst hg
    have hnone : repeatCalls (names + k) p = [] := by
      refine filterMap_unmade (x := .object (names + k)) hu ?_ _ ?_
      · rintro ⟨d, hd, hm⟩
        cases d <;> simp [Makes] at hm
        case object y g =>
          subst hm
          have := hnames _ _ hd
          omega
      · intro c a h
        cases c <;> simp at h
        case repeatObject x a b c => rw [h.1]; rfl
    rw [repeatCalls_append, hnone, List.nil_append, hc3, if_pos (by omega), show names + k - names = k by omega, hx] at g2
    exact ⟨P, _, _, id, hP, hB, g2⟩
  · intro hnd
    refine (C90_document (p ++ cs) hp' s o name ho' date element he doc hdoc hgood').2.1 ?_
    have hadded : addedObjects cs = List.range' names obs.length := by
      have : addedObjects (makeBeside total dist so names obs) = [] := by
        rw [addedObjects, List.flatMap_eq_nil_iff]
        intro c hc
        obtain ⟨k, x, -, rfl | rfl⟩ := makeBeside_mem hc <;> rfl
      rw [← hcs, show addedObjects (makeBeside total dist so names obs ++ [.addObject v (List.range' names obs.length)]) =
        addedObjects (makeBeside total dist so names obs) ++ addedObjects [.addObject v (List.range' names obs.length)] from
        List.flatMap_append, this]
      simp [addedObjects]
    rw [show addedObjects (p ++ cs) = addedObjects p ++ addedObjects cs from List.flatMap_append, hadded, List.nodup_append]
    refine ⟨hnd, List.nodup_range', ?_⟩
    intro x hx y hy e
    subst e
    obtain ⟨c, hc, hx⟩ := List.mem_flatMap.mp hx
    cases c <;> simp at hx
    case addObject r os =>
      have := hobj _ _ hc x hx
      obtain ⟨k, hk, rfl⟩ := List.mem_range'.mp hy
      omega

/-- C99: if the document could be read before the call, it can be read after it. -/
theorem C99_readable (p : List (Call F)) (hp : Proper p) (s : Session F) (o : Nat)
    (hgood : ∀ kv ∈ ((runCalls p s).2.readOpenDrive ((runCalls p s).2.openDrives.cell o)).roads, GoodRoad (runCalls p s).2.heap kv.2)
    (v : Nat) (i : PyId) (pv l : Nat) (t : Int) (n ru : Option String)
    (hv : .road v i pv l t n ru ∈ p) (hadj : ((runCalls p s).2.planviews.cell pv).adjusted = true)
    (proto : Nat) (ob : Obj F) (hproto : .object proto ob ∈ p) (names : Nat) (dist so tof : F) (side : RoadSide)
    (date : String) (element0 : Xml F) (he0 : (runCalls p s).2.getElement o date = .ok element0)
    (doc0 : RDocument F) (hdoc0 : readDocument element0 = some doc0)
    (s3 : Session F) (h3 : Session.addObjectRoadside names v proto dist so tof side (runCalls p s).2 = .ok () s3)
    (element : Xml F) (he : s3.getElement o date = .ok element) : ∃ doc, readDocument element = some doc := by
  obtain ⟨P, obs, hP, hobs, hrun⟩ := C99_calls p hp s v i pv l t n ru hv hadj proto ob hproto names dist so tof side
  obtain ⟨objs, reg, hs3⟩ := roadside_state ((runCalls p s).2.planviews.cell pv).getTotalLength dist so obs names v
    (List.range' names obs.length) (runCalls p s).2
  rw [hs3] at hrun
  rw [hrun] at h3
  injection h3 with _ h3
  subst h3
  clear hrun hs3
  obtain ⟨gs, hgs, -⟩ := document_read he0 hgood hdoc0
  refine ⟨_, C59_document _ date _ element he (fun r => (readPlanView (r.planview.getElement (runCalls p s).2.heap.geoms)).getD [])
    (fun kv hkv => ?_)⟩
  simp only [Session.readOpenDrive, List.mem_map] at hkv
  obtain ⟨kv0, h0, rfl⟩ := hkv
  have hg := hgood _ (List.mem_map.mpr ⟨kv0, h0, rfl⟩)
  have hr := hgs _ (List.mem_map.mpr ⟨kv0, h0, rfl⟩)
  refine ⟨⟨?_, ?_⟩, ?_⟩
  · have := hg.marks
    simp only [Session.readRoad, Store.modify, Session.heap] at this ⊢
    split
    · rename_i h
      rw [h] at this
      exact this
    · exact this
  · have := hg.signals
    simp only [Session.readRoad, Store.modify, Session.heap] at this ⊢
    split
    · rename_i h
      rw [h] at this
      exact this
    · exact this
  · simp only [Session.readRoad, Store.modify, Session.heap] at hr ⊢
    split
    · rename_i h
      rw [h] at hr
      rw [hr]; rfl
    · rw [hr]; rfl

end

section
variable {R : Rounding}

/-- A road of the network, by its id. -/
theorem network_road (p : List (Call (Fl R))) (s : Session (Fl R)) (hs : Blank s) (o : Nat) (h : LaidOut p o)
    {v : Nat} {i : PyId} {pv l : Nat} {t : Int} {n ru : Option String} (hadd : .addRoad o v ∈ p) (hv : .road v i pv l t n ru ∈ p) :
    ∃ r0, (worldOf (runCalls p s).2 o).net.roads.get? i.toStr = some r0 ∧ r0.planview = (runCalls p s).2.planviews.cell pv := by
  obtain ⟨name, ho⟩ := h.document
  obtain ⟨n1, n2, -, -, n5⟩ := C88_drawn p h.drawing s hs o name ho
  have hk := (n5 i.toStr).mpr ⟨v, i, pv, l, t, n, ru, hv, hadd, rfl⟩
  obtain ⟨⟨k, r0⟩, h0, rfl⟩ := List.mem_map.mp hk
  have h0 := Dict.mem_get? n1 h0
  refine ⟨r0, h0, ?_⟩
  obtain ⟨w, j, pv', l', t', n', ru', a1, a2, a3, -, -, a6, -⟩ := drawn_road p h.drawing s o name ho h0
  have := h.linked.ids _ _ _ _ _ _ ⟨a1, _, _, _, _, a2⟩ ⟨hadd, _, _, _, _, hv⟩ a3
  subst this
  cases made_once h.drawing.proper (x := .road w) a2 hv rfl rfl
  exact a6

/-- C99: before `adjust_roads_and_lanes`, `add_object_roadside` raises RoadsAndLanesNotAdjusted and changes nothing. -/
theorem C99_too_early (p : List (Call (Fl R))) (s : Session (Fl R)) (hs : Blank s) (o : Nat) (h : LaidOut p o)
    (v : Nat) (i : PyId) (l : Nat) (t : Int) (hv : AddsLanes p o v i l t) (proto names : Nat) (dist so tof : Fl R) (side : RoadSide) :
    Session.addObjectRoadside names v proto dist so tof side (runCalls p s).2 = .error .roadsAndLanesNotAdjusted (runCalls p s).2 := by
  obtain ⟨hadd, pv, n, ru, hv⟩ := hv
  refine C99_not_adjusted p h.drawing.proper s v i pv l t n ru hv ?_ proto names dist so tof side
  obtain ⟨name, ho⟩ := h.document
  obtain ⟨n1, n2, -, -, -⟩ := C88_drawn p h.drawing s hs o name ho
  obtain ⟨r0, h1, h2⟩ := network_road p s hs o h hadd hv
  rw [← h2]
  exact (n2 _ _ h1).fields.2.2.2.2

/-- C99: after `adjust_roads_and_lanes` in a laid out program, for any road of the network: the document shows what the calls say, and after
the objects that were added to the road before, one object for every lane section and side wanted, outside of the lanes and repeated up to
the end of the road. -/
theorem C99_adjusted (p : List (Call (Fl R))) (s : Session (Fl R)) (hs : Blank s) (o : Nat) (h : LaidOut p o)
    (v : Nat) (i : PyId) (l : Nat) (t : Int) (hv : AddsLanes p o v i l t)
    (proto : Nat) (ob : Obj (Fl R)) (hproto : .object proto ob ∈ p) (names : Nat) (hnames : ∀ x ob', .object x ob' ∈ p → x < names)
    (dist so tof : Fl R) (side : RoadSide) :
    ∃ s3, Session.addObjectRoadside names v proto dist so tof side (runCalls (p ++ [.adjust o]) s).2 = .ok () s3 ∧
      ∀ date, ∃ element, s3.getElement o date = .ok element ∧ ∀ doc, readDocument element = some doc →
        DocumentShown p o (doc.withoutObjects i.toStr (objectCalls v p).length) ∧
        (∀ rd ∈ doc.roads, rd.id = i.toStr → List.Forall₂ (BesideShown p proto rd.length dist so tof) (roadsidePlaces p l side)
          (rd.objects.drop (objectCalls v p).length)) ∧
        ((addedObjects p).Nodup → (doc.roads.flatMap fun r => r.objects.map (·.placed.id)).Nodup) := by
  obtain ⟨name, ho⟩ := h.document
  obtain ⟨hadd, pv, n, ru, hv⟩ := hv
  have hp := proper_adjust h.drawing.proper ⟨name, ho⟩
  obtain ⟨hadj0, hgood⟩ := drawing_adjusted p h.drawing s hs o name ho (laidOut_returns p s hs o h)
  have hids := laidOut_ids h
  have e1 : ∀ l, sectionCalls l (p ++ [.adjust o]) = sectionCalls l p := fun l => by simp [sectionCalls]
  have e2 : ∀ sec, leftCalls sec (p ++ [.adjust o]) = leftCalls sec p := fun l => by simp [leftCalls]
  have e3 : ∀ sec, rightCalls sec (p ++ [.adjust o]) = rightCalls sec p := fun l => by simp [rightCalls]
  have e4 : ∀ x, puts x (p ++ [.adjust o]) = puts x p := fun l => by simp [puts]
  have e5 : objectCalls v (p ++ [.adjust o]) = objectCalls v p := by simp [objectCalls]
  have e6 : addedObjects (p ++ [.adjust o]) = addedObjects p := by simp [addedObjects]
  have e7 : repeatCalls proto (p ++ [.adjust o]) = repeatCalls proto p := by simp [repeatCalls]
  have e8 : roadsidePlaces (p ++ [.adjust o]) l side = roadsidePlaces p l side := by simp only [roadsidePlaces, e1]
  have e9 : ∀ place, placeLanes (p ++ [.adjust o]) place = placeLanes p place := fun place => by simp only [placeLanes, e2, e3]
  have hmem : ∀ c, (∀ o, c ≠ .adjust o) → c ∈ p ++ [.adjust o] → c ∈ p := by
    intro c hc hm
    rcases List.mem_append.mp hm with hm | hm
    · exact hm
    · exact absurd (List.mem_singleton.mp hm) (hc o)
  have hshown : ∀ doc, DocumentShown (p ++ [.adjust o]) o doc → DocumentShown p o doc := fun doc => shown_adjust
  have hbeside : ∀ len place O, BesideShown (p ++ [.adjust o]) proto len dist so tof place O → BesideShown p proto len dist so tof place O := by
    rintro len place O ⟨P, start, x, id, ⟨g, id', h1, h2⟩, ⟨c, ws, h3, h4, h5⟩, h6⟩
    rw [e7] at h2
    rw [e9] at h4
    refine ⟨P, start, x, id, ⟨g, id', hmem _ (by simp) h1, h2⟩, ⟨c, ws, hmem _ (by simp) h3, h4.imp ?_, h5⟩, h6⟩
    rintro x w ⟨t, b, c, d, so, hm⟩
    exact ⟨t, b, c, d, so, hmem _ (by simp) hm⟩
  have honce : ∀ v i pv l t n ru sec x, .addRoad o v ∈ p ++ [.adjust o] → .road v i pv l t n ru ∈ p ++ [.adjust o] →
      sec ∈ sectionCalls l (p ++ [.adjust o]) → x ∈ leftCalls sec (p ++ [.adjust o]) ++ rightCalls sec (p ++ [.adjust o]) →
      (puts x (p ++ [.adjust o])).length = 1 := by
    intro v i pv l t n ru sec x h1 h2 h3 h4
    rw [e1] at h3
    rw [e2, e3] at h4
    rw [e4]
    exact h.fitting.once v i l t sec x ⟨hmem _ (by simp) h1, _, _, _, hmem _ (by simp) h2⟩ h3 h4
  have hnames' : ∀ x ob', .object x ob' ∈ p ++ [.adjust o] → x < names := fun x ob' hx => hnames x ob' (hmem _ (by simp) hx)
  have hadj : ((runCalls (p ++ [.adjust o]) s).2.planviews.cell pv).adjusted = true := by
    obtain ⟨n1, n2, -, -, -⟩ := C88_drawn p h.drawing s hs o name ho
    have hfresh : Fresh (worldOf (runCalls p s).2 o).net.roads :=
      fun k r hr => ⟨(n2 k r hr).fields.2.2.2.2, (n2 k r hr).fields.2.2.1⟩
    have hadj' := adjustRoadsAndLanes_net hadj0
    obtain ⟨r0, k1, k2⟩ := network_road p s hs o h hadd hv
    obtain ⟨-, k3⟩ := C18_placed_once _ _ n1 hfresh hadj'
    obtain ⟨r, k4, k5, -⟩ := k3 _ _ k1
    obtain ⟨pvs, geoms, lanes, hs2⟩ := adjust_objects p s hs o h
    generalize (runCalls (p ++ [.adjust o]) s).2 = s2 at *
    obtain ⟨w, k6, rfl⟩ := worldOf_get k4
    have e1 : s2.openDrives = (runCalls p s).2.openDrives := by rw [hs2]
    have e2 : s2.roads = (runCalls p s).2.roads := by rw [hs2]
    rw [e1] at k6
    obtain ⟨b1, b2, b3⟩ := dict_road p h.drawing s o name ho k6
    have hwv := h.linked.ids _ _ _ _ _ _ ⟨b1, _, _, _, _, b2.made⟩ ⟨hadd, _, _, _, _, hv⟩ b3
    subst hwv
    have hm := made_once h.drawing.proper (x := .road w) hv b2.made rfl rfl
    injection hm with _ _ hpv
    simp only [Session.readRoad, e2] at k5
    rw [hpv]
    exact k5
  have ho' : .openDrive o name ∈ p ++ [.adjust o] := List.mem_append_left _ ho
  have hadd' : .addRoad o v ∈ p ++ [.adjust o] := List.mem_append_left _ hadd
  have hv' : .road v i pv l t n ru ∈ p ++ [.adjust o] := List.mem_append_left _ hv
  have hproto' : .object proto ob ∈ p ++ [.adjust o] := List.mem_append_left _ hproto
  clear hadj0
  generalize p ++ [.adjust o] = q at *
  obtain ⟨s3, h1, h2⟩ := C99_document q hp s o name ho' hids honce hgood v i pv l t n ru hadd' hv' hadj proto ob hproto' names hnames'
    dist so tof side
  rw [e5, e6, e8] at h2
  refine ⟨s3, h1, fun date => ?_⟩
  obtain ⟨element, he, h2⟩ := h2 date
  refine ⟨element, he, fun doc hdoc => ?_⟩
  obtain ⟨k1, k2, k3⟩ := h2 doc hdoc
  exact ⟨hshown _ k1, fun rd hrd hid => (k2 rd hrd hid).imp fun place O => hbeside _ place O, k3⟩

end

end Pyodrx.Props
