import Verif.Spec.SessionRoads
import Verif.Props.SessionIds

/-! # Roads and their links in programs of calls: proofs -/

namespace Pyodrx.Spec
open Pyodrx PyFloat Pyodrx.Props

section
variable {F : Type}

theorem predecessorCalls_append (v : Nat) (p q : List (Call F)) :
    predecessorCalls v (p ++ q) = predecessorCalls v p ++ predecessorCalls v q := List.filterMap_append
theorem successorCalls_append (v : Nat) (p q : List (Call F)) :
    successorCalls v (p ++ q) = successorCalls v p ++ successorCalls v q := List.filterMap_append
theorem neighborCalls_append (v : Nat) (p q : List (Call F)) :
    neighborCalls v (p ++ q) = neighborCalls v p ++ neighborCalls v q := List.filterMap_append
theorem linkCalls_append (v : Nat) (p q : List (Call F)) :
    linkCalls v (p ++ q) = linkCalls v p ++ linkCalls v q := List.flatMap_append
theorem roadCalls_append (v : Nat) (p q : List (Call F)) :
    roadCalls v (p ++ q) = roadCalls v p ++ roadCalls v q := List.filterMap_append
theorem junctionCalls_append (v : Nat) (p q : List (Call F)) :
    junctionCalls v (p ++ q) = junctionCalls v p ++ junctionCalls v q := List.filterMap_append

/-- The links of a road object are those of the calls. -/
structure LinksAre (v : Nat) (done : List (Call F)) (r : Road F) : Prop where
  pred : r.predecessor = (predecessorCalls v done).head?.map (·.1)
  predOff : r.laneOffsetPred = ((predecessorCalls v done).head?.map (·.2)).getD 0
  succ : r.successor = (successorCalls v done).head?.map (·.1)
  succOff : r.laneOffsetSuc = ((successorCalls v done).head?.map (·.2)).getD 0
  count : r.neighborAdded = ((neighborCalls v done).take 2).length
  preds : r.links.filter (·.kind = .predecessor) = ((predecessorCalls v done).take 1).map (·.1)
  succs : r.links.filter (·.kind = .successor) = ((successorCalls v done).take 1).map (·.1)
  neighbors : r.links.filter (·.kind = .neighbor) = (neighborCalls v done).take 2
  kinds : ∀ l ∈ r.links, l.kind = .predecessor ∨ l.kind = .successor ∨ l.kind = .neighbor
  order : r.links.Sublist (linkCalls v done)

theorem head_append_some {α : Type} {a b : List α} {x : α} (h : a.head? = some x) : (a ++ b).head? = some x := by
  simp [List.head?_append, h]

theorem take_append_full {α : Type} {a b : List α} {n : Nat} (h : n ≤ a.length) : (a ++ b).take n = a.take n := by
  rw [List.take_append_of_le_length h]

theorem linksAre_addPredecessor {v : Nat} {done : List (Call F)} {r : Road F} (h : LinksAre v done r) (et : ElementType) (id : PyId)
    (cp : Option ContactPoint) (off : Int) :
    LinksAre v (done ++ [.addPredecessor v et id cp off]) (after (Road.addPredecessor et id cp off r)).2 := by
  have e1 : predecessorCalls v [Call.addPredecessor (F := F) v et id cp off] = [(⟨.predecessor, id, some et, cp, none⟩, off)] := by
    simp [predecessorCalls]
  have e2 : successorCalls v [Call.addPredecessor (F := F) v et id cp off] = [] := rfl
  have e3 : neighborCalls v [Call.addPredecessor (F := F) v et id cp off] = [] := rfl
  have e4 : linkCalls v [Call.addPredecessor (F := F) v et id cp off] = [⟨.predecessor, id, some et, cp, none⟩] := by
    simp [linkCalls, e1, e2, e3]
  have hp := h.pred
  cases hc : predecessorCalls v done with
  | nil =>
    rw [hc] at hp
    have hp : r.predecessor = none := hp
    have hl := h.preds
    rw [hc] at hl
    refine ⟨?_, ?_, ?_, ?_, ?_, ?_, ?_, ?_, ?_, ?_⟩ <;>
      simp only [Road.addPredecessor, hp, Option.isSome_none, Bool.false_eq_true, if_false, Link.new, after,
        predecessorCalls_append, successorCalls_append, neighborCalls_append, linkCalls_append, e1, e2, e3, e4, hc,
        List.append_nil, reduceCtorEq, false_and]
    · rfl
    · rfl
    · exact h.succ
    · exact h.succOff
    · exact h.count
    · rw [List.filter_append, hl]; rfl
    · rw [List.filter_append, h.succs]; simp
    · rw [List.filter_append, h.neighbors]; simp
    · intro l hl
      rcases List.mem_append.mp hl with hl | hl
      · exact h.kinds l hl
      · rw [List.mem_singleton.mp hl]; exact .inl rfl
    · exact h.order.append (List.Sublist.refl _)
  | cons x xs =>
    rw [hc] at hp
    have hp : r.predecessor = some x.1 := hp
    have e0 : (after (Road.addPredecessor et id cp off r)).2 = r := by simp [Road.addPredecessor, hp, after]
    rw [e0]
    refine ⟨?_, ?_, ?_, ?_, ?_, ?_, ?_, ?_, h.kinds, ?_⟩ <;>
      simp only [predecessorCalls_append, successorCalls_append, neighborCalls_append, linkCalls_append, e1, e2, e3, e4,
        List.append_nil]
    · rw [hp, hc]; rfl
    · rw [h.predOff, hc]; rfl
    · exact h.succ
    · exact h.succOff
    · exact h.count
    · rw [h.preds, hc]; rfl
    · exact h.succs
    · exact h.neighbors
    · exact h.order.trans (List.sublist_append_left _ _)

theorem linksAre_addSuccessor {v : Nat} {done : List (Call F)} {r : Road F} (h : LinksAre v done r) (et : ElementType) (id : PyId)
    (cp : Option ContactPoint) (off : Int) :
    LinksAre v (done ++ [.addSuccessor v et id cp off]) (after (Road.addSuccessor et id cp off r)).2 := by
  have e1 : successorCalls v [Call.addSuccessor (F := F) v et id cp off] = [(⟨.successor, id, some et, cp, none⟩, off)] := by
    simp [successorCalls]
  have e2 : predecessorCalls v [Call.addSuccessor (F := F) v et id cp off] = [] := rfl
  have e3 : neighborCalls v [Call.addSuccessor (F := F) v et id cp off] = [] := rfl
  have e4 : linkCalls v [Call.addSuccessor (F := F) v et id cp off] = [⟨.successor, id, some et, cp, none⟩] := by
    simp [linkCalls, e1, e2, e3]
  have hp := h.succ
  cases hc : successorCalls v done with
  | nil =>
    rw [hc] at hp
    have hp : r.successor = none := hp
    have hl := h.succs
    rw [hc] at hl
    refine ⟨?_, ?_, ?_, ?_, ?_, ?_, ?_, ?_, ?_, ?_⟩ <;>
      simp only [Road.addSuccessor, hp, Option.isSome_none, Bool.false_eq_true, if_false, Link.new, after,
        predecessorCalls_append, successorCalls_append, neighborCalls_append, linkCalls_append, e1, e2, e3, e4, hc,
        List.append_nil, reduceCtorEq, false_and]
    · exact h.pred
    · exact h.predOff
    · rfl
    · rfl
    · exact h.count
    · rw [List.filter_append, h.preds]; simp
    · rw [List.filter_append, hl]; rfl
    · rw [List.filter_append, h.neighbors]; simp
    · intro l hl
      rcases List.mem_append.mp hl with hl | hl
      · exact h.kinds l hl
      · rw [List.mem_singleton.mp hl]; exact .inr (.inl rfl)
    · exact h.order.append (List.Sublist.refl _)
  | cons x xs =>
    rw [hc] at hp
    have hp : r.successor = some x.1 := hp
    have e0 : (after (Road.addSuccessor et id cp off r)).2 = r := by simp [Road.addSuccessor, hp, after]
    rw [e0]
    refine ⟨?_, ?_, ?_, ?_, ?_, ?_, ?_, ?_, h.kinds, ?_⟩ <;>
      simp only [predecessorCalls_append, successorCalls_append, neighborCalls_append, linkCalls_append, e1, e2, e3, e4,
        List.append_nil]
    · exact h.pred
    · exact h.predOff
    · rw [hp, hc]; rfl
    · rw [h.succOff, hc]; rfl
    · exact h.count
    · exact h.preds
    · rw [h.succs, hc]; rfl
    · exact h.neighbors
    · exact h.order.trans (List.sublist_append_left _ _)

theorem linksAre_addNeighbor {v : Nat} {done : List (Call F)} {r : Road F} (h : LinksAre v done r) (et : ElementType) (id : PyId)
    (dir : Option Direction) :
    LinksAre v (done ++ [.addNeighbor v et id dir]) (after (Road.addNeighbor et id dir r)).2 := by
  have e1 : successorCalls v [Call.addNeighbor (F := F) v et id dir] = [] := rfl
  have e2 : predecessorCalls v [Call.addNeighbor (F := F) v et id dir] = [] := rfl
  have keep : (after (Road.addNeighbor et id dir r)).2 = r →
      (neighborCalls v (done ++ [Call.addNeighbor (F := F) v et id dir])).take 2 = (neighborCalls v done).take 2 →
      LinksAre v (done ++ [.addNeighbor v et id dir]) (after (Road.addNeighbor et id dir r)).2 := by
    intro e0 e3
    rw [e0]
    refine ⟨?_, ?_, ?_, ?_, ?_, ?_, ?_, ?_, h.kinds, ?_⟩ <;>
      simp only [predecessorCalls_append, successorCalls_append, linkCalls_append, e1, e2, e3, List.append_nil]
    · exact h.pred
    · exact h.predOff
    · exact h.succ
    · exact h.succOff
    · exact h.count
    · exact h.preds
    · exact h.succs
    · exact h.neighbors
    · exact h.order.trans (List.sublist_append_left _ _)
  cases dir with
  | none =>
    have e3 : neighborCalls v [Call.addNeighbor (F := F) v et id none] = [] := rfl
    refine keep ?_ (by rw [neighborCalls_append, e3, List.append_nil])
    unfold Road.addNeighbor
    split <;> simp [Link.new, after]
  | some d =>
    have e3 : neighborCalls v [Call.addNeighbor (F := F) v et id (some d)] = [⟨.neighbor, id, some et, none, some d⟩] := by
      simp [neighborCalls]
    have e4 : linkCalls v [Call.addNeighbor (F := F) v et id (some d)] = [⟨.neighbor, id, some et, none, some d⟩] := by
      simp [linkCalls, e1, e2, e3]
    by_cases hn : r.neighborAdded > 1
    · refine keep (by simp [Road.addNeighbor, hn, after]) ?_
      rw [neighborCalls_append]
      refine take_append_full ?_
      rw [h.count, List.length_take] at hn
      omega
    · have hlen : (neighborCalls v done).length ≤ 1 := by
        rw [h.count, List.length_take] at hn
        omega
      have ht : (neighborCalls v done).take 2 = neighborCalls v done := List.take_of_length_le (by omega)
      have ht' : (neighborCalls v done ++ [(⟨.neighbor, id, some et, none, some d⟩ : Link)]).take 2 =
          neighborCalls v done ++ [⟨.neighbor, id, some et, none, some d⟩] := List.take_of_length_le (by simp; omega)
      refine ⟨?_, ?_, ?_, ?_, ?_, ?_, ?_, ?_, ?_, ?_⟩ <;>
        simp only [Road.addNeighbor, hn, if_false, Link.new, after,
          predecessorCalls_append, successorCalls_append, neighborCalls_append, linkCalls_append, e1, e2, e3, e4,
          List.append_nil, reduceCtorEq, and_false, ht']
      · exact h.pred
      · exact h.predOff
      · exact h.succ
      · exact h.succOff
      · rw [h.count, ht]; simp
      · rw [List.filter_append, h.preds]; simp
      · rw [List.filter_append, h.succs]; simp
      · rw [List.filter_append, h.neighbors, ht]; rfl
      · intro l hl
        rcases List.mem_append.mp hl with hl | hl
        · exact h.kinds l hl
        · rw [List.mem_singleton.mp hl]; exact .inr (.inr rfl)
      · exact h.order.append (List.Sublist.refl _)

theorem LinksAre.of_eq {v : Nat} {done done' : List (Call F)} {r r' : Road F} (h : LinksAre v done r)
    (hp : predecessorCalls v done' = predecessorCalls v done) (hs : successorCalls v done' = successorCalls v done)
    (hn : neighborCalls v done' = neighborCalls v done) (hl : linkCalls v done' = linkCalls v done)
    (r1 : r'.predecessor = r.predecessor) (r2 : r'.successor = r.successor) (r3 : r'.links = r.links)
    (r4 : r'.laneOffsetPred = r.laneOffsetPred) (r5 : r'.laneOffsetSuc = r.laneOffsetSuc)
    (r6 : r'.neighborAdded = r.neighborAdded) : LinksAre v done' r' := by
  obtain ⟨a1, a2, a3, a4, a5, a6, a7, a8, a9, a10⟩ := h
  constructor <;> simp only [hp, hs, hn, hl, r1, r2, r3, r4, r5, r6] <;> assumption

end

section
variable {F : Type} [PyFloat F]

/-- What the calls made so far have left in a road. -/
structure RoadIs (v : Nat) (done : List (Call F)) (r : RoadRef F) : Prop where
  made : .road v r.attrs.id r.pv r.lanes r.attrs.roadType r.attrs.name r.attrs.rule ∈ done
  links : LinksAre v done r.attrs

omit [PyFloat F] in
theorem calls_other (v : Nat) (c : Call F) (h : ¬ Uses c (.road v)) :
    predecessorCalls v [c] = [] ∧ successorCalls v [c] = [] ∧ neighborCalls v [c] = [] ∧ linkCalls v [c] = [] := by
  cases c <;> first | exact ⟨rfl, rfl, rfl, rfl⟩ | skip
  case addSuccessor r et id cp off =>
    have : r ≠ v := fun e => h (by rw [e]; rfl)
    simp [predecessorCalls, successorCalls, neighborCalls, linkCalls, this]
  case addPredecessor r et id cp off =>
    have : r ≠ v := fun e => h (by rw [e]; rfl)
    simp [predecessorCalls, successorCalls, neighborCalls, linkCalls, this]
  case addNeighbor r et id dir =>
    have : r ≠ v := fun e => h (by rw [e]; rfl)
    cases dir <;> simp [predecessorCalls, successorCalls, neighborCalls, linkCalls, this]

theorem calls_nil {done : List (Call F)} (hu : UsesMade done) (v : Nat) (h : ¬ Made done (.road v)) :
    predecessorCalls v done = [] ∧ successorCalls v done = [] ∧ neighborCalls v done = [] ∧ linkCalls v done = [] := by
  have key : ∀ c ∈ done, ¬ Uses c (.road v) := fun c hc hx => h (hu c hc _ hx)
  clear h hu
  induction done with
  | nil => exact ⟨rfl, rfl, rfl, rfl⟩
  | cons c done ih =>
    obtain ⟨a1, a2, a3, a4⟩ := ih fun d hd => key d (List.mem_cons_of_mem _ hd)
    obtain ⟨b1, b2, b3, b4⟩ := calls_other v c (key c (by simp))
    rw [show c :: done = [c] ++ done from rfl, predecessorCalls_append, successorCalls_append, neighborCalls_append,
      linkCalls_append, a1, a2, a3, a4, b1, b2, b3, b4]
    exact ⟨rfl, rfl, rfl, rfl⟩

theorem roadIs_step {done : List (Call F)} {c : Call F} {s : Session F} (h : ∀ v, Made done (.road v) → RoadIs v done (s.roads.cell v))
    (hu : UsesMade done) (hm : ∀ x, Makes c x → ¬ Made done x) (v : Nat)
    (hv : Made (done ++ [c]) (.road v)) : RoadIs v (done ++ [c]) ((c.step s).2.roads.cell v) := by
  by_cases hk : Makes c (.road v)
  · obtain ⟨e1, e2, e3, e4⟩ := calls_nil hu v (hm _ hk)
    have hno : ¬ Uses c (.road v) := by cases c <;> simp [Makes] at hk; simp [Uses]
    obtain ⟨d1, d2, d3, d4⟩ := calls_other v c hno
    have base : LinksAre v (done ++ [c]) (Road.new (.int 0) PlanView.blank [] 0 none none : Road F) := by
      constructor <;> simp [predecessorCalls_append, successorCalls_append, neighborCalls_append, linkCalls_append,
        e1, e2, e3, e4, d1, d2, d3, d4, Road.new]
    cases c <;> simp [Makes] at hk
    case road v' i pv l t n ru =>
      subst hk
      have e : ((Call.road v i pv l t n ru).step s).2.roads.cell v = ⟨Road.new i PlanView.blank [] t n ru, pv, l⟩ := by
        simp [Call.step, Call.run, Store.put]
      rw [e]
      exact ⟨by simp [Road.new], base.of_eq rfl rfl rfl rfl rfl rfl rfl rfl rfl rfl⟩
  · have h0 := h v (((made_append _ _ _).mp hv).resolve_right hk)
    have other : ∀ r' : RoadRef F, ¬ (∃ et id cp off, c = .addPredecessor v et id cp off) → ¬ (∃ et id cp off, c = .addSuccessor v et id cp off) →
        ¬ (∃ et id dir, c = .addNeighbor v et id dir) →
        r' = { s.roads.cell v with attrs := { (s.roads.cell v).attrs with objects := r'.attrs.objects, signals := r'.attrs.signals } } →
        RoadIs v (done ++ [c]) r' := by
      intro r' n1 n2 n3 er
      have d : predecessorCalls v [c] = [] ∧ successorCalls v [c] = [] ∧ neighborCalls v [c] = [] ∧ linkCalls v [c] = [] := by
        by_cases hux : Uses c (.road v)
        · cases c <;> simp [Uses] at hux <;> first | exact ⟨rfl, rfl, rfl, rfl⟩ | (subst hux; first
            | exact absurd ⟨_, _, _, _, rfl⟩ n1 | exact absurd ⟨_, _, _, _, rfl⟩ n2 | exact absurd ⟨_, _, _, rfl⟩ n3)
        · exact calls_other v c hux
      obtain ⟨d1, d2, d3, d4⟩ := d
      refine ⟨?_, ?_⟩
      · rw [er]; exact List.mem_append_left _ h0.made
      · rw [er]
        refine h0.links.of_eq ?_ ?_ ?_ ?_ rfl rfl rfl rfl rfl rfl
        · rw [predecessorCalls_append, d1, List.append_nil]
        · rw [successorCalls_append, d2, List.append_nil]
        · rw [neighborCalls_append, d3, List.append_nil]
        · rw [linkCalls_append, d4, List.append_nil]
    have linked : ∀ f : EStateM PyErr (Road F) Unit, (c.step s).2.roads.cell v = { s.roads.cell v with attrs := (after (f (s.roads.cell v).attrs)).2 } →
        LinksAre v (done ++ [c]) (after (f (s.roads.cell v).attrs)).2 →
        (∀ a, (after (f a)).2.id = a.id ∧ (after (f a)).2.roadType = a.roadType ∧ (after (f a)).2.name = a.name ∧ (after (f a)).2.rule = a.rule) →
        RoadIs v (done ++ [c]) ((c.step s).2.roads.cell v) := by
      intro f e1 e2 e3
      rw [e1]
      refine ⟨?_, e2⟩
      obtain ⟨g1, g2, g3, g4⟩ := e3 (s.roads.cell v).attrs
      dsimp only
      rw [g1, g2, g3, g4]
      exact List.mem_append_left _ h0.made
    by_cases ht : Touches c (.road v)
    · cases c <;> simp [Touches] at ht
      case road v' i pv l t n ru => exact absurd (congrArg _ ht) hk
      case addSuccessor r et id cp off =>
        subst ht
        refine linked (Road.addSuccessor et id cp off) ?_ (linksAre_addSuccessor h0.links et id cp off) ?_
        · rw [withRoad_step _ v _ rfl]; simp [withRoadStep, Store.modify]
        · intro a
          unfold Road.addSuccessor
          split
          · exact ⟨rfl, rfl, rfl, rfl⟩
          · split <;> exact ⟨rfl, rfl, rfl, rfl⟩
      case addPredecessor r et id cp off =>
        subst ht
        refine linked (Road.addPredecessor et id cp off) ?_ (linksAre_addPredecessor h0.links et id cp off) ?_
        · rw [withRoad_step _ v _ rfl]; simp [withRoadStep, Store.modify]
        · intro a
          unfold Road.addPredecessor
          split
          · exact ⟨rfl, rfl, rfl, rfl⟩
          · split <;> exact ⟨rfl, rfl, rfl, rfl⟩
      case addNeighbor r et id dir =>
        subst ht
        refine linked (Road.addNeighbor et id dir) ?_ (linksAre_addNeighbor h0.links et id dir) ?_
        · rw [withRoad_step _ v _ rfl]; simp [withRoadStep, Store.modify]
        · intro a
          unfold Road.addNeighbor
          split
          · exact ⟨rfl, rfl, rfl, rfl⟩
          · split <;> exact ⟨rfl, rfl, rfl, rfl⟩
      case addObject r os =>
        subst ht
        refine other _ (by simp) (by simp) (by simp) ?_
        simp [Call.step, Call.run, Store.modify, Road.addObject]
      case addSignal r os =>
        subst ht
        refine other _ (by simp) (by simp) (by simp) ?_
        simp [Call.step, Call.run, Store.modify, Road.addSignal]
      case adjust o =>
        obtain ⟨pvs, geoms, lanes, g1, g2⟩ := adjust_frame s o
        rw [g1]
        exact other _ (by simp) (by simp) (by simp) rfl
    · rw [← show s.roads.cell v = _ from step_frame c s _ ht]
      refine other _ ?_ ?_ ?_ rfl
      · rintro ⟨et, id, cp, off, rfl⟩; exact ht rfl
      · rintro ⟨et, id, cp, off, rfl⟩; exact ht rfl
      · rintro ⟨et, id, dir, rfl⟩; exact ht rfl

/-- An invariant that every call keeps holds at the end of a proper program. -/
theorem invariant_run (I : List (Call F) → Session F → Prop)
    (hstep : ∀ done c s, I done s → UsesMade done → (∀ x, Uses c x → Made done x) → (∀ x, Makes c x → ¬ Made done x) →
      I (done ++ [c]) (c.step s).2) (q : List (Call F)) : ∀ (done : List (Call F)) (s : Session F), I done s → UsesMade done →
    (∀ before c rest, q = before ++ c :: rest → (∀ x, Uses c x → Made (done ++ before) x) ∧
      ∀ x, Makes c x → ¬ Made (done ++ before) x) → I (done ++ q) (runCalls q s).2 := by
  induction q with
  | nil => intro done s h _ _; simpa [runCalls] using h
  | cons c q ih =>
    intro done s h hu hq
    obtain ⟨h1, h2⟩ := hq [] c q rfl
    rw [List.append_nil] at h1 h2
    have := ih (done ++ [c]) (c.step s).2 (hstep _ _ _ h hu h1 h2) (usesMade_step hu h1) fun b d r e => by
      have := hq (c :: b) d r (by rw [e]; rfl)
      simpa using this
    simpa [runCalls] using this

theorem invariant_program (I : List (Call F) → Session F → Prop)
    (hstep : ∀ done c s, I done s → UsesMade done → (∀ x, Uses c x → Made done x) → (∀ x, Makes c x → ¬ Made done x) →
      I (done ++ [c]) (c.step s).2) (p : List (Call F)) (hp : Proper p) (s : Session F) (h0 : I [] s) : I p (runCalls p s).2 := by
  have := invariant_run I hstep p [] s h0 (by simp [UsesMade]) (by simpa [Proper, Made] using hp)
  simpa using this

theorem roadIs_program (p : List (Call F)) (hp : Proper p) (s : Session F) (v : Nat) (hv : Made p (.road v)) :
    RoadIs v p ((runCalls p s).2.roads.cell v) :=
  invariant_program (fun done s => ∀ v, Made done (.road v) → RoadIs v done (s.roads.cell v))
    (fun _ _ _ h hu _ hm => roadIs_step h hu hm) p hp s (by simp [Made]) v hv

end

end Pyodrx.Spec
