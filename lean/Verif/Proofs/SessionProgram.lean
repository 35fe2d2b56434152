import Verif.Proofs.SessionAdjust
import Verif.Props.Float

/-! # What a drawing program leaves behind -/

namespace Pyodrx.Spec
open Pyodrx PyFloat Pyodrx.Props

variable {R : Rounding}

/-- A constructor in the program made the object. -/
def Made {F : Type} (p : List (Call F)) (x : Part) : Prop := ∃ d ∈ p, Makes d x

/-- The geometries that the program adds to a planview. -/
def geomCalls {F : Type} (v : Nat) (p : List (Call F)) : List (Nat × Option F) :=
  p.filterMap fun c => match c with
    | .addGeometry pv g h => if pv = v then some (g, h) else none
    | _ => none

/-- The predecessor and the successor of the road are among its links. -/
def LinksOk {F : Type} (r : Road F) : Prop :=
  (∀ l, r.predecessor = some l → l ∈ r.links ∧ l.kind = .predecessor) ∧
    ∀ l, r.successor = some l → l ∈ r.links ∧ l.kind = .successor

theorem linkNew_kind {k : LinkKind} {i : PyId} {et : Option ElementType} {cp : Option ContactPoint} {d : Option Direction}
    {l : Link} (h : Link.new k i et cp d = .ok l) : l.kind = k := by
  unfold Link.new at h
  split at h
  · cases h
  · cases h; rfl

section
variable {F : Type}

theorem linksOk_addSuccessor (et : ElementType) (id : PyId) (cp : Option ContactPoint) (off : Int) (r : Road F)
    (h : LinksOk r) : LinksOk (after (Road.addSuccessor et id cp off r)).2 := by
  unfold Road.addSuccessor
  split
  · exact h
  · split
    · exact h
    · next l hl =>
      refine ⟨fun l' hl' => ?_, fun l' hl' => ?_⟩
      · exact ⟨List.mem_append_left _ (h.1 l' hl').1, (h.1 l' hl').2⟩
      · cases hl'
        exact ⟨List.mem_append_right _ (by simp), linkNew_kind hl⟩

theorem linksOk_addPredecessor (et : ElementType) (id : PyId) (cp : Option ContactPoint) (off : Int) (r : Road F)
    (h : LinksOk r) : LinksOk (after (Road.addPredecessor et id cp off r)).2 := by
  unfold Road.addPredecessor
  split
  · exact h
  · split
    · exact h
    · next l hl =>
      refine ⟨fun l' hl' => ?_, fun l' hl' => ?_⟩
      · cases hl'
        exact ⟨List.mem_append_right _ (by simp), linkNew_kind hl⟩
      · exact ⟨List.mem_append_left _ (h.2 l' hl').1, (h.2 l' hl').2⟩

theorem linksOk_addNeighbor (et : ElementType) (id : PyId) (dir : Option Direction) (r : Road F)
    (h : LinksOk r) : LinksOk (after (Road.addNeighbor et id dir r)).2 := by
  unfold Road.addNeighbor
  split
  · exact h
  · split
    · exact h
    · exact ⟨fun l' hl' => ⟨List.mem_append_left _ (h.1 l' hl').1, (h.1 l' hl').2⟩,
        fun l' hl' => ⟨List.mem_append_left _ (h.2 l' hl').1, (h.2 l' hl').2⟩⟩

theorem made_append (p : List (Call F)) (c : Call F) (x : Part) : Made (p ++ [c]) x ↔ Made p x ∨ Makes c x := by
  simp [Made, or_and_right, exists_or]

theorem makes_touches (c : Call F) (x : Part) (h : Makes c x) : Touches c x := by
  cases c <;> first | exact h | exact .inl h | exact absurd h id

theorem geomCalls_append (v : Nat) (p : List (Call F)) (c : Call F) :
    geomCalls v (p ++ [c]) = geomCalls v p ++ geomCalls v [c] := List.filterMap_append

theorem geomCalls_other (v : Nat) (c : Call F) (h : ¬ Touches c (.planView v)) : geomCalls v [c] = [] := by
  cases c <;> simp_all [geomCalls, Touches, eq_comm]

theorem geomCalls_nil (v : Nat) (p : List (Call F)) (h : ∀ g hd, .addGeometry v g hd ∉ p) : geomCalls v p = [] := by
  rw [geomCalls, List.filterMap_eq_nil_iff]
  intro c hc
  cases c <;> simp only
  split
  · next e => subst e; exact absurd hc (h _ _)
  · rfl

theorem sameButLinks_apply (lk : LaneLink) (lanes : Store (Lane F)) : SameButLinks lanes (lk.apply lanes).2 := by
  unfold LaneLink.apply
  split
  · exact .refl _
  · exact (sameButLinks_addLink _ _ _ _).trans (sameButLinks_addLink _ _ _ _)

theorem applyAll_links (lks : List LaneLink) : ∀ lanes : Store (Lane F), SameButLinks lanes (LaneLinker.applyAll lks lanes).2 := by
  induction lks with
  | nil => exact fun lanes => .refl _
  | cons lk lks ih => exact fun lanes => (sameButLinks_apply lk lanes).trans (ih _)

theorem applyLinkers_links (ls : List Nat) : ∀ (linkers : Store (List LaneLink)) (lanes : Store (Lane F)),
    SameButLinks lanes (Lanes.applyLinkers ls linkers lanes).2 := by
  induction ls with
  | nil => exact fun _ lanes => .refl _
  | cons l ls ih => exact fun _ lanes => (applyAll_links _ lanes).trans (ih _ _)

theorem updateSigIds_signals (os : List Nat) : ∀ st : SOState F, (∀ i, (st.sigs.cell i).base.typ = .str (st.sigs.cell i).type) →
    ∀ i, ((os.foldl SOState.updateSigId st).sigs.cell i).base.typ = .str ((os.foldl SOState.updateSigId st).sigs.cell i).type := by
  induction os with
  | nil => exact fun st h => h
  | cons o os ih =>
    intro st h
    refine ih _ fun i => ?_
    simp only [SOState.updateSigId, Store.modify]
    split
    · next e => subst e; exact h _
    · exact h i

theorem keys_set_nodup {α : Type} {d : Dict α} {k : String} {v : α} (h : d.keys.Nodup) : (d.set k v).keys.Nodup := by
  rw [Dict.keys_set]
  split
  · exact h
  · next hk => exact List.nodup_append.mpr ⟨h, by simp, by
      intro a ha b hb e
      rw [List.mem_singleton] at hb
      exact hk (hb ▸ e ▸ ha)⟩

theorem mem_set' {α : Type} {d : Dict α} {k : String} {v : α} {kv : String × α} (h : kv ∈ d.set k v) :
    kv = (k, v) ∨ kv ∈ d := by
  induction d with
  | nil => exact .inl (by simpa [Dict.set] using h)
  | cons e d ih =>
    simp only [Dict.set] at h
    split at h
    · rcases List.mem_cons.mp h with rfl | h
      · simp_all
      · exact .inr (List.mem_cons_of_mem _ h)
    · rcases List.mem_cons.mp h with rfl | h
      · exact .inr (by simp)
      · exact (ih h).imp id (List.mem_cons_of_mem _)

end

/-- What the calls made so far have left. -/
structure Inv (done : List (Call (Fl R))) (s : Session (Fl R)) : Prop where
  pvs : ∀ v, Made done (.planView v) → ∃ x y h pv, .planView v x y h ∈ done ∧ PlanView.new x y h = .ok pv ∧
    s.planviews.cell v = addEach pv (geomCalls v done)
  adds : ∀ v g h, .addGeometry v g h ∈ done → Made done (.planView v)
  roads : ∀ v, Made done (.road v) → ∃ i pv l t n ru, .road v i pv l t n ru ∈ done ∧ (s.roads.cell v).pv = pv ∧
    (s.roads.cell v).attrs.id = i ∧ LinksOk (s.roads.cell v).attrs
  plans : ∀ v i pv l t n ru, .road v i pv l t n ru ∈ done → Made done (.planView pv)
  odrs : ∀ o, Made done (.openDrive o) → (s.openDrives.cell o).roads.keys.Nodup ∧
    ∀ kv ∈ (s.openDrives.cell o).roads, Made done (.road kv.2) ∧ (s.roads.cell kv.2).attrs.id.toStr = kv.1
  added : ∀ o, Made done (.openDrive o) → ∀ k, k ∈ (s.openDrives.cell o).roads.keys ↔
    ∃ r, .addRoad o r ∈ done ∧ (s.roads.cell r).attrs.id.toStr = k
  puts : ∀ o r, .addRoad o r ∈ done → Made done (.openDrive o) ∧ Made done (.road r)
  blank : Blank s

theorem newFl_ok (x y h : Option (Fl R)) (hp : (x.isSome ∧ y.isSome ∧ h.isSome) ∨ (x = none ∧ y = none ∧ h = none)) :
    ∃ pv, PlanView.new x y h = .ok pv := by
  rcases hp with ⟨h1, h2, h3⟩ | ⟨rfl, rfl, rfl⟩
  · obtain ⟨x, rfl⟩ := Option.isSome_iff_exists.mp h1
    obtain ⟨y, rfl⟩ := Option.isSome_iff_exists.mp h2
    obtain ⟨h, rfl⟩ := Option.isSome_iff_exists.mp h3
    exact ⟨_, rfl⟩
  · exact ⟨_, rfl⟩

/-- What a single call of a drawing program is like. -/
structure Fit (done : List (Call (Fl R))) (c : Call (Fl R)) : Prop where
  uses : ∀ x, Uses c x → Made done x
  makes : ∀ x, Makes c x → ¬ Made done x
  poses : ∀ v x y h, c = .planView v x y h → (x.isSome ∧ y.isSome ∧ h.isSome) ∨ (x = none ∧ y = none ∧ h = none)
  arcs : ∀ v a, c = .geometry v (.arc a) → a.curvature.val ≠ 0
  marks : ∀ l m, c = .addRoadmark l m → m.line.isSome → m.width.isSome
  signals : ∀ v g, c = .signal v g → g.base.typ = .str g.type
  start : ∀ pv q, c ≠ .setStartPoint pv q
  once : ∀ o, c ≠ .adjust o

section
variable {done : List (Call (Fl R))} {c : Call (Fl R)} {s : Session (Fl R)}

theorem inv_pvs (h : Inv done s) (hc : Fit done c) (v : Nat) (hm : Made (done ++ [c]) (.planView v)) :
    ∃ x y h pv, .planView v x y h ∈ done ++ [c] ∧ PlanView.new x y h = .ok pv ∧
      (c.step s).2.planviews.cell v = addEach pv (geomCalls v (done ++ [c])) := by
  rw [geomCalls_append]
  by_cases ht : Touches c (.planView v)
  · cases c <;> simp only [Touches, reduceCtorEq, or_self, false_and, exists_false, and_false] at ht
    case planView v' x y h' =>
      cases ht
      obtain ⟨pv, hpv⟩ := newFl_ok x y h' (hc.poses _ _ _ _ rfl)
      refine ⟨x, y, h', pv, by simp, hpv, ?_⟩
      rw [geomCalls_nil v done (fun g hd hmem => hc.makes _ rfl (h.adds v g hd hmem)), planView_step, hpv]
      simp [Store.put, Store.modify, geomCalls, addEach]
    case addGeometry pv' g hd =>
      cases ht
      obtain ⟨x, y, h', pv, h1, h2, h3⟩ := h.pvs v (hc.uses _ (.inl rfl))
      refine ⟨x, y, h', pv, by simp [h1], h2, ?_⟩
      simp [Call.step, Call.run, Store.modify, h3, geomCalls, addEach]
    case setStartPoint pv q => exact absurd rfl (hc.start pv q)
    case adjust o => exact absurd rfl (hc.once o)
    all_goals simp at ht
  · have hm' : Made done (.planView v) := ((made_append _ _ _).mp hm).resolve_right fun hx => ht (makes_touches _ _ hx)
    obtain ⟨x, y, h', pv, h1, h2, h3⟩ := h.pvs v hm'
    refine ⟨x, y, h', pv, by simp [h1], h2, ?_⟩
    rw [geomCalls_other v c ht, List.append_nil, ← h3]
    exact (step_frame c s _ ht).symm

theorem inv_roads (h : Inv done s) (hc : Fit done c) (v : Nat) (hm : Made (done ++ [c]) (.road v)) :
    ∃ i pv l t n ru, .road v i pv l t n ru ∈ done ++ [c] ∧ ((c.step s).2.roads.cell v).pv = pv ∧
      ((c.step s).2.roads.cell v).attrs.id = i ∧ LinksOk ((c.step s).2.roads.cell v).attrs := by
  by_cases ht : Touches c (.road v)
  · by_cases hk : Makes c (.road v)
    · cases c <;> simp only [Makes, reduceCtorEq] at hk
      case road v' i pv l t n ru =>
        cases hk
        refine ⟨i, pv, l, t, n, ru, by simp, ?_⟩
        simp [Call.step, Call.run, Store.put, Store.modify, Road.new, LinksOk]
    · have hm' : Made done (.road v) := ((made_append _ _ _).mp hm).resolve_right hk
      obtain ⟨i, pv, l, t, n, ru, h1, h2, h3, h4⟩ := h.roads v hm'
      have key : ∀ f : EStateM PyErr (Road (Fl R)) Unit, (∀ a, (after (f a)).2.id = a.id) →
          (∀ a, LinksOk a → LinksOk (after (f a)).2) →
          ((withRoadStep v f s).2.roads.cell v).pv = pv ∧ ((withRoadStep v f s).2.roads.cell v).attrs.id = i ∧
            LinksOk ((withRoadStep v f s).2.roads.cell v).attrs := by
        intro f f1 f2
        simp only [withRoadStep, Store.modify, if_true]
        exact ⟨h2, (f1 _).trans h3, f2 _ h4⟩
      refine ⟨i, pv, l, t, n, ru, by simp [h1], ?_⟩
      cases c <;> simp only [Touches, reduceCtorEq, or_self, false_and, exists_false, and_false, false_or, or_false,
        Part.road.injEq] at ht
      case road => exact absurd (by rw [ht]; rfl) hk
      case addSuccessor r et id cp off =>
        subst ht
        rw [withRoad_step _ v _ rfl]
        exact key _ (addSuccessor_id _ _ _ _) (linksOk_addSuccessor _ _ _ _)
      case addPredecessor r et id cp off =>
        subst ht
        rw [withRoad_step _ v _ rfl]
        exact key _ (addPredecessor_id _ _ _ _) (linksOk_addPredecessor _ _ _ _)
      case addNeighbor r et id dir =>
        subst ht
        rw [withRoad_step _ v _ rfl]
        exact key _ (addNeighbor_id _ _ _) (linksOk_addNeighbor _ _ _)
      case addObject r os =>
        have ht : v = r := by simpa using ht
        subst ht
        simp only [Call.step, Call.run, Road.addObject, Store.modify, if_true]
        exact ⟨h2, h3, h4⟩
      case addSignal r os =>
        have ht : v = r := by simpa using ht
        subst ht
        simp only [Call.step, Call.run, Road.addSignal, Store.modify, if_true]
        exact ⟨h2, h3, h4⟩
      case adjust o => exact absurd rfl (hc.once o)
      all_goals simp at ht
  · have hm' : Made done (.road v) := ((made_append _ _ _).mp hm).resolve_right fun hx => ht (makes_touches _ _ hx)
    obtain ⟨i, pv, l, t, n, ru, h1, h2, h3, h4⟩ := h.roads v hm'
    have e : s.roads.cell v = (c.step s).2.roads.cell v := step_frame c s _ ht
    rw [← e]
    exact ⟨i, pv, l, t, n, ru, by simp [h1], h2, h3, h4⟩

theorem inv_blank (h : Blank s) (hc : Fit done c) : Blank (c.step s).2 := by
  refine ⟨?_, ?_, ?_⟩
  · intro r a hr
    by_cases ht : Touches c (.geometry r)
    · cases c <;> simp [Touches] at ht
      case geometry v g =>
        subst ht
        simp [Call.step, Call.run, Store.put, Store.modify] at hr
        exact hc.arcs r a (by rw [hr])
      case adjust o => exact absurd rfl (hc.once o)
    · rw [← show s.geoms.cell r = _ from step_frame c s _ ht] at hr
      exact h.arcs r a hr
  · intro l m hm
    by_cases ht : Touches c (.lane l)
    · have keep : ((c.step s).2.laneObjs.cell l).roadmark = (s.laneObjs.cell l).roadmark →
          m.line.isSome → m.width.isSome := fun e => h.marks l m (by rw [← e]; exact hm)
      cases c <;> simp [Touches] at ht
      case lane v t a b cc d so =>
        subst ht
        simp [Call.step, Call.run, Store.put, Store.modify, Lane.new] at hm
      case addRoadmark v m' =>
        subst ht
        simp [Call.step, Call.run, Store.modify, Lane.addRoadmark] at hm
        subst hm
        exact hc.marks _ _ rfl
      case addLaneLink v k i =>
        refine keep ?_
        simp only [Call.step, Call.run, Store.modify]
        simp [ht, Lane.addLink, Lane.setLaneId]
      case laneSection v sc ce =>
        refine keep ?_
        simp only [Call.step, Call.run, LaneSection.new, Store.modify]
        simp [ht, Lane.addLink, Lane.setLaneId]
      case addLeftLane v x =>
        refine keep ?_
        simp only [Call.step, Call.run, LaneSection.addLeftLane, Store.modify]
        simp [ht, Lane.addLink, Lane.setLaneId]
      case addRightLane v x =>
        refine keep ?_
        simp only [Call.step, Call.run, LaneSection.addRightLane, Store.modify]
        simp [ht, Lane.addLink, Lane.setLaneId]
      case addLanesection v x ls =>
        refine keep ?_
        have := (applyLinkers_links ls s.linkers s.laneObjs).2 l
        exact (congrArg Lane.roadmark this).symm
      case adjust o => exact absurd rfl (hc.once o)
    · rw [← show s.laneObjs.cell l = _ from step_frame c s _ ht] at hm
      exact h.marks l m hm
  · intro i
    by_cases ht : Touches c (.signal i)
    · cases c <;> simp [Touches] at ht
      case signal v g =>
        subst ht
        simp [Call.step, Call.run, Store.put, Store.modify]
        exact hc.signals _ _ rfl
      case addSignal r os =>
        exact updateSigIds_signals os ⟨s.objs, s.sigs, s.reg⟩ h.signals i
      case adjust o => exact absurd rfl (hc.once o)
    · rw [← show s.sigs.cell i = _ from step_frame c s _ ht]
      exact h.signals i

theorem ids_step (h : Inv done s) (hc : Fit done c) :
    ∀ v, Made done (.road v) → ((c.step s).2.roads.cell v).attrs.id = (s.roads.cell v).attrs.id := by
  intro v hv
  by_cases ht : Touches c (.roadId v)
  · cases c <;> simp [Touches] at ht
    case road v' i pv l t n ru => exact absurd (by rw [← ht]; exact hv) (hc.makes (.road v') rfl)
    case addRoad o' r => rfl
    case adjust o => exact absurd rfl (hc.once o)
  · exact (step_frame c s _ ht : (s.roads.cell v).attrs.id = _).symm

theorem inv_added (h : Inv done s) (hc : Fit done c) (o : Nat) (hm : Made (done ++ [c]) (.openDrive o)) (k : String) :
    k ∈ ((c.step s).2.openDrives.cell o).roads.keys ↔
      ∃ r, .addRoad o r ∈ done ++ [c] ∧ ((c.step s).2.roads.cell r).attrs.id.toStr = k := by
  have ids := ids_step h hc
  have same : (∃ r, .addRoad o r ∈ done ∧ (s.roads.cell r).attrs.id.toStr = k) ↔
      ∃ r, .addRoad o r ∈ done ∧ ((c.step s).2.roads.cell r).attrs.id.toStr = k := by
    refine exists_congr fun r => and_congr_right fun hr => ?_
    rw [ids r (h.puts o r hr).2]
  by_cases ht : Touches c (.openDrive o)
  · cases c <;> simp [Touches] at ht
    case openDrive v n =>
      subst ht
      have : ∀ r, .addRoad o r ∉ done := fun r hr => hc.makes _ rfl (h.puts o r hr).1
      simp [Call.step, Call.run, Store.put, Store.modify, Dict.keys, this]
    case addRoad v r =>
      subst ht
      have e : ((Call.addRoad o r).step s).2.openDrives.cell o =
          { s.openDrives.cell o with roads := (s.openDrives.cell o).roads.set (s.roads.cell r).attrs.id.toStr r } := by
        simp [Call.step, Call.run, Store.modify]
      have hr : Made done (.road r) := hc.uses _ (.inr rfl)
      have hk := h.added o (hc.uses _ (.inl rfl)) k
      rw [same] at hk
      rw [e]
      have e2 : k ∈ ((s.openDrives.cell o).roads.set (s.roads.cell r).attrs.id.toStr r).keys ↔
          k ∈ (s.openDrives.cell o).roads.keys ∨ k = (s.roads.cell r).attrs.id.toStr := by
        rw [Dict.keys_set]
        split
        · next hi => exact ⟨.inl, fun hx => hx.elim id fun hx => hx ▸ hi⟩
        · simp
      refine e2.trans ?_
      rw [hk, ← ids r hr]
      constructor
      · rintro (⟨r', h1, h2⟩ | rfl)
        · exact ⟨r', by simp [h1], h2⟩
        · exact ⟨r, by simp, rfl⟩
      · rintro ⟨r', h1, h2⟩
        rcases List.mem_append.mp h1 with h1 | h1
        · exact .inl ⟨r', h1, h2⟩
        · obtain ⟨-, rfl⟩ : o = o ∧ r' = r := by simpa using h1
          exact .inr h2.symm
    case addJunction v j =>
      subst ht
      have e : ((Call.addJunction o j).step s).2.openDrives.cell o =
          { s.openDrives.cell o with junctions := (s.openDrives.cell o).junctions ++ [j] } := by
        simp [Call.step, Call.run, Store.modify]
      rw [e]
      have hk := h.added o (hc.uses _ (.inl rfl)) k
      rw [same] at hk
      simpa using hk
    case adjust o => exact absurd rfl (hc.once o)
  · have hm' : Made done (.openDrive o) := ((made_append _ _ _).mp hm).resolve_right fun hx => ht (makes_touches _ _ hx)
    have hk := h.added o hm' k
    rw [same] at hk
    rw [← show s.openDrives.cell o = _ from step_frame c s _ ht, hk]
    refine exists_congr fun r => and_congr_left fun _ => ?_
    rw [List.mem_append]
    refine ⟨.inl, fun hx => hx.resolve_right fun hx => ht ?_⟩
    rw [← List.mem_singleton.mp hx]
    exact .inl rfl

theorem inv_odrs (h : Inv done s) (hc : Fit done c) (o : Nat) (hm : Made (done ++ [c]) (.openDrive o)) :
    ((c.step s).2.openDrives.cell o).roads.keys.Nodup ∧
      ∀ kv ∈ ((c.step s).2.openDrives.cell o).roads, Made (done ++ [c]) (.road kv.2) ∧
        ((c.step s).2.roads.cell kv.2).attrs.id.toStr = kv.1 := by
  have ids := ids_step h hc
  have grow : ∀ v, Made done (.road v) → Made (done ++ [c]) (.road v) := fun v hv => (made_append _ _ _).mpr (.inl hv)
  by_cases ht : Touches c (.openDrive o)
  · cases c <;> simp [Touches] at ht
    case openDrive v n =>
      subst ht
      simp [Call.step, Call.run, Store.put, Store.modify, Dict.keys]
    case addRoad v r =>
      subst ht
      obtain ⟨h1, h2⟩ := h.odrs o (hc.uses _ (.inl rfl))
      have hr : Made done (.road r) := hc.uses _ (.inr rfl)
      have e : ((Call.addRoad o r).step s).2.openDrives.cell o =
          { s.openDrives.cell o with roads := (s.openDrives.cell o).roads.set (s.roads.cell r).attrs.id.toStr r } := by
        simp [Call.step, Call.run, Store.modify]
      rw [e]
      refine ⟨keys_set_nodup h1, fun kv hkv => ?_⟩
      rcases mem_set' hkv with rfl | hkv
      · exact ⟨grow _ hr, by rw [ids _ hr]⟩
      · exact ⟨grow _ (h2 kv hkv).1, by rw [ids _ (h2 kv hkv).1]; exact (h2 kv hkv).2⟩
    case addJunction v j =>
      subst ht
      obtain ⟨h1, h2⟩ := h.odrs o (hc.uses _ (.inl rfl))
      have e : ((Call.addJunction o j).step s).2.openDrives.cell o =
          { s.openDrives.cell o with junctions := (s.openDrives.cell o).junctions ++ [j] } := by
        simp [Call.step, Call.run, Store.modify]
      rw [e]
      exact ⟨h1, fun kv hkv => ⟨grow _ (h2 kv hkv).1, by rw [ids _ (h2 kv hkv).1]; exact (h2 kv hkv).2⟩⟩
    case adjust o => exact absurd rfl (hc.once o)
  · have hm' : Made done (.openDrive o) := ((made_append _ _ _).mp hm).resolve_right fun hx => ht (makes_touches _ _ hx)
    obtain ⟨h1, h2⟩ := h.odrs o hm'
    rw [← show s.openDrives.cell o = _ from step_frame c s _ ht]
    exact ⟨h1, fun kv hkv => ⟨grow _ (h2 kv hkv).1, by rw [ids _ (h2 kv hkv).1]; exact (h2 kv hkv).2⟩⟩

theorem inv_step (h : Inv done s) (hc : Fit done c) : Inv (done ++ [c]) (c.step s).2 where
  pvs := inv_pvs h hc
  adds := by
    intro v g hd hm
    rw [made_append]
    rcases List.mem_append.mp hm with hm | hm
    · exact .inl (h.adds v g hd hm)
    · obtain rfl := List.mem_singleton.mp hm
      exact .inl (hc.uses _ (.inl rfl))
  roads := inv_roads h hc
  plans := by
    intro v i pv l t n ru hm
    rw [made_append]
    rcases List.mem_append.mp hm with hm | hm
    · exact .inl (h.plans v i pv l t n ru hm)
    · obtain rfl := List.mem_singleton.mp hm
      exact .inl (hc.uses _ (.inl rfl))
  odrs := inv_odrs h hc
  added := inv_added h hc
  puts := by
    intro o r hm
    rw [made_append, made_append]
    rcases List.mem_append.mp hm with hm | hm
    · exact ⟨.inl (h.puts o r hm).1, .inl (h.puts o r hm).2⟩
    · obtain rfl := List.mem_singleton.mp hm
      exact ⟨.inl (hc.uses _ (.inl rfl)), .inl (hc.uses _ (.inr rfl))⟩
  blank := inv_blank h.blank hc

theorem inv_run (rest : List (Call (Fl R))) : ∀ (done : List (Call (Fl R))) (s : Session (Fl R)), Inv done s →
    Drawing (done ++ rest) → Inv (done ++ rest) (runCalls rest s).2 := by
  induction rest with
  | nil => intro done s h _; simpa [runCalls] using h
  | cons c rest ih =>
    intro done s h hd
    have hc : Fit done c := by
      obtain ⟨p1, p2⟩ := hd.proper done c rest rfl
      have hmem : c ∈ done ++ c :: rest := by simp
      exact ⟨p1, p2, fun v x y h e => hd.poses v x y h (e ▸ hmem), fun v a e => hd.arcs v a (e ▸ hmem),
        fun l m e => hd.marks l m (e ▸ hmem), fun v g e => hd.signals v g (e ▸ hmem),
        fun pv q e => hd.start pv q (e ▸ hmem), fun o e => hd.once o (e ▸ hmem)⟩
    have := ih (done ++ [c]) _ (inv_step h hc) (by simpa using hd)
    simpa [runCalls] using this

theorem inv_drawing (p : List (Call (Fl R))) (hd : Drawing p) (hs : Blank s) : Inv p (runCalls p s).2 := by
  have h0 : Inv [] s := ⟨by simp [Made], by simp, by simp [Made], by simp, by simp [Made], by simp [Made], by simp, hs⟩
  simpa using inv_run p [] s h0 (by simpa using hd)

end

end Pyodrx.Spec
