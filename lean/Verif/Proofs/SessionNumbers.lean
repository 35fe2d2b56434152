import Verif.Spec.SessionNumbers
import Verif.Proofs.SessionProgram

/-! # Lanes and connections in programs of calls -/

namespace Pyodrx.Spec
open Pyodrx PyFloat

variable {F : Type} [PyFloat F]

/-- `adjust_roads_and_lanes` changes planviews, geometries and links of lanes only, even with shared planviews. -/
theorem adjust_frame (s : Session F) (o : Nat) : ∃ pvs geoms lanes,
    ((Call.adjust o).step s).2 = { s with planviews := pvs, geoms := geoms, laneObjs := lanes } ∧
      SameButLinks s.laneObjs lanes := by
  simp only [Call.step, Call.run, Session.adjust]
  cases SharedNet.adjustStartpoints (s.net o) with
  | error e n => exact ⟨n.pvs, n.geoms, s.laneObjs, rfl, .refl _⟩
  | ok u n =>
    dsimp only
    have e3 := linkPairs_onlyLinks (combinations2 (({ s with planviews := n.pvs, geoms := n.geoms } : Session F).readOpenDrive
        (s.openDrives.cell o)).roads.keys) ⟨⟨(({ s with planviews := n.pvs, geoms := n.geoms } : Session F).readOpenDrive
        (s.openDrives.cell o)).roads, n.geoms⟩, s.laneObjs⟩
    change ∃ pvs geoms lanes, (match (match World.linkPairs (combinations2 (({ s with planviews := n.pvs, geoms := n.geoms } : Session F).readOpenDrive
        (s.openDrives.cell o)).roads.keys) ⟨⟨(({ s with planviews := n.pvs, geoms := n.geoms } : Session F).readOpenDrive
        (s.openDrives.cell o)).roads, n.geoms⟩, s.laneObjs⟩ with
      | .ok _ w => (EStateM.Result.ok () { s with planviews := n.pvs, geoms := n.geoms, laneObjs := w.lanes } :
          EStateM.Result PyErr (Session F) Unit)
      | .error e w => .error e { s with planviews := n.pvs, geoms := n.geoms, laneObjs := w.lanes }) with
      | .ok _ s' => ((none, s') : Option PyErr × Session F) | .error e s' => (some e, s')).2 = _ ∧ _
    cases h4 : World.linkPairs (combinations2 (({ s with planviews := n.pvs, geoms := n.geoms } : Session F).readOpenDrive
        (s.openDrives.cell o)).roads.keys) ⟨⟨(({ s with planviews := n.pvs, geoms := n.geoms } : Session F).readOpenDrive
        (s.openDrives.cell o)).roads, n.geoms⟩, s.laneObjs⟩ with
    | ok u w => exact ⟨n.pvs, n.geoms, w.lanes, rfl, (e3.1 _ _ h4).1⟩
    | error e w => exact ⟨n.pvs, n.geoms, w.lanes, rfl, (e3.2 _ _ h4).1⟩

/-- A lane keeps its number in every call that does not make or put it. -/
theorem laneId_keep (c : Call F) (s : Session F) (l : Nat) (hm : ¬ Makes c (.lane l)) (hn : ∀ b n, ¬ Numbers b c l n) :
    ((c.step s).2.laneObjs.cell l).laneId = (s.laneObjs.cell l).laneId := by
  by_cases ht : Touches c (.lane l)
  · cases c <;> simp [Touches] at ht
    case lane v t a b cc d so => exact absurd (congrArg _ ht) hm
    case addRoadmark v m' => simp [Call.step, Call.run, Store.modify, Lane.addRoadmark, ht]
    case addLaneLink v k i => simp [Call.step, Call.run, Store.modify, Lane.addLink, ht]
    case laneSection v sc ce => exact absurd ⟨ht, rfl⟩ (hn [] 0)
    case addLeftLane v x => exact absurd ⟨ht, rfl⟩ (hn [] _)
    case addRightLane v x => exact absurd ⟨ht, rfl⟩ (hn [] _)
    case addLanesection v x ls =>
      have := (applyLinkers_links ls s.linkers s.laneObjs).2 l
      exact (congrArg Lane.laneId this).symm
    case adjust o =>
      obtain ⟨pvs, geoms, lanes, h1, h2⟩ := adjust_frame s o
      rw [h1]
      exact (congrArg Lane.laneId (h2.2 l)).symm
  · rw [← show s.laneObjs.cell l = _ from step_frame c s _ ht]

/-- What the calls made so far have left. -/
structure Num (done : List (Call F)) (s : Session F) : Prop where
  secs : ∀ v, Made done (.laneSection v) → ∃ sc ce, .laneSection v sc ce ∈ done ∧ s.sections.cell v =
    ⟨sc, ce, leftCalls v done, rightCalls v done, (leftCalls v done).length + 1, -((rightCalls v done).length + 1)⟩
  lanes : ∀ v, Made done (.lanes v) → s.lanesObjs.cell v = sectionCalls v done
  roads : ∀ v, Made done (.road v) → Made done (.lanes (s.roads.cell v).lanes)
  odrs : ∀ o, Made done (.openDrive o) → ∀ kv ∈ (s.openDrives.cell o).roads, Made done (.road kv.2)
  junctions : ∀ j, Made done (.junction j) → ∃ name id, .junction j name id ∈ done ∧ s.junctions.cell j =
    ⟨name, id, connectionCalls j done, (connectionCalls j done).length⟩

/-- The objects that a program uses were made before. -/
def UsesMade (done : List (Call F)) : Prop := ∀ c ∈ done, ∀ x, Uses c x → Made done x

section
variable {done : List (Call F)} {c : Call F} {s : Session F}

theorem grow (x : Part) (h : Made done x) : Made (done ++ [c]) x := (made_append _ _ _).mpr (.inl h)

theorem usesMade_step (h : UsesMade done) (hc : ∀ x, Uses c x → Made done x) : UsesMade (done ++ [c]) := by
  intro d hd x hx
  rcases List.mem_append.mp hd with hd | hd
  · exact grow x (h d hd x hx)
  · rw [List.mem_singleton.mp hd] at hx
    exact grow x (hc x hx)

theorem leftCalls_append (v : Nat) (p q : List (Call F)) : leftCalls v (p ++ q) = leftCalls v p ++ leftCalls v q :=
  List.filterMap_append
theorem rightCalls_append (v : Nat) (p q : List (Call F)) : rightCalls v (p ++ q) = rightCalls v p ++ rightCalls v q :=
  List.filterMap_append
theorem sectionCalls_append (v : Nat) (p q : List (Call F)) : sectionCalls v (p ++ q) = sectionCalls v p ++ sectionCalls v q :=
  List.filterMap_append
theorem connectionCalls_append (v : Nat) (p q : List (Call F)) :
    connectionCalls v (p ++ q) = connectionCalls v p ++ connectionCalls v q := List.filterMap_append

theorem leftCalls_mem {v x : Nat} {p : List (Call F)} : x ∈ leftCalls v p ↔ .addLeftLane v x ∈ p := by
  rw [leftCalls, List.mem_filterMap]
  constructor
  · rintro ⟨c, hc, hx⟩
    cases c <;> simp only [reduceCtorEq] at hx
    split at hx
    · next e => cases hx; subst e; exact hc
    · cases hx
  · exact fun h => ⟨_, h, by simp⟩

theorem rightCalls_mem {v x : Nat} {p : List (Call F)} : x ∈ rightCalls v p ↔ .addRightLane v x ∈ p := by
  rw [rightCalls, List.mem_filterMap]
  constructor
  · rintro ⟨c, hc, hx⟩
    cases c <;> simp only [reduceCtorEq] at hx
    split at hx
    · next e => cases hx; subst e; exact hc
    · cases hx
  · exact fun h => ⟨_, h, by simp⟩

theorem sectionCalls_mem {v x : Nat} {p : List (Call F)} : x ∈ sectionCalls v p ↔ ∃ ls, .addLanesection v x ls ∈ p := by
  rw [sectionCalls, List.mem_filterMap]
  constructor
  · rintro ⟨c, hc, hx⟩
    cases c <;> simp only [reduceCtorEq] at hx
    split at hx
    · next e => cases hx; subst e; exact ⟨_, hc⟩
    · cases hx
  · exact fun ⟨ls, h⟩ => ⟨_, h, by simp⟩

theorem connectionCalls_mem {v x : Nat} {p : List (Call F)} : x ∈ connectionCalls v p ↔ .addConnection v x ∈ p := by
  rw [connectionCalls, List.mem_filterMap]
  constructor
  · rintro ⟨c, hc, hx⟩
    cases c <;> simp only [reduceCtorEq] at hx
    split at hx
    · next e => cases hx; subst e; exact hc
    · cases hx
  · exact fun h => ⟨_, h, by simp⟩

theorem leftCalls_other (v : Nat) (c : Call F) (h : ¬ Touches c (.laneSection v)) : leftCalls v [c] = [] := by
  cases c <;> simp_all [leftCalls, Touches, eq_comm]

theorem rightCalls_other (v : Nat) (c : Call F) (h : ¬ Touches c (.laneSection v)) : rightCalls v [c] = [] := by
  cases c <;> simp_all [rightCalls, Touches, eq_comm]

theorem sectionCalls_other (v : Nat) (c : Call F) (h : ¬ Touches c (.lanes v)) : sectionCalls v [c] = [] := by
  cases c <;> simp_all [sectionCalls, Touches, eq_comm]

theorem connectionCalls_other (v : Nat) (c : Call F) (h : ¬ Touches c (.junction v)) : connectionCalls v [c] = [] := by
  cases c <;> simp_all [connectionCalls, Touches, eq_comm]

theorem num_step (h : Num done s) (hu : UsesMade done) (hc : ∀ x, Uses c x → Made done x)
    (hm : ∀ x, Makes c x → ¬ Made done x) : Num (done ++ [c]) (c.step s).2 where
  secs := by
    intro v hv
    by_cases ht : Touches c (.laneSection v)
    · cases c <;> simp [Touches] at ht
      case laneSection v' sc ce =>
        subst ht
        have e1 : leftCalls v done = [] := List.eq_nil_iff_forall_not_mem.mpr fun x hx =>
          hm _ rfl (hu _ (leftCalls_mem.mp hx) _ (.inl rfl))
        have e2 : rightCalls v done = [] := List.eq_nil_iff_forall_not_mem.mpr fun x hx =>
          hm _ rfl (hu _ (rightCalls_mem.mp hx) _ (.inl rfl))
        refine ⟨sc, ce, by simp, ?_⟩
        rw [leftCalls_append, rightCalls_append, e1, e2]
        simp [Call.step, Call.run, Store.put, Store.modify, LaneSection.new, leftCalls, rightCalls]
      case addLeftLane v' x =>
        subst ht
        obtain ⟨sc, ce, h1, h2⟩ := h.secs v (hc _ (.inl rfl))
        refine ⟨sc, ce, by simp [h1], ?_⟩
        rw [leftCalls_append, rightCalls_append]
        simp [Call.step, Call.run, Store.put, Store.modify, LaneSection.addLeftLane, h2, leftCalls, rightCalls]
      case addRightLane v' x =>
        subst ht
        obtain ⟨sc, ce, h1, h2⟩ := h.secs v (hc _ (.inl rfl))
        refine ⟨sc, ce, by simp [h1], ?_⟩
        rw [leftCalls_append, rightCalls_append]
        simp [Call.step, Call.run, Store.put, Store.modify, LaneSection.addRightLane, h2, leftCalls, rightCalls]
        omega
      case adjust o =>
        obtain ⟨sc, ce, h1, h2⟩ := h.secs v (((made_append _ _ _).mp hv).resolve_right fun h => h.elim)
        obtain ⟨pvs, geoms, lanes, g1, g2⟩ := adjust_frame s o
        refine ⟨sc, ce, by simp [h1], ?_⟩
        rw [g1, leftCalls_append, rightCalls_append]
        simpa [leftCalls, rightCalls] using h2
    · obtain ⟨sc, ce, h1, h2⟩ := h.secs v (((made_append _ _ _).mp hv).resolve_right fun hx => ht (makes_touches _ _ hx))
      refine ⟨sc, ce, by simp [h1], ?_⟩
      rw [← show s.sections.cell v = _ from step_frame c s _ ht, h2, leftCalls_append, rightCalls_append]
      have e1 : leftCalls v [c] = [] := leftCalls_other v c ht
      have e2 : rightCalls v [c] = [] := rightCalls_other v c ht
      rw [e1, e2, List.append_nil, List.append_nil]
  lanes := by
    intro v hv
    rw [sectionCalls_append]
    by_cases ht : Touches c (.lanes v)
    · cases c <;> simp [Touches] at ht
      case lanes v' =>
        subst ht
        have e1 : sectionCalls v done = [] := List.eq_nil_iff_forall_not_mem.mpr fun x hx => by
          obtain ⟨ls, hx⟩ := sectionCalls_mem.mp hx
          exact hm _ rfl (hu _ hx _ (.inl rfl))
        rw [e1]
        simp [Call.step, Call.run, Store.put, Store.modify, sectionCalls]
      case addLanesection v' x ls =>
        subst ht
        have := h.lanes v (hc _ (.inl rfl))
        simp [Call.step, Call.run, Store.modify, sectionCalls, this]
      case adjust o =>
        have := h.lanes v (((made_append _ _ _).mp hv).resolve_right fun h => h.elim)
        obtain ⟨pvs, geoms, lanes, g1, g2⟩ := adjust_frame s o
        rw [g1]
        simpa [sectionCalls] using this
    · have := h.lanes v (((made_append _ _ _).mp hv).resolve_right fun hx => ht (makes_touches _ _ hx))
      rw [← show s.lanesObjs.cell v = _ from step_frame c s _ ht, this]
      have e1 : sectionCalls v [c] = [] := sectionCalls_other v c ht
      rw [e1, List.append_nil]
  roads := by
    intro v hv
    by_cases hk : Makes c (.road v)
    · cases c <;> simp [Makes] at hk
      case road v' i pv l t n ru =>
        subst hk
        refine grow _ ?_
        have : Made done (.lanes l) := hc _ (.inr rfl)
        simpa [Call.step, Call.run, Store.put, Store.modify] using this
    · have := h.roads v (((made_append _ _ _).mp hv).resolve_right hk)
      have e : ((c.step s).2.roads.cell v).lanes = (s.roads.cell v).lanes := by
        by_cases ht : Touches c (.road v)
        · cases c <;> simp [Touches] at ht
          case road v' i pv l t n ru => exact absurd (congrArg _ ht) hk
          case addSuccessor r et id cp off => rw [withRoad_step _ r _ rfl]; simp [withRoadStep, Store.modify, ht]
          case addPredecessor r et id cp off => rw [withRoad_step _ r _ rfl]; simp [withRoadStep, Store.modify, ht]
          case addNeighbor r et id cp => rw [withRoad_step _ r _ rfl]; simp [withRoadStep, Store.modify, ht]
          case addObject r os => simp [Call.step, Call.run, Store.modify, ht]
          case addSignal r os => simp [Call.step, Call.run, Store.modify, ht]
          case adjust o =>
            obtain ⟨pvs, geoms, lanes, g1, g2⟩ := adjust_frame s o
            rw [g1]
        · rw [← show s.roads.cell v = _ from step_frame c s _ ht]
      rw [e]
      exact grow _ this
  odrs := by
    intro o ho kv hkv
    by_cases ht : Touches c (.openDrive o)
    · cases c <;> simp [Touches] at ht
      case openDrive v n =>
        subst ht
        simp [Call.step, Call.run, Store.put, Store.modify] at hkv
      case addRoad v r =>
        subst ht
        have e : ((Call.addRoad o r).step s).2.openDrives.cell o =
            { s.openDrives.cell o with roads := (s.openDrives.cell o).roads.set (s.roads.cell r).attrs.id.toStr r } := by
          simp [Call.step, Call.run, Store.modify]
        rw [e] at hkv
        rcases mem_set' hkv with rfl | hkv
        · exact grow _ (hc _ (.inr rfl))
        · exact grow _ (h.odrs o (hc _ (.inl rfl)) kv hkv)
      case addJunction v j =>
        subst ht
        refine grow _ (h.odrs o (hc _ (.inl rfl)) kv ?_)
        simpa [Call.step, Call.run, Store.modify] using hkv
      case adjust v =>
        obtain ⟨pvs, geoms, lanes, g1, g2⟩ := adjust_frame s v
        rw [g1] at hkv
        exact grow _ (h.odrs o (((made_append _ _ _).mp ho).resolve_right fun h => h.elim) kv hkv)
    · rw [← show s.openDrives.cell o = _ from step_frame c s _ ht] at hkv
      exact grow _ (h.odrs o (((made_append _ _ _).mp ho).resolve_right fun hx => ht (makes_touches _ _ hx)) kv hkv)
  junctions := by
    intro v hv
    rw [connectionCalls_append]
    by_cases ht : Touches c (.junction v)
    · cases c <;> simp [Touches] at ht
      case junction v' name id =>
        subst ht
        have e1 : connectionCalls v done = [] := List.eq_nil_iff_forall_not_mem.mpr fun x hx =>
          hm _ rfl (hu _ (connectionCalls_mem.mp hx) _ (.inl rfl))
        rw [e1]
        exact ⟨name, id, by simp, by simp [Call.step, Call.run, Store.put, Store.modify, connectionCalls]⟩
      case addConnection v' x =>
        subst ht
        obtain ⟨name, id, h1, h2⟩ := h.junctions v (hc _ (.inl rfl))
        exact ⟨name, id, by simp [h1], by simp [Call.step, Call.run, Store.modify, connectionCalls, h2]⟩
      case adjust o =>
        obtain ⟨name, id, h1, h2⟩ := h.junctions v (((made_append _ _ _).mp hv).resolve_right fun h => h.elim)
        obtain ⟨pvs, geoms, lanes, g1, g2⟩ := adjust_frame s o
        refine ⟨name, id, by simp [h1], ?_⟩
        rw [g1]
        simpa [connectionCalls] using h2
    · obtain ⟨name, id, h1, h2⟩ := h.junctions v
        (((made_append _ _ _).mp hv).resolve_right fun hx => ht (makes_touches _ _ hx))
      refine ⟨name, id, by simp [h1], ?_⟩
      rw [← show s.junctions.cell v = _ from step_frame c s _ ht, h2]
      have e1 : connectionCalls v [c] = [] := connectionCalls_other v c ht
      rw [e1, List.append_nil]

end

theorem num_run (rest : List (Call F)) : ∀ (done : List (Call F)) (s : Session F), Num done s → UsesMade done →
    Proper (done ++ rest) → Num (done ++ rest) (runCalls rest s).2 ∧ UsesMade (done ++ rest) := by
  induction rest with
  | nil => intro done s h hu _; simpa [runCalls] using ⟨h, hu⟩
  | cons c rest ih =>
    intro done s h hu hd
    obtain ⟨p1, p2⟩ := hd done c rest rfl
    have := ih (done ++ [c]) _ (num_step h hu p1 p2) (usesMade_step hu p1) (by simpa using hd)
    simpa [runCalls] using this

theorem num_program (p : List (Call F)) (hp : Proper p) (s : Session F) : Num p (runCalls p s).2 ∧ UsesMade p := by
  have h0 : Num [] s := ⟨by simp [Made], by simp [Made], by simp [Made], by simp [Made], by simp [Made]⟩
  have := num_run p [] s h0 (by simp [UsesMade]) (by simpa using hp)
  simpa using this

/-! ### Connections -/

/-- The connection has been added to a junction. -/
def Added (x : Nat) (done : List (Call F)) : Prop := ∃ j, .addConnection j x ∈ done

/-- What the calls made so far have left in the connections. -/
def Con (done : List (Call F)) (s : Session F) : Prop :=
  ∀ x, Made done (.connection x) → ∃ inc con cp id i, .connection x inc con cp id ∈ done ∧
    s.connections.cell x = ⟨inc, con, cp, i, laneLinkCalls x done⟩ ∧ (¬ Added x done → i = id) ∧ (Added x done → i.isSome)

theorem laneLinkCalls_append (v : Nat) (p q : List (Call F)) :
    laneLinkCalls v (p ++ q) = laneLinkCalls v p ++ laneLinkCalls v q := List.filterMap_append

theorem laneLinkCalls_mem {v : Nat} {x : Int × Int} {p : List (Call F)} :
    x ∈ laneLinkCalls v p ↔ .addLanelink v x.1 x.2 ∈ p := by
  rw [laneLinkCalls, List.mem_filterMap]
  constructor
  · rintro ⟨c, hc, hx⟩
    cases c <;> simp only [reduceCtorEq] at hx
    split at hx
    · next e => cases hx; subst e; exact hc
    · cases hx
  · exact fun h => ⟨_, h, by simp⟩

theorem laneLinkCalls_other (v : Nat) (c : Call F) (h : ¬ Touches c (.connection v)) : laneLinkCalls v [c] = [] := by
  cases c <;> simp_all [laneLinkCalls, Touches, eq_comm]

theorem added_append (x : Nat) (p : List (Call F)) (c : Call F) :
    Added x (p ++ [c]) ↔ Added x p ∨ ∃ j, c = .addConnection j x := by
  simp [Added, exists_or, eq_comm]

theorem con_step {done : List (Call F)} {c : Call F} {s : Session F} (h : Con done s) (hu : UsesMade done)
    (hc : ∀ x, Uses c x → Made done x) (hm : ∀ x, Makes c x → ¬ Made done x) : Con (done ++ [c]) (c.step s).2 := by
  intro v hv
  rw [added_append, laneLinkCalls_append]
  have quiet : Made done (.connection v) → (¬ ∃ j, c = .addConnection j v) → laneLinkCalls v [c] = [] →
      (c.step s).2.connections.cell v = s.connections.cell v → ∃ inc con cp id i, .connection v inc con cp id ∈ done ++ [c] ∧
        (c.step s).2.connections.cell v = ⟨inc, con, cp, i, laneLinkCalls v done ++ laneLinkCalls v [c]⟩ ∧
        (¬ (Added v done ∨ ∃ j, c = .addConnection j v) → i = id) ∧ ((Added v done ∨ ∃ j, c = .addConnection j v) → i.isSome) := by
    intro h0 h1 h2 h3
    obtain ⟨inc, con, cp, id, i, g1, g2, g3, g4⟩ := h v h0
    refine ⟨inc, con, cp, id, i, List.mem_append_left _ g1, by rw [h3, g2, h2, List.append_nil], fun hx => g3 fun ha => hx (.inl ha),
      fun hx => g4 (hx.resolve_right h1)⟩
  by_cases ht : Touches c (.connection v)
  · cases c <;> simp [Touches] at ht
    case connection v' inc con cp id =>
      subst ht
      have e1 : laneLinkCalls v done = [] := List.eq_nil_iff_forall_not_mem.mpr fun x hx =>
        hm _ rfl (hu _ (laneLinkCalls_mem.mp hx) _ rfl)
      have e2 : ¬ Added v done := fun ⟨j, hj⟩ => hm _ rfl (hu _ hj _ (.inr rfl))
      rw [e1]
      exact ⟨inc, con, cp, id, id, by simp, by simp [Call.step, Call.run, Store.put, Store.modify, Connection.new, laneLinkCalls],
        fun _ => rfl, fun hx => (by rcases hx with hx | ⟨j, hx⟩; exacts [absurd hx e2, by cases hx])⟩
    case addLanelink v' a b =>
      subst ht
      obtain ⟨inc, con, cp, id, i, g1, g2, g3, g4⟩ := h v (hc _ rfl)
      refine ⟨inc, con, cp, id, i, List.mem_append_left _ g1, ?_, fun hx => g3 fun ha => hx (.inl ha), fun hx => g4 (hx.resolve_right (by simp))⟩
      simp [Call.step, Call.run, Store.modify, Connection.addLanelink, laneLinkCalls, g2]
    case addConnection j x =>
      subst ht
      obtain ⟨inc, con, cp, id, i, g1, g2, g3, g4⟩ := h v (hc _ (.inr rfl))
      refine ⟨inc, con, cp, id, some (i.getD (s.junctions.cell j).idCounter), List.mem_append_left _ g1, ?_,
        fun hx => absurd (.inr ⟨j, rfl⟩) hx, fun _ => rfl⟩
      simp only [Call.step, Call.run, Store.modify, if_true, g2, laneLinkCalls, List.filterMap_cons, List.filterMap_nil,
        List.append_nil, Connection.setId]
      cases i <;> rfl
    case adjust o =>
      obtain ⟨pvs, geoms, lanes, e1, e2⟩ := adjust_frame s o
      exact quiet (((made_append _ _ _).mp hv).resolve_right fun h => h.elim) (by simp) rfl (by rw [e1])
  · exact quiet (((made_append _ _ _).mp hv).resolve_right fun hx => ht (makes_touches _ _ hx))
      (by rintro ⟨j, rfl⟩; exact ht (.inr rfl)) (laneLinkCalls_other v c ht) (step_frame c s _ ht).symm

theorem con_run (rest : List (Call F)) : ∀ (done : List (Call F)) (s : Session F), Con done s → UsesMade done →
    Proper (done ++ rest) → Con (done ++ rest) (runCalls rest s).2 := by
  induction rest with
  | nil => intro done s h hu _; simpa [runCalls] using h
  | cons c rest ih =>
    intro done s h hu hd
    obtain ⟨p1, p2⟩ := hd done c rest rfl
    have := ih (done ++ [c]) _ (con_step h hu p1 p2) (usesMade_step hu p1) (by simpa using hd)
    simpa [runCalls] using this

theorem con_program (p : List (Call F)) (hp : Proper p) (s : Session F) : Con p (runCalls p s).2 := by
  have := con_run p [] s (by simp [Con, Made]) (by simp [UsesMade]) (by simpa using hp)
  simpa using this

/-- Once a connection has an id it keeps it until it is made anew. -/
theorem conId_keep (c : Call F) (s : Session F) (x : Nat) (i : Int) (hm : ¬ Makes c (.connection x))
    (h : (s.connections.cell x).id = some i) : ((c.step s).2.connections.cell x).id = some i := by
  by_cases ht : Touches c (.connection x)
  · cases c <;> simp [Touches] at ht
    case connection v' inc con cp id => exact absurd (congrArg _ ht) hm
    case addLanelink v' a b => subst ht; simpa [Call.step, Call.run, Store.modify, Connection.addLanelink] using h
    case addConnection j y => subst ht; simp [Call.step, Call.run, Store.modify, Connection.setId, h]
    case adjust o =>
      obtain ⟨pvs, geoms, lanes, e1, e2⟩ := adjust_frame s o
      rw [e1]; exact h
  · rw [← show s.connections.cell x = _ from step_frame c s _ ht]; exact h

end Pyodrx.Spec
