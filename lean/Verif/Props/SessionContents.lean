import Verif.Spec.SessionContents
import Verif.Proofs.SessionRoads

/-! # C93: what lanes, planviews, signals and objects contain in programs of calls -/

namespace Pyodrx.Props
open Pyodrx Pyodrx.Spec PyFloat

variable {F : Type} [PyFloat F]

/-- The rule for one object: what is known of it, when it is made, survives the calls that touch it. -/
theorem content_program (x : Part) (P : List (Call F) → Session F → Prop) (p : List (Call F)) (hp : Proper p) (s : Session F)
    (hmake : ∀ done c s, (∀ d ∈ done, d ∈ p) → c ∈ p → UsesMade done → ¬ Made done x → Makes c x → P (done ++ [c]) (c.step s).2)
    (htouch : ∀ done c s, (∀ d ∈ done, d ∈ p) → c ∈ p → Made done x → ¬ Makes c x → Touches c x → P done s →
      P (done ++ [c]) (c.step s).2)
    (hframe : ∀ done c s, Made done x → ¬ Touches c x → P done s → P (done ++ [c]) (c.step s).2)
    (hx : Made p x) : P p (runCalls p s).2 := by
  have := invariant_program (fun done s => (∀ d ∈ done, d ∈ p) → Made done x → P done s) (fun done c s h hu hc hm hsub hmade => by
    have hsub' : ∀ d ∈ done, d ∈ p := fun d hd => hsub d (List.mem_append_left _ hd)
    have hcp : c ∈ p := hsub c (by simp)
    by_cases hmk : Makes c x
    · exact hmake done c s hsub' hcp hu (hm x hmk) hmk
    · have hd := ((made_append _ _ _).mp hmade).resolve_right hmk
      by_cases ht : Touches c x
      · exact htouch done c s hsub' hcp hd hmk ht (h hsub' hd)
      · exact hframe done c s hd ht (h hsub' hd)) p hp s (by simp [Made])
  exact this (fun _ h => h) hx

theorem markCalls_append (v : Nat) (p q : List (Call F)) : markCalls v (p ++ q) = markCalls v p ++ markCalls v q :=
  List.filterMap_append
theorem laneAddLinkCalls_append (v : Nat) (p q : List (Call F)) :
    laneAddLinkCalls v (p ++ q) = laneAddLinkCalls v p ++ laneAddLinkCalls v q := List.filterMap_append
theorem geometryCalls_append (v : Nat) (p q : List (Call F)) : geometryCalls v (p ++ q) = geometryCalls v p ++ geometryCalls v q :=
  List.filterMap_append
theorem startCalls_append (v : Nat) (p q : List (Call F)) : startCalls v (p ++ q) = startCalls v p ++ startCalls v q :=
  List.filterMap_append
theorem repeatCalls_append (v : Nat) (p q : List (Call F)) : repeatCalls v (p ++ q) = repeatCalls v p ++ repeatCalls v q :=
  List.filterMap_append

/-- No calls on an object that is not yet made. -/
theorem filterMap_unmade {α : Type} {x : Part} {done : List (Call F)} (hu : UsesMade done) (hm : ¬ Made done x)
    (f : Call F → Option α) (hf : ∀ c a, f c = some a → Uses c x) : done.filterMap f = [] := by
  rw [List.filterMap_eq_nil_iff]
  intro c hc
  cases h : f c with
  | none => rfl
  | some a => exact absurd (hu c hc x (hf c a h)) hm

theorem markCalls_other (v : Nat) (c : Call F) (h : ¬ Touches c (.lane v)) : markCalls v [c] = [] := by
  cases c <;> simp_all [markCalls, Touches, eq_comm]
theorem laneAddLinkCalls_other (v : Nat) (c : Call F) (h : ¬ Touches c (.lane v)) : laneAddLinkCalls v [c] = [] := by
  cases c <;> simp_all [laneAddLinkCalls, Touches, eq_comm]
theorem geometryCalls_other (v : Nat) (c : Call F) (h : ¬ Touches c (.planView v)) : geometryCalls v [c] = [] := by
  cases c <;> simp_all [geometryCalls, Touches, eq_comm]
theorem startCalls_other (v : Nat) (c : Call F) (h : ¬ Touches c (.planView v)) : startCalls v [c] = [] := by
  cases c <;> simp_all [startCalls, Touches, eq_comm]
theorem repeatCalls_other (v : Nat) (c : Call F) (h : ¬ Touches c (.object v)) : repeatCalls v [c] = [] := by
  cases c <;> simp_all [repeatCalls, Touches, eq_comm]

/-- C93: whatever a program does in between (also `adjust_roads_and_lanes`), a lane has the type and the width it was made with and
the road mark that was added last. -/
theorem C93_lane (p : List (Call F)) (hp : Proper p) (s : Session F) (v : Nat) (t : LaneType) (a b c d so : F)
    (hv : .lane v t a b c d so ∈ p) :
    let l := (runCalls p s).2.laneObjs.cell v
    l.laneType = t ∧ l.a = a ∧ l.b = b ∧ l.c = c ∧ l.d = d ∧ l.soffset = so ∧ l.roadmark = (markCalls v p).getLast? := by
  have := content_program (.lane v) (fun done s => ∃ t a b c d so, .lane v t a b c d so ∈ done ∧
      ∃ i ls, s.laneObjs.cell v = ⟨i, t, a, b, c, d, so, (markCalls v done).getLast?, ls⟩) p hp s
    (by
      intro done c s _ hcp hu hm hc
      cases c <;> simp [Makes] at hc
      case lane v' t a b c d so =>
        subst hc
        refine ⟨t, a, b, c, d, so, by simp, none, [], ?_⟩
        rw [markCalls_append, show markCalls v done = [] from filterMap_unmade hu hm _ (by
          intro c a h
          cases c <;> simp at h
          exact congrArg _ h.1.symm)]
        simp [Call.step, Call.run, Store.put, Lane.new, markCalls])
    (by
      rintro done c s _ hcp _ hm ht ⟨t, a, b, c', d, so, h1, i, ls, h2⟩
      refine ⟨t, a, b, c', d, so, by simp [h1], ?_⟩
      rw [markCalls_append]
      cases c <;> simp [Touches] at ht
      case lane => exact absurd (congrArg _ ht) hm
      case addRoadmark v' m =>
        subst ht
        exact ⟨i, ls, by simp [Call.step, Call.run, Store.modify, Lane.addRoadmark, markCalls, h2]⟩
      case addLaneLink v' k id =>
        subst ht
        exact ⟨i, ls ++ [⟨k, .str id, none, none, none⟩],
          by simp [Call.step, Call.run, Store.modify, Lane.addLink, markCalls, h2]⟩
      case laneSection v' sc ce =>
        subst ht
        exact ⟨some 0, ls, by simp [Call.step, Call.run, Store.modify, LaneSection.new, Lane.setLaneId, markCalls, h2]⟩
      case addLeftLane sec x =>
        subst ht
        exact ⟨_, ls, by simp [Call.step, Call.run, Store.modify, LaneSection.addLeftLane, Lane.setLaneId, markCalls, h2]; rfl⟩
      case addRightLane sec x =>
        subst ht
        exact ⟨_, ls, by simp [Call.step, Call.run, Store.modify, LaneSection.addRightLane, Lane.setLaneId, markCalls, h2]; rfl⟩
      case addLanesection x sec lks =>
        have e := (applyLinkers_links lks s.linkers s.laneObjs).2 v
        rw [h2] at e
        refine ⟨i, ((Lanes.applyLinkers lks s.linkers s.laneObjs).2.cell v).links, ?_⟩
        simp only [Call.step, Call.run, markCalls, List.filterMap_cons, List.filterMap_nil, List.append_nil]
        cases hc : (Lanes.applyLinkers lks s.linkers s.laneObjs).2.cell v
        rw [hc] at e
        simp_all [markCalls]
      case adjust o =>
        obtain ⟨pvs, geoms, lanes, g1, g2⟩ := adjust_frame s o
        have e := g2.2 v
        rw [h2] at e
        refine ⟨i, (lanes.cell v).links, ?_⟩
        rw [g1]
        simp only [markCalls, List.filterMap_cons, List.filterMap_nil, List.append_nil]
        cases hc : lanes.cell v
        rw [hc] at e
        simp_all [markCalls])
    (by
      rintro done c s _ ht ⟨t, a, b, c', d, so, h1, i, ls, h2⟩
      refine ⟨t, a, b, c', d, so, by simp [h1], i, ls, ?_⟩
      rw [← show s.laneObjs.cell v = _ from step_frame c s _ ht, markCalls_append, markCalls_other v c ht, List.append_nil, h2])
    ⟨_, hv, rfl⟩
  obtain ⟨t', a', b', c', d', so', h1, i, ls, h2⟩ := this
  have := made_once hp (x := .lane v) hv h1 rfl rfl
  cases this
  rw [h2]
  exact ⟨rfl, rfl, rfl, rfl, rfl, rfl, rfl⟩

/-- C93: without `adjust_roads_and_lanes` and without `LaneLinker` objects, the links of a lane are those that the program adds. -/
theorem C93_lane_links (p : List (Call F)) (hp : Proper p) (hadj : ∀ o, .adjust o ∉ p)
    (hlk : ∀ x sec ls, .addLanesection x sec ls ∈ p → ls = []) (s : Session F) (v : Nat) (t : LaneType) (a b c d so : F)
    (hv : .lane v t a b c d so ∈ p) : ((runCalls p s).2.laneObjs.cell v).links = laneAddLinkCalls v p := by
  exact content_program (.lane v) (fun done s => (s.laneObjs.cell v).links = laneAddLinkCalls v done) p hp s
    (by
      intro done c s _ hcp hu hm hc
      cases c <;> simp [Makes] at hc
      case lane v' t a b c d so =>
        subst hc
        rw [laneAddLinkCalls_append, show laneAddLinkCalls v done = [] from filterMap_unmade hu hm _ (by
          intro c a h
          cases c <;> simp at h
          exact congrArg _ h.1.symm)]
        simp [Call.step, Call.run, Store.put, Lane.new, laneAddLinkCalls])
    (by
      intro done c s _ hc' _ hm ht h2
      rw [laneAddLinkCalls_append]
      cases c <;> simp [Touches] at ht
      case lane => exact absurd (congrArg _ ht) hm
      case addRoadmark v' m =>
        subst ht
        simp [Call.step, Call.run, Store.modify, Lane.addRoadmark, laneAddLinkCalls, h2]
      case addLaneLink v' k id =>
        subst ht
        simp [Call.step, Call.run, Store.modify, Lane.addLink, laneAddLinkCalls, h2]
      case laneSection v' sc ce =>
        subst ht
        simp [Call.step, Call.run, Store.modify, LaneSection.new, Lane.setLaneId, laneAddLinkCalls, h2]
      case addLeftLane sec x =>
        subst ht
        simp [Call.step, Call.run, Store.modify, LaneSection.addLeftLane, Lane.setLaneId, laneAddLinkCalls, h2]
      case addRightLane sec x =>
        subst ht
        simp [Call.step, Call.run, Store.modify, LaneSection.addRightLane, Lane.setLaneId, laneAddLinkCalls, h2]
      case addLanesection x sec lks => exact absurd (hlk _ _ _ hc') ht
      case adjust o => exact absurd hc' (hadj o))
    (by
      rintro done c s _ ht h2
      rw [← show s.laneObjs.cell v = _ from step_frame c s _ ht, laneAddLinkCalls_append, laneAddLinkCalls_other v c ht,
        List.append_nil, h2])
    ⟨_, hv, rfl⟩

/-- C93: before `adjust_roads_and_lanes`, a planview has the geometries and the headings that were added to it, in this order; it starts
where it was last told to, else at the pose it was made with, else at the origin; it is an anchor exactly if it was made with a pose. -/
theorem C93_planview (p : List (Call F)) (hp : Proper p) (hadj : ∀ o, .adjust o ∉ p) (s : Session F) (v : Nat) (x y h : Option F)
    (hv : .planView v x y h ∈ p) (hall : (x.isSome ∧ y.isSome ∧ h.isSome) ∨ (x = none ∧ y = none ∧ h = none)) :
    let pv := (runCalls p s).2.planviews.cell v
    pv.raw = (geometryCalls v p).map (·.1) ∧ pv.overridden = (geometryCalls v p).filterMap (·.2) ∧
      pv.present = ((startCalls v p).getLast?).getD ⟨x.getD (ofInt 0), y.getD (ofInt 0), h.getD (ofInt 0)⟩ ∧
      pv.fixed = x.isSome ∧ pv.adjusted = false ∧ pv.adjGeoms = [] ∧ pv.presentS = ofInt 0 ∧
      pv.start = none ∧ pv.stop = none := by
  have := content_program (.planView v) (fun done s => ∃ x y h, .planView v x y h ∈ done ∧
      ((x.isSome ∧ y.isSome ∧ h.isSome) ∨ (x = none ∧ y = none ∧ h = none) → s.planviews.cell v =
        ⟨((startCalls v done).getLast?).getD ⟨x.getD (ofInt 0), y.getD (ofInt 0), h.getD (ofInt 0)⟩, ofInt 0, x.isSome, none, none,
          (geometryCalls v done).map (·.1), [], (geometryCalls v done).filterMap (·.2), false⟩)) p hp s
    (by
      intro done c s _ hcp hu hm hc
      cases c <;> simp [Makes] at hc
      case planView v' x y h =>
        subst hc
        refine ⟨x, y, h, by simp, fun hall => ?_⟩
        rw [geometryCalls_append, show geometryCalls v done = [] from filterMap_unmade hu hm _ (by
          intro c a h
          cases c <;> simp at h
          exact .inl (congrArg _ h.1.symm)), startCalls_append, show startCalls v done = [] from filterMap_unmade hu hm _ (by
          intro c a h
          cases c <;> simp at h
          exact congrArg _ h.1.symm)]
        rcases hall with ⟨h1, h2, h3⟩ | ⟨rfl, rfl, rfl⟩
        · obtain ⟨x, rfl⟩ := Option.isSome_iff_exists.mp h1
          obtain ⟨y, rfl⟩ := Option.isSome_iff_exists.mp h2
          obtain ⟨h, rfl⟩ := Option.isSome_iff_exists.mp h3
          simp [Call.step, Call.run, Store.put, PlanView.new, PlanView.setStartPoint, geometryCalls, startCalls]
        · simp [Call.step, Call.run, Store.put, PlanView.new, geometryCalls, startCalls])
    (by
      rintro done c s _ hc' _ hm ht ⟨x, y, h, h1, h2⟩
      refine ⟨x, y, h, by simp [h1], fun hall => ?_⟩
      have h2 := h2 hall
      rw [geometryCalls_append, startCalls_append]
      cases c <;> simp [Touches] at ht
      case planView => exact absurd (congrArg _ ht) hm
      case addGeometry pv g hd =>
        subst ht
        cases hd <;> simp [Call.step, Call.run, Store.modify, PlanView.addGeometry, geometryCalls, startCalls, h2]
      case setStartPoint pv q =>
        subst ht
        simp [Call.step, Call.run, Store.modify, PlanView.setStartPoint, geometryCalls, startCalls, h2]
      case adjust o => exact absurd hc' (hadj o))
    (by
      rintro done c s _ ht ⟨x, y, h, h1, h2⟩
      refine ⟨x, y, h, by simp [h1], fun hall => ?_⟩
      have h2 := h2 hall
      rw [← show s.planviews.cell v = _ from step_frame c s _ ht, geometryCalls_append, startCalls_append, geometryCalls_other v c ht,
        startCalls_other v c ht, List.append_nil, List.append_nil, h2])
    ⟨_, hv, rfl⟩
  obtain ⟨x', y', h', h1, h2⟩ := this
  have := made_once hp (x := .planView v) hv h1 rfl rfl
  cases this
  have h2 := h2 hall
  rw [h2]
  exact ⟨rfl, rfl, rfl, rfl, rfl, rfl, rfl, rfl, rfl⟩

theorem updateObjIds_anonymous (os : List Nat) (v : Nat) : ∀ st : SOState F,
    Obj.anonymous ((os.foldl SOState.updateObjId st).objs.cell v) = Obj.anonymous (st.objs.cell v) := by
  induction os with
  | nil => intro st; rfl
  | cons o os ih =>
    intro st
    rw [List.foldl_cons, ih]
    by_cases h : v = o <;> simp [SOState.updateObjId, Store.modify, Obj.anonymous, h]

theorem updateSigIds_anonymous (os : List Nat) (v : Nat) : ∀ st : SOState F,
    Signal.anonymous ((os.foldl SOState.updateSigId st).sigs.cell v) = Signal.anonymous (st.sigs.cell v) := by
  induction os with
  | nil => intro st; rfl
  | cons o os ih =>
    intro st
    rw [List.foldl_cons, ih]
    by_cases h : v = o <;> simp [SOState.updateSigId, Store.modify, Signal.anonymous, h]

theorem repeat_anonymous (o : Obj F) (len dist : F) (args : RepeatArgs F) :
    Obj.anonymous (o.repeat len dist args) = (Obj.anonymous o).repeat len dist args := rfl

/-- C93: apart from its id (C90), an object is as it was made, with the repetitions of the program in the order of the calls;
each of them is computed from the object as it was made. -/
theorem C93_object (p : List (Call F)) (hp : Proper p) (s : Session F) (v : Nat) (o : Obj F) (hv : .object v o ∈ p) :
    Obj.anonymous ((runCalls p s).2.objs.cell v) =
      (repeatCalls v p).foldl (fun o c => o.repeat c.1 c.2.1 c.2.2) (Obj.anonymous o) := by
  have := content_program (.object v) (fun done s => ∃ o, .object v o ∈ done ∧ Obj.anonymous (s.objs.cell v) =
      (repeatCalls v done).foldl (fun o c => o.repeat c.1 c.2.1 c.2.2) (Obj.anonymous o)) p hp s
    (by
      intro done c s _ hcp hu hm hc
      cases c <;> simp [Makes] at hc
      case object v' o =>
        subst hc
        refine ⟨o, by simp, ?_⟩
        rw [repeatCalls_append, show repeatCalls v done = [] from filterMap_unmade hu hm _ (by
          intro c a h
          cases c <;> simp at h
          exact congrArg _ h.1.symm)]
        simp [Call.step, Call.run, Store.put, repeatCalls])
    (by
      rintro done c s _ hcp _ hm ht ⟨o, h1, h2⟩
      refine ⟨o, by simp [h1], ?_⟩
      rw [repeatCalls_append, List.foldl_append, ← h2]
      cases c <;> simp [Touches] at ht
      case object => exact absurd (congrArg _ ht) hm
      case repeatObject v' len dist args =>
        subst ht
        simp [Call.step, Call.run, Store.modify, repeatCalls, repeat_anonymous]
      case addObject r os =>
        simp only [Call.step, Call.run, Road.addObject]
        exact updateObjIds_anonymous os v _
      case adjust o =>
        obtain ⟨pvs, geoms, lanes, g1, -⟩ := adjust_frame s o
        rw [g1]
        rfl)
    (by
      rintro done c s _ ht ⟨o, h1, h2⟩
      refine ⟨o, by simp [h1], ?_⟩
      rw [← show s.objs.cell v = _ from step_frame c s _ ht, repeatCalls_append, repeatCalls_other v c ht, List.append_nil, h2])
    ⟨_, hv, rfl⟩
  obtain ⟨o', h1, h2⟩ := this
  have := made_once hp (x := .object v) hv h1 rfl rfl
  cases this
  exact h2

/-- C93: before `adjust_roads_and_lanes` a geometry is as it was made. -/
theorem C93_geometry (p : List (Call F)) (hp : Proper p) (hadj : ∀ o, .adjust o ∉ p) (s : Session F) (v : Nat) (g : Geom F)
    (hv : .geometry v g ∈ p) : (runCalls p s).2.geoms.cell v = g := by
  have := content_program (.geometry v) (fun done s => .geometry v (s.geoms.cell v) ∈ done) p hp s
    (by
      intro done c s _ hcp hu hm hc
      cases c <;> simp [Makes] at hc
      case geometry v' g =>
        subst hc
        simp [Call.step, Call.run, Store.put])
    (by
      intro done c s _ hcp _ hm ht _
      cases c <;> simp [Touches] at ht
      case geometry => exact absurd (congrArg _ ht) hm
      case adjust o => exact absurd hcp (hadj o))
    (by
      intro done c s _ ht h
      rw [← show s.geoms.cell v = _ from step_frame c s _ ht]
      exact List.mem_append_left _ h)
    ⟨_, hv, rfl⟩
  have := made_once hp (x := .geometry v) hv this rfl rfl
  simp only [Call.geometry.injEq, true_and] at this
  exact this.symm

/-- C93: apart from its id (C90), a signal is as it was made. -/
theorem C93_signal (p : List (Call F)) (hp : Proper p) (s : Session F) (v : Nat) (g : Signal F) (hv : .signal v g ∈ p) :
    Signal.anonymous ((runCalls p s).2.sigs.cell v) = Signal.anonymous g := by
  have := content_program (.signal v) (fun done s => ∃ g, .signal v g ∈ done ∧
      Signal.anonymous (s.sigs.cell v) = Signal.anonymous g) p hp s
    (by
      intro done c s _ hcp hu hm hc
      cases c <;> simp [Makes] at hc
      case signal v' g =>
        subst hc
        exact ⟨g, by simp, by simp [Call.step, Call.run, Store.put]⟩)
    (by
      rintro done c s _ hcp _ hm ht ⟨g, h1, h2⟩
      refine ⟨g, by simp [h1], ?_⟩
      rw [← h2]
      cases c <;> simp [Touches] at ht
      case signal => exact absurd (congrArg _ ht) hm
      case addSignal r os =>
        simp only [Call.step, Call.run, Road.addSignal]
        exact updateSigIds_anonymous os v _
      case adjust o =>
        obtain ⟨pvs, geoms, lanes, g1, -⟩ := adjust_frame s o
        rw [g1])
    (by
      rintro done c s _ ht ⟨g, h1, h2⟩
      refine ⟨g, by simp [h1], ?_⟩
      rw [← show s.sigs.cell v = _ from step_frame c s _ ht, h2])
    ⟨_, hv, rfl⟩
  obtain ⟨g', h1, h2⟩ := this
  have := made_once hp (x := .signal v) hv h1 rfl rfl
  cases this
  exact h2

end Pyodrx.Props
