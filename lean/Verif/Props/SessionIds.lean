import Verif.Spec.SessionIds
import Verif.Props.SessionNumbers
import Verif.Props.SignalsObjects
import Verif.Props.ReadNetwork

/-! # C90: the ids in the document of a program of calls are unique -/

namespace Pyodrx.Props
open Pyodrx Pyodrx.Spec PyFloat

section
variable {F : Type} [PyFloat F]

/-- What the calls made so far have left in signals and objects. -/
structure IdsInv (done : List (Call F)) (s : Session F) : Prop where
  roads : ∀ v, Made done (.road v) → (s.roads.cell v).attrs.objects = objectCalls v done ∧
    (s.roads.cell v).attrs.signals = signalCalls v done
  objUsed : ∀ o ∈ addedObjects done, optIdText (s.objs.cell o).base.id ∈ (regOf s.reg "Object").used
  sigUsed : ∀ o ∈ addedSignals done, optIdText (s.sigs.cell o).base.id ∈ (regOf s.reg "Signal").used
  objInj : ∀ o ∈ addedObjects done, ∀ q ∈ addedObjects done,
    optIdText (s.objs.cell o).base.id = optIdText (s.objs.cell q).base.id → o = q
  sigInj : ∀ o ∈ addedSignals done, ∀ q ∈ addedSignals done,
    optIdText (s.sigs.cell o).base.id = optIdText (s.sigs.cell q).base.id → o = q
  keys : ∀ o, Made done (.openDrive o) → (s.openDrives.cell o).roads.keys.Nodup ∧
    ∀ kv ∈ (s.openDrives.cell o).roads, Made done (.road kv.2) ∧ (s.roads.cell kv.2).attrs.id.toStr = kv.1

omit [PyFloat F] in
theorem addedObjects_append (p q : List (Call F)) : addedObjects (p ++ q) = addedObjects p ++ addedObjects q :=
  List.flatMap_append
omit [PyFloat F] in
theorem addedSignals_append (p q : List (Call F)) : addedSignals (p ++ q) = addedSignals p ++ addedSignals q :=
  List.flatMap_append
omit [PyFloat F] in
theorem objectCalls_append (v : Nat) (p q : List (Call F)) : objectCalls v (p ++ q) = objectCalls v p ++ objectCalls v q :=
  List.flatMap_append
omit [PyFloat F] in
theorem signalCalls_append (v : Nat) (p q : List (Call F)) : signalCalls v (p ++ q) = signalCalls v p ++ signalCalls v q :=
  List.flatMap_append

omit [PyFloat F] in
theorem mem_addedObjects {x : Nat} {p : List (Call F)} : x ∈ addedObjects p ↔ ∃ r os, .addObject r os ∈ p ∧ x ∈ os := by
  rw [addedObjects, List.mem_flatMap]
  constructor
  · rintro ⟨c, hc, hx⟩
    cases c <;> simp only [List.not_mem_nil] at hx
    exact ⟨_, _, hc, hx⟩
  · rintro ⟨r, os, h, hx⟩
    exact ⟨_, h, hx⟩

omit [PyFloat F] in
theorem mem_addedSignals {x : Nat} {p : List (Call F)} : x ∈ addedSignals p ↔ ∃ r os, .addSignal r os ∈ p ∧ x ∈ os := by
  rw [addedSignals, List.mem_flatMap]
  constructor
  · rintro ⟨c, hc, hx⟩
    cases c <;> simp only [List.not_mem_nil] at hx
    exact ⟨_, _, hc, hx⟩
  · rintro ⟨r, os, h, hx⟩
    exact ⟨_, h, hx⟩

omit [PyFloat F] in
theorem calls_none {α : Type} (f : Call F → List α) (c : Call F) (h : f c = []) : [c].flatMap f = [] := by simp [h]

/-- Calls that are not about signals and objects change no registry. -/
theorem step_reg (c : Call F) (s : Session F) (h1 : ∀ r os, c ≠ .addObject r os) (h2 : ∀ r os, c ≠ .addSignal r os) :
    (c.step s).2.reg = s.reg := by
  by_cases ht : Touches c .usedIds
  · cases c <;> simp [Touches] at ht
    case addObject r os => exact absurd rfl (h1 r os)
    case addSignal r os => exact absurd rfl (h2 r os)
    case adjust o =>
      obtain ⟨pvs, geoms, lanes, e1, e2⟩ := adjust_frame s o
      rw [e1]
  · exact (step_frame c s _ ht).symm

theorem step_objId (c : Call F) (s : Session F) (x : Nat) (hm : ¬ Makes c (.object x)) (h1 : ∀ r os, c ≠ .addObject r os) :
    ((c.step s).2.objs.cell x).base.id = (s.objs.cell x).base.id := by
  by_cases ht : Touches c (.object x)
  · cases c <;> simp [Touches] at ht
    case object v o => exact absurd (congrArg _ ht) hm
    case repeatObject v l d a => subst ht; simp [Call.step, Call.run, Store.modify, Obj.repeat]
    case addObject r os => exact absurd rfl (h1 r os)
    case adjust o =>
      obtain ⟨pvs, geoms, lanes, e1, e2⟩ := adjust_frame s o
      rw [e1]
  · rw [← show s.objs.cell x = _ from step_frame c s _ ht]

theorem step_sigId (c : Call F) (s : Session F) (x : Nat) (hm : ¬ Makes c (.signal x)) (h1 : ∀ r os, c ≠ .addSignal r os) :
    ((c.step s).2.sigs.cell x).base.id = (s.sigs.cell x).base.id := by
  by_cases ht : Touches c (.signal x)
  · cases c <;> simp [Touches] at ht
    case signal v o => exact absurd (congrArg _ ht) hm
    case addSignal r os => exact absurd rfl (h1 r os)
    case adjust o =>
      obtain ⟨pvs, geoms, lanes, e1, e2⟩ := adjust_frame s o
      rw [e1]
  · rw [← show s.sigs.cell x = _ from step_frame c s _ ht]

theorem step_roadId (c : Call F) (s : Session F) (v : Nat) (hm : ¬ Makes c (.road v)) :
    ((c.step s).2.roads.cell v).attrs.id = (s.roads.cell v).attrs.id := by
  by_cases ht : Touches c (.roadId v)
  · cases c <;> simp [Touches] at ht
    case road v' i pv l t n ru => exact absurd (congrArg _ ht) hm
    case addRoad o' r => rfl
    case adjust o =>
      obtain ⟨pvs, geoms, lanes, e1, e2⟩ := adjust_frame s o
      rw [e1]
  · exact (step_frame c s _ ht : (s.roads.cell v).attrs.id = _).symm

omit [PyFloat F] in
theorem addSuccessor_lists (et : ElementType) (id : PyId) (cp : Option ContactPoint) (off : Int) (r : Road F) :
    (after (Road.addSuccessor et id cp off r)).2.objects = r.objects ∧
      (after (Road.addSuccessor et id cp off r)).2.signals = r.signals := by
  unfold Road.addSuccessor
  split
  · exact ⟨rfl, rfl⟩
  · split <;> exact ⟨rfl, rfl⟩

omit [PyFloat F] in
theorem addPredecessor_lists (et : ElementType) (id : PyId) (cp : Option ContactPoint) (off : Int) (r : Road F) :
    (after (Road.addPredecessor et id cp off r)).2.objects = r.objects ∧
      (after (Road.addPredecessor et id cp off r)).2.signals = r.signals := by
  unfold Road.addPredecessor
  split
  · exact ⟨rfl, rfl⟩
  · split <;> exact ⟨rfl, rfl⟩

omit [PyFloat F] in
theorem addNeighbor_lists (et : ElementType) (id : PyId) (dir : Option Direction) (r : Road F) :
    (after (Road.addNeighbor et id dir r)).2.objects = r.objects ∧
      (after (Road.addNeighbor et id dir r)).2.signals = r.signals := by
  unfold Road.addNeighbor
  split
  · exact ⟨rfl, rfl⟩
  · split <;> exact ⟨rfl, rfl⟩

/-- The lists of signals and objects of a road after a call. -/
theorem step_lists (c : Call F) (s : Session F) (v : Nat) (hm : ¬ Makes c (.road v)) :
    ((c.step s).2.roads.cell v).attrs.objects = (s.roads.cell v).attrs.objects ++ objectCalls v [c] ∧
      ((c.step s).2.roads.cell v).attrs.signals = (s.roads.cell v).attrs.signals ++ signalCalls v [c] := by
  by_cases ht : Touches c (.road v)
  · cases c <;> simp [Touches] at ht
    case road v' i pv l t n ru => exact absurd (congrArg _ ht) hm
    case addSuccessor r et id cp off =>
      rw [withRoad_step _ r _ rfl]
      simpa [withRoadStep, Store.modify, ht, objectCalls, signalCalls] using addSuccessor_lists et id cp off _
    case addPredecessor r et id cp off =>
      rw [withRoad_step _ r _ rfl]
      simpa [withRoadStep, Store.modify, ht, objectCalls, signalCalls] using addPredecessor_lists et id cp off _
    case addNeighbor r et id dir =>
      rw [withRoad_step _ r _ rfl]
      simpa [withRoadStep, Store.modify, ht, objectCalls, signalCalls] using addNeighbor_lists et id dir _
    case addObject r os => simp [Call.step, Call.run, Road.addObject, Store.modify, ht, objectCalls, signalCalls]
    case addSignal r os => simp [Call.step, Call.run, Road.addSignal, Store.modify, ht, objectCalls, signalCalls]
    case adjust o =>
      obtain ⟨pvs, geoms, lanes, e1, e2⟩ := adjust_frame s o
      rw [e1]
      simp [objectCalls, signalCalls]
  · rw [← show s.roads.cell v = _ from step_frame c s _ ht]
    cases c <;> simp_all [objectCalls, signalCalls, Touches, eq_comm]

theorem lists_nil {done : List (Call F)} (hu : UsesMade done) (v : Nat) (h : ¬ Made done (.road v)) :
    objectCalls v done = [] ∧ signalCalls v done = [] := by
  constructor <;> refine List.flatMap_eq_nil_iff.mpr fun c hc => ?_
  all_goals
    cases c <;> simp only
    split
    · next e => subst e; exact absurd (hu _ hc _ (.inl rfl)) h
    · rfl

theorem ids_step' {done : List (Call F)} {c : Call F} {s : Session F} (h : IdsInv done s) (hu : UsesMade done)
    (hc : ∀ x, Uses c x → Made done x) (hm : ∀ x, Makes c x → ¬ Made done x) : IdsInv (done ++ [c]) (c.step s).2 := by
  have hobj : ∀ x ∈ addedObjects done, Made done (.object x) := fun x hx => by
    obtain ⟨r, os, h1, h2⟩ := mem_addedObjects.mp hx
    exact hu _ h1 _ (.inr ⟨x, h2, rfl⟩)
  have hsig : ∀ x ∈ addedSignals done, Made done (.signal x) := fun x hx => by
    obtain ⟨r, os, h1, h2⟩ := mem_addedSignals.mp hx
    exact hu _ h1 _ (.inr ⟨x, h2, rfl⟩)
  have hO : (∀ o ∈ addedObjects (done ++ [c]), optIdText ((c.step s).2.objs.cell o).base.id ∈ (regOf (c.step s).2.reg "Object").used) ∧
      (∀ o ∈ addedObjects (done ++ [c]), ∀ q ∈ addedObjects (done ++ [c]),
        optIdText ((c.step s).2.objs.cell o).base.id = optIdText ((c.step s).2.objs.cell q).base.id → o = q) := by
    rw [addedObjects_append]
    by_cases hco : ∃ r os, c = .addObject r os
    · obtain ⟨r, os, rfl⟩ := hco
      obtain ⟨g1, g2, -⟩ := foldl_obj os ⟨s.objs, s.sigs, s.reg⟩ (· ∈ addedObjects done) h.objUsed
        (fun o q ho hq => h.objInj o ho q hq)
      have e : addedObjects [Call.addObject (F := F) r os] = os := by simp [addedObjects]
      rw [e]
      exact ⟨fun o ho => g1 o (List.mem_append.mp ho), fun o ho q hq => g2 o q (List.mem_append.mp ho) (List.mem_append.mp hq)⟩
    · have e : addedObjects [c] = [] := by cases c <;> first | rfl | exact absurd ⟨_, _, rfl⟩ hco
      rw [e, List.append_nil]
      have hne : ∀ r os, c ≠ .addObject r os := fun r os e => hco ⟨r, os, e⟩
      have hid : ∀ o ∈ addedObjects done, ((c.step s).2.objs.cell o).base.id = (s.objs.cell o).base.id := fun o ho =>
        step_objId c s o (fun hx => hm _ hx (hobj o ho)) hne
      have hr : regOf (c.step s).2.reg "Object" = regOf s.reg "Object" := by
        by_cases hcs : ∃ r os, c = .addSignal r os
        · obtain ⟨r, os, rfl⟩ := hcs
          exact (foldl_sig os ⟨s.objs, s.sigs, s.reg⟩ (· ∈ addedSignals done) h.sigUsed (fun o q ho hq => h.sigInj o ho q hq)).2.2.2.1
        · rw [step_reg c s hne fun r os e => hcs ⟨r, os, e⟩]
      refine ⟨fun o ho => ?_, fun o ho q hq e => h.objInj o ho q hq ?_⟩
      · rw [hid o ho, hr]; exact h.objUsed o ho
      · rw [← hid o ho, ← hid q hq]; exact e
  have hS : (∀ o ∈ addedSignals (done ++ [c]), optIdText ((c.step s).2.sigs.cell o).base.id ∈ (regOf (c.step s).2.reg "Signal").used) ∧
      (∀ o ∈ addedSignals (done ++ [c]), ∀ q ∈ addedSignals (done ++ [c]),
        optIdText ((c.step s).2.sigs.cell o).base.id = optIdText ((c.step s).2.sigs.cell q).base.id → o = q) := by
    rw [addedSignals_append]
    by_cases hco : ∃ r os, c = .addSignal r os
    · obtain ⟨r, os, rfl⟩ := hco
      obtain ⟨g1, g2, -⟩ := foldl_sig os ⟨s.objs, s.sigs, s.reg⟩ (· ∈ addedSignals done) h.sigUsed
        (fun o q ho hq => h.sigInj o ho q hq)
      have e : addedSignals [Call.addSignal (F := F) r os] = os := by simp [addedSignals]
      rw [e]
      exact ⟨fun o ho => g1 o (List.mem_append.mp ho), fun o ho q hq => g2 o q (List.mem_append.mp ho) (List.mem_append.mp hq)⟩
    · have e : addedSignals [c] = [] := by cases c <;> first | rfl | exact absurd ⟨_, _, rfl⟩ hco
      rw [e, List.append_nil]
      have hne : ∀ r os, c ≠ .addSignal r os := fun r os e => hco ⟨r, os, e⟩
      have hid : ∀ o ∈ addedSignals done, ((c.step s).2.sigs.cell o).base.id = (s.sigs.cell o).base.id := fun o ho =>
        step_sigId c s o (fun hx => hm _ hx (hsig o ho)) hne
      have hr : regOf (c.step s).2.reg "Signal" = regOf s.reg "Signal" := by
        by_cases hcs : ∃ r os, c = .addObject r os
        · obtain ⟨r, os, rfl⟩ := hcs
          exact (foldl_obj os ⟨s.objs, s.sigs, s.reg⟩ (· ∈ addedObjects done) h.objUsed (fun o q ho hq => h.objInj o ho q hq)).2.2.2.1
        · rw [step_reg c s (fun r os e => hcs ⟨r, os, e⟩) hne]
      refine ⟨fun o ho => ?_, fun o ho q hq e => h.sigInj o ho q hq ?_⟩
      · rw [hid o ho, hr]; exact h.sigUsed o ho
      · rw [← hid o ho, ← hid q hq]; exact e
  refine ⟨?_, hO.1, hS.1, hO.2, hS.2, ?_⟩
  · intro v hv
    rw [objectCalls_append, signalCalls_append]
    by_cases hk : Makes c (.road v)
    · obtain ⟨e1, e2⟩ := lists_nil hu v (hm _ hk)
      rw [e1, e2]
      cases c <;> simp [Makes] at hk
      subst hk
      simp [Call.step, Call.run, Store.put, Road.new, objectCalls, signalCalls]
    · obtain ⟨h1, h2⟩ := h.roads v (((made_append _ _ _).mp hv).resolve_right hk)
      obtain ⟨e1, e2⟩ := step_lists c s v hk
      rw [e1, e2, h1, h2]
      exact ⟨rfl, rfl⟩
  · intro o ho
    have ids : ∀ v, Made done (.road v) → ((c.step s).2.roads.cell v).attrs.id = (s.roads.cell v).attrs.id := fun v hv =>
      step_roadId c s v fun hx => hm _ hx hv
    have old : Made done (.openDrive o) → (c.step s).2.openDrives.cell o = s.openDrives.cell o ∨
        (∃ j, (c.step s).2.openDrives.cell o = { s.openDrives.cell o with junctions := j }) →
        ((c.step s).2.openDrives.cell o).roads.keys.Nodup ∧ ∀ kv ∈ ((c.step s).2.openDrives.cell o).roads,
          Made (done ++ [c]) (.road kv.2) ∧ ((c.step s).2.roads.cell kv.2).attrs.id.toStr = kv.1 := by
      intro hd he
      obtain ⟨h1, h2⟩ := h.keys o hd
      have e : ((c.step s).2.openDrives.cell o).roads = (s.openDrives.cell o).roads := by
        rcases he with he | ⟨j, he⟩ <;> rw [he]
      rw [e]
      exact ⟨h1, fun kv hkv => ⟨grow _ (h2 kv hkv).1, by rw [ids _ (h2 kv hkv).1]; exact (h2 kv hkv).2⟩⟩
    by_cases ht : Touches c (.openDrive o)
    · cases c <;> simp [Touches] at ht
      case openDrive v n =>
        subst ht
        simp [Call.step, Call.run, Store.put, Store.modify, Dict.keys]
      case addRoad v r =>
        subst ht
        obtain ⟨h1, h2⟩ := h.keys o (hc _ (.inl rfl))
        have hr : Made done (.road r) := hc _ (.inr rfl)
        have e : ((Call.addRoad o r).step s).2.openDrives.cell o =
            { s.openDrives.cell o with roads := (s.openDrives.cell o).roads.set (s.roads.cell r).attrs.id.toStr r } := by
          simp [Call.step, Call.run, Store.modify]
        rw [e]
        refine ⟨keys_set_nodup h1, fun kv hkv => ?_⟩
        rcases mem_set' hkv with rfl | hkv
        · exact ⟨grow _ hr, by rw [ids _ hr]⟩
        · exact ⟨grow _ (h2 kv hkv).1, by rw [ids _ (h2 kv hkv).1]; exact (h2 kv hkv).2⟩
      case addJunction v j =>
        subst ht
        exact old (hc _ (.inl rfl)) (.inr ⟨(s.openDrives.cell o).junctions ++ [j], by simp [Call.step, Call.run, Store.modify]⟩)
      case adjust v =>
        obtain ⟨pvs, geoms, lanes, g1, g2⟩ := adjust_frame s v
        exact old (((made_append _ _ _).mp ho).resolve_right fun h => h.elim) (.inl (by rw [g1]))
    · exact old (((made_append _ _ _).mp ho).resolve_right fun hx => ht (makes_touches _ _ hx))
        (.inl (step_frame c s _ ht).symm)

theorem idsInv_run (q : List (Call F)) : ∀ (done : List (Call F)) (s : Session F), IdsInv done s → UsesMade done →
    (∀ before c rest, q = before ++ c :: rest → (∀ x, Uses c x → Made (done ++ before) x) ∧
      ∀ x, Makes c x → ¬ Made (done ++ before) x) → IdsInv (done ++ q) (runCalls q s).2 := by
  induction q with
  | nil => intro done s h _ _; simpa [runCalls] using h
  | cons c q ih =>
    intro done s h hu hq
    obtain ⟨h1, h2⟩ := hq [] c q rfl
    rw [List.append_nil] at h1 h2
    have := ih (done ++ [c]) (c.step s).2 (ids_step' h hu h1 h2) (usesMade_step hu h1) fun b d r e => by
      have := hq (c :: b) d r (by rw [e]; rfl)
      simpa using this
    simpa [runCalls] using this

theorem idsInv_program (p : List (Call F)) (hp : Proper p) (s : Session F) : IdsInv p (runCalls p s).2 := by
  have h0 : IdsInv ([] : List (Call F)) s := by
    constructor <;> simp [Made, addedObjects, addedSignals]
  have := idsInv_run p [] s h0 (by simp [UsesMade]) (by simpa [Proper, Made] using hp)
  simpa using this

omit [PyFloat F] in
theorem objectCalls_count (x : Nat) {v w : Nat} (hvw : v ≠ w) (p : List (Call F)) :
    (objectCalls v p).count x + (objectCalls w p).count x ≤ (addedObjects p).count x := by
  induction p with
  | nil => simp [objectCalls, addedObjects]
  | cons c p ih =>
    rw [show c :: p = [c] ++ p from rfl, objectCalls_append, objectCalls_append, addedObjects_append]
    simp only [List.count_append]
    have : (objectCalls v [c]).count x + (objectCalls w [c]).count x ≤ (addedObjects [c]).count x := by
      cases c <;> simp [objectCalls, addedObjects]
      case addObject r os => split <;> split <;> simp <;> omega
    omega

omit [PyFloat F] in
theorem signalCalls_count (x : Nat) {v w : Nat} (hvw : v ≠ w) (p : List (Call F)) :
    (signalCalls v p).count x + (signalCalls w p).count x ≤ (addedSignals p).count x := by
  induction p with
  | nil => simp [signalCalls, addedSignals]
  | cons c p ih =>
    rw [show c :: p = [c] ++ p from rfl, signalCalls_append, signalCalls_append, addedSignals_append]
    simp only [List.count_append]
    have : (signalCalls v [c]).count x + (signalCalls w [c]).count x ≤ (addedSignals [c]).count x := by
      cases c <;> simp [signalCalls, addedSignals]
      case addSignal r os => split <;> split <;> simp <;> omega
    omega

/-- Lists that together have no repetition, mapped by ids that are different for different members. -/
theorem nodup_ids {α : Type} (vs : List Nat) (hvs : vs.Nodup) (f : Nat → List Nat) (all : List Nat) (hall : all.Nodup)
    (hcount : ∀ x v w, v ≠ w → (f v).count x + (f w).count x ≤ all.count x) (g : Nat → α)
    (hg : ∀ x ∈ all, ∀ y ∈ all, g x = g y → x = y) : (vs.flatMap fun v => (f v).map g).Nodup := by
  have hone : ∀ x, all.count x ≤ 1 := List.nodup_iff_count_le_one.mp hall
  have hmem : ∀ v x, x ∈ f v → x ∈ all := by
    intro v x hx
    have := hcount x v (v + 1) (by omega)
    have h1 := List.count_pos_iff.mpr hx
    exact List.count_pos_iff.mp (by omega)
  rw [List.nodup_flatMap]
  refine ⟨fun v _ => ?_, ?_⟩
  · refine (List.nodup_map_iff_inj_on ?_).mpr fun x hx y hy => hg x (hmem v x hx) y (hmem v y hy)
    refine List.nodup_iff_count_le_one.mpr fun x => ?_
    have := hcount x v (v + 1) (by omega)
    have := hone x
    omega
  · refine hvs.imp fun {v w} hvw => ?_
    intro a ha hb
    obtain ⟨x, hx, rfl⟩ := List.mem_map.mp ha
    obtain ⟨y, hy, e⟩ := List.mem_map.mp hb
    have := hg _ (hmem w y hy) _ (hmem v x hx) e
    subst this
    have h1 := List.count_pos_iff.mpr hx
    have h2 := List.count_pos_iff.mpr hy
    have := hcount y v w hvw
    have := hone y
    omega

/-- C90: a road has the signals and objects that were added to it, in this order, whatever else the program does. -/
theorem C90_roads (p : List (Call F)) (hp : Proper p) (s : Session F) (v : Nat) (id : PyId) (pv l : Nat) (type : Int)
    (name rule : Option String) (hv : .road v id pv l type name rule ∈ p) :
    ((runCalls p s).2.roads.cell v).attrs.objects = objectCalls v p ∧
      ((runCalls p s).2.roads.cell v).attrs.signals = signalCalls v p :=
  (idsInv_program p hp s).roads v ⟨_, hv, rfl⟩

/-- C90: different objects (and different signals) that were added to roads of whatever `OpenDrive`, with whatever ids they were made,
have different ids at the end of the program, also as texts in the document. -/
theorem C90_ids (p : List (Call F)) (hp : Proper p) (s : Session F) :
    (∀ x ∈ addedObjects p, ∀ y ∈ addedObjects p, x ≠ y →
      (shownObject ((runCalls p s).2.objs.cell x)).placed.id ≠ (shownObject ((runCalls p s).2.objs.cell y)).placed.id) ∧
    ∀ x ∈ addedSignals p, ∀ y ∈ addedSignals p, x ≠ y →
      (shownSignal ((runCalls p s).2.sigs.cell x)).placed.id ≠ (shownSignal ((runCalls p s).2.sigs.cell y)).placed.id :=
  ⟨fun x hx y hy hne e => hne ((idsInv_program p hp s).objInj x hx y hy e),
    fun x hx y hy hne e => hne ((idsInv_program p hp s).sigInj x hx y hy e)⟩

/-- C90: the roads in the document of a program have different ids; the objects in it, over all roads, have different ids if no object
was added twice; and so for signals. -/
theorem C90_document (p : List (Call F)) (hp : Proper p) (s : Session F) (o : Nat) (name : String) (ho : .openDrive o name ∈ p)
    (date : String) (element : Xml F) (he : (runCalls p s).2.getElement o date = .ok element) (doc : RDocument F)
    (hdoc : readDocument element = some doc)
    (hgood : ∀ kv ∈ ((runCalls p s).2.readOpenDrive ((runCalls p s).2.openDrives.cell o)).roads, GoodRoad (runCalls p s).2.heap kv.2) :
    (doc.roads.map (·.id)).Nodup ∧
    ((addedObjects p).Nodup → (doc.roads.flatMap fun r => r.objects.map (·.placed.id)).Nodup) ∧
    ((addedSignals p).Nodup → (doc.roads.flatMap fun r => r.signals.map (·.placed.id)).Nodup) := by
  have h := idsInv_program p hp s
  obtain ⟨gs, -, rfl⟩ := document_read he hgood hdoc
  obtain ⟨k1, k2⟩ := h.keys o ⟨_, ho, rfl⟩
  have hids : ((runCalls p s).2.openDrives.cell o).roads.map (fun kv => ((runCalls p s).2.roads.cell kv.2).attrs.id.toStr) =
      ((runCalls p s).2.openDrives.cell o).roads.keys := List.map_congr_left fun kv hkv => (k2 kv hkv).2
  have hrefs : (((runCalls p s).2.openDrives.cell o).roads.map (·.2)).Nodup := by
    refine List.Nodup.of_map (fun v => ((runCalls p s).2.roads.cell v).attrs.id.toStr) ?_
    rw [List.map_map]
    exact hids.symm ▸ k1
  refine ⟨?_, fun hnd => ?_, fun hnd => ?_⟩
  · simp only [Session.readOpenDrive, List.map_map]
    exact hids.symm ▸ k1
  · have := nodup_ids _ hrefs (fun v => objectCalls v p) _ hnd (fun x v w hvw => objectCalls_count x hvw p)
      (fun x => (shownObject ((runCalls p s).2.objs.cell x)).placed.id) (h.objInj)
    refine Eq.mp (congrArg List.Nodup ?_) this
    simp only [Session.readOpenDrive, List.flatMap_map]
    refine List.flatMap_congr fun kv hkv => ?_
    rw [← (h.roads _ (k2 kv hkv).1).1]
    simp [shownRoad, Session.readRoad, Session.heap, List.map_map, Function.comp_def]
  · have := nodup_ids _ hrefs (fun v => signalCalls v p) _ hnd (fun x v w hvw => signalCalls_count x hvw p)
      (fun x => (shownSignal ((runCalls p s).2.sigs.cell x)).placed.id) (h.sigInj)
    refine Eq.mp (congrArg List.Nodup ?_) this
    simp only [Session.readOpenDrive, List.flatMap_map]
    refine List.flatMap_congr fun kv hkv => ?_
    rw [← (h.roads _ (k2 kv hkv).1).2]
    simp [shownRoad, Session.readRoad, Session.heap, List.map_map, Function.comp_def]

theorem updateObjIds_used (os : List Nat) (x : Nat) (text : String) : ∀ st : SOState F, text ∈ (regOf st.reg "Object").used →
    x ∈ os → optIdText ((os.foldl SOState.updateObjId st).objs.cell x).base.id ≠ text := by
  have keep : ∀ (os : List Nat) (st : SOState F), text ∈ (regOf st.reg "Object").used →
      optIdText (st.objs.cell x).base.id ≠ text → optIdText ((os.foldl SOState.updateObjId st).objs.cell x).base.id ≠ text := by
    intro os
    induction os with
    | nil => exact fun st _ h => h
    | cons o os ih =>
      intro st h1 h2
      obtain ⟨f1, f2, -, -⟩ := C36_fresh "Object" (st.objs.cell o).base.id st.reg
      refine ih _ ?_ ?_
      · show text ∈ (regOf (updateId "Object" (st.objs.cell o).base.id st.reg).2 "Object").used
        rw [f2]; exact List.mem_append_left _ h1
      · rw [updateObj_objs]
        split
        · exact fun e => f1 (Eq.mpr (congrArg (· ∈ _) (show PyId.toStr _ = text from e)) h1)
        · exact h2
  induction os with
  | nil => intro st _ h; cases h
  | cons o os ih =>
    intro st h1 hx
    obtain ⟨f1, f2, -, -⟩ := C36_fresh "Object" (st.objs.cell o).base.id st.reg
    have hreg : text ∈ (regOf (st.updateObjId o).reg "Object").used := by
      show text ∈ (regOf (updateId "Object" (st.objs.cell o).base.id st.reg).2 "Object").used
      rw [f2]; exact List.mem_append_left _ h1
    rcases List.mem_cons.mp hx with rfl | hx
    · refine keep os _ hreg ?_
      rw [updateObj_objs, if_pos rfl]
      exact fun e => f1 (Eq.mpr (congrArg (· ∈ _) (show PyId.toStr _ = text from e)) h1)
    · exact ih _ hreg hx

/-- C90 (finding): an object that is added a second time, for example to another road, gets a new id, although no other object has
its id; what was emitted or kept under the old id no longer refers to it. -/
theorem C90_added_twice (before : List (Call F)) (hp : Proper before) (s : Session F) (r : Nat) (os : List Nat) (x : Nat)
    (h1 : x ∈ addedObjects before) (hx : x ∈ os) :
    (shownObject ((runCalls (before ++ [.addObject r os]) s).2.objs.cell x)).placed.id ≠
      (shownObject ((runCalls before s).2.objs.cell x)).placed.id := by
  rw [runCalls_append]
  exact updateObjIds_used os x _ ⟨(runCalls before s).2.objs, (runCalls before s).2.sigs, (runCalls before s).2.reg⟩
    ((idsInv_program before hp s).objUsed x h1) hx

/-! A program that meets the hypotheses: two roads, three objects and two signals that were made with the same id; the last object is
added after the roads were put into the document, and once more to the other road. -/

def exPole (id : Option PyId) : Obj F :=
  Obj.new (ofInt 1) (ofInt 2) (.str "pole") none id none .no (ofInt 0) .none (ofInt 0) (ofInt 0) (ofInt 0) none none none none none

def exSign (id : Option PyId) : Signal F :=
  Signal.new (ofInt 1) (ofInt 2) "se" "a" "b" id none .no none none (ofInt 0) .none (ofInt 0) (ofInt 0) (ofInt 0) none none

def exIds : List (Call F) :=
  [.openDrive 0 "doc", .planView 0 none none none, .lanes 0, .road 0 (.int 1) 0 0 (-1) none none,
   .road 1 (.int 2) 0 0 (-1) none none, .object 0 (exPole (some (.int 5))), .object 1 (exPole (some (.str "5"))),
   .object 2 (exPole (some (.int 5))), .signal 0 (exSign none), .signal 1 (exSign (some (.int 0))), .addObject 0 [0],
   .addRoad 0 1, .addRoad 0 0, .addObject 1 [1, 2], .addSignal 1 [1], .addSignal 0 [0]]

theorem exIds_proper : Proper (exIds (F := F)) := proper_by _ rfl

example (s : Session F) (date : String) : ∃ element doc, (runCalls exIds s).2.getElement 0 date = .ok element ∧
    readDocument element = some doc ∧ (doc.roads.flatMap fun r => r.objects.map (·.placed.id)).Nodup ∧
    (doc.roads.flatMap fun r => r.signals.map (·.placed.id)).Nodup := by
  obtain ⟨x, hx⟩ := C89_emits exIds exIds_proper s 0 "doc" (by simp [exIds]) date
  have hroads : ∀ kv ∈ ((runCalls (exIds (F := F)) s).2.readOpenDrive ((runCalls exIds s).2.openDrives.cell 0)).roads,
      kv.2.lanesections = [] ∧ kv.2.planview = (runCalls exIds s).2.planviews.cell 0 ∧ (kv.2.signals = [1] ∨ kv.2.signals = [0]) := by
    have e : ((runCalls (exIds (F := F)) s).2.openDrives.cell 0).roads = [("2", 1), ("1", 0)] := rfl
    intro kv hkv
    simp only [Session.readOpenDrive, e, List.map_cons, List.map_nil, List.mem_cons, List.not_mem_nil, or_false] at hkv
    rcases hkv with rfl | rfl
    · exact ⟨rfl, rfl, .inl rfl⟩
    · exact ⟨rfl, rfl, .inr rfl⟩
  have hgood : ∀ kv ∈ ((runCalls (exIds (F := F)) s).2.readOpenDrive ((runCalls exIds s).2.openDrives.cell 0)).roads,
      GoodRoad (runCalls exIds s).2.heap kv.2 := by
    intro kv hkv
    obtain ⟨h1, -, h2⟩ := hroads kv hkv
    refine ⟨by simp [h1], fun i hi => ?_⟩
    rcases h2 with h2 | h2 <;> rw [h2] at hi <;> cases List.mem_singleton.mp hi <;> rfl
  have hd := C59_document _ date _ x hx (fun _ => []) fun kv hkv => ⟨hgood kv hkv, by
    rw [(hroads kv hkv).2.1]; rfl⟩
  obtain ⟨-, h2, h3⟩ := C90_document exIds exIds_proper s 0 "doc" (by simp [exIds]) date x hx _ hd hgood
  exact ⟨x, _, hx, hd, h2 (by simp [exIds, addedObjects]), h3 (by simp [exIds, addedSignals])⟩

example (s : Session F) : (shownObject ((runCalls (exIds ++ [.addObject 0 [2]]) s).2.objs.cell 2)).placed.id ≠
    (shownObject ((runCalls exIds s).2.objs.cell 2)).placed.id :=
  C90_added_twice exIds exIds_proper s 0 [2] 2 (by simp [exIds, addedObjects]) (by simp)

end

end Pyodrx.Props
