import Verif.Spec.Session

/-! # Calls that touch different objects commute -/

namespace Pyodrx.Spec
open Pyodrx PyFloat

variable {F : Type}

/-- The two states have the same object there. -/
def Agree : Part → Session F → Session F → Prop
  | .geometry v, s, t => s.geoms.cell v = t.geoms.cell v
  | .planView v, s, t => s.planviews.cell v = t.planviews.cell v
  | .lane v, s, t => s.laneObjs.cell v = t.laneObjs.cell v
  | .laneSection v, s, t => s.sections.cell v = t.sections.cell v
  | .linker v, s, t => s.linkers.cell v = t.linkers.cell v
  | .lanes v, s, t => s.lanesObjs.cell v = t.lanesObjs.cell v
  | .roadId v, s, t => (s.roads.cell v).attrs.id = (t.roads.cell v).attrs.id
  | .road v, s, t => s.roads.cell v = t.roads.cell v
  | .connection v, s, t => s.connections.cell v = t.connections.cell v
  | .junction v, s, t => s.junctions.cell v = t.junctions.cell v
  | .openDrive v, s, t => s.openDrives.cell v = t.openDrives.cell v
  | .object v, s, t => s.objs.cell v = t.objs.cell v
  | .signal v, s, t => s.sigs.cell v = t.sigs.cell v
  | .usedIds, s, t => s.reg = t.reg

/-- the sizes of the stores -/
def nexts (s : Session F) : List Nat :=
  [s.geoms.next, s.planviews.next, s.laneObjs.next, s.sections.next, s.linkers.next, s.lanesObjs.next, s.roads.next,
   s.connections.next, s.junctions.next, s.openDrives.next, s.objs.next, s.sigs.next]

theorem Agree.refl (x : Part) (s : Session F) : Agree x s s := by cases x <;> rfl

theorem Agree.symm {x : Part} {s t : Session F} (h : Agree x s t) : Agree x t s := by
  cases x <;> exact Eq.symm h

theorem Agree.trans {x : Part} {s t u : Session F} (h : Agree x s t) (h' : Agree x t u) : Agree x s u := by
  cases x <;> exact Eq.trans h h'

theorem store_ext {α : Type} {s t : Store α} (h : ∀ i, s.cell i = t.cell i) (hn : s.next = t.next) : s = t := by
  cases s; cases t
  simp only [Store.mk.injEq]
  exact ⟨funext h, hn⟩

theorem session_ext {s t : Session F} (h : ∀ x, Agree x s t) (hn : nexts s = nexts t) : s = t := by
  simp only [nexts, List.cons.injEq, and_true] at hn
  obtain ⟨n1, n2, n3, n4, n5, n6, n7, n8, n9, n10, n11, n12⟩ := hn
  have e1 := store_ext (fun i => h (.geometry i)) n1
  have e2 := store_ext (fun i => h (.planView i)) n2
  have e3 := store_ext (fun i => h (.lane i)) n3
  have e4 := store_ext (fun i => h (.laneSection i)) n4
  have e5 := store_ext (fun i => h (.linker i)) n5
  have e6 := store_ext (fun i => h (.lanes i)) n6
  have e7 := store_ext (fun i => h (.road i)) n7
  have e8 := store_ext (fun i => h (.connection i)) n8
  have e9 := store_ext (fun i => h (.junction i)) n9
  have e10 := store_ext (fun i => h (.openDrive i)) n10
  have e11 := store_ext (fun i => h (.object i)) n11
  have e12 := store_ext (fun i => h (.signal i)) n12
  have e13 : s.reg = t.reg := h .usedIds
  cases s; cases t
  simp_all

/-! ### Lane linkers -/

theorem laneLink_next (lk : LaneLink) (lanes : Store (Lane F)) : (lk.apply lanes).2.next = lanes.next := by
  unfold LaneLink.apply
  split <;> rfl

theorem applyAll_next : ∀ (lks : List LaneLink) (lanes : Store (Lane F)),
    (LaneLinker.applyAll lks lanes).2.next = lanes.next
  | [], _ => rfl
  | lk :: lks, lanes => by
    simp only [LaneLinker.applyAll]
    rw [applyAll_next lks, laneLink_next]

theorem applyLinkers_next : ∀ (ls : List Nat) (linkers : Store (List LaneLink)) (lanes : Store (Lane F)),
    (Lanes.applyLinkers ls linkers lanes).1.next = linkers.next ∧
      (Lanes.applyLinkers ls linkers lanes).2.next = lanes.next
  | [], _, _ => ⟨rfl, rfl⟩
  | l :: ls, linkers, lanes => by
    simp only [Lanes.applyLinkers]
    obtain ⟨h1, h2⟩ := applyLinkers_next ls (linkers.put l (LaneLinker.applyAll (linkers.cell l) lanes).1)
      (LaneLinker.applyAll (linkers.cell l) lanes).2
    exact ⟨by rw [h1]; rfl, by rw [h2, applyAll_next]⟩

theorem applyLinkers_other : ∀ (ls : List Nat) (linkers : Store (List LaneLink)) (lanes : Store (Lane F)) (i : Nat),
    i ∉ ls → (Lanes.applyLinkers ls linkers lanes).1.cell i = linkers.cell i
  | [], _, _, _, _ => rfl
  | l :: ls, linkers, lanes, i, h => by
    simp only [Lanes.applyLinkers]
    rw [applyLinkers_other ls _ _ i (by simp_all)]
    simp only [Store.put, Store.modify]
    rw [if_neg (by simp_all)]

theorem applyLinkers_congr : ∀ (ls : List Nat) (a b : Store (List LaneLink)) (lanes : Store (Lane F)),
    (∀ l ∈ ls, a.cell l = b.cell l) →
    (Lanes.applyLinkers ls a lanes).2 = (Lanes.applyLinkers ls b lanes).2 ∧
      ∀ l, l ∈ ls ∨ a.cell l = b.cell l → (Lanes.applyLinkers ls a lanes).1.cell l = (Lanes.applyLinkers ls b lanes).1.cell l
  | [], _, _, _, _ => ⟨rfl, fun l h => h.resolve_left (by simp)⟩
  | l :: ls, a, b, lanes, h => by
    simp only [Lanes.applyLinkers]
    rw [h l (by simp)]
    obtain ⟨h1, h2⟩ := applyLinkers_congr ls (a.put l (LaneLinker.applyAll (b.cell l) lanes).1)
      (b.put l (LaneLinker.applyAll (b.cell l) lanes).1) (LaneLinker.applyAll (b.cell l) lanes).2 (by
        intro i hi
        simp only [Store.put, Store.modify]
        split
        · rfl
        · exact h i (by simp [hi]))
    refine ⟨h1, fun i hi => h2 i ?_⟩
    right
    simp only [Store.put, Store.modify]
    split
    · rfl
    · rename_i hne
      rcases hi with hi | hi
      · exact h i hi
      · exact hi

/-! ### Ids of objects and signals -/

theorem objIds : ∀ (os : List Nat) (a b : SOState F), a.reg = b.reg → (∀ o ∈ os, a.objs.cell o = b.objs.cell o) →
    (os.foldl SOState.updateObjId a).reg = (os.foldl SOState.updateObjId b).reg ∧
      (∀ o, o ∈ os ∨ a.objs.cell o = b.objs.cell o →
        (os.foldl SOState.updateObjId a).objs.cell o = (os.foldl SOState.updateObjId b).objs.cell o)
  | [], _, _, h, _ => ⟨h, fun _ hi => hi.resolve_left (by simp)⟩
  | o :: os, a, b, h, ho => by
    have e := ho o (by simp)
    have h' := objIds os (a.updateObjId o) (b.updateObjId o) (by simp [SOState.updateObjId, h, e]) (by
      intro i hi
      simp only [SOState.updateObjId, Store.modify, h, e]
      split
      · rfl
      · exact ho i (by simp [hi]))
    refine ⟨h'.1, fun i hi => h'.2 i (.inr ?_)⟩
    simp only [SOState.updateObjId, Store.modify, h, e]
    split
    · rfl
    · rcases hi with hi | hi
      · exact ho i hi
      · exact hi

theorem objIds_other : ∀ (os : List Nat) (a : SOState F),
    (∀ o, o ∉ os → (os.foldl SOState.updateObjId a).objs.cell o = a.objs.cell o) ∧
      (os.foldl SOState.updateObjId a).objs.next = a.objs.next ∧ (os.foldl SOState.updateObjId a).sigs = a.sigs
  | [], _ => ⟨fun _ _ => rfl, rfl, rfl⟩
  | o :: os, a => by
    obtain ⟨h1, h2, h3⟩ := objIds_other os (a.updateObjId o)
    refine ⟨fun i hi => ?_, h2, h3⟩
    rw [List.foldl_cons, h1 i (by simp_all)]
    simp only [SOState.updateObjId, Store.modify]
    rw [if_neg (by simp_all)]

theorem sigIds : ∀ (os : List Nat) (a b : SOState F), a.reg = b.reg → (∀ o ∈ os, a.sigs.cell o = b.sigs.cell o) →
    (os.foldl SOState.updateSigId a).reg = (os.foldl SOState.updateSigId b).reg ∧
      (∀ o, o ∈ os ∨ a.sigs.cell o = b.sigs.cell o →
        (os.foldl SOState.updateSigId a).sigs.cell o = (os.foldl SOState.updateSigId b).sigs.cell o)
  | [], _, _, h, _ => ⟨h, fun _ hi => hi.resolve_left (by simp)⟩
  | o :: os, a, b, h, ho => by
    have e := ho o (by simp)
    have h' := sigIds os (a.updateSigId o) (b.updateSigId o) (by simp [SOState.updateSigId, h, e]) (by
      intro i hi
      simp only [SOState.updateSigId, Store.modify, h, e]
      split
      · rfl
      · exact ho i (by simp [hi]))
    refine ⟨h'.1, fun i hi => h'.2 i (.inr ?_)⟩
    simp only [SOState.updateSigId, Store.modify, h, e]
    split
    · rfl
    · rcases hi with hi | hi
      · exact ho i hi
      · exact hi

theorem sigIds_other : ∀ (os : List Nat) (a : SOState F),
    (∀ o, o ∉ os → (os.foldl SOState.updateSigId a).sigs.cell o = a.sigs.cell o) ∧
      (os.foldl SOState.updateSigId a).sigs.next = a.sigs.next ∧ (os.foldl SOState.updateSigId a).objs = a.objs
  | [], _ => ⟨fun _ _ => rfl, rfl, rfl⟩
  | o :: os, a => by
    obtain ⟨h1, h2, h3⟩ := sigIds_other os (a.updateSigId o)
    refine ⟨fun i hi => ?_, h2, h3⟩
    rw [List.foldl_cons, h1 i (by simp_all)]
    simp only [SOState.updateSigId, Store.modify]
    rw [if_neg (by simp_all)]


/-! ### Methods of roads -/

/-- the road after a method, and what it raised -/
def after {ε σ : Type} : EStateM.Result ε σ Unit → Option ε × σ
  | .ok _ a => (none, a)
  | .error e a => (some e, a)

/-- what a call of `withRoad` does -/
def withRoadStep (r : Nat) (f : EStateM PyErr (Road F) Unit) (s : Session F) : Option PyErr × Session F :=
  ((after (f (s.roads.cell r).attrs)).1,
    { s with roads := s.roads.modify r fun x => { x with attrs := (after (f (s.roads.cell r).attrs)).2 } })

theorem addSuccessor_id (et : ElementType) (id : PyId) (cp : Option ContactPoint) (off : Int) (r : Road F) :
    (after (Road.addSuccessor et id cp off r)).2.id = r.id := by
  unfold Road.addSuccessor
  split
  · rfl
  · split <;> rfl

theorem addPredecessor_id (et : ElementType) (id : PyId) (cp : Option ContactPoint) (off : Int) (r : Road F) :
    (after (Road.addPredecessor et id cp off r)).2.id = r.id := by
  unfold Road.addPredecessor
  split
  · rfl
  · split <;> rfl

theorem addNeighbor_id (et : ElementType) (id : PyId) (dir : Option Direction) (r : Road F) :
    (after (Road.addNeighbor et id dir r)).2.id = r.id := by
  unfold Road.addNeighbor
  split
  · rfl
  · split <;> rfl

section
variable [PyFloat F]

theorem withRoad_step (c : Call F) (r : Nat) (f : EStateM PyErr (Road F) Unit) (h : c.run = withRoad r f) (s : Session F) :
    c.step s = withRoadStep r f s := by
  unfold Call.step withRoadStep
  rw [h]
  unfold withRoad
  cases f (s.roads.cell r).attrs <;> rfl

theorem planView_step (v : Nat) (x y h : Option F) (s : Session F) :
    (Call.planView v x y h).step s = match PlanView.new x y h with
      | .ok pv => (none, { s with planviews := s.planviews.put v pv })
      | .error e => (some e, s) := by
  simp only [Call.step, Call.run]
  cases PlanView.new x y h <;> rfl

theorem onRoadStep_frame (r : Nat) (f : EStateM PyErr (Road F) Unit) (hid : ∀ a, (after (f a)).2.id = a.id) (s : Session F)
    (x : Part) (hx : x ≠ .road r) : Agree x s (withRoadStep r f s).2 := by
  cases x <;> simp only [Agree, withRoadStep, Store.modify]
  · split
    · next h => subst h; exact (hid _).symm
    · rfl
  · split
    · next h => subst h; exact absurd rfl hx
    · rfl

theorem onRoadStep_local (r : Nat) (f : EStateM PyErr (Road F) Unit) (s t : Session F) (h : Agree (.road r) s t) :
    (withRoadStep r f s).1 = (withRoadStep r f t).1 ∧ Agree (.road r) (withRoadStep r f s).2 (withRoadStep r f t).2 := by
  have h : s.roads.cell r = t.roads.cell r := h
  simp [withRoadStep, Agree, Store.modify, h]

/-- A call leaves the objects alone that it does not touch. -/
theorem step_frame (c : Call F) (s : Session F) (x : Part) (hx : ¬ Touches c x) : Agree x s (c.step s).2 := by
  cases c
  case adjust => exact absurd trivial hx
  case addSuccessor r et id cp off =>
    rw [withRoad_step _ r _ rfl]; exact onRoadStep_frame _ _ (addSuccessor_id _ _ _ _) _ _ hx
  case addPredecessor r et id cp off =>
    rw [withRoad_step _ r _ rfl]; exact onRoadStep_frame _ _ (addPredecessor_id _ _ _ _) _ _ hx
  case addNeighbor r et id dir =>
    rw [withRoad_step _ r _ rfl]; exact onRoadStep_frame _ _ (addNeighbor_id _ _ _) _ _ hx
  case planView v x' y' h' =>
    rw [planView_step]
    cases PlanView.new x' y' h' with
    | error e => exact Agree.refl _ _
    | ok pv =>
      cases x <;> simp_all [Agree, Touches, Store.put, Store.modify]
  case addLanesection v sec ls =>
    simp only [Touches, not_or, not_exists, not_and] at hx
    obtain ⟨h1, h2, h3⟩ := hx
    cases x <;> simp only [Agree, Call.step, Call.run]
    case lane i =>
      by_cases hl : ls = []
      · subst hl; rfl
      · exact absurd rfl (h3 hl i)
    case linker i => exact (applyLinkers_other ls _ _ i (fun hi => h2 i hi rfl)).symm
    case lanes i =>
      simp only [Store.modify]
      rw [if_neg]
      rintro rfl; exact h1 rfl
  case addObject r os =>
    simp only [Touches, not_or, not_exists, not_and] at hx
    obtain ⟨h1, h2, h3⟩ := hx
    cases x <;> simp only [Agree, Call.step, Call.run, Road.addObject]
    case roadId i => simp only [Store.modify]; split <;> simp_all
    case road i =>
      simp only [Store.modify]
      rw [if_neg]
      rintro rfl; exact h1 rfl
    case object i => exact ((objIds_other os ⟨s.objs, s.sigs, s.reg⟩).1 i (fun hi => h2 i hi rfl)).symm
    case usedIds => exact absurd rfl h3
  case addSignal r os =>
    simp only [Touches, not_or, not_exists, not_and] at hx
    obtain ⟨h1, h2, h3⟩ := hx
    cases x <;> simp only [Agree, Call.step, Call.run, Road.addSignal]
    case roadId i => simp only [Store.modify]; split <;> simp_all
    case road i =>
      simp only [Store.modify]
      rw [if_neg]
      rintro rfl; exact h1 rfl
    case signal i => exact ((sigIds_other os ⟨s.objs, s.sigs, s.reg⟩).1 i (fun hi => h2 i hi rfl)).symm
    case usedIds => exact absurd rfl h3
  all_goals
    simp only [Touches, not_or] at hx
    cases x <;>
      simp_all [Agree, Call.step, Call.run, Store.put, Store.modify, LaneSection.new, LaneSection.addLeftLane,
        LaneSection.addRightLane] <;>
      (try (intro h; exact absurd h (by simp_all)))


/-- Which objects there are in the stores does not change (an object is at the variable it was assigned to). -/
theorem step_nexts (c : Call F) (s : Session F) (h : ∀ o, c ≠ .adjust o) : nexts (c.step s).2 = nexts s := by
  cases c
  case adjust o => exact absurd rfl (h o)
  case addSuccessor r et id cp off => rw [withRoad_step _ r _ rfl]; rfl
  case addPredecessor r et id cp off => rw [withRoad_step _ r _ rfl]; rfl
  case addNeighbor r et id dir => rw [withRoad_step _ r _ rfl]; rfl
  case planView v x' y' h' => rw [planView_step]; cases PlanView.new x' y' h' <;> rfl
  case addLanesection v sec ls =>
    simp only [nexts, Call.step, Call.run, (applyLinkers_next ls s.linkers s.laneObjs).1,
      (applyLinkers_next ls s.linkers s.laneObjs).2]
    rfl
  case addObject r os =>
    simp only [nexts, Call.step, Call.run, Road.addObject, (objIds_other os ⟨s.objs, s.sigs, s.reg⟩).2.1]
    rfl
  case addSignal r os =>
    simp only [nexts, Call.step, Call.run, Road.addSignal, (sigIds_other os ⟨s.objs, s.sigs, s.reg⟩).2.1]
    rfl
  all_goals rfl

/-- What a call does depends on the objects only that it touches. -/
theorem step_local (c : Call F) (s t : Session F)
    (hn : (∃ o, c = .adjust o) ∨ (∃ v sec ls, c = .addLanesection v sec ls) → nexts s = nexts t) (h : ∀ x, Touches c x → Agree x s t) :
    (c.step s).1 = (c.step t).1 ∧ ∀ x, Touches c x → Agree x (c.step s).2 (c.step t).2 := by
  cases c
  case adjust o =>
    have := session_ext (fun x => h x trivial) (hn (.inl ⟨o, rfl⟩))
    subst this
    exact ⟨rfl, fun x _ => Agree.refl _ _⟩
  case addSuccessor r et id cp off =>
    rw [withRoad_step _ r _ rfl, withRoad_step _ r _ rfl]
    obtain ⟨h1, h2⟩ := onRoadStep_local r (Road.addSuccessor et id cp off) s t (h _ rfl)
    exact ⟨h1, fun x hx => by cases hx; exact h2⟩
  case addPredecessor r et id cp off =>
    rw [withRoad_step _ r _ rfl, withRoad_step _ r _ rfl]
    obtain ⟨h1, h2⟩ := onRoadStep_local r (Road.addPredecessor et id cp off) s t (h _ rfl)
    exact ⟨h1, fun x hx => by cases hx; exact h2⟩
  case addNeighbor r et id dir =>
    rw [withRoad_step _ r _ rfl, withRoad_step _ r _ rfl]
    obtain ⟨h1, h2⟩ := onRoadStep_local r (Road.addNeighbor et id dir) s t (h _ rfl)
    exact ⟨h1, fun x hx => by cases hx; exact h2⟩
  case planView v x' y' h' =>
    rw [planView_step, planView_step]
    cases PlanView.new x' y' h' with
    | error e => exact ⟨rfl, h⟩
    | ok pv =>
      refine ⟨rfl, fun x hx => ?_⟩
      cases hx
      simp [Agree, Store.put, Store.modify]
  case addLanesection v sec ls =>
    have hn := hn (.inr ⟨v, sec, ls, rfl⟩)
    refine ⟨rfl, fun x hx => ?_⟩
    have hl : ∀ l ∈ ls, s.linkers.cell l = t.linkers.cell l := fun l hl => h (.linker l) (.inr (.inl ⟨l, hl, rfl⟩))
    rcases hx with rfl | ⟨l, hl', rfl⟩ | ⟨hne, l, rfl⟩
    · have : s.lanesObjs.cell v = t.lanesObjs.cell v := h _ (.inl rfl)
      simp [Agree, Call.step, Call.run, Store.modify, this]
    · have hlanes : s.laneObjs = t.laneObjs := by
        refine store_ext (fun i => h (.lane i) (.inr (.inr ⟨by rintro rfl; simp at hl', i, rfl⟩))) ?_
        simp only [nexts, List.cons.injEq] at hn
        exact hn.2.2.1
      simp only [Agree, Call.step, Call.run]
      rw [hlanes]
      exact (applyLinkers_congr ls _ _ _ hl).2 l (.inl hl')
    · have hlanes : s.laneObjs = t.laneObjs := by
        refine store_ext (fun i => h (.lane i) (.inr (.inr ⟨hne, i, rfl⟩))) ?_
        simp only [nexts, List.cons.injEq] at hn
        exact hn.2.2.1
      simp only [Agree, Call.step, Call.run]
      rw [hlanes, (applyLinkers_congr ls _ _ _ hl).1]
  case addObject r os =>
    have hr : s.roads.cell r = t.roads.cell r := h (.road r) (.inl rfl)
    have hi : s.reg = t.reg := h .usedIds (.inr (.inr rfl))
    have ho : ∀ o ∈ os, s.objs.cell o = t.objs.cell o := fun o ho => h (.object o) (.inr (.inl ⟨o, ho, rfl⟩))
    have key := objIds os ⟨s.objs, s.sigs, s.reg⟩ ⟨t.objs, t.sigs, t.reg⟩ hi ho
    refine ⟨rfl, fun x hx => ?_⟩
    rcases hx with rfl | ⟨o, ho', rfl⟩ | rfl
    · simp [Agree, Call.step, Call.run, Store.modify, Road.addObject, hr]
    · exact key.2 o (.inl ho')
    · exact key.1
  case addSignal r os =>
    have hr : s.roads.cell r = t.roads.cell r := h (.road r) (.inl rfl)
    have hi : s.reg = t.reg := h .usedIds (.inr (.inr rfl))
    have ho : ∀ o ∈ os, s.sigs.cell o = t.sigs.cell o := fun o ho => h (.signal o) (.inr (.inl ⟨o, ho, rfl⟩))
    have key := sigIds os ⟨s.objs, s.sigs, s.reg⟩ ⟨t.objs, t.sigs, t.reg⟩ hi ho
    refine ⟨rfl, fun x hx => ?_⟩
    rcases hx with rfl | ⟨o, ho', rfl⟩ | rfl
    · simp [Agree, Call.step, Call.run, Store.modify, Road.addSignal, hr]
    · exact key.2 o (.inl ho')
    · exact key.1
  all_goals
    refine ⟨rfl, fun x hx => ?_⟩
    have h0 := h x hx
    simp only [Touches] at hx
    first
      | (cases hx; simp_all [Agree, Touches, Call.step, Call.run, Store.put, Store.modify]; done)
      | (rcases hx with rfl | rfl <;>
          simp_all [Agree, Touches, Call.step, Call.run, Store.put, Store.modify, LaneSection.new,
            LaneSection.addLeftLane, LaneSection.addRightLane])

theorem touches_some (c : Call F) : ∃ x, Touches c x := by
  cases c <;> first | exact ⟨_, rfl⟩ | exact ⟨_, .inl rfl⟩ | exact ⟨.usedIds, trivial⟩

/-- Calls that touch different objects can be exchanged. -/
theorem step_comm (c d : Call F) (s : Session F) (h : ∀ x, Touches c x → ¬ Touches d x) :
    (d.step (c.step s).2).2 = (c.step (d.step s).2).2 ∧ (c.step (d.step s).2).1 = (c.step s).1 ∧
      (d.step (c.step s).2).1 = (d.step s).1 := by
  have hc : ∀ o, c ≠ .adjust o := by
    rintro o rfl
    obtain ⟨x, hx⟩ := touches_some d
    exact h x trivial hx
  have hd : ∀ o, d ≠ .adjust o := by
    rintro o rfl
    obtain ⟨x, hx⟩ := touches_some c
    exact h x hx trivial
  have nc := fun s => step_nexts c s hc
  have nd := fun s => step_nexts d s hd
  have fc := step_local c s (d.step s).2 (fun _ => (nd s).symm) (fun x hx => step_frame d s x (h x hx))
  have fd := step_local d s (c.step s).2 (fun _ => (nc s).symm) (fun x hx => step_frame c s x (fun hx' => h x hx' hx))
  refine ⟨session_ext (fun x => ?_) ?_, fc.1.symm, fd.1.symm⟩
  · by_cases hx : Touches c x
    · exact (step_frame d _ x (h x hx)).symm.trans (fc.2 x hx)
    · have e1 := step_frame c (d.step s).2 x hx
      by_cases hy : Touches d x
      · exact (fd.2 x hy).symm.trans e1
      · exact ((step_frame d _ x hy).symm.trans (step_frame c s x hx).symm).trans ((step_frame d s x hy).trans e1)
  · rw [nd, nc, nc, nd]

/-! ### Programs -/

theorem runCalls_append (p q : List (Call F)) (s : Session F) :
    runCalls (p ++ q) s = ((runCalls p s).1 ++ (runCalls q (runCalls p s).2).1, (runCalls q (runCalls p s).2).2) := by
  induction p generalizing s with
  | nil => rfl
  | cons c p ih => simp only [List.cons_append, runCalls, ih]

/-- A call can be moved to the front if it touches nothing that the calls before it touch. -/
theorem runCalls_front (c : Call F) (p q : List (Call F)) (s : Session F)
    (h : ∀ d ∈ p, ∀ x, Touches c x → ¬ Touches d x) :
    (runCalls (p ++ c :: q) s).2 = (runCalls (c :: (p ++ q)) s).2 ∧
      (runCalls (p ++ c :: q) s).1.Perm (runCalls (c :: (p ++ q)) s).1 := by
  induction p generalizing s with
  | nil => exact ⟨rfl, List.Perm.refl _⟩
  | cons d p ih =>
    obtain ⟨e1, e2, e3⟩ := step_comm c d s (h d (by simp))
    obtain ⟨h1, h2⟩ := ih (d.step s).2 (fun d' hd => h d' (by simp [hd]))
    simp only [runCalls, List.cons_append] at h1 h2 ⊢
    rw [← e1] at h1 h2
    refine ⟨h1, ?_⟩
    rw [e2] at h2
    rw [e3]
    exact (List.Perm.cons _ h2).trans (List.Perm.swap _ _ _)

open Classical in
theorem runCalls_order (p q : List (Call F)) (s : Session F) (h : SameUpToOrder p q) :
    (runCalls p s).2 = (runCalls q s).2 ∧ (runCalls p s).1.Perm (runCalls q s).1 := by
  induction p generalizing q s with
  | nil =>
    have := h.1.nil_eq
    subst this
    exact ⟨rfl, List.Perm.refl _⟩
  | cons c p ih =>
    obtain ⟨hp, hf⟩ := h
    have hc : c ∈ q := hp.subset (by simp)
    obtain ⟨q1, q2, rfl, hn⟩ := List.eq_append_cons_of_mem hc
    have hind : ∀ d ∈ q1, ∀ x, Touches c x → ¬ Touches d x := by
      intro d hd x hx hdx
      have := hf x
      rw [List.filter_cons_of_pos (by simpa using hx), List.filter_append] at this
      have hd' : d ∈ q1.filter (fun c => decide (Touches c x)) := List.mem_filter.mpr ⟨hd, by simpa using hdx⟩
      cases hq : q1.filter (fun c => decide (Touches c x)) with
      | nil => rw [hq] at hd'; simp at hd'
      | cons a l =>
        rw [hq] at this
        simp only [List.cons_append, List.cons.injEq] at this
        have ha : a ∈ q1.filter (fun c => decide (Touches c x)) := by rw [hq]; simp
        rw [← this.1] at ha
        exact hn (List.mem_filter.mp ha).1
    have hp' : p.Perm (q1 ++ q2) := (List.perm_cons c).mp (hp.trans List.perm_middle)
    have hs : SameUpToOrder p (q1 ++ q2) := by
      refine ⟨hp', fun x => ?_⟩
      have := hf x
      rw [List.filter_append, List.filter_cons, List.filter_cons] at this
      rw [List.filter_append]
      by_cases hx : Touches c x
      · have h1 : q1.filter (fun c => decide (Touches c x)) = [] := by
          rw [List.filter_eq_nil_iff]
          intro d hd
          simpa using hind d hd x hx
        rw [h1] at this ⊢
        simpa [hx] using this
      · simpa [hx] using this
    obtain ⟨h1, h2⟩ := ih (q1 ++ q2) (c.step s).2 hs
    obtain ⟨h3, h4⟩ := runCalls_front c q1 q2 s hind
    refine ⟨h1.trans h3.symm, List.Perm.trans ?_ h4.symm⟩
    exact List.Perm.cons _ h2

end

end Pyodrx.Spec
