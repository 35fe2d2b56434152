import Verif.Spec.SessionApart
import Verif.Proofs.SessionPartsLanes
import Verif.Props.SessionProgram

/-! # Programs that have nothing to do with each other -/

namespace Pyodrx.Spec
open Pyodrx PyFloat

variable {F : Type}

open Classical in
/-- The objects in `M` of the second state and the other objects of the first one. -/
noncomputable def sessPatch (M : Part → Prop) (t s : Session F) : Session F :=
  { geoms := Store.patch (fun i => M (.geometry i)) t.geoms s.geoms
    planviews := Store.patch (fun i => M (.planView i)) t.planviews s.planviews
    laneObjs := Store.patch (fun i => M (.lane i)) t.laneObjs s.laneObjs
    sections := Store.patch (fun i => M (.laneSection i)) t.sections s.sections
    linkers := Store.patch (fun i => M (.linker i)) t.linkers s.linkers
    lanesObjs := Store.patch (fun i => M (.lanes i)) t.lanesObjs s.lanesObjs
    roads := Store.patch (fun i => M (.road i)) t.roads s.roads
    connections := Store.patch (fun i => M (.connection i)) t.connections s.connections
    junctions := Store.patch (fun i => M (.junction i)) t.junctions s.junctions
    openDrives := Store.patch (fun i => M (.openDrive i)) t.openDrives s.openDrives
    objs := Store.patch (fun i => M (.object i)) t.objs s.objs
    sigs := Store.patch (fun i => M (.signal i)) t.sigs s.sigs
    reg := if M .usedIds then s.reg else t.reg }

/-- The part is in `M`; the id of a road is a part of the road. -/
def Within (M : Part → Prop) : Part → Prop
  | .roadId v => M (.road v)
  | x => M x

theorem patch_in {M : Part → Prop} (t s : Session F) {x : Part} (h : Within M x) : Agree x s (sessPatch M t s) := by
  cases x <;> simp only [Within] at h <;> simp only [Agree, sessPatch, Store.patch, h, if_true]

theorem patch_out {M : Part → Prop} (t s : Session F) {x : Part} (h : ¬ Within M x) : Agree x t (sessPatch M t s) := by
  cases x <;> simp only [Within] at h <;> simp only [Agree, sessPatch, Store.patch, h, if_false]

theorem patch_nexts (M : Part → Prop) (t s : Session F) : nexts (sessPatch M t s) = nexts t := rfl

/-- What an object refers to is seen from the object. -/
theorem refers_agree {s t : Session F} {x : Part} (h : Agree x s t) (y : Part) : Refers s x y ↔ Refers t x y := by
  cases x <;> simp only [Agree] at h <;> simp only [Refers, h]

/-- The objects in `D` refer to objects in `D` only. -/
def Closed (D : Part → Prop) (s : Session F) : Prop := ∀ x, D x → ∀ y, Refers s x y → D y

section
variable [PyFloat F]

theorem adds_refs {r : Road F} : (∀ et id cp off, (after (Road.addSuccessor et id cp off r)).2.objects = r.objects ∧
      (after (Road.addSuccessor et id cp off r)).2.signals = r.signals) ∧
    (∀ et id cp off, (after (Road.addPredecessor et id cp off r)).2.objects = r.objects ∧
      (after (Road.addPredecessor et id cp off r)).2.signals = r.signals) ∧
    ∀ et id dir, (after (Road.addNeighbor et id dir r)).2.objects = r.objects ∧
      (after (Road.addNeighbor et id dir r)).2.signals = r.signals := by
  refine ⟨fun et id cp off => ?_, fun et id cp off => ?_, fun et id dir => ?_⟩
  · unfold Road.addSuccessor; split
    · exact ⟨rfl, rfl⟩
    · split <;> exact ⟨rfl, rfl⟩
  · unfold Road.addPredecessor; split
    · exact ⟨rfl, rfl⟩
    · split <;> exact ⟨rfl, rfl⟩
  · unfold Road.addNeighbor; split
    · exact ⟨rfl, rfl⟩
    · split <;> exact ⟨rfl, rfl⟩

theorem refers_withRoad {r : Nat} {f : EStateM PyErr (Road F) Unit} {s : Session F}
    (hf : ∀ a, (after (f a)).2.objects = a.objects ∧ (after (f a)).2.signals = a.signals) {x y : Part}
    (h : Refers (withRoadStep r f s).2 x y) : Refers s x y := by
  cases x <;> simp only [Refers, withRoadStep, Store.modify] at h ⊢ <;> first | exact h | skip
  split at h
  · next e => subst e; rw [(hf _).1, (hf _).2] at h; exact h
  · exact h

/-- After a call, an object refers to what it referred to before or to the arguments of the call. -/
theorem refers_step (c : Call F) (hc : ∀ o, c ≠ .adjust o) (hp : ∀ v x y h, c = .planView v x y h → ∃ pv, PlanView.new x y h = .ok pv)
    (s : Session F) (x y : Part) (h : Refers (c.step s).2 x y) : (Refers s x y ∧ ¬ Makes c x) ∨ Uses c y := by
  by_cases ht : Touches c x
  rotate_left
  · exact .inl ⟨(refers_agree (step_frame _ s x ht) y).mpr h, fun hm => ht (makes_touches _ _ hm)⟩
  cases c
  case adjust o => exact absurd rfl (hc o)
  case addSuccessor r et id cp off => rw [withRoad_step _ r _ rfl] at h; exact .inl ⟨refers_withRoad (fun a => adds_refs.1 ..) h, not_false⟩
  case addPredecessor r et id cp off => rw [withRoad_step _ r _ rfl] at h; exact .inl ⟨refers_withRoad (fun a => adds_refs.2.1 ..) h, not_false⟩
  case addNeighbor r et id dir => rw [withRoad_step _ r _ rfl] at h; exact .inl ⟨refers_withRoad (fun a => adds_refs.2.2 ..) h, not_false⟩
  case planView v x' y' h' =>
    obtain ⟨pv, hpv⟩ := hp _ _ _ _ rfl
    cases ht
    rw [planView_step, hpv] at h
    simp only [Refers, Store.put, Store.modify, if_true] at h
    have : pv.raw = [] ∧ pv.adjGeoms = [] := by
      unfold PlanView.new at hpv
      split at hpv
      · cases hpv; exact ⟨rfl, rfl⟩
      · cases hpv; exact ⟨rfl, rfl⟩
      · cases hpv
    rw [this.1, this.2] at h
    simp at h
  case addLanesection v sec ls =>
    rcases ht with rfl | ⟨l, hl, rfl⟩ | ⟨-, l, rfl⟩
    · simp only [Refers, Call.step, Call.run, Store.modify, if_true, List.mem_append, List.mem_singleton] at h
      obtain ⟨i, hi | rfl, rfl⟩ := h
      · exact .inl ⟨⟨i, hi, rfl⟩, not_false⟩
      · exact .inr (.inr (.inl rfl))
    · obtain ⟨k, hk, he⟩ := h
      obtain ⟨m, hm, e1, e2⟩ := applyLinkers_ends ls s.linkers s.laneObjs l k hk
      rw [e1, e2] at he
      exact .inl ⟨⟨m, hm, he⟩, not_false⟩
    · exact h.elim
  case addGeometry pv g hd =>
    cases ht
    simp only [Refers, Call.step, Call.run, Store.modify, if_true, PlanView.addGeometry, List.mem_append, List.mem_singleton] at h
    obtain ⟨i, rfl, (hi | rfl) | hi⟩ := h
    · exact .inl ⟨⟨i, rfl, .inl hi⟩, not_false⟩
    · exact .inr (.inr rfl)
    · exact .inl ⟨⟨i, rfl, .inr hi⟩, not_false⟩
  case setStartPoint pv q =>
    cases ht
    simp only [Refers, Call.step, Call.run, Store.modify, if_true, PlanView.setStartPoint] at h
    exact .inl ⟨h, not_false⟩
  case laneSection v sc ce =>
    rcases ht with rfl | rfl
    · simp only [Refers, Call.step, Call.run, Store.put, Store.modify, if_true, LaneSection.new, List.not_mem_nil, or_false] at h
      obtain ⟨l, rfl, rfl⟩ := h
      exact .inr rfl
    · exact h.elim
  case addLeftLane sec l =>
    rcases ht with rfl | rfl
    · simp only [Refers, Call.step, Call.run, Store.put, Store.modify, if_true, LaneSection.addLeftLane, List.mem_append, List.mem_singleton] at h
      obtain ⟨i, rfl, hi | (hi | rfl) | hi⟩ := h
      · exact .inl ⟨⟨i, rfl, .inl hi⟩, not_false⟩
      · exact .inl ⟨⟨i, rfl, .inr (.inl hi)⟩, not_false⟩
      · exact .inr (.inr rfl)
      · exact .inl ⟨⟨i, rfl, .inr (.inr hi)⟩, not_false⟩
    · exact h.elim
  case addRightLane sec l =>
    rcases ht with rfl | rfl
    · simp only [Refers, Call.step, Call.run, Store.put, Store.modify, if_true, LaneSection.addRightLane, List.mem_append, List.mem_singleton] at h
      obtain ⟨i, rfl, hi | hi | (hi | rfl)⟩ := h
      · exact .inl ⟨⟨i, rfl, .inl hi⟩, not_false⟩
      · exact .inl ⟨⟨i, rfl, .inr (.inl hi)⟩, not_false⟩
      · exact .inl ⟨⟨i, rfl, .inr (.inr hi)⟩, not_false⟩
      · exact .inr (.inr rfl)
    · exact h.elim
  case linkLanes l a b =>
    cases ht
    simp only [Refers, Call.step, Call.run, Store.modify, if_true, LaneLinker.addLink, List.mem_append, List.mem_singleton] at h
    obtain ⟨k, hk | rfl, hy⟩ := h
    · exact .inl ⟨⟨k, hk, hy⟩, not_false⟩
    · exact .inr (.inr hy)
  case road v id pv l t n ru =>
    rcases ht with rfl | rfl
    · simp only [Refers, Call.step, Call.run, Store.put, Store.modify, if_true, Road.new, List.not_mem_nil, false_and, exists_false, or_false] at h
      exact .inr h
    · exact h.elim
  case addObject r os =>
    rcases ht with rfl | ⟨o, -, rfl⟩ | rfl
    · simp only [Refers, Call.step, Call.run, Store.modify, if_true, Road.addObject, List.mem_append] at h
      rcases h with h | h | ⟨i, hi | hi, rfl⟩ | h
      · exact .inl ⟨.inl h, not_false⟩
      · exact .inl ⟨.inr (.inl h), not_false⟩
      · exact .inl ⟨.inr (.inr (.inl ⟨i, hi, rfl⟩)), not_false⟩
      · exact .inr (.inr ⟨i, hi, rfl⟩)
      · exact .inl ⟨.inr (.inr (.inr h)), not_false⟩
    · exact h.elim
    · exact h.elim
  case addSignal r os =>
    rcases ht with rfl | ⟨o, -, rfl⟩ | rfl
    · simp only [Refers, Call.step, Call.run, Store.modify, if_true, Road.addSignal, List.mem_append] at h
      rcases h with h | h | h | ⟨i, hi | hi, rfl⟩
      · exact .inl ⟨.inl h, not_false⟩
      · exact .inl ⟨.inr (.inl h), not_false⟩
      · exact .inl ⟨.inr (.inr (.inl h)), not_false⟩
      · exact .inl ⟨.inr (.inr (.inr ⟨i, hi, rfl⟩)), not_false⟩
      · exact .inr (.inr ⟨i, hi, rfl⟩)
    · exact h.elim
    · exact h.elim
  case addConnection j c =>
    rcases ht with rfl | rfl
    · simp only [Refers, Call.step, Call.run, Store.modify, if_true, List.mem_append, List.mem_singleton] at h
      obtain ⟨i, hi | rfl, rfl⟩ := h
      · exact .inl ⟨⟨i, hi, rfl⟩, not_false⟩
      · exact .inr (.inr rfl)
    · exact h.elim
  case addRoad o r =>
    rcases ht with rfl | rfl
    · simp only [Refers, Call.step, Call.run, Store.modify, if_true] at h
      rcases h with ⟨kv, hkv, rfl⟩ | h
      · rcases mem_set' hkv with rfl | hkv
        · exact .inr (.inr rfl)
        · exact .inl ⟨.inl ⟨kv, hkv, rfl⟩, not_false⟩
      · exact .inl ⟨.inr h, not_false⟩
    · exact h.elim
  case addJunction o j =>
    cases ht
    simp only [Refers, Call.step, Call.run, Store.modify, if_true, List.mem_append, List.mem_singleton] at h
    rcases h with h | ⟨i, hi | rfl, rfl⟩
    · exact .inl ⟨.inl h, not_false⟩
    · exact .inl ⟨.inr ⟨i, hi, rfl⟩, not_false⟩
    · exact .inr (.inr rfl)
  all_goals
    simp only [Touches] at ht
    cases ht
    simp [Refers, Call.step, Call.run, Store.put, Store.modify] at h

/-! ## Calls -/

/-- The call uses objects in `D` and makes objects in `M`. -/
structure Fits (D M : Part → Prop) (c : Call F) : Prop where
  uses : ∀ x, Uses c x → D x
  makes : ∀ x, Makes c x → M x
  ids : GivesIds c → M .usedIds
  poses : ∀ v x y h, c = .planView v x y h → ∃ pv, PlanView.new x y h = .ok pv

variable {D M : Part → Prop} (hD : ∀ x, D x → M x) (t : Session F)

include hD in
theorem touches_within {c : Call F} (hf : Fits D M c) (hc : ∀ o, c ≠ .adjust o) (hl : ∀ v sec ls, c ≠ .addLanesection v sec ls)
    (x : Part) (h : Touches c x) : Within M x := by
  cases c
  case adjust o => exact absurd rfl (hc o)
  case addLanesection v sec ls => exact absurd rfl (hl v sec ls)
  case addObject r os =>
    rcases h with rfl | ⟨o, ho, rfl⟩ | rfl
    · exact hD _ (hf.uses _ (.inl rfl))
    · exact hD _ (hf.uses _ (.inr ⟨o, ho, rfl⟩))
    · exact hf.ids trivial
  case addSignal r os =>
    rcases h with rfl | ⟨o, ho, rfl⟩ | rfl
    · exact hD _ (hf.uses _ (.inl rfl))
    · exact hD _ (hf.uses _ (.inr ⟨o, ho, rfl⟩))
    · exact hf.ids trivial
  all_goals
    simp only [Touches] at h
    first
      | (cases h; exact hD _ (hf.uses _ rfl))
      | (cases h; exact hD _ (hf.uses _ (.inl rfl)))
      | (cases h; exact hf.makes _ rfl)
      | (rcases h with rfl | rfl <;> first | exact hf.makes _ rfl | exact hD _ (hf.uses _ rfl) | exact hD _ (hf.uses _ (.inl rfl)) | exact hD _ (hf.uses _ (.inr rfl)))

omit [PyFloat F] in
theorem agree_roadId {s s' : Session F} (h : ∀ x, (∀ v, x ≠ .roadId v) → Agree x s s') : ∀ x, Agree x s s' := by
  intro x
  by_cases hx : ∃ v, x = .roadId v
  · obtain ⟨v, rfl⟩ := hx
    have : s.roads.cell v = s'.roads.cell v := h (.road v) (by simp)
    simp only [Agree, this]
  · exact h x fun v e => hx ⟨v, e⟩

include hD in
/-- A call does to the objects in `M` what it does to them among other objects, which it leaves alone. -/
theorem step_patch_plain {c : Call F} (hf : Fits D M c) (hc : ∀ o, c ≠ .adjust o) (hl : ∀ v sec ls, c ≠ .addLanesection v sec ls) (s : Session F) :
    c.step (sessPatch M t s) = ((c.step s).1, sessPatch M t (c.step s).2) := by
  have tw := touches_within hD hf hc hl
  obtain ⟨h1, h2⟩ := step_local c s (sessPatch M t s) (by
    rintro (⟨o, e⟩ | ⟨v, sec, ls, e⟩)
    · exact absurd e (hc o)
    · exact absurd e (hl v sec ls)) fun x hx => patch_in t s (tw x hx)
  refine Prod.ext h1.symm (session_ext (fun x => ?_) ?_)
  · by_cases hx : Touches c x
    · exact (h2 x hx).symm.trans (patch_in t (c.step s).2 (tw x hx))
    · have e1 := step_frame c (sessPatch M t s) x hx
      by_cases hm : Within M x
      · exact (e1.symm.trans (patch_in t s hm).symm).trans ((step_frame c s x hx).trans (patch_in t (c.step s).2 hm))
      · exact (e1.symm.trans (patch_out t s hm).symm).trans (patch_out t (c.step s).2 hm)
  · rw [step_nexts c _ hc, patch_nexts, patch_nexts]

theorem step_patch_addLanesection {v sec : Nat} {ls : List Nat} (hD : ∀ x, D x → M x) (hf : Fits (F := F) D M (.addLanesection v sec ls)) (s : Session F)
    (hs : Closed D s) : (Call.addLanesection v sec ls).step (sessPatch M t s) =
      (((Call.addLanesection v sec ls).step s).1, sessPatch M t ((Call.addLanesection v sec ls).step s).2) := by
  have key := patch_applyLinkers (L := fun i => M (.lane i)) (K := fun i => M (.linker i)) t.laneObjs t.linkers ls s.linkers s.laneObjs fun l hl => by
    have hDl : D (.linker l) := hf.uses _ (.inr (.inr ⟨l, hl, rfl⟩))
    exact ⟨hD _ hDl, fun lk hlk => ⟨hD _ (hs _ hDl _ ⟨lk, hlk, .inl rfl⟩), hD _ (hs _ hDl _ ⟨lk, hlk, .inr rfl⟩)⟩⟩
  have hv : M (.lanes v) := hD _ (hf.uses _ (.inl rfl))
  simp only [Call.step, Call.run, sessPatch] at key ⊢
  rw [key]
  simp only [patch_modify (M := fun i => M (.lanes i)) hv]

/-! ## Reading -/

section
variable {t} {s : Session F} (hs : Closed D s)
include hD hs

omit [PyFloat F]

theorem readRoad_patch {r : Nat} (hr : D (.road r)) : (sessPatch M t s).roads.cell r = s.roads.cell r ∧
    (sessPatch M t s).readRoad (s.roads.cell r) = s.readRoad (s.roads.cell r) := by
  have hpv : D (.planView (s.roads.cell r).pv) := hs _ hr _ (.inl rfl)
  have hla : D (.lanes (s.roads.cell r).lanes) := hs _ hr _ (.inr (.inl rfl))
  refine ⟨patch_mem (M := fun i => M (.road i)) (hD _ hr), ?_⟩
  simp only [Session.readRoad, sessPatch]
  rw [patch_mem (M := fun i => M (.planView i)) (hD _ hpv), patch_mem (M := fun i => M (.lanes i)) (hD _ hla)]
  congr 1
  refine List.map_congr_left fun i hi => ?_
  exact patch_mem (M := fun i => M (.laneSection i)) (hD _ (hs _ hla _ ⟨i, hi, rfl⟩))

theorem openDrive_patch {o : Nat} (ho : D (.openDrive o)) : (sessPatch M t s).openDrives.cell o = s.openDrives.cell o :=
  patch_mem (M := fun i => M (.openDrive i)) (hD _ ho)

theorem roads_patch {o : Nat} (ho : D (.openDrive o)) :
    ((sessPatch M t s).readOpenDrive (s.openDrives.cell o)).roads = (s.readOpenDrive (s.openDrives.cell o)).roads := by
  simp only [Session.readOpenDrive]
  refine List.map_congr_left fun kv hkv => ?_
  have h := readRoad_patch (t := t) hD hs (hs _ ho _ (.inl ⟨kv, hkv, rfl⟩))
  rw [h.1, h.2]

theorem readOpenDrive_patch {o : Nat} (ho : D (.openDrive o)) :
    (sessPatch M t s).readOpenDrive (s.openDrives.cell o) = s.readOpenDrive (s.openDrives.cell o) := by
  have h1 := roads_patch (t := t) hD hs ho
  simp only [Session.readOpenDrive] at h1 ⊢
  rw [h1]
  congr 1
  refine List.map_congr_left fun j hj => ?_
  have hj : D (.junction j) := hs _ ho _ (.inr ⟨j, hj, rfl⟩)
  simp only [Session.readJunction, sessPatch]
  rw [patch_mem (M := fun i => M (.junction i)) (hD _ hj)]
  congr 1
  refine List.map_congr_left fun c hc => ?_
  exact patch_mem (M := fun i => M (.connection i)) (hD _ (hs _ hj _ ⟨c, hc, rfl⟩))

theorem net_patch {o : Nat} (ho : D (.openDrive o)) : (sessPatch M t s).net o =
    netPatch (fun i => M (.planView i)) (fun i => M (.geometry i)) t.planviews t.geoms (s.net o) := by
  unfold Session.net netPatch
  rw [openDrive_patch hD hs ho]
  simp only [SharedNet.mk.injEq]
  refine ⟨List.map_congr_left fun kv hkv => ?_, rfl, rfl⟩
  have h := readRoad_patch (t := t) hD hs (hs _ ho _ (.inl ⟨kv, hkv, rfl⟩))
  rw [h.1, h.2]

theorem sameFor_patch {o : Nat} (ho : D (.openDrive o)) :
    ∀ kv ∈ (s.readOpenDrive (s.openDrives.cell o)).roads, SameFor (sessPatch M t s).heap s.heap kv.2 := by
  intro kv hkv
  obtain ⟨x, hx, rfl⟩ := List.mem_map.mp hkv
  have hr : D (.road x.2) := hs _ ho _ (.inl ⟨x, hx, rfl⟩)
  refine ⟨fun sec hsec i hi => ?_, fun g hg => ?_, fun i hi => ?_, fun i hi => ?_⟩
  · obtain ⟨j, hj, rfl⟩ := List.mem_map.mp hsec
    have hla : D (.lanes (s.roads.cell x.2).lanes) := hs _ hr _ (.inr (.inl rfl))
    have hsec : D (.laneSection j) := hs _ hla _ ⟨j, hj, rfl⟩
    exact patch_mem (M := fun i => M (.lane i)) (hD _ (hs _ hsec _ ⟨i, rfl, hi⟩))
  · have hpv : D (.planView (s.roads.cell x.2).pv) := hs _ hr _ (.inl rfl)
    exact patch_mem (M := fun i => M (.geometry i)) (hD _ (hs _ hpv _ ⟨_, rfl, .inr ⟨g, hg, rfl⟩⟩))
  · exact patch_mem (M := fun i => M (.signal i)) (hD _ (hs _ hr _ (.inr (.inr (.inr ⟨i, hi, rfl⟩)))))
  · exact patch_mem (M := fun i => M (.object i)) (hD _ (hs _ hr _ (.inr (.inr (.inl ⟨i, hi, rfl⟩)))))

end

/-- The document of an `OpenDrive` depends only on what it refers to. -/
theorem getElement_patch {s : Session F} (hs : Closed D s) {o : Nat} (hD : ∀ x, D x → M x) (ho : D (.openDrive o)) (date : String) :
    (sessPatch M t s).getElement o date = s.getElement o date := by
  unfold Session.getElement
  rw [openDrive_patch hD hs ho, readOpenDrive_patch hD hs ho]
  exact document_same _ date (sameFor_patch hD hs ho)

/-! ## adjust_roads_and_lanes -/

theorem netIn_session {s : Session F} (hs : Closed D s) {o : Nat} (ho : D (.openDrive o)) :
    NetIn (fun i => D (.planView i)) (fun i => D (.geometry i)) (s.net o) := by
  refine ⟨fun k r hr => ?_, fun v hv => ⟨fun g hg => hs _ hv _ ⟨g, rfl, .inl hg⟩, fun a ha => hs _ hv _ ⟨_, rfl, .inr ⟨a, ha, rfl⟩⟩⟩⟩
  obtain ⟨kv, hkv, e⟩ := List.mem_map.mp (Props.get?_mem hr)
  cases e
  exact hs _ (hs _ ho _ (.inl ⟨kv, hkv, rfl⟩)) _ (.inl rfl)

omit [PyFloat F] in
theorem closed_planviews {s : Session F} (hs : Closed D s) {pvs : Store (PlanView F)} (geoms : Store (Geom F))
    (h : ∀ v, D (.planView v) → PvIn (fun i => D (.geometry i)) (pvs.cell v)) :
    Closed D { s with planviews := pvs, geoms := geoms } := by
  intro x hx y hy
  cases x <;> try exact hs _ hx _ hy
  obtain ⟨g, rfl, hg | ⟨a, ha, rfl⟩⟩ := hy
  · exact (h _ hx).1 g hg
  · exact (h _ hx).2 a ha

omit [PyFloat F] in
theorem closed_lanes {s : Session F} (hs : Closed D s) (lanes : Store (Lane F)) : Closed D { s with laneObjs := lanes } := by
  intro x hx y hy
  cases x <;> exact hs _ hx _ hy

/-- `adjust_roads_and_lanes` after `adjust_startpoints`. -/
def linkStep (o : Nat) (s : Session F) : Option PyErr × Session F :=
  match World.linkPairs (combinations2 (s.readOpenDrive (s.openDrives.cell o)).roads.keys)
      ⟨⟨(s.readOpenDrive (s.openDrives.cell o)).roads, s.geoms⟩, s.laneObjs⟩ with
  | .ok _ w => (none, { s with laneObjs := w.lanes })
  | .error e w => (some e, { s with laneObjs := w.lanes })

theorem adjust_step (o : Nat) (s : Session F) : (Call.adjust o).step s = match SharedNet.adjustStartpoints (s.net o) with
    | .error e n => (some e, { s with planviews := n.pvs, geoms := n.geoms })
    | .ok _ n => linkStep o { s with planviews := n.pvs, geoms := n.geoms } := by
  simp only [Call.step, Call.run, Session.adjust, linkStep]
  cases SharedNet.adjustStartpoints (s.net o) with
  | error e n => rfl
  | ok u n =>
    simp only
    cases World.linkPairs (combinations2 ((Session.readOpenDrive { s with planviews := n.pvs, geoms := n.geoms } (s.openDrives.cell o))).roads.keys)
      ⟨⟨(Session.readOpenDrive { s with planviews := n.pvs, geoms := n.geoms } (s.openDrives.cell o)).roads, n.geoms⟩, s.laneObjs⟩ <;> rfl

omit [PyFloat F] in
theorem linkStep_patch {s : Session F} (hs : Closed D s) {o : Nat} (hD : ∀ x, D x → M x) (ho : D (.openDrive o)) :
    linkStep o (sessPatch M t s) = ((linkStep o s).1, sessPatch M t (linkStep o s).2) ∧ Closed D (linkStep o s).2 := by
  unfold linkStep
  rw [openDrive_patch hD hs ho, roads_patch hD hs ho]
  have key2 := hom_linkPairs (L := fun i => M (.lane i)) (M := fun i => M (.geometry i)) t.laneObjs t.geoms
    (combinations2 (s.readOpenDrive (s.openDrives.cell o)).roads.keys) ⟨⟨(s.readOpenDrive (s.openDrives.cell o)).roads, s.geoms⟩, s.laneObjs⟩ (by
      intro k r hr sec hsec
      obtain ⟨kv, hkv, e⟩ := List.mem_map.mp (Props.get?_mem hr)
      cases e
      obtain ⟨j, hj, rfl⟩ := List.mem_map.mp hsec
      have hroad : D (.road kv.2) := hs _ ho _ (.inl ⟨kv, hkv, rfl⟩)
      have hla : D (.lanes (s.roads.cell kv.2).lanes) := hs _ hroad _ (.inr (.inl rfl))
      have hsec' : D (.laneSection j) := hs _ hla _ ⟨j, hj, rfl⟩
      exact ⟨fun l hl => hD _ (hs _ hsec' _ ⟨l, rfl, .inr (.inl hl)⟩), fun l hl => hD _ (hs _ hsec' _ ⟨l, rfl, .inr (.inr hl)⟩)⟩)
  have ew : worldPatch (fun i => M (.geometry i)) (fun i => M (.lane i)) t.geoms t.laneObjs
      ⟨⟨(s.readOpenDrive (s.openDrives.cell o)).roads, s.geoms⟩, s.laneObjs⟩ =
    ⟨⟨(s.readOpenDrive (s.openDrives.cell o)).roads, (sessPatch M t s).geoms⟩, (sessPatch M t s).laneObjs⟩ := rfl
  rw [ew] at key2
  cases hl : World.linkPairs (combinations2 (s.readOpenDrive (s.openDrives.cell o)).roads.keys)
      ⟨⟨(s.readOpenDrive (s.openDrives.cell o)).roads, s.geoms⟩, s.laneObjs⟩ with
  | ok u w =>
    rw [hl] at key2
    rw [key2.1]
    exact ⟨rfl, closed_lanes hs _⟩
  | error e w =>
    rw [hl] at key2
    rw [key2.1]
    exact ⟨rfl, closed_lanes hs _⟩

theorem adjust_patch {s : Session F} (hs : Closed D s) {o : Nat} (hD : ∀ x, D x → M x) (ho : D (.openDrive o)) :
    (Call.adjust o).step (sessPatch M t s) = (((Call.adjust o).step s).1, sessPatch M t ((Call.adjust o).step s).2) ∧
      Closed D ((Call.adjust o).step s).2 := by
  have key := hom_adjustStartpoints (M := fun i => M (.planView i)) (M' := fun i => M (.geometry i)) (P := fun i => D (.planView i))
    (G := fun i => D (.geometry i)) (fun i h => hD _ h) (fun i h => hD _ h) t.planviews t.geoms (s.net o) (netIn_session hs ho)
  rw [adjust_step, adjust_step, net_patch hD hs ho]
  cases ha : SharedNet.adjustStartpoints (s.net o) with
  | error e n =>
    rw [ha] at key
    rw [key.1]
    exact ⟨rfl, closed_planviews hs n.geoms key.2.pvs⟩
  | ok u n =>
    rw [ha] at key
    rw [key.1]
    exact linkStep_patch t (closed_planviews hs n.geoms key.2.1.pvs) hD ho

/-- A call does to the objects in `M` what it does to them among other objects, which it leaves alone; and the objects made so far
refer to one another only. -/
theorem step_patch {c : Call F} (hf : Fits D M c) (hD : ∀ x, D x → M x) {s : Session F} (hs : Closed D s) :
    c.step (sessPatch M t s) = ((c.step s).1, sessPatch M t (c.step s).2) ∧ Closed (fun x => D x ∨ Makes c x) (c.step s).2 := by
  by_cases hc : ∃ o, c = .adjust o
  · obtain ⟨o, rfl⟩ := hc
    obtain ⟨h1, h2⟩ := adjust_patch (M := M) t hs hD (hf.uses _ rfl)
    exact ⟨h1, fun x hx y hy => .inl (h2 x (hx.resolve_right not_false) y hy)⟩
  · have hc : ∀ o, c ≠ .adjust o := fun o e => hc ⟨o, e⟩
    refine ⟨?_, fun x hx y hy => ?_⟩
    · by_cases hl : ∃ v sec ls, c = .addLanesection v sec ls
      · obtain ⟨v, sec, ls, rfl⟩ := hl
        exact step_patch_addLanesection t hD hf s hs
      · exact step_patch_plain hD t hf hc (fun v sec ls e => hl ⟨v, sec, ls, e⟩) s
    · rcases refers_step c hc hf.poses s x y hy with ⟨h, hn⟩ | h
      · exact .inl (hs x (hx.resolve_right hn) y h)
      · exact .inl (hf.uses _ h)

/-! ## Programs -/

/-- The two states have the same objects in `M`. -/
def SameIn (M : Part → Prop) (s s' : Session F) : Prop := ∀ x, Within M x → Agree x s s'

omit [PyFloat F] in
theorem patch_self {s s1 : Session F} (h : SameIn M s s1) : sessPatch M s s1 = s := by
  refine session_ext (fun x => ?_) (patch_nexts M s s1)
  by_cases hx : Within M x
  · exact (patch_in s s1 hx).symm.trans (h x hx).symm
  · exact (patch_out s s1 hx).symm

/-- One call, next to other objects. -/
theorem step_same {c : Call F} (hf : Fits D M c) (hD : ∀ x, D x → M x) {s s1 : Session F} (hs : Closed D s1) (h : SameIn M s s1) :
    (c.step s).1 = (c.step s1).1 ∧ SameIn M (c.step s).2 (c.step s1).2 ∧ ∀ x, ¬ Within M x → Agree x s (c.step s).2 := by
  have key := (step_patch (M := M) s hf hD hs).1
  rw [patch_self h] at key
  rw [key]
  exact ⟨rfl, fun x hx => (patch_in s _ hx).symm, fun x hx => patch_out s _ hx⟩

/-- The calls use objects in `D` or made by the calls before them, and make objects in `M`. -/
def FitsAll (M : Part → Prop) : (Part → Prop) → List (Call F) → Prop
  | _, [] => True
  | D, c :: cs => Fits D M c ∧ FitsAll M (fun x => D x ∨ Makes c x) cs

/-- The objects of `D` and those that the program makes. -/
def DoneIn (D : Part → Prop) (p : List (Call F)) (x : Part) : Prop := D x ∨ Made p x

omit [PyFloat F] in
theorem doneIn_cons (c : Call F) (p : List (Call F)) : DoneIn (fun x => D x ∨ Makes c x) p = DoneIn D (c :: p) := by
  funext x
  simp [DoneIn, Made, or_assoc]

omit [PyFloat F] in
theorem within_not {M' : Part → Prop} (h : ∀ x, M x → ¬ M' x) {x : Part} (hx : Within M x) : ¬ Within M' x := by
  cases x <;> exact h _ hx

/-- Two programs next to each other. -/
theorem merge_run {M M' : Part → Prop} (hM : ∀ x, M x → ¬ M' x) {p q r : List (Call F)} (hm : Merge p q r) :
    ∀ (D D' : Part → Prop) (s s1 s2 : Session F), (∀ x, D x → M x) → (∀ x, D' x → M' x) → FitsAll M D p → FitsAll M' D' q →
      SameIn M s s1 → SameIn M' s s2 → Closed D s1 → Closed D' s2 →
      Merge (runCalls p s1).1 (runCalls q s2).1 (runCalls r s).1 ∧
      SameIn M (runCalls r s).2 (runCalls p s1).2 ∧ SameIn M' (runCalls r s).2 (runCalls q s2).2 ∧
      Closed (DoneIn D p) (runCalls p s1).2 ∧ Closed (DoneIn D' q) (runCalls q s2).2 := by
  have nil : ∀ D : Part → Prop, DoneIn (F := F) D [] = D := fun D => by funext x; simp [DoneIn, Made]
  induction hm with
  | nil =>
    intro D D' s s1 s2 _ _ _ _ h1 h2 c1 c2
    rw [nil, nil]
    exact ⟨.nil, h1, h2, c1, c2⟩
  | left c _ ih =>
    intro D D' s s1 s2 d1 d2 f1 f2 h1 h2 c1 c2
    obtain ⟨e, i1, i2⟩ := step_same f1.1 d1 c1 h1
    have := ih (fun x => D x ∨ Makes c x) D' (c.step s).2 (c.step s1).2 s2 (fun x hx => hx.elim (d1 x) (f1.1.makes x)) d2 f1.2 f2 i1
      (fun x hx => (i2 x fun hx' => within_not hM hx' hx).symm.trans (h2 x hx)) (step_patch s1 f1.1 d1 c1).2 c2
    rw [doneIn_cons] at this
    simp only [runCalls]
    rw [e]
    exact ⟨.left _ this.1, this.2⟩
  | right c _ ih =>
    intro D D' s s1 s2 d1 d2 f1 f2 h1 h2 c1 c2
    obtain ⟨e, i1, i2⟩ := step_same f2.1 d2 c2 h2
    have := ih D (fun x => D' x ∨ Makes c x) (c.step s).2 s1 (c.step s2).2 d1 (fun x hx => hx.elim (d2 x) (f2.1.makes x)) f1 f2.2
      (fun x hx => (i2 x fun hx' => within_not hM hx hx').symm.trans (h1 x hx)) i1 c1 (step_patch s2 f2.1 d2 c2).2
    rw [doneIn_cons] at this
    simp only [runCalls]
    rw [e]
    exact ⟨.right _ this.1, this.2⟩

theorem planView_ok (x y h : Option F) (hp : (x.isSome ∧ y.isSome ∧ h.isSome) ∨ (x = none ∧ y = none ∧ h = none)) :
    ∃ pv, PlanView.new x y h = .ok pv := by
  rcases hp with ⟨h1, h2, h3⟩ | ⟨rfl, rfl, rfl⟩
  · obtain ⟨x, rfl⟩ := Option.isSome_iff_exists.mp h1
    obtain ⟨y, rfl⟩ := Option.isSome_iff_exists.mp h2
    obtain ⟨h, rfl⟩ := Option.isSome_iff_exists.mp h3
    exact ⟨_, rfl⟩
  · exact ⟨_, rfl⟩

theorem fitsAll_own {p : List (Call F)} (hp : OnItsOwn p) : ∀ (rest before : List (Call F)), p = before ++ rest →
    FitsAll (Concerns p) (fun x => Made before x) rest
  | [], _, _ => trivial
  | c :: rest, before, e => by
    have hc : c ∈ p := by rw [e]; simp
    refine ⟨⟨hp.uses before c rest e, fun x hx => .inl ⟨c, hc, hx⟩, fun h => .inr ⟨rfl, c, hc, h⟩, ?_⟩, ?_⟩
    · rintro v x y h rfl
      exact planView_ok x y h (hp.poses v x y h hc)
    · have := fitsAll_own hp rest (before ++ [c]) (by rw [e]; simp)
      simpa only [made_append] using this

/-- Programs that have nothing to do with each other, from the same start. -/
theorem apart_run {p q r : List (Call F)} (hp : OnItsOwn p) (hq : OnItsOwn q) (ha : Apart p q) (hm : Merge p q r) (s : Session F) :
    Merge (runCalls p s).1 (runCalls q s).1 (runCalls r s).1 ∧
      SameIn (Concerns p) (runCalls r s).2 (runCalls p s).2 ∧ SameIn (Concerns q) (runCalls r s).2 (runCalls q s).2 ∧
      Closed (Made p) (runCalls p s).2 ∧ Closed (Made q) (runCalls q s).2 := by
  have none_made : ∀ x, ¬ Made ([] : List (Call F)) x := fun x ⟨d, hd, _⟩ => by simp at hd
  have h := merge_run ha hm (fun x => Made ([] : List (Call F)) x) (fun x => Made ([] : List (Call F)) x) s s s (fun x hx => absurd hx (none_made x))
    (fun x hx => absurd hx (none_made x)) (fitsAll_own hp p [] rfl) (fitsAll_own hq q [] rfl) (fun x _ => Agree.refl x s) (fun x _ => Agree.refl x s)
    (fun x hx => absurd hx (none_made x)) (fun x hx => absurd hx (none_made x))
  have e : ∀ p : List (Call F), DoneIn (fun x => Made ([] : List (Call F)) x) p = Made p := fun p => by
    funext x
    simp only [DoneIn, none_made, false_or]
  rw [e, e] at h
  exact h

theorem document_apart {p : List (Call F)} {s s1 : Session F} (h : SameIn (Concerns p) s s1) (hc : Closed (Made p) s1) {o : Nat}
    (ho : Made p (.openDrive o)) (date : String) : s.getElement o date = s1.getElement o date := by
  have := getElement_patch (M := Concerns p) s hc (fun x hx => .inl hx) ho date
  rwa [patch_self h] at this

/-! ## The state before a program -/

omit [PyFloat F] in
theorem store_patch_none {α : Type} (a b : Store α) : Store.patch (fun _ => False) a b = a := by
  cases a; simp [Store.patch]

omit [PyFloat F] in
theorem put_patch {α : Type} (a b : Store α) (v : Nat) (x : α) : (Store.patch (fun i => i = v) a b).put v x = a.put v x := by
  simp only [Store.put, Store.modify, Store.patch]
  congr 1
  funext i
  by_cases h : i = v <;> simp [h]

/-- A constructor does not look at what the variable contained before. -/
theorem step_made {c : Call F} (hp : ∀ v x y h, c = .planView v x y h → ∃ pv, PlanView.new x y h = .ok pv) (s s1 : Session F) :
    c.step (sessPatch (Makes c) s s1) = c.step s := by
  by_cases hm : ∃ x, Makes c x
  · cases c <;> simp only [Makes, exists_false, exists_eq] at hm
    case planView v x y h =>
      obtain ⟨pv, hpv⟩ := hp _ _ _ _ rfl
      rw [planView_step, planView_step, hpv]
      simp [sessPatch, Makes, store_patch_none, put_patch]
    all_goals
      simp [Call.step, Call.run, sessPatch, Makes, store_patch_none, put_patch]
  · have : sessPatch (Makes c) s s1 = s := by
      refine session_ext (fun x => (patch_out s s1 ?_).symm) (patch_nexts ..)
      intro h
      cases x <;> exact hm ⟨_, h⟩
    rw [this]

/-- One call from two states that have the same of what the call uses. -/
theorem step_start {c : Call F} {D : Part → Prop} {K : Prop} (hu : ∀ x, Uses c x → D x) (hk : GivesIds c → K)
    (hp : ∀ v x y h, c = .planView v x y h → ∃ pv, PlanView.new x y h = .ok pv) {s s1 : Session F}
    (h : SameIn (fun x => D x ∨ (x = .usedIds ∧ K)) s s1) (hs : Closed D s1) :
    (c.step s).1 = (c.step s1).1 ∧ SameIn (fun x => (D x ∨ Makes c x) ∨ (x = .usedIds ∧ K)) (c.step s).2 (c.step s1).2 ∧
      Closed (fun x => D x ∨ Makes c x) (c.step s1).2 := by
  have hf : Fits D (fun x => (D x ∨ Makes c x) ∨ (x = .usedIds ∧ K)) c :=
    ⟨hu, fun x hx => .inl (.inr hx), fun hg => .inr ⟨rfl, hk hg⟩, hp⟩
  have hD : ∀ x, D x → (D x ∨ Makes c x) ∨ (x = .usedIds ∧ K) := fun x hx => .inl (.inl hx)
  have hsame : SameIn (fun x => (D x ∨ Makes c x) ∨ (x = .usedIds ∧ K)) (sessPatch (Makes c) s s1) s1 := by
    intro x hx
    by_cases hm : Within (Makes c) x
    · exact (patch_in s s1 hm).symm
    · refine (patch_out s s1 hm).symm.trans (h x ?_)
      cases x <;> simp only [Within] at hm hx ⊢ <;> tauto
  have key := step_same hf hD hs hsame
  rw [step_made hp] at key
  exact ⟨key.1, key.2.1, (step_patch s1 hf hD hs).2⟩

/-- A program from two states. -/
theorem start_run {K : Prop} : ∀ (rest before : List (Call F)) (s s1 : Session F), OnItsOwn (before ++ rest) →
    (∀ c ∈ rest, GivesIds c → K) → SameIn (fun x => Made before x ∨ (x = .usedIds ∧ K)) s s1 → Closed (Made before) s1 →
    (runCalls rest s).1 = (runCalls rest s1).1 ∧
      SameIn (fun x => Made (before ++ rest) x ∨ (x = .usedIds ∧ K)) (runCalls rest s).2 (runCalls rest s1).2 ∧
      Closed (Made (before ++ rest)) (runCalls rest s1).2
  | [], before, s, s1, _, _, h, hs => by
    rw [List.append_nil]
    exact ⟨rfl, h, hs⟩
  | c :: rest, before, s, s1, hp, hk, h, hs => by
    have key := step_start (hp.uses before c rest rfl) (hk c (by simp)) (by
      rintro v x y h rfl
      exact planView_ok x y h (hp.poses v x y h (by simp))) h hs
    have e : (fun x => Made before x ∨ Makes c x) = Made (before ++ [c]) := by
      funext x
      simp only [made_append]
    have ih := start_run rest (before ++ [c]) (c.step s).2 (c.step s1).2 (by simpa using hp) (fun d hd => hk d (by simp [hd]))
      (by rw [← e]; exact key.2.1) (by rw [← e]; exact key.2.2)
    rw [show before ++ [c] ++ rest = before ++ c :: rest by simp] at ih
    simp only [runCalls]
    rw [key.1, ih.1]
    exact ⟨rfl, ih.2⟩

/-- What a program does depends on the state before it only in the ids in use, and only if it adds objects or signals. -/
theorem own_run {p : List (Call F)} (hp : OnItsOwn p) {s s1 : Session F} (hr : (∃ c ∈ p, GivesIds c) → s.reg = s1.reg) :
    (runCalls p s).1 = (runCalls p s1).1 ∧
      ∀ o, Made p (.openDrive o) → ∀ date, (runCalls p s).2.getElement o date = (runCalls p s1).2.getElement o date := by
  have none_made : ∀ x, ¬ Made ([] : List (Call F)) x := fun x ⟨d, hd, _⟩ => by simp at hd
  obtain ⟨h1, h2, h3⟩ := start_run (K := ∃ c ∈ p, GivesIds c) p [] s s1 (by simpa using hp) (fun c hc hg => ⟨c, hc, hg⟩)
    (fun x hx => by
      cases x <;> simp only [Within] at hx <;> have hx := hx.resolve_left (none_made _) <;> first
        | exact hr hx.2
        | exact absurd hx.1 (by simp))
    (fun x hx => absurd hx (none_made x))
  rw [List.nil_append] at h2 h3
  refine ⟨h1, fun o ho date => ?_⟩
  have := getElement_patch (M := fun x => Made p x ∨ (x = .usedIds ∧ ∃ c ∈ p, GivesIds c)) (runCalls p s).2 h3 (fun x hx => .inl hx)
    (o := o) ho date
  rwa [patch_self h2] at this

end

end Pyodrx.Spec
