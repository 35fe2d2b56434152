import Verif.Proofs.SessionParts

/-! # The same for the links between lanes, and for the emission of a document -/

namespace Pyodrx.Spec
open Pyodrx PyFloat

variable {F : Type}

/-! ## Links between lanes -/

/-- The lanes at the sides of the section. -/
def SecIn (L : Nat → Prop) (sec : LaneSection F) : Prop := (∀ l ∈ sec.left, L l) ∧ ∀ l ∈ sec.right, L l

def RoadIn (L : Nat → Prop) (r : Road F) : Prop := ∀ sec ∈ r.lanesections, SecIn L sec

section
variable {L : Nat → Prop} (t : Store (Lane F))

local notation "HomL" => Hom (fun _ : Store (Lane F) => True) (Store.patch L t)

theorem hom_laneModify (r : Nat) (hr : L r) (f : Lane F → Lane F) :
    HomL (fun _ => True) (fun lanes => .ok () (lanes.modify r f)) (fun lanes => .ok () (lanes.modify r f)) :=
  fun lanes _ => ⟨by simp only [patch_modify hr], trivial, trivial⟩

theorem hom_addLaneLink (r : Nat) (hr : L r) (k : LinkKind) (i : Int) : HomL (fun _ => True) (addLaneLink r k i) (addLaneLink r k i) :=
  hom_laneModify t r hr _

theorem hom_laneIdTimes (r : Nat) (hr : L r) (sign : Option Int) : HomL (fun _ => True) (laneIdTimes r sign) (laneIdTimes r sign) := by
  intro lanes h
  unfold laneIdTimes
  simp only [patch_mem hr]
  cases (lanes.cell r).laneId <;> cases sign <;> first | exact ⟨rfl, h, trivial⟩ | exact ⟨rfl, h⟩

theorem hom_at {rs : List Nat} (h : ∀ r ∈ rs, L r) (e : PyErr) (i : Nat) : HomL L (orRaise e rs[i]?) (orRaise e rs[i]?) :=
  hom_orRaise _ _ fun _ ha => h _ (List.mem_of_getElem? ha)

theorem hom_connectingLoop (k : LinkKind) (sign : Option Int) (a b : Int) (rs cs : List Nat) (h1 : ∀ r ∈ rs, L r) (h2 : ∀ r ∈ cs, L r) :
    ∀ n i, HomL (fun _ => True) (connectingLoop k sign a b rs cs i n) (connectingLoop k sign a b rs cs i n)
  | 0, _ => hom_pure trivial
  | n + 1, i => Hom.bind (Q := fun _ => True)
      ((hom_at t h1 _ _).bind fun _ hr => (hom_laneIdTimes t _ hr _).bind fun _ _ =>
        (hom_at t h2 _ _).bind fun _ hc => hom_addLaneLink t _ hc _ _)
      fun _ _ => hom_connectingLoop k sign a b rs cs h1 h2 n (i + 1)

theorem hom_leftLoop (pk sk : LinkKind) (sign : Option Int) (pre suc : List Nat) (h1 : ∀ r ∈ pre, L r) (h2 : ∀ r ∈ suc, L r) :
    ∀ n i, HomL (fun _ => True) (leftLoop pk sk sign pre suc i n) (leftLoop pk sk sign pre suc i n)
  | 0, _ => hom_pure trivial
  | n + 1, i => Hom.bind (Q := fun _ => True)
      ((hom_at t h1 _ _).bind fun _ hr => (hom_laneIdTimes t _ hr _).bind fun _ _ =>
        (hom_addLaneLink t _ hr _ _).bind fun _ _ => (hom_at t h2 _ _).bind fun _ hs => by
          cases sign
          · exact hom_raise
          · exact hom_addLaneLink t _ hs _ _)
      fun _ _ => hom_leftLoop pk sk sign pre suc h1 h2 n (i + 1)

theorem hom_rightLoop (pk sk : LinkKind) (pre suc : List Nat) (h1 : ∀ r ∈ pre, L r) (h2 : ∀ r ∈ suc, L r) :
    ∀ n i, HomL (fun _ => True) (rightLoop pk sk pre suc i n) (rightLoop pk sk pre suc i n)
  | 0, _ => hom_pure trivial
  | n + 1, i => Hom.bind (Q := fun _ => True)
      ((hom_at t h1 _ _).bind fun p hp => hom_get fun lanes _ => by
        rw [patch_mem hp]
        exact Hom.bind (Q := fun _ => True) (hom_laneModify t p hp _) fun _ _ => (hom_at t h2 _ _).bind fun q hq => hom_laneModify t q hq _)
      fun _ _ => hom_rightLoop pk sk pre suc h1 h2 n (i + 1)

theorem mem_pyGet? {α : Type} {l : List α} {i : Int} {a : α} (h : pyGet? l i = some a) : a ∈ l := by
  unfold pyGet? at h
  split at h
  · exact List.mem_of_getElem? h
  · split at h
    · exact List.mem_of_getElem? h
    · cases h

theorem hom_secAt {r : Road F} (h : RoadIn L r) (i : Option Int) : HomL (SecIn L) (liftExcept (secAt r i)) (liftExcept (secAt r i)) := by
  refine hom_lift _ fun sec hs => ?_
  unfold secAt at hs
  cases i with
  | none => cases hs
  | some i =>
    simp only at hs
    cases hp : pyGet? r.lanesections i with
    | none => rw [hp] at hs; cases hs
    | some x => rw [hp] at hs; cases hs; exact h _ (mem_pyGet? hp)

theorem hom_connectingRoad (a b : Road F) (ha : RoadIn L a) (hb : RoadIn L b) :
    HomL (fun _ => True) (createLinksConnectingRoad a b) (createLinksConnectingRoad a b) := by
  unfold createLinksConnectingRoad
  refine (hom_lift (Q := fun _ => True) _ fun _ _ => trivial).bind fun rel _ => (hom_lift (Q := fun _ => True) _ fun _ _ => trivial).bind fun rel2 _ => ?_
  split
  · exact hom_pure trivial
  · refine (hom_secAt t ha _).bind fun cs hcs => ?_
    dsimp only
    have right : HomL (fun _ => True) (if cs.right.isEmpty = false then do
          let rsec ← liftExcept (secAt b rel2.sec)
          connectingLoop rel.linktype rel.sign a.laneOffsetPred a.laneOffsetSuc rsec.right cs.right 0 cs.right.length
        else pure ()) (if cs.right.isEmpty = false then do
          let rsec ← liftExcept (secAt b rel2.sec)
          connectingLoop rel.linktype rel.sign a.laneOffsetPred a.laneOffsetSuc rsec.right cs.right 0 cs.right.length
        else pure ()) := by
      split
      · exact (hom_secAt t hb _).bind fun rs hrs => hom_connectingLoop t _ _ _ _ _ _ hrs.2 hcs.2 _ _
      · exact hom_pure trivial
    split
    · refine (hom_secAt t ha _).bind fun cnt _ => ?_
      split
      · exact right
      · exact (hom_secAt t hb _).bind fun rs hrs => (hom_connectingLoop t _ _ _ _ _ _ hrs.1 hcs.1 _ _).bind fun _ _ => right
    · exact right

theorem hom_roads (a b : Road F) (ha : RoadIn L a) (hb : RoadIn L b) : HomL (fun _ => True) (createLinksRoads a b) (createLinksRoads a b) := by
  unfold createLinksRoads
  refine (hom_lift (Q := fun _ => True) _ fun _ _ => trivial).bind fun rp _ => (hom_lift (Q := fun _ => True) _ fun _ _ => trivial).bind fun rs _ =>
    (hom_secAt t ha _).bind fun psec hp => (hom_secAt t hb _).bind fun lastsec _ => ?_
  dsimp only
  have right : HomL (fun _ => True) (if psec.right.length = lastsec.right.length then
        if psec.right.length = 0 then pure () else do
          let ssec ← liftExcept (secAt b rs.sec)
          rightLoop rp.linktype rs.linktype psec.right ssec.right 0 psec.right.length
      else raise .notSameAmountOfLanesError) (if psec.right.length = lastsec.right.length then
        if psec.right.length = 0 then pure () else do
          let ssec ← liftExcept (secAt b rs.sec)
          rightLoop rp.linktype rs.linktype psec.right ssec.right 0 psec.right.length
      else raise .notSameAmountOfLanesError) := by
    split
    · split
      · exact hom_pure trivial
      · exact (hom_secAt t hb _).bind fun ss hss => hom_rightLoop t _ _ _ _ hp.2 hss.2 _ _
    · exact hom_raise
  split
  · split
    · exact right
    · exact (hom_secAt t hb _).bind fun ss hss => (hom_leftLoop t _ _ _ _ _ hp.1 hss.1 _ _).bind fun _ _ => right
  · exact hom_raise.bind (Q := fun _ => True) fun _ _ => right

theorem hom_createLaneLinks (a b : Road F) (ha : RoadIn L a) (hb : RoadIn L b) : HomL (fun _ => True) (createLaneLinks a b) (createLaneLinks a b) := by
  unfold createLaneLinks
  split
  · split
    · exact hom_roads t a b ha hb
    · split
      · exact hom_roads t b a hb ha
      · exact hom_pure trivial
  · split
    · exact hom_connectingRoad t a b ha hb
    · exact hom_connectingRoad t b a hb ha

/-- The geometries and lanes of two worlds. -/
noncomputable def worldPatch (M L : Nat → Prop) (tg : Store (Geom F)) (t : Store (Lane F)) (w : World F) : World F :=
  ⟨⟨w.net.roads, Store.patch M tg w.net.geoms⟩, Store.patch L t w.lanes⟩

theorem hom_linkPairs {M : Nat → Prop} (tg : Store (Geom F)) : ∀ ks : List (String × String),
    Hom (fun w : World F => ∀ k r, w.net.roads.get? k = some r → RoadIn L r) (worldPatch M L tg t) (fun _ => True) (World.linkPairs ks) (World.linkPairs ks)
  | [] => hom_pure trivial
  | k :: ks => by
    refine Hom.bind (Q := fun _ => True) ?_ fun _ _ => hom_linkPairs tg ks
    intro w h
    unfold World.linkPair
    simp only [worldPatch]
    cases h1 : w.net.roads.get? k.1 with
    | none => exact ⟨rfl, h⟩
    | some a =>
      cases h2 : w.net.roads.get? k.2 with
      | none => exact ⟨rfl, h⟩
      | some b =>
        have h3 := hom_createLaneLinks t a b (h _ _ h1) (h _ _ h2) w.lanes trivial
        simp only
        cases hc : createLaneLinks a b w.lanes <;> rw [hc] at h3 <;> simp only at h3 ⊢ <;> rw [h3.1]
        · exact ⟨rfl, h, trivial⟩
        · exact ⟨rfl, h⟩

/-! ## Linkers -/

theorem patch_apply (lk : LaneLink) (hp : L lk.predecessor) (hs : L lk.successor) (s : Store (Lane F)) :
    lk.apply (Store.patch L t s) = ((lk.apply s).1, Store.patch L t (lk.apply s).2) := by
  unfold LaneLink.apply
  split
  · rfl
  · simp only [patch_modify hp, patch_modify hs, patch_mem hp, patch_mem hs]

theorem patch_applyAll : ∀ (lks : List LaneLink), (∀ lk ∈ lks, L lk.predecessor ∧ L lk.successor) → ∀ s : Store (Lane F),
    LaneLinker.applyAll lks (Store.patch L t s) = ((LaneLinker.applyAll lks s).1, Store.patch L t (LaneLinker.applyAll lks s).2)
  | [], _, _ => rfl
  | lk :: lks, h, s => by
    simp only [LaneLinker.applyAll]
    rw [patch_apply t lk (h lk (by simp)).1 (h lk (by simp)).2, patch_applyAll lks fun l hl => h l (by simp [hl])]

theorem apply_ends (lk : LaneLink) (s : Store (Lane F)) : (lk.apply s).1.predecessor = lk.predecessor ∧ (lk.apply s).1.successor = lk.successor := by
  unfold LaneLink.apply
  split <;> exact ⟨rfl, rfl⟩

theorem applyAll_ends : ∀ (lks : List LaneLink) (s : Store (Lane F)) (lk : LaneLink), lk ∈ (LaneLinker.applyAll lks s).1 →
    ∃ m ∈ lks, lk.predecessor = m.predecessor ∧ lk.successor = m.successor
  | [], _, _, h => by simp [LaneLinker.applyAll] at h
  | a :: lks, s, lk, h => by
    simp only [LaneLinker.applyAll] at h
    rcases List.mem_cons.mp h with rfl | h
    · exact ⟨a, by simp, apply_ends a s⟩
    · obtain ⟨m, hm, e⟩ := applyAll_ends lks _ lk h
      exact ⟨m, by simp [hm], e⟩

theorem patch_applyLinkers {K : Nat → Prop} (tk : Store (List LaneLink)) : ∀ (ls : List Nat) (ks : Store (List LaneLink)) (s : Store (Lane F)),
    (∀ l ∈ ls, K l ∧ ∀ lk ∈ ks.cell l, L lk.predecessor ∧ L lk.successor) →
    Lanes.applyLinkers ls (Store.patch K tk ks) (Store.patch L t s) =
      (Store.patch K tk (Lanes.applyLinkers ls ks s).1, Store.patch L t (Lanes.applyLinkers ls ks s).2)
  | [], _, _, _ => rfl
  | l :: ls, ks, s, h => by
    have hl := h l (by simp)
    simp only [Lanes.applyLinkers]
    rw [patch_mem hl.1, patch_applyAll t _ hl.2]
    simp only [patch_put hl.1]
    refine patch_applyLinkers tk ls _ _ fun m hm => ⟨(h m (by simp [hm])).1, fun lk hlk => ?_⟩
    simp only [Store.put, Store.modify] at hlk
    split at hlk
    · obtain ⟨x, hx, e1, e2⟩ := applyAll_ends _ _ _ hlk
      rw [e1, e2]
      exact hl.2 x hx
    · exact (h m (by simp [hm])).2 lk hlk

/-- A linker keeps the lanes of its links. -/
theorem applyLinkers_ends : ∀ (ls : List Nat) (ks : Store (List LaneLink)) (s : Store (Lane F)) (i : Nat) (lk : LaneLink),
    lk ∈ (Lanes.applyLinkers ls ks s).1.cell i → ∃ m ∈ ks.cell i, lk.predecessor = m.predecessor ∧ lk.successor = m.successor
  | [], _, _, _, lk, h => ⟨lk, h, rfl, rfl⟩
  | l :: ls, ks, s, i, lk, h => by
    simp only [Lanes.applyLinkers] at h
    obtain ⟨m, hm, e1, e2⟩ := applyLinkers_ends ls _ _ i lk h
    simp only [Store.put, Store.modify] at hm
    split at hm
    · next he =>
      obtain ⟨x, hx, f1, f2⟩ := applyAll_ends _ _ _ hm
      exact ⟨x, he ▸ hx, e1.trans f1, e2.trans f2⟩
    · exact ⟨m, hm, e1, e2⟩

end

/-! ## Documents -/

theorem mapM_same {α β : Type} {f g : α → Except PyErr β} : ∀ {l : List α}, (∀ a ∈ l, f a = g a) → l.mapM f = l.mapM g
  | [], _ => rfl
  | a :: l, h => by
    rw [List.mapM_cons, List.mapM_cons, h a (by simp), mapM_same fun b hb => h b (by simp [hb])]

section
variable [PyFloat F] {h h' : Heap F}

theorem laneSection_same (sec : LaneSection F) (hl : ∀ i, i = sec.center ∨ i ∈ sec.left ∨ i ∈ sec.right → h.lanes.cell i = h'.lanes.cell i) :
    LaneSection.getElement h.lanes sec = LaneSection.getElement h'.lanes sec := by
  unfold LaneSection.getElement
  have e1 : (sec.left.mapM fun r => (h.lanes.cell r).getElement) = sec.left.mapM fun r => (h'.lanes.cell r).getElement :=
    mapM_same fun i hi => by rw [hl i (.inr (.inl hi))]
  have e2 : (sec.right.mapM fun r => (h.lanes.cell r).getElement) = sec.right.mapM fun r => (h'.lanes.cell r).getElement :=
    mapM_same fun i hi => by rw [hl i (.inr (.inr hi))]
  rw [e1, e2, hl _ (.inl rfl)]

/-- The two heaps have the same objects where the road refers to them. -/
structure SameFor (h h' : Heap F) (r : Road F) : Prop where
  lanes : ∀ sec ∈ r.lanesections, ∀ i, i = sec.center ∨ i ∈ sec.left ∨ i ∈ sec.right → h.lanes.cell i = h'.lanes.cell i
  geoms : ∀ g ∈ r.planview.adjGeoms, h.geoms.cell g.geom = h'.geoms.cell g.geom
  signals : ∀ i ∈ r.signals, h.so.sigs.cell i = h'.so.sigs.cell i
  objects : ∀ i ∈ r.objects, h.so.objs.cell i = h'.so.objs.cell i

theorem road_same (r : Road F) (e : SameFor h h' r) : r.getElement h = r.getElement h' := by
  unfold Road.getElement
  have e1 : Lanes.getElement h.lanes r.lanesections = Lanes.getElement h'.lanes r.lanesections := by
    unfold Lanes.getElement
    rw [mapM_same fun sec hs => laneSection_same sec (e.lanes sec hs)]
  have e2 : r.planview.getElement h.geoms = r.planview.getElement h'.geoms := by
    unfold PlanView.getElement
    rw [List.map_congr_left fun g hg => ?_]
    unfold AdjGeom.getElement
    rw [e.geoms g hg]
  have e3 : (r.signals.map fun i => (h.so.sigs.cell i).getElement) = r.signals.map fun i => (h'.so.sigs.cell i).getElement :=
    List.map_congr_left fun i hi => by rw [e.signals i hi]
  have e4 : (r.objects.map fun i => (h.so.objs.cell i).getElement) = r.objects.map fun i => (h'.so.objs.cell i).getElement :=
    List.map_congr_left fun i hi => by rw [e.objects i hi]
  rw [e1, e2, e3, e4]

theorem document_same (o : OpenDrive F) (date : String) (e : ∀ kv ∈ o.roads, SameFor h h' kv.2) : o.getElement h date = o.getElement h' date := by
  unfold OpenDrive.getElement
  rw [mapM_same fun kv hkv => road_same kv.2 (e kv hkv)]

end

end Pyodrx.Spec
