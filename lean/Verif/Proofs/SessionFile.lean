import Verif.Spec.SessionFile
import Verif.Model.SessionGeometries
import Verif.Proofs.SessionAdjust

/-! # Every text in the state of a program was given in a call or is a number -/

namespace Pyodrx.Spec
open Pyodrx PyFloat

variable {F : Type}

/-- The program keeps what is true of the state, whether it raises or not. -/
def Retains {σ α : Type} (I : σ → Prop) (m : EStateM PyErr σ α) : Prop :=
  ∀ s, I s → match m s with
    | .ok _ s' => I s'
    | .error _ s' => I s'

section
variable {σ α β : Type} {I : σ → Prop}

theorem retains_pure (a : α) : Retains I (pure a) := fun _ h => h

theorem retains_raise (e : PyErr) : Retains I (raise e : EStateM PyErr σ α) := fun _ h => h

theorem retains_get : Retains I (get : EStateM PyErr σ σ) := fun _ h => h

theorem Retains.bind {m : EStateM PyErr σ α} {f : α → EStateM PyErr σ β} (h : Retains I m) (hf : ∀ a, Retains I (f a)) : Retains I (m >>= f) := by
  intro l hl
  have h0 := h l hl
  show match EStateM.bind m f l with | .ok _ l' => I l' | .error _ l' => I l'
  unfold EStateM.bind
  cases hm : m l with
  | error e l1 => rw [hm] at h0; exact h0
  | ok a l1 =>
    rw [hm] at h0
    exact hf a l1 h0

theorem retains_orRaise (e : PyErr) (o : Option α) : Retains I (orRaise e o : EStateM PyErr σ α) := by
  cases o
  · exact retains_raise e
  · exact retains_pure _

theorem retains_lift (x : Except PyErr α) : Retains I (liftExcept x : EStateM PyErr σ α) := by
  cases x
  · exact retains_raise _
  · exact retains_pure _

end

/-! ## Geometries -/

section
variable [PyFloat F]

theorem geomTexts_end (p : Pose F) (g : Geom F) : match Geom.getEndData p g with
    | .ok _ g' => geomTexts g' = geomTexts g
    | .error _ g' => geomTexts g' = geomTexts g := by
  cases g with
  | line l => simp [Geom.getEndData]
  | spiral x => simp only [Geom.getEndData]; cases x.getEndData p <;> rfl
  | arc a => simp only [Geom.getEndData]; cases Arc.getEndData p a <;> rfl
  | poly q =>
    have : match ParamPoly3.getEndData p q with | .ok _ q' => q'.prange = q.prange | .error _ q' => q'.prange = q.prange := by
      unfold ParamPoly3.getEndData
      cases q.param <;> rfl
    simp only [Geom.getEndData]
    cases h : ParamPoly3.getEndData p q <;> rw [h] at this <;> simpa [geomTexts] using this

theorem geomTexts_start (p : Pose F) (g : Geom F) : match Geom.getStartData p g with
    | .ok _ g' => geomTexts g' = geomTexts g
    | .error _ g' => geomTexts g' = geomTexts g := by
  cases g with
  | line l => simp [Geom.getStartData]
  | spiral x => simp only [Geom.getStartData]; cases x.getStartData p <;> rfl
  | arc a => simp only [Geom.getStartData]; cases Arc.getStartData p a <;> rfl
  | poly q =>
    have : match ParamPoly3.getStartData p q with | .ok _ q' => q'.prange = q.prange | .error _ q' => q'.prange = q.prange := by
      unfold ParamPoly3.getStartData
      cases q.param <;> rfl
    simp only [Geom.getStartData]
    cases h : ParamPoly3.getStartData p q <;> rw [h] at this <;> simpa [geomTexts] using this

/-- All geometries have texts with `P` (state of a PlanView). -/
def GeomsAre (P : String → Prop) (geoms : Store (Geom F)) : Prop := ∀ i, ∀ t ∈ geomTexts (geoms.cell i), P t

variable {P : String → Prop}

omit [PyFloat F] in
theorem geomsAre_put {geoms : Store (Geom F)} (h : GeomsAre P geoms) (r : Nat) (g : Geom F)
    (hg : geomTexts g = geomTexts (geoms.cell r)) : GeomsAre P (geoms.put r g) := by
  intro i
  simp only [Store.put, Store.modify]
  split
  · next e => rw [hg, ← e]; exact h i
  · exact h i

theorem retains_callEnd (r : Nat) (p : Pose F) : Retains (fun st : PVState F => GeomsAre P st.geoms) (callEnd r p) := by
  intro st h
  unfold callEnd
  have := geomTexts_end p (st.geoms.cell r)
  cases hg : Geom.getEndData p (st.geoms.cell r) <;> rw [hg] at this <;> exact geomsAre_put h r _ this

theorem retains_callStart (r : Nat) (p : Pose F) : Retains (fun st : PVState F => GeomsAre P st.geoms) (callStart r p) := by
  intro st h
  unfold callStart
  have := geomTexts_start p (st.geoms.cell r)
  cases hg : Geom.getStartData p (st.geoms.cell r) <;> rw [hg] at this <;> exact geomsAre_put h r _ this

omit [PyFloat F] in
theorem retains_modifyPV (f : PlanView F → PlanView F) : Retains (fun st : PVState F => GeomsAre P st.geoms) (modifyPV f) := fun _ h => h

theorem retains_newGeom (x : F) (p : Pose F) (r : Nat) : Retains (fun st : PVState F => GeomsAre P st.geoms) (AdjGeom.new x p r) :=
  (retains_callEnd r p).bind fun _ => retains_pure _

theorem retains_fwdStep (i r : Nat) : Retains (fun st : PVState F => GeomsAre P st.geoms) (PlanView.fwdStep i r) := by
  have rest : Retains (fun st : PVState F => GeomsAre P st.geoms) (do
      let st ← get
      let g ← AdjGeom.new st.pv.presentS st.pv.present r
      let (p, len) ← callEnd r ⟨g.x, g.y, g.heading⟩
      modifyPV fun pv => { pv with present := p }
      let l ← orRaise .typeError len
      modifyPV fun pv => { pv with presentS := pv.presentS +. l }
      modifyPV fun pv => { pv with adjGeoms := pv.adjGeoms ++ [g] }) :=
    retains_get.bind fun _ => (retains_newGeom _ _ _).bind fun _ => (retains_callEnd _ _).bind fun _ => (retains_modifyPV _).bind fun _ =>
      (retains_orRaise _ _).bind fun _ => (retains_modifyPV _).bind fun _ => retains_modifyPV _
  unfold PlanView.fwdStep
  refine retains_get.bind fun st => ?_
  split
  · exact (retains_orRaise _ _).bind fun _ => (retains_modifyPV _).bind fun _ => rest
  · exact rest

theorem retains_fwdLoop : ∀ (rs : List Nat) (i : Nat), Retains (fun st : PVState F => GeomsAre P st.geoms) (PlanView.fwdLoop i rs)
  | [], _ => retains_pure _
  | r :: rs, i => (retains_fwdStep i r).bind fun _ => retains_fwdLoop rs (i + 1)

theorem retains_bwdStep (r : Nat) : Retains (fun st : PVState F => GeomsAre P st.geoms) (PlanView.bwdStep r) :=
  retains_get.bind fun _ => (retains_newGeom _ _ _).bind fun _ => (retains_callStart _ _).bind fun _ => (retains_modifyPV _).bind fun _ => retains_pure _

theorem retains_bwdLoop : ∀ (rs : List Nat), Retains (fun st : PVState F => GeomsAre P st.geoms) (PlanView.bwdLoop rs)
  | [] => retains_pure _
  | r :: rs => (retains_bwdStep r).bind fun _ => (retains_bwdLoop rs).bind fun _ => retains_pure _

theorem retains_sLoop : ∀ (ls : List F), Retains (fun st : PVState F => GeomsAre P st.geoms) (PlanView.sLoop ls)
  | [] => retains_pure _
  | _ :: ls => (retains_modifyPV _).bind fun _ => (retains_modifyPV _).bind fun _ => retains_sLoop ls

theorem retains_adjustGeometries (fromEnd : Bool) : Retains (fun st : PVState F => GeomsAre P st.geoms) (PlanView.adjustGeometries fromEnd) := by
  unfold PlanView.adjustGeometries
  refine retains_get.bind fun st => ?_
  split
  · exact (retains_modifyPV _).bind fun _ => (retains_fwdLoop _ _).bind fun _ => (retains_modifyPV _).bind fun _ => retains_modifyPV _
  · exact (retains_modifyPV _).bind fun _ => (retains_bwdLoop _).bind fun _ => (retains_modifyPV _).bind fun _ => (retains_orRaise _ _).bind fun _ =>
      (retains_modifyPV _).bind fun _ => (retains_sLoop _).bind fun _ => retains_modifyPV _

/-! ## adjust_startpoints -/

omit [PyFloat F] in
theorem retains_road (k : String) : Retains (fun n : SharedNet F => GeomsAre P n.geoms) (SharedNet.road k) := by
  intro n h
  unfold SharedNet.road
  cases n.roads.get? k <;> exact h

theorem retains_adjustPlanview (k : String) (b : Bool) : Retains (fun n : SharedNet F => GeomsAre P n.geoms) (SharedNet.adjustPlanview k b) := by
  intro n h
  unfold SharedNet.adjustPlanview
  cases n.roads.get? k with
  | none => exact h
  | some r =>
    have := retains_adjustGeometries (P := P) b ⟨n.pvs.cell r.pv, n.geoms⟩ h
    cases hg : PlanView.adjustGeometries b ⟨n.pvs.cell r.pv, n.geoms⟩ <;> rw [hg] at this <;> simp only [hg] <;> exact this

omit [PyFloat F] in
theorem retains_setStartPoint (k : String) (p : Pose F) : Retains (fun n : SharedNet F => GeomsAre P n.geoms) (SharedNet.setStartPoint k p) := by
  intro n h
  unfold SharedNet.setStartPoint
  cases n.roads.get? k <;> exact h

theorem retains_adjustRoad (a b : PyId) (cp : Option ContactPoint) (x : Bool) :
    Retains (fun n : SharedNet F => GeomsAre P n.geoms) (SharedNet.adjustRoadWrtNeighbour a b cp x) :=
  (retains_road _).bind fun _ => (retains_orRaise _ _).bind fun _ => (retains_road _).bind fun _ => (retains_lift _).bind fun _ =>
    (retains_setStartPoint _ _).bind fun _ => retains_adjustPlanview _ _

omit [PyFloat F] in
theorem retains_usable (l : Option Link) : Retains (fun n : SharedNet F => GeomsAre P n.geoms) (SharedNet.usable l) := by
  unfold SharedNet.usable
  cases l
  · exact retains_pure _
  · exact (retains_road _).bind fun _ => retains_pure _

omit [PyFloat F] in
theorem retains_danglingOther (t : Int) (l : Option Link) : Retains (fun n : SharedNet F => GeomsAre P n.geoms) (SharedNet.danglingOther t l) := by
  unfold SharedNet.danglingOther
  split
  · exact retains_pure _
  · cases l
    · exact retains_pure _
    · exact (retains_road _).bind fun _ => retains_pure _

theorem retains_visit (k : String) : Retains (fun n : SharedNet F => GeomsAre P n.geoms) (SharedNet.visit k) := by
  unfold SharedNet.visit
  refine (retains_road _).bind fun r => ?_
  split
  · exact retains_pure _
  · refine (retains_usable _).bind fun _ => ?_
    split
    · refine (retains_adjustRoad _ _ _ _).bind fun _ => (retains_danglingOther _ _).bind fun _ => ?_
      split
      · exact (retains_adjustRoad _ _ _ _).bind fun _ => retains_pure _
      · exact retains_pure _
    · refine (retains_usable _).bind fun _ => ?_
      split
      · refine (retains_adjustRoad _ _ _ _).bind fun _ => (retains_danglingOther _ _).bind fun _ => ?_
        split
        · exact (retains_adjustRoad _ _ _ _).bind fun _ => retains_pure _
        · exact retains_pure _
      · exact retains_pure _

theorem retains_pass : ∀ (ks : List String), Retains (fun n : SharedNet F => GeomsAre P n.geoms) (SharedNet.pass ks)
  | [] => retains_pure _
  | k :: ks => (retains_visit k).bind fun _ => (retains_pass ks).bind fun _ => retains_pure _

theorem retains_passes (n : Nat) (ks : List String) : ∀ (m total : Nat), n - total ≤ m →
    Retains (fun n : SharedNet F => GeomsAre P n.geoms) (SharedNet.passes n total ks) := by
  intro m
  induction m with
  | zero =>
    intro total h
    rw [SharedNet.passes, dif_neg (by omega)]
    exact retains_pure _
  | succ m ih =>
    intro total h
    rw [SharedNet.passes]
    split
    · refine (retains_pass _).bind fun c => ?_
      split
      · exact retains_raise _
      · next h1 h2 =>
        by_cases hc : c = 0
        · subst hc
          have : total = n := by by_contra hne; exact h2 ⟨by omega, rfl⟩
          omega
        · exact ih _ (by omega)
    · exact retains_pure _

theorem retains_adjustFixed : ∀ (ks : List String), Retains (fun n : SharedNet F => GeomsAre P n.geoms) (SharedNet.adjustFixed ks)
  | [] => retains_pure _
  | k :: ks => by
    rw [SharedNet.adjustFixed]
    refine (retains_road _).bind fun r => ?_
    split
    · exact (retains_adjustPlanview _ _).bind fun _ => (retains_adjustFixed ks).bind fun _ => retains_pure _
    · exact retains_adjustFixed ks

theorem retains_adjustStartpoints : Retains (fun n : SharedNet F => GeomsAre P n.geoms) SharedNet.adjustStartpoints := by
  unfold SharedNet.adjustStartpoints
  refine retains_get.bind fun n => (retains_adjustFixed _).bind fun c => ?_
  refine Retains.bind ?_ fun c => retains_passes _ _ _ _ le_rfl
  split
  · exact (retains_orRaise _ _).bind fun _ => (retains_adjustPlanview _ _).bind fun _ => retains_pure _
  · exact retains_pure _

end

/-! ## Lane links -/

/-- All links of lanes have texts with `P`. -/
def LinksHave (P : String → Prop) (lanes : Store (Lane F)) : Prop := ∀ i, ∀ t ∈ linkTexts (lanes.cell i).links, P t

section
variable {P : String → Prop}

theorem linksHave_modify {lanes : Store (Lane F)} (h : LinksHave P lanes) (r : Nat) (f : Lane F → Lane F)
    (hf : ∀ t ∈ linkTexts (f (lanes.cell r)).links, P t) : LinksHave P (lanes.modify r f) := by
  intro i
  simp only [Store.modify]
  split
  · exact hf
  · exact h i

theorem linksHave_addLink {lanes : Store (Lane F)} (h : LinksHave P lanes) (r : Nat) (k : LinkKind) (t : String) (ht : P t) :
    LinksHave P (lanes.modify r (·.addLink k t)) := by
  refine linksHave_modify h r _ ?_
  intro u hu
  simp only [linkTexts, Lane.addLink, List.flatMap_append, List.mem_append, List.flatMap_cons, List.flatMap_nil, List.append_nil] at hu
  rcases hu with hu | hu
  · exact h r u hu
  · simp [idTexts] at hu; rw [hu]; exact ht

variable (hi : ∀ i : Int, P (strInt i)) (hn : P "None")
include hi

theorem retains_addLaneLink (r : Nat) (k : LinkKind) (i : Int) : Retains (LinksHave P) (addLaneLink (F := F) r k i) :=
  fun _ h => linksHave_addLink h r k _ (hi i)

omit hi in
theorem retains_laneIdTimes (r : Nat) (sign : Option Int) : Retains (LinksHave P) (laneIdTimes (F := F) r sign) := by
  intro l h
  unfold laneIdTimes
  cases (l.cell r).laneId <;> cases sign <;> exact h

theorem retains_connectingLoop (k : LinkKind) (sign : Option Int) (a b : Int) (rs cs : List Nat) :
    ∀ n i, Retains (LinksHave P) (connectingLoop (F := F) k sign a b rs cs i n)
  | 0, _ => retains_pure _
  | n + 1, i => Retains.bind
      ((retains_orRaise _ _).bind fun _ => (retains_laneIdTimes _ _).bind fun _ =>
        (retains_orRaise _ _).bind fun _ => retains_addLaneLink hi _ _ _)
      fun _ => retains_connectingLoop k sign a b rs cs n (i + 1)

theorem retains_leftLoop (pk sk : LinkKind) (sign : Option Int) (pre suc : List Nat) :
    ∀ n i, Retains (LinksHave P) (leftLoop (F := F) pk sk sign pre suc i n)
  | 0, _ => retains_pure _
  | n + 1, i => Retains.bind
      ((retains_orRaise _ _).bind fun _ => (retains_laneIdTimes _ _).bind fun _ =>
        (retains_addLaneLink hi _ _ _).bind fun _ => (retains_orRaise _ _).bind fun _ => by
          cases sign
          · exact retains_raise _
          · exact retains_addLaneLink hi _ _ _)
      fun _ => retains_leftLoop pk sk sign pre suc n (i + 1)

include hn

theorem laneIdText_have (x : Option Int) : P (laneIdText x) := by
  cases x
  · exact hn
  · exact hi _

theorem retains_rightLoop (pk sk : LinkKind) (pre suc : List Nat) :
    ∀ n i, Retains (LinksHave P) (rightLoop (F := F) pk sk pre suc i n)
  | 0, _ => retains_pure _
  | n + 1, i => Retains.bind
      ((retains_orRaise _ _).bind fun _ => retains_get.bind fun _ =>
        Retains.bind (fun _ h => linksHave_addLink h _ _ _ (laneIdText_have hi hn _)) fun _ => (retains_orRaise _ _).bind fun _ =>
          fun _ h => linksHave_addLink h _ _ _ (laneIdText_have hi hn _))
      fun _ => retains_rightLoop pk sk pre suc n (i + 1)

theorem retains_createLaneLinks (a b : Road F) : Retains (LinksHave P) (createLaneLinks a b) := by
  have hc : ∀ a b : Road F, Retains (LinksHave P) (createLinksConnectingRoad a b) := by
    intro a b
    unfold createLinksConnectingRoad
    dsimp only
    repeat' first
      | with_reducible exact retains_pure _
      | with_reducible exact retains_raise _
      | with_reducible exact retains_connectingLoop hi _ _ _ _ _ _ _ _
      | with_reducible refine (retains_lift _).bind fun _ => ?_
      | with_reducible refine (retains_connectingLoop hi _ _ _ _ _ _ _ _).bind fun _ => ?_
      | with_reducible refine (retains_pure _).bind fun _ => ?_
      | split
  have hr : ∀ a b : Road F, Retains (LinksHave P) (createLinksRoads a b) := by
    intro a b
    unfold createLinksRoads
    dsimp only
    repeat' first
      | with_reducible exact retains_pure _
      | with_reducible exact retains_raise _
      | with_reducible exact retains_rightLoop hi hn _ _ _ _ _ _
      | with_reducible refine (retains_lift _).bind fun _ => ?_
      | with_reducible refine (retains_leftLoop hi _ _ _ _ _ _ _).bind fun _ => ?_
      | with_reducible refine (retains_raise _).bind fun _ => ?_
      | with_reducible refine (retains_pure _).bind fun _ => ?_
      | split
  unfold createLaneLinks
  repeat' split
  all_goals first | exact hr _ _ | exact hc _ _ | exact retains_pure _

theorem retains_linkPairs : ∀ (ks : List (String × String)), Retains (fun w : World F => LinksHave P w.lanes) (World.linkPairs ks)
  | [] => retains_pure _
  | k :: ks => by
    have hp : Retains (fun w : World F => LinksHave P w.lanes) (World.linkPair k) := by
      intro w h
      unfold World.linkPair
      cases h1 : w.net.roads.get? k.1 with
      | none => exact h
      | some a =>
        cases h2 : w.net.roads.get? k.2 with
        | none => exact h
        | some b =>
          have h3 := retains_createLaneLinks hi hn a b w.lanes h
          cases hc : createLaneLinks a b w.lanes <;> rw [hc] at h3 <;> simp only [hc] <;> exact h3
    exact hp.bind fun _ => retains_linkPairs ks

theorem applyAll_have : ∀ (ls : List LaneLink) (lanes : Store (Lane F)), LinksHave P lanes → LinksHave P (LaneLinker.applyAll ls lanes).2
  | [], _, h => h
  | l :: ls, lanes, h => by
    refine applyAll_have ls _ ?_
    unfold LaneLink.apply
    split
    · exact h
    · exact linksHave_addLink (linksHave_addLink h _ _ _ (laneIdText_have hi hn _)) _ _ _ (laneIdText_have hi hn _)

theorem applyLinkers_have : ∀ (ls : List Nat) (linkers : Store (List LaneLink)) (lanes : Store (Lane F)), LinksHave P lanes →
    LinksHave P (Lanes.applyLinkers ls linkers lanes).2
  | [], _, _, h => h
  | l :: ls, _, _, h => applyLinkers_have ls _ _ (applyAll_have hi hn _ _ h)

end

/-! ## Calls -/

section
variable {P : String → Prop}

theorem texts_modify {α : Type} {st : Store α} {texts : α → List String} (h : ∀ i, ∀ t ∈ texts (st.cell i), P t) (r : Nat) (f : α → α)
    (hf : ∀ t ∈ texts (f (st.cell r)), P t) : ∀ i, ∀ t ∈ texts ((st.modify r f).cell i), P t := by
  intro i
  simp only [Store.modify]
  split
  · exact hf
  · exact h i

theorem texts_put {α : Type} {st : Store α} {texts : α → List String} (h : ∀ i, ∀ t ∈ texts (st.cell i), P t) (r : Nat) (x : α)
    (hx : ∀ t ∈ texts x, P t) : ∀ i, ∀ t ∈ texts ((st.put r x).cell i), P t := texts_modify h r _ hx

theorem idTexts_updateId (hnat : ∀ n : Nat, P (Nat.repr n)) (cls : String) (id : Option PyId) (reg : Registry)
    (h : ∀ t ∈ (match id with | some i => idTexts i | none => []), P t) : ∀ t ∈ idTexts (updateId cls id reg).1, P t := by
  cases id with
  | none => simp only [updateId, idTexts, List.mem_singleton]; rintro t rfl; exact hnat _
  | some i =>
    simp only [updateId]
    split
    · simp only [idTexts, List.mem_singleton]; rintro t rfl; exact hnat _
    · exact h

theorem baseTexts_id {b : SOBase F} {i : PyId} (h : ∀ t ∈ baseTexts b, P t) (hi : ∀ t ∈ idTexts i, P t) :
    ∀ t ∈ baseTexts { b with id := some i }, P t := by
  intro t ht
  simp only [baseTexts, List.mem_append] at ht h
  rcases ht with ((ht | ht) | ht) | ht
  · exact hi t ht
  · exact h t (.inl (.inl (.inr ht)))
  · exact h t (.inl (.inr ht))
  · exact h t (.inr ht)

theorem objects_update (hnat : ∀ n : Nat, P (Nat.repr n)) : ∀ (os : List Nat) (st : SOState F),
    (∀ i, ∀ t ∈ baseTexts (st.objs.cell i).base, P t) → ∀ i, ∀ t ∈ baseTexts ((os.foldl SOState.updateObjId st).objs.cell i).base, P t
  | [], _, h => h
  | o :: os, st, h => by
    refine objects_update hnat os _ ?_
    have h2 : ∀ t ∈ idTexts (updateId "Object" (st.objs.cell o).base.id st.reg).1, P t := idTexts_updateId hnat _ _ _ fun t ht => h o t (by
      simp only [baseTexts, List.mem_append]; exact .inl (.inl (.inl ht)))
    have e : (SOState.updateObjId st o).objs = st.objs.modify o fun ob =>
      { ob with base := { ob.base with id := some (updateId "Object" (st.objs.cell o).base.id st.reg).1 } } := rfl
    rw [e]
    generalize (updateId "Object" (st.objs.cell o).base.id st.reg).1 = i at h2
    exact texts_modify (texts := fun x : Obj F => baseTexts x.base) h o _ (baseTexts_id (h o) h2)

theorem signals_update (hnat : ∀ n : Nat, P (Nat.repr n)) : ∀ (os : List Nat) (st : SOState F),
    (∀ i, ∀ t ∈ signalTexts (st.sigs.cell i), P t) → ∀ i, ∀ t ∈ signalTexts ((os.foldl SOState.updateSigId st).sigs.cell i), P t
  | [], _, h => h
  | o :: os, st, h => by
    refine signals_update hnat os _ ?_
    have h1 : ∀ t ∈ baseTexts (st.sigs.cell o).base, P t := fun t ht => h o t (by
      simp only [signalTexts, List.mem_append]; exact .inl (.inl ht))
    have h2 : ∀ t ∈ idTexts (updateId "Signal" (st.sigs.cell o).base.id st.reg).1, P t := idTexts_updateId hnat _ _ _ fun t ht => h1 t (by
      simp only [baseTexts, List.mem_append]; exact .inl (.inl (.inl ht)))
    have e : (SOState.updateSigId st o).sigs = st.sigs.modify o fun ob =>
      { ob with base := { ob.base with id := some (updateId "Signal" (st.sigs.cell o).base.id st.reg).1 } } := rfl
    rw [e]
    generalize (updateId "Signal" (st.sigs.cell o).base.id st.reg).1 = i at h2
    refine texts_modify (texts := fun x : Signal F => signalTexts x) h o _ ?_
    have h3 := baseTexts_id h1 h2
    intro t ht
    simp only [signalTexts, List.mem_append] at ht
    rcases ht with (ht | ht) | ht
    · exact h3 t ht
    · exact h o t (by simp only [signalTexts, List.mem_append]; exact .inl (.inr ht))
    · exact h o t (by simp only [signalTexts, List.mem_append]; exact .inr ht)

theorem TextsAre.imp {Q : String → Prop} (hPQ : ∀ t, P t → Q t) {s : Session F} (h : TextsAre P s) : TextsAre Q s :=
  ⟨fun i t ht => hPQ t (h.geoms i t ht), fun i t ht => hPQ t (h.lanes i t ht), fun i t ht => hPQ t (h.roads i t ht),
    fun i t ht => hPQ t (h.objects i t ht), fun i t ht => hPQ t (h.signals i t ht), fun i t ht => hPQ t (h.connections i t ht),
    fun i t ht => hPQ t (h.junctions i t ht), fun i => hPQ _ (h.openDrives i)⟩

theorem linkTexts_append (ls : List Link) (l : Link) : linkTexts (ls ++ [l]) = linkTexts ls ++ idTexts l.elementId := by
  simp [linkTexts]

/-- Adding a link to a road. -/
theorem retains_link {f : EStateM PyErr (Road F) Unit} {id : PyId} (hf : ∀ r : Road F, match f r with
      | .ok _ r' => ∃ l : Link, r'.name = r.name ∧ r'.rule = r.rule ∧ r'.id = r.id ∧ r'.links = r.links ++ [l] ∧ l.elementId = id
      | .error _ r' => r' = r) (hid : ∀ t ∈ idTexts id, P t) : Retains (fun r : Road F => ∀ t ∈ ownTexts r, P t) f := by
  intro r h
  have := hf r
  cases hr : f r with
  | error e r' => rw [hr] at this; simp only at this ⊢; subst this; exact h
  | ok _ r' =>
    rw [hr] at this
    obtain ⟨l, h1, h2, h3, h4, rfl⟩ := this
    intro t ht
    rw [ownTexts, h1, h2, h3, h4, linkTexts_append, ← List.append_assoc] at ht
    rcases List.mem_append.mp ht with ht | ht
    · exact h t ht
    · exact hid t ht

theorem retains_addSuccessor {et : ElementType} {id : PyId} {cp : Option ContactPoint} {off : Int} (hid : ∀ t ∈ idTexts id, P t) :
    Retains (fun r : Road F => ∀ t ∈ ownTexts r, P t) (Road.addSuccessor et id cp off) := by
  refine retains_link (fun r => ?_) hid
  unfold Road.addSuccessor Link.new
  by_cases h : r.successor.isSome = true
  · simp only [h, if_true]
  · simp only [h]
    exact ⟨_, rfl, rfl, rfl, rfl, rfl⟩

theorem retains_addPredecessor {et : ElementType} {id : PyId} {cp : Option ContactPoint} {off : Int} (hid : ∀ t ∈ idTexts id, P t) :
    Retains (fun r : Road F => ∀ t ∈ ownTexts r, P t) (Road.addPredecessor et id cp off) := by
  refine retains_link (fun r => ?_) hid
  unfold Road.addPredecessor Link.new
  by_cases h : r.predecessor.isSome = true
  · simp only [h, if_true]
  · simp only [h]
    exact ⟨_, rfl, rfl, rfl, rfl, rfl⟩

theorem retains_addNeighbor {et : ElementType} {id : PyId} {dir : Option Direction} (hid : ∀ t ∈ idTexts id, P t) :
    Retains (fun r : Road F => ∀ t ∈ ownTexts r, P t) (Road.addNeighbor et id dir) := by
  refine retains_link (fun r => ?_) hid
  unfold Road.addNeighbor Link.new
  by_cases h : r.neighborAdded > 1
  · simp only [h, if_true]
  · cases dir
    · simp [h]
    · simp only [h]
      exact ⟨_, rfl, rfl, rfl, rfl, rfl⟩

theorem retains_withRoad {r : Nat} {f : EStateM PyErr (Road F) Unit} (hf : Retains (fun r : Road F => ∀ t ∈ ownTexts r, P t) f) :
    Retains (TextsAre P) (withRoad r f) := by
  intro s h
  have := hf _ (h.roads r)
  unfold withRoad
  cases hr : f (s.roads.cell r).attrs with
  | ok u a =>
    rw [hr] at this
    exact { h with roads := texts_modify (texts := fun x : RoadRef F => ownTexts x.attrs) h.roads r (fun x => { x with attrs := a }) this }
  | error e a =>
    rw [hr] at this
    exact { h with roads := texts_modify (texts := fun x : RoadRef F => ownTexts x.attrs) h.roads r (fun x => { x with attrs := a }) this }

section
variable [PyFloat F]

theorem retains_adjust (hi : ∀ i : Int, P (strInt i)) (hn : P "None") (o : Nat) : Retains (TextsAre P) (Session.adjust (F := F) o) := by
  intro s h
  unfold Session.adjust
  have h1 := retains_adjustStartpoints (P := P) (s.net o) h.geoms
  cases ha : SharedNet.adjustStartpoints (s.net o) with
  | error e n => rw [ha] at h1; exact { h with geoms := h1 }
  | ok _ n =>
    rw [ha] at h1
    simp only
    generalize hr : ((Session.readOpenDrive { s with planviews := n.pvs, geoms := n.geoms }) (s.openDrives.cell o)).roads = roads
    have h2 := retains_linkPairs (F := F) hi hn (combinations2 roads.keys) ⟨⟨roads, n.geoms⟩, s.laneObjs⟩ h.lanes
    cases hl : World.linkPairs (combinations2 roads.keys) ⟨⟨roads, n.geoms⟩, s.laneObjs⟩ <;> rw [hl] at h2 <;>
      exact { h with geoms := h1, lanes := h2 }

/-- Every call keeps the texts to those in calls, numbers and `None`. -/
theorem retains_call (hi : ∀ i : Int, P (strInt i)) (hnat : ∀ n : Nat, P (Nat.repr n)) (hn : P "None") (c : Call F) (hc : ∀ t ∈ callTexts c, P t) :
    Retains (TextsAre P) c.run := by
  cases c with
  | geometry v g => exact fun s h => { h with geoms := texts_put h.geoms v g hc }
  | planView v x y hd =>
    intro s h
    simp only [Call.run]
    cases PlanView.new x y hd
    · exact h
    · exact ⟨h.geoms, h.lanes, h.roads, h.objects, h.signals, h.connections, h.junctions, h.openDrives⟩
  | addGeometry pv g hd => exact fun s h => ⟨h.geoms, h.lanes, h.roads, h.objects, h.signals, h.connections, h.junctions, h.openDrives⟩
  | setStartPoint pv p => exact fun s h => ⟨h.geoms, h.lanes, h.roads, h.objects, h.signals, h.connections, h.junctions, h.openDrives⟩
  | lane v type a b c d so => exact fun s h => { h with lanes := texts_put (texts := fun x : Lane F => linkTexts x.links) h.lanes v _ (by simp [Lane.new, linkTexts]) }
  | addRoadmark x m => exact fun s h => { h with lanes := linksHave_modify h.lanes x (fun l => l.addRoadmark m) (h.lanes x) }
  | addLaneLink x k id => exact fun s h => { h with lanes := linksHave_addLink h.lanes x k id (hc id (by simp [callTexts])) }
  | laneSection v sc ce => exact fun s h => { h with lanes := linksHave_modify h.lanes ce (fun l => l.setLaneId 0) (h.lanes ce) }
  | addLeftLane sec x => exact fun s h => { h with lanes := linksHave_modify h.lanes x (fun l => l.setLaneId (s.sections.cell sec).leftId) (h.lanes x) }
  | addRightLane sec x => exact fun s h => { h with lanes := linksHave_modify h.lanes x (fun l => l.setLaneId (s.sections.cell sec).rightId) (h.lanes x) }
  | laneLinker v => exact fun s h => ⟨h.geoms, h.lanes, h.roads, h.objects, h.signals, h.connections, h.junctions, h.openDrives⟩
  | linkLanes l p q => exact fun s h => ⟨h.geoms, h.lanes, h.roads, h.objects, h.signals, h.connections, h.junctions, h.openDrives⟩
  | lanes v => exact fun s h => ⟨h.geoms, h.lanes, h.roads, h.objects, h.signals, h.connections, h.junctions, h.openDrives⟩
  | addLanesection x sec ls => exact fun s h => { h with lanes := applyLinkers_have hi hn ls s.linkers s.laneObjs h.lanes }
  | road v id pv x type name rule =>
    refine fun s h => { h with roads := texts_put (texts := fun x : RoadRef F => ownTexts x.attrs) h.roads v _ ?_ }
    intro t ht
    refine hc t ?_
    simp only [ownTexts, Road.new, linkTexts, List.flatMap_nil, List.append_nil, List.mem_append] at ht
    simp only [callTexts, List.mem_append]
    tauto
  | addSuccessor r et id cp off => exact retains_withRoad (retains_addSuccessor hc)
  | addPredecessor r et id cp off => exact retains_withRoad (retains_addPredecessor hc)
  | addNeighbor r et id dir => exact retains_withRoad (retains_addNeighbor hc)
  | object v o => exact fun s h => { h with objects := texts_put (texts := fun x : Obj F => baseTexts x.base) h.objects v o hc }
  | repeatObject o l d a => exact fun s h => { h with objects := texts_modify (texts := fun x : Obj F => baseTexts x.base) h.objects o (fun x => x.repeat l d a) (h.objects o) }
  | addObject r os =>
    exact fun s h => { h with
      roads := texts_modify (texts := fun x : RoadRef F => ownTexts x.attrs) h.roads r
        (fun y => { y with attrs := ((s.roads.cell r).attrs.addObject os ⟨s.objs, s.sigs, s.reg⟩).1 }) (h.roads r)
      objects := objects_update hnat os ⟨s.objs, s.sigs, s.reg⟩ h.objects }
  | signal v g => exact fun s h => { h with signals := texts_put (texts := fun x : Signal F => signalTexts x) h.signals v g hc }
  | addSignal r os =>
    exact fun s h => { h with
      roads := texts_modify (texts := fun x : RoadRef F => ownTexts x.attrs) h.roads r
        (fun y => { y with attrs := ((s.roads.cell r).attrs.addSignal os ⟨s.objs, s.sigs, s.reg⟩).1 }) (h.roads r)
      signals := signals_update hnat os ⟨s.objs, s.sigs, s.reg⟩ h.signals }
  | connection v a b cp id =>
    exact fun s h => { h with connections := texts_put (texts := fun x : Connection => idTexts x.incomingRoad ++ idTexts x.connectingRoad) h.connections v _ hc }
  | addLanelink c a b =>
    exact fun s h => { h with connections := texts_modify (texts := fun x : Connection => idTexts x.incomingRoad ++ idTexts x.connectingRoad) h.connections c (fun x => x.addLanelink a b) (h.connections c) }
  | junction v name id =>
    exact fun s h => { h with junctions := texts_put (texts := fun x : JunctionRef => x.name :: idTexts x.id) h.junctions v _ hc }
  | addConnection j c =>
    refine fun s h => { h with
      connections := texts_modify (texts := fun x : Connection => idTexts x.incomingRoad ++ idTexts x.connectingRoad) h.connections c
        (fun x => x.setId (s.junctions.cell j).idCounter) ?_
      junctions := texts_modify (texts := fun x : JunctionRef => x.name :: idTexts x.id) h.junctions j
        (fun x => { x with connections := x.connections ++ [c], idCounter := x.idCounter + 1 }) (h.junctions j) }
    have := h.connections c
    unfold Connection.setId
    cases (s.connections.cell c).id <;> exact this
  | openDrive v name =>
    refine fun s h => { h with openDrives := fun i => ?_ }
    simp only [Store.put, Store.modify]
    split
    · exact hc name (by simp [callTexts])
    · exact h.openDrives i
  | addRoad o r =>
    refine fun s h => { h with openDrives := fun i => ?_ }
    simp only [Store.modify]
    split <;> first | exact h.openDrives i | exact h.openDrives o
  | addJunction o j =>
    refine fun s h => { h with openDrives := fun i => ?_ }
    simp only [Store.modify]
    split <;> first | exact h.openDrives i | exact h.openDrives o
  | adjust o => exact retains_adjust hi hn o

omit [PyFloat F] in
theorem Retains.leaves {σ α : Type} {I : σ → Prop} {m : EStateM PyErr σ α} (h : Retains I m) (s : σ) (hs : I s) : I (Spec.leaves m s) := by
  have := h s hs
  unfold Spec.leaves
  cases hr : m s <;> rw [hr] at this <;> exact this

theorem retains_sessionAdjustGeometries (v : Nat) (fromEnd : Bool) : Retains (TextsAre (F := F) P) (Session.adjustGeometries v fromEnd) := by
  intro s h
  have := retains_adjustGeometries (P := P) fromEnd ⟨s.planviews.cell v, s.geoms⟩ h.geoms
  unfold Session.adjustGeometries
  cases hg : PlanView.adjustGeometries fromEnd ⟨s.planviews.cell v, s.geoms⟩ <;> rw [hg] at this <;> exact { h with geoms := this }

theorem allocAll_objects : ∀ (os : List (Obj F)) (st : Store (Obj F)), (∀ i, ∀ t ∈ baseTexts (st.cell i).base, P t) →
    (∀ o ∈ os, ∀ t ∈ baseTexts o.base, P t) → ∀ i, ∀ t ∈ baseTexts ((allocAll st os).1.cell i).base, P t
  | [], _, h, _ => h
  | a :: os, st, h, ho => by
    refine allocAll_objects os _ (fun i => ?_) (fun o hm => ho o (List.mem_cons_of_mem _ hm))
    simp only [Store.alloc]
    split
    · exact ho a (List.mem_cons_self ..)
    · exact h i

theorem retains_roadside (hnat : ∀ n : Nat, P (Nat.repr n)) (names r proto : Nat) (dist so tof : F) (side : RoadSide) :
    Retains (TextsAre P) (Session.addObjectRoadside names r proto dist so tof side) := by
  intro s h
  unfold Session.addObjectRoadside Road.addObjectRoadside
  dsimp only
  by_cases ha : (s.readRoad (s.roads.cell r)).planview.adjusted = false
  · simp only [ha, if_true]
    exact h
  · simp only [ha]
    refine { h with
      roads := texts_modify (texts := fun x : RoadRef F => ownTexts x.attrs) h.roads r (fun y => { y with attrs := { y.attrs with objects := _ } }) (h.roads r)
      objects := objects_update hnat _ ⟨_, s.sigs, s.reg⟩ (allocAll_objects _ ⟨s.objs.cell, names⟩ h.objects ?_) }
    intro o ho
    obtain ⟨e, -, rfl⟩ := List.mem_map.mp ho
    exact h.objects proto

theorem textsAre_history (hi : ∀ i : Int, P (strInt i)) (hnat : ∀ n : Nat, P (Nat.repr n)) (hn : P "None") {p : List (Call F)}
    {s s' : Session F} (hp : CallHistory s p s') (hc : ∀ c ∈ p, ∀ t ∈ callTexts c, P t) (h : TextsAre P s) : TextsAre P s' := by
  induction hp with
  | start => exact h
  | call c _ ih =>
    exact (retains_call hi hnat hn c (hc c (by simp))).leaves _ (ih fun c' hc' => hc c' (List.mem_append_left _ hc'))
  | roadside names r proto dist so tof side _ ih => exact (retains_roadside hnat names r proto dist so tof side).leaves _ (ih hc)
  | geometries pv fromEnd _ ih => exact (retains_sessionAdjustGeometries pv fromEnd).leaves _ (ih hc)

theorem history_runCalls (s : Session F) : ∀ (p q : List (Call F)) (s' : Session F), CallHistory s q s' → CallHistory s (q ++ p) (runCalls p s').2
  | [], q, s', h => by rw [List.append_nil]; exact h
  | c :: p, q, s', h => by
    have h1 := history_runCalls s p (q ++ [c]) _ (CallHistory.call c h)
    rw [List.append_assoc, List.singleton_append] at h1
    have e : leaves c.run s' = (c.step s').2 := by
      unfold leaves Call.step
      cases c.run s' <;> rfl
    rw [e] at h1
    exact h1

/-- The texts of a document are in the state. -/
theorem TextsAre.document {s : Session F} (h : TextsAre P s) (o : Nat) {date : String} (hd : P date) :
    ∀ t ∈ userTexts s.heap date (s.readOpenDrive (s.openDrives.cell o)), P t := by
  intro t ht
  simp only [userTexts, List.mem_append, List.mem_cons, List.not_mem_nil, or_false, List.mem_flatMap] at ht
  rcases ht with ((rfl | rfl) | ⟨kv, hkv, ht⟩) | ⟨j, hj, ht⟩
  · exact h.openDrives o
  · exact hd
  · obtain ⟨x, hx, rfl⟩ := List.mem_map.mp hkv
    simp only [roadTexts, List.mem_append, List.mem_flatMap, Session.heap] at ht
    have own := h.roads x.2
    simp only [ownTexts, List.mem_append] at own
    rcases ht with ((((((ht | ht) | ht) | ht) | ⟨g, -, ht⟩) | ⟨sec, -, ht⟩) | ⟨i, -, ht⟩) | ⟨i, -, ht⟩
    · exact own t (.inl (.inl (.inl ht)))
    · exact own t (.inl (.inl (.inr ht)))
    · exact own t (.inl (.inr ht))
    · exact own t (.inr ht)
    · exact h.geoms _ t ht
    · simp only [sectionTexts, List.mem_flatMap] at ht
      obtain ⟨l, -, ht⟩ := ht
      exact h.lanes l t ht
    · exact h.signals i t ht
    · exact h.objects i t ht
  · obtain ⟨x, hx, rfl⟩ := List.mem_map.mp hj
    have h1 := h.junctions x
    simp only [junctionTexts, Session.readJunction, List.mem_append, List.mem_cons, List.not_mem_nil, or_false, List.mem_flatMap] at ht
    rcases ht with (rfl | ht) | ⟨c, hc, ht⟩
    · exact h1 _ (List.mem_cons_self ..)
    · exact h1 t (List.mem_cons_of_mem _ ht)
    · obtain ⟨y, -, rfl⟩ := List.mem_map.mp hc
      exact h.connections y t (List.mem_append.mpr ht)

end

end

end Pyodrx.Spec
