import Verif.Proofs.Session
import Verif.Spec.SessionProgram
import Verif.Proofs.Shared

/-! # `adjust_roads_and_lanes` on objects and on values -/

namespace Pyodrx.Spec
open Pyodrx PyFloat

variable {F : Type}

/-! ### Lane linking changes nothing but the links of lanes -/

/-- The lanes are the same up to their links. -/
def SameButLinks (a b : Store (Lane F)) : Prop :=
  a.next = b.next ∧ ∀ x, { a.cell x with links := [] } = { b.cell x with links := [] }

theorem SameButLinks.refl (a : Store (Lane F)) : SameButLinks a a := ⟨rfl, fun _ => rfl⟩

theorem SameButLinks.trans {a b c : Store (Lane F)} (h : SameButLinks a b) (h' : SameButLinks b c) : SameButLinks a c :=
  ⟨h.1.trans h'.1, fun x => (h.2 x).trans (h'.2 x)⟩

theorem sameButLinks_addLink (a : Store (Lane F)) (r : Nat) (k : LinkKind) (i : String) :
    SameButLinks a (a.modify r (·.addLink k i)) := by
  refine ⟨rfl, fun x => ?_⟩
  simp only [Store.modify]
  split
  · next h => subst h; rfl
  · rfl

/-- The program changes nothing but the links of lanes, whether it raises or not. -/
def OnlyLinks {α : Type} (m : EStateM PyErr (Store (Lane F)) α) : Prop :=
  ∀ lanes, match m lanes with
    | .ok _ l => SameButLinks lanes l
    | .error _ l => SameButLinks lanes l

theorem onlyLinks_pure {α : Type} (a : α) : OnlyLinks (pure a : EStateM PyErr (Store (Lane F)) α) := fun l => .refl l

theorem onlyLinks_raise {α : Type} (e : PyErr) : OnlyLinks (raise e : EStateM PyErr (Store (Lane F)) α) := fun l => .refl l

theorem OnlyLinks.bind {α β : Type} {m : EStateM PyErr (Store (Lane F)) α} {f : α → EStateM PyErr (Store (Lane F)) β}
    (h : OnlyLinks m) (hf : ∀ a, OnlyLinks (f a)) : OnlyLinks (m >>= f) := by
  intro l
  have h0 := h l
  show match EStateM.bind m f l with | .ok _ l' => SameButLinks l l' | .error _ l' => SameButLinks l l'
  unfold EStateM.bind
  cases hm : m l with
  | error e l1 => rw [hm] at h0; exact h0
  | ok a l1 =>
    rw [hm] at h0
    have h1 := hf a l1
    dsimp only at h0 ⊢
    cases hm2 : f a l1 with
    | ok b l2 => rw [hm2] at h1; exact h0.trans h1
    | error e l2 => rw [hm2] at h1; exact h0.trans h1

theorem onlyLinks_orRaise {α : Type} (e : PyErr) (o : Option α) :
    OnlyLinks (orRaise e o : EStateM PyErr (Store (Lane F)) α) := by
  cases o
  · exact onlyLinks_raise e
  · exact onlyLinks_pure _

theorem onlyLinks_lift {α : Type} (x : Except PyErr α) : OnlyLinks (liftExcept x : EStateM PyErr (Store (Lane F)) α) := by
  cases x
  · exact onlyLinks_raise _
  · exact onlyLinks_pure _

theorem onlyLinks_laneIdTimes (r : Nat) (sign : Option Int) : OnlyLinks (laneIdTimes (F := F) r sign) := by
  intro l
  unfold laneIdTimes
  cases (l.cell r).laneId <;> cases sign <;> exact .refl l

theorem onlyLinks_addLaneLink (r : Nat) (k : LinkKind) (i : Int) : OnlyLinks (addLaneLink (F := F) r k i) :=
  fun l => sameButLinks_addLink l r k _

theorem onlyLinks_connectingLoop (k : LinkKind) (sign : Option Int) (a b : Int) (rs cs : List Nat) :
    ∀ n i, OnlyLinks (connectingLoop (F := F) k sign a b rs cs i n)
  | 0, _ => onlyLinks_pure _
  | n + 1, i => OnlyLinks.bind
      ((onlyLinks_orRaise _ _).bind fun _ => (onlyLinks_laneIdTimes _ _).bind fun _ =>
        (onlyLinks_orRaise _ _).bind fun _ => onlyLinks_addLaneLink _ _ _)
      fun _ => onlyLinks_connectingLoop k sign a b rs cs n (i + 1)

theorem onlyLinks_leftLoop (pk sk : LinkKind) (sign : Option Int) (pre suc : List Nat) :
    ∀ n i, OnlyLinks (leftLoop (F := F) pk sk sign pre suc i n)
  | 0, _ => onlyLinks_pure _
  | n + 1, i => OnlyLinks.bind
      ((onlyLinks_orRaise _ _).bind fun _ => (onlyLinks_laneIdTimes _ _).bind fun _ =>
        (onlyLinks_addLaneLink _ _ _).bind fun _ => (onlyLinks_orRaise _ _).bind fun _ => by
          cases sign
          · exact onlyLinks_raise _
          · exact onlyLinks_addLaneLink _ _ _)
      fun _ => onlyLinks_leftLoop pk sk sign pre suc n (i + 1)

theorem onlyLinks_rightLoop (pk sk : LinkKind) (pre suc : List Nat) :
    ∀ n i, OnlyLinks (rightLoop (F := F) pk sk pre suc i n)
  | 0, _ => onlyLinks_pure _
  | n + 1, i => OnlyLinks.bind
      ((onlyLinks_orRaise _ _).bind fun _ => OnlyLinks.bind (fun l => .refl l) fun _ =>
        OnlyLinks.bind (fun l => sameButLinks_addLink l _ _ _) fun _ => (onlyLinks_orRaise _ _).bind fun _ =>
          fun l => sameButLinks_addLink l _ _ _)
      fun _ => onlyLinks_rightLoop pk sk pre suc n (i + 1)

theorem onlyLinks_createLaneLinks (a b : Road F) : OnlyLinks (createLaneLinks a b) := by
  have hc : ∀ a b : Road F, OnlyLinks (createLinksConnectingRoad a b) := by
    intro a b
    unfold createLinksConnectingRoad
    dsimp only
    repeat' first
      | with_reducible exact onlyLinks_pure _
      | with_reducible exact onlyLinks_raise _
      | with_reducible exact onlyLinks_connectingLoop _ _ _ _ _ _ _ _
      | with_reducible refine (onlyLinks_lift _).bind fun _ => ?_
      | with_reducible refine (onlyLinks_connectingLoop _ _ _ _ _ _ _ _).bind fun _ => ?_
      | with_reducible refine (onlyLinks_pure _).bind fun _ => ?_
      | split
  have hr : ∀ a b : Road F, OnlyLinks (createLinksRoads a b) := by
    intro a b
    unfold createLinksRoads
    dsimp only
    repeat' first
      | with_reducible exact onlyLinks_pure _
      | with_reducible exact onlyLinks_raise _
      | with_reducible exact onlyLinks_rightLoop _ _ _ _ _ _
      | with_reducible refine (onlyLinks_lift _).bind fun _ => ?_
      | with_reducible refine (onlyLinks_leftLoop _ _ _ _ _ _ _).bind fun _ => ?_
      | with_reducible refine (onlyLinks_raise _).bind fun _ => ?_
      | with_reducible refine (onlyLinks_pure _).bind fun _ => ?_
      | split
  unfold createLaneLinks
  repeat' split
  all_goals first | exact hr _ _ | exact hc _ _ | exact onlyLinks_pure _

/-- The same of the loop over all pairs of roads. -/
theorem linkPairs_onlyLinks (ks : List (String × String)) (w : World F) :
    (∀ u w', World.linkPairs ks w = .ok u w' → SameButLinks w.lanes w'.lanes ∧ w'.net = w.net) ∧
      ∀ e w', World.linkPairs ks w = .error e w' → SameButLinks w.lanes w'.lanes ∧ w'.net = w.net := by
  induction ks generalizing w with
  | nil =>
    refine ⟨fun u w' h => ?_, fun e w' h => ?_⟩
    · cases h; exact ⟨.refl _, rfl⟩
    · cases h
  | cons k ks ih =>
    have hp : (∀ u w', World.linkPair k w = .ok u w' → SameButLinks w.lanes w'.lanes ∧ w'.net = w.net) ∧
        ∀ e w', World.linkPair k w = .error e w' → SameButLinks w.lanes w'.lanes ∧ w'.net = w.net := by
      unfold World.linkPair
      cases h1 : w.net.roads.get? k.1 with
      | none => exact ⟨fun _ _ h => (by cases h), fun _ _ h => (by cases h; exact ⟨.refl _, rfl⟩)⟩
      | some a =>
        cases h2 : w.net.roads.get? k.2 with
        | none => exact ⟨fun _ _ h => (by cases h), fun _ _ h => (by cases h; exact ⟨.refl _, rfl⟩)⟩
        | some b =>
          have h3 := onlyLinks_createLaneLinks a b w.lanes
          cases hc : createLaneLinks a b w.lanes with
          | ok x l =>
            rw [hc] at h3
            simp only [hc]
            exact ⟨fun _ _ h => (by cases h; exact ⟨h3, rfl⟩), fun _ _ h => (by cases h)⟩
          | error x l =>
            rw [hc] at h3
            simp only [hc]
            exact ⟨fun _ _ h => (by cases h), fun _ _ h => (by cases h; exact ⟨h3, rfl⟩)⟩
    have hb : World.linkPairs (k :: ks) w = match World.linkPair k w with
        | .ok _ w1 => World.linkPairs ks w1
        | .error e w1 => .error e w1 := by
      show EStateM.bind (World.linkPair k) (fun _ => World.linkPairs ks) w = _
      unfold EStateM.bind
      cases World.linkPair k w <;> rfl
    rw [hb]
    cases hk : World.linkPair k w with
    | error e w1 =>
      refine ⟨fun u w' h => (by cases h), fun e w' h => ?_⟩
      cases h
      exact hp.2 _ _ hk
    | ok u w1 =>
      obtain ⟨g1, g2⟩ := hp.1 _ _ hk
      obtain ⟨i1, i2⟩ := ih w1
      exact ⟨fun u w' h => ⟨g1.trans (i1 u w' h).1, (i1 u w' h).2.trans g2⟩,
        fun u w' h => ⟨g1.trans (i2 u w' h).1, (i2 u w' h).2.trans g2⟩⟩

/-! ### Objects and values -/

section
variable [PyFloat F]

theorem unshared_net (s : Session F) (o : Nat) (pvs : Store (PlanView F)) (geoms : Store (Geom F)) :
    unshared ⟨(s.net o).roads, pvs, geoms⟩ =
      ⟨(({ s with planviews := pvs, geoms := geoms } : Session F).readOpenDrive (s.openDrives.cell o)).roads, geoms⟩ := by
  simp only [unshared, Session.net, Session.readOpenDrive, List.map_map, Net.mk.injEq, and_true]
  rfl

theorem adjust_values (s : Session F) (o : Nat) (hn : (s.openDrives.cell o).roads.keys.Nodup)
    (ho : OwnPlanViews (s.net o)) :
    match Session.adjust o s with
    | .ok _ s' => World.adjustRoadsAndLanes (worldOf s o) = .ok () (worldOf s' o) ∧
        ∃ pvs geoms lanes, s' = { s with planviews := pvs, geoms := geoms, laneObjs := lanes } ∧ SameButLinks s.laneObjs lanes
    | .error e s' => World.adjustRoadsAndLanes (worldOf s o) = .error e (worldOf s' o) ∧
        ∃ pvs geoms lanes, s' = { s with planviews := pvs, geoms := geoms, laneObjs := lanes } ∧ SameButLinks s.laneObjs lanes := by
  have hk : (s.net o).roads.keys.Nodup := by
    have : (s.net o).roads.keys = (s.openDrives.cell o).roads.keys := by
      simp [Session.net, Dict.keys, List.map_map, Function.comp_def]
    rw [this]; exact hn
  have h := same_adjustStartpoints (s.net o) hk ho
  have e0 : unshared (s.net o) = (worldOf s o).net := unshared_net s o s.planviews s.geoms
  unfold Session.adjust World.adjustRoadsAndLanes
  cases h1 : SharedNet.adjustStartpoints (s.net o) with
  | error e n =>
    rw [h1] at h
    obtain ⟨h2, h3⟩ := h
    rw [e0] at h2
    dsimp only
    rw [h2]
    refine ⟨?_, n.pvs, n.geoms, s.laneObjs, rfl, .refl _⟩
    have : n = ⟨(s.net o).roads, n.pvs, n.geoms⟩ := by rw [← h3]
    dsimp only
    rw [this, unshared_net]
    rfl
  | ok u n =>
    rw [h1] at h
    obtain ⟨h2, h3⟩ := h
    rw [e0] at h2
    dsimp only
    rw [h2]
    have hn' : n = ⟨(s.net o).roads, n.pvs, n.geoms⟩ := by rw [← h3]
    have e2 : unshared n = ⟨(({ s with planviews := n.pvs, geoms := n.geoms } : Session F).readOpenDrive
        (s.openDrives.cell o)).roads, n.geoms⟩ := by
      rw [hn', unshared_net]
    dsimp only
    rw [e2]
    have e3 := linkPairs_onlyLinks (combinations2 (({ s with planviews := n.pvs, geoms := n.geoms } : Session F).readOpenDrive
        (s.openDrives.cell o)).roads.keys) ⟨⟨(({ s with planviews := n.pvs, geoms := n.geoms } : Session F).readOpenDrive
        (s.openDrives.cell o)).roads, n.geoms⟩, s.laneObjs⟩
    change match (match World.linkPairs (combinations2 (({ s with planviews := n.pvs, geoms := n.geoms } : Session F).readOpenDrive
        (s.openDrives.cell o)).roads.keys) ⟨⟨(({ s with planviews := n.pvs, geoms := n.geoms } : Session F).readOpenDrive
        (s.openDrives.cell o)).roads, n.geoms⟩, s.laneObjs⟩ with
      | .ok _ w => (EStateM.Result.ok () { s with planviews := n.pvs, geoms := n.geoms, laneObjs := w.lanes } :
          EStateM.Result PyErr (Session F) Unit)
      | .error e w => .error e { s with planviews := n.pvs, geoms := n.geoms, laneObjs := w.lanes }) with
      | .ok _ s' => _ | .error e s' => _
    cases h4 : World.linkPairs (combinations2 (({ s with planviews := n.pvs, geoms := n.geoms } : Session F).readOpenDrive
        (s.openDrives.cell o)).roads.keys) ⟨⟨(({ s with planviews := n.pvs, geoms := n.geoms } : Session F).readOpenDrive
        (s.openDrives.cell o)).roads, n.geoms⟩, s.laneObjs⟩ with
    | ok u w =>
      obtain ⟨h5, h6⟩ := e3.1 _ _ h4
      refine ⟨?_, n.pvs, n.geoms, w.lanes, rfl, h5⟩
      obtain ⟨wn, wl⟩ := w
      dsimp only at h6
      subst h6
      exact h4
    | error e w =>
      obtain ⟨h5, h6⟩ := e3.2 _ _ h4
      refine ⟨?_, n.pvs, n.geoms, w.lanes, rfl, h5⟩
      obtain ⟨wn, wl⟩ := w
      dsimp only at h6
      subst h6
      exact h4

end

end Pyodrx.Spec
