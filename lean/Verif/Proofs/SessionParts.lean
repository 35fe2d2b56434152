import Verif.Proofs.SessionProgram

/-! # What a program does to its own objects does not depend on the other objects, and leaves them alone -/

namespace Pyodrx.Spec
open Pyodrx PyFloat

variable {F : Type}

open Classical in
/-- The objects in `M` of the first store and the other objects of the second one. -/
noncomputable def _root_.Pyodrx.Store.patch {α : Type} (M : Nat → Prop) (t s : Store α) : Store α := ⟨fun i => if M i then s.cell i else t.cell i, t.next⟩

theorem patch_mem {α : Type} {M : Nat → Prop} {t s : Store α} {i : Nat} (h : M i) : (Store.patch M t s).cell i = s.cell i := if_pos h

theorem patch_not {α : Type} {M : Nat → Prop} {t s : Store α} {i : Nat} (h : ¬ M i) : (Store.patch M t s).cell i = t.cell i := if_neg h

theorem patch_modify {α : Type} {M : Nat → Prop} {t s : Store α} {r : Nat} (h : M r) (f : α → α) :
    (Store.patch M t s).modify r f = Store.patch M t (s.modify r f) := by
  refine store_ext (fun i => ?_) rfl
  simp only [Store.modify, Store.patch]
  by_cases hi : i = r
  · subst hi; simp [h]
  · simp [hi]

theorem patch_put {α : Type} {M : Nat → Prop} {t s : Store α} {r : Nat} (h : M r) (x : α) :
    (Store.patch M t s).put r x = Store.patch M t (s.put r x) := patch_modify h _

/-- In the states with `I`, the program `m'` does to `φ s` what `m` does to `s`, and keeps `I`; the result has `Q`. -/
def Hom {σ α : Type} (I : σ → Prop) (φ : σ → σ) (Q : α → Prop) (m m' : EStateM PyErr σ α) : Prop :=
  ∀ s, I s → match m s with
    | .ok a s' => m' (φ s) = .ok a (φ s') ∧ I s' ∧ Q a
    | .error e s' => m' (φ s) = .error e (φ s') ∧ I s'

section
variable {σ α β : Type} {I : σ → Prop} {φ : σ → σ} {Q : α → Prop} {Q' : β → Prop}

theorem hom_pure {a : α} (h : Q a) : Hom I φ Q (pure a) (pure a) := fun _ hs => ⟨rfl, hs, h⟩

theorem hom_raise {e : PyErr} : Hom I φ Q (raise e : EStateM PyErr σ α) (raise e) := fun _ hs => ⟨rfl, hs⟩

theorem Hom.bind {m m' : EStateM PyErr σ α} {f f' : α → EStateM PyErr σ β} (h : Hom I φ Q m m')
    (hf : ∀ a, Q a → Hom I φ Q' (f a) (f' a)) : Hom I φ Q' (m >>= f) (m' >>= f') := by
  intro s hs
  have h0 := h s hs
  show match EStateM.bind m f s with
    | .ok a s' => EStateM.bind m' f' (φ s) = .ok a (φ s') ∧ I s' ∧ Q' a
    | .error e s' => EStateM.bind m' f' (φ s) = .error e (φ s') ∧ I s'
  unfold EStateM.bind
  cases hm : m s with
  | error e l1 => rw [hm] at h0; rw [h0.1]; exact ⟨rfl, h0.2⟩
  | ok a l1 =>
    rw [hm] at h0
    rw [h0.1]
    exact hf a h0.2.2 l1 h0.2.1

theorem hom_get {f f' : σ → EStateM PyErr σ β} (hf : ∀ s, I s → Hom I φ Q' (f s) (f' (φ s))) :
    Hom I φ Q' (get >>= f) (get >>= f') := fun s hs => hf s hs s hs

theorem hom_orRaise (e : PyErr) (o : Option α) (h : ∀ a, o = some a → Q a) : Hom I φ Q (orRaise e o : EStateM PyErr σ α) (orRaise e o) := by
  cases o
  · exact hom_raise
  · exact hom_pure (h _ rfl)

theorem hom_lift (x : Except PyErr α) (h : ∀ a, x = .ok a → Q a) : Hom I φ Q (liftExcept x : EStateM PyErr σ α) (liftExcept x) := by
  cases x
  · exact hom_raise
  · exact hom_pure (h _ rfl)

theorem Hom.imp {m m' : EStateM PyErr σ α} (h : Hom I φ Q m m') {P : α → Prop} (hp : ∀ a, Q a → P a) : Hom I φ P m m' := by
  intro s hs
  have := h s hs
  cases hm : m s <;> rw [hm] at this
  · exact ⟨this.1, this.2.1, hp _ this.2.2⟩
  · exact this

end

section
variable [PyFloat F]

/-! ## Planviews -/

/-- The geometries of the planview. -/
def PvIn (G : Nat → Prop) (pv : PlanView F) : Prop := (∀ r ∈ pv.raw, G r) ∧ ∀ g ∈ pv.adjGeoms, G g.geom

section
variable {G M : Nat → Prop} (hG : ∀ i, G i → M i) (t : Store (Geom F))

/-- the planview, and the geometries of two worlds -/
noncomputable def pvPatch (M : Nat → Prop) (t : Store (Geom F)) (st : PVState F) : PVState F := ⟨st.pv, Store.patch M t st.geoms⟩

/-- the geometries of the planview of the state -/
def StIn (G : Nat → Prop) (st : PVState F) : Prop := PvIn G st.pv

local notation "HomPV" => Hom (StIn (F := F) G) (pvPatch M t)

variable {t} in
include hG in
theorem hom_callEnd (r : Nat) (hr : G r) (p : Pose F) : HomPV (fun _ => True) (callEnd r p) (callEnd r p) := by
  intro st h
  unfold callEnd pvPatch
  simp only [patch_mem (hG r hr)]
  cases hg : Geom.getEndData p (st.geoms.cell r)
  · exact ⟨by simp [patch_put (hG r hr)], h, trivial⟩
  · exact ⟨by simp [patch_put (hG r hr)], h⟩

variable {t} in
include hG in
theorem hom_callStart (r : Nat) (hr : G r) (p : Pose F) : HomPV (fun _ => True) (callStart r p) (callStart r p) := by
  intro st h
  unfold callStart pvPatch
  simp only [patch_mem (hG r hr)]
  cases hg : Geom.getStartData p (st.geoms.cell r)
  · exact ⟨by simp [patch_put (hG r hr)], h, trivial⟩
  · exact ⟨by simp [patch_put (hG r hr)], h⟩

omit [PyFloat F] in
theorem hom_modifyPV (f : PlanView F → PlanView F) (hf : ∀ pv, PvIn G pv → PvIn G (f pv)) : HomPV (fun _ => True) (modifyPV f) (modifyPV f) :=
  fun st h => ⟨rfl, hf st.pv h, trivial⟩

include hG

theorem hom_newGeom (x : F) (p : Pose F) (r : Nat) (hr : G r) : HomPV (fun g => G g.geom) (AdjGeom.new x p r) (AdjGeom.new x p r) :=
  (hom_callEnd hG r hr p).bind fun _ _ => hom_pure hr

omit hG [PyFloat F] in
theorem pvIn_snoc {pv : PlanView F} {g : AdjGeom F} (h : PvIn G pv) (hg : G g.geom) : ∀ x ∈ pv.adjGeoms ++ [g], G x.geom := by
  intro x hx
  rcases List.mem_append.mp hx with hx | hx
  · exact h.2 x hx
  · rw [List.mem_singleton.mp hx]; exact hg

theorem hom_fwdStep (i r : Nat) (hr : G r) : HomPV (fun _ => True) (PlanView.fwdStep i r) (PlanView.fwdStep i r) := by
  have rest : HomPV (fun _ => True) (do
      let st ← get
      let g ← AdjGeom.new st.pv.presentS st.pv.present r
      let (p, len) ← callEnd r ⟨g.x, g.y, g.heading⟩
      modifyPV fun pv => { pv with present := p }
      let l ← orRaise .typeError len
      modifyPV fun pv => { pv with presentS := pv.presentS +. l }
      modifyPV fun pv => { pv with adjGeoms := pv.adjGeoms ++ [g] }) (do
      let st ← get
      let g ← AdjGeom.new st.pv.presentS st.pv.present r
      let (p, len) ← callEnd r ⟨g.x, g.y, g.heading⟩
      modifyPV fun pv => { pv with present := p }
      let l ← orRaise .typeError len
      modifyPV fun pv => { pv with presentS := pv.presentS +. l }
      modifyPV fun pv => { pv with adjGeoms := pv.adjGeoms ++ [g] }) :=
    hom_get fun _ _ => (hom_newGeom hG t _ _ _ hr).bind fun g hg => (hom_callEnd hG _ hr _).bind fun _ _ =>
      (hom_modifyPV t _ (by exact fun _ h => h)).bind fun _ _ => (hom_orRaise (Q := fun _ => True) _ _ fun _ _ => trivial).bind fun _ _ =>
        (hom_modifyPV t _ (by exact fun _ h => h)).bind fun _ _ => hom_modifyPV t _ (by exact fun _ h => ⟨h.1, pvIn_snoc h hg⟩)
  unfold PlanView.fwdStep
  refine hom_get fun st hst => ?_
  dsimp only [pvPatch]
  split
  · exact (hom_orRaise (Q := fun _ => True) _ _ fun _ _ => trivial).bind fun _ _ => (hom_modifyPV t _ (by exact fun _ h => h)).bind fun _ _ => rest
  · exact rest

theorem hom_fwdLoop : ∀ (rs : List Nat) (i : Nat), (∀ r ∈ rs, G r) → HomPV (fun _ => True) (PlanView.fwdLoop i rs) (PlanView.fwdLoop i rs)
  | [], _, _ => hom_pure trivial
  | r :: rs, i, h => (hom_fwdStep hG t i r (h r (by simp))).bind fun _ _ => hom_fwdLoop rs (i + 1) fun x hx => h x (by simp [hx])

theorem hom_bwdStep (r : Nat) (hr : G r) : HomPV (fun _ => True) (PlanView.bwdStep r) (PlanView.bwdStep r) :=
  hom_get fun _ _ => (hom_newGeom hG t _ _ _ hr).bind fun _ hg => (hom_callStart hG _ hr _).bind fun _ _ =>
    (hom_modifyPV t _ (by exact fun _ h => ⟨h.1, pvIn_snoc h hg⟩)).bind fun _ _ => hom_pure trivial

theorem hom_bwdLoop : ∀ (rs : List Nat), (∀ r ∈ rs, G r) → HomPV (fun _ => True) (PlanView.bwdLoop rs) (PlanView.bwdLoop rs)
  | [], _ => hom_pure trivial
  | r :: rs, h => (hom_bwdStep hG t r (h r (by simp))).bind fun _ _ => (hom_bwdLoop rs fun x hx => h x (by simp [hx])).bind fun _ _ => hom_pure trivial

omit hG [PyFloat F] in
theorem setLastS_in {l : List (AdjGeom F)} (h : ∀ g ∈ l, G g.geom) (s : F) : ∀ g ∈ setLastS l s, G g.geom := by
  intro g hg
  unfold setLastS at hg
  cases hl : l.getLast? with
  | none => rw [hl] at hg; exact h g hg
  | some x =>
    rw [hl] at hg
    rcases List.mem_append.mp hg with hg | hg
    · exact h g (List.dropLast_subset _ hg)
    · rw [List.mem_singleton.mp hg]; exact h x (List.mem_of_getLast? hl)

omit hG in
theorem hom_sLoop : ∀ (ls : List F), HomPV (fun _ => True) (PlanView.sLoop ls) (PlanView.sLoop ls)
  | [] => hom_pure trivial
  | _ :: ls => (hom_modifyPV t _ (by exact fun _ h => ⟨h.1, setLastS_in h.2 _⟩)).bind fun _ _ => (hom_modifyPV t _ (by exact fun _ h => h)).bind fun _ _ => hom_sLoop ls

theorem hom_adjustGeometries (b : Bool) : HomPV (fun _ => True) (PlanView.adjustGeometries b) (PlanView.adjustGeometries b) := by
  unfold PlanView.adjustGeometries
  refine hom_get fun st hst => ?_
  dsimp only [pvPatch]
  split
  · exact (hom_modifyPV t _ (by exact fun _ h => h)).bind fun _ _ => (hom_fwdLoop hG t _ _ hst.1).bind fun _ _ =>
      (hom_modifyPV t _ (by exact fun _ h => h)).bind fun _ _ => hom_modifyPV t _ (by exact fun _ h => h)
  · exact (hom_modifyPV t _ (by exact fun _ h => h)).bind fun _ _ => (hom_bwdLoop hG t _ fun r hr => hst.1 r (List.mem_reverse.mp hr)).bind fun _ _ =>
      (hom_modifyPV t _ (by exact fun _ h => h)).bind fun _ _ => (hom_orRaise (Q := fun _ => True) _ _ fun _ _ => trivial).bind fun _ _ =>
        (hom_modifyPV t _ (by exact fun _ h => h)).bind fun _ _ => (hom_sLoop t _).bind fun _ _ => hom_modifyPV t _ (by exact fun _ h => h)

end

/-! ## adjust_startpoints -/

/-- The planviews of the roads are in `P`, and their geometries in `G`. -/
structure NetIn (P G : Nat → Prop) (n : SharedNet F) : Prop where
  roads : ∀ k r, n.roads.get? k = some r → P r.pv
  pvs : ∀ v, P v → PvIn G (n.pvs.cell v)

/-- The planviews and geometries of two worlds. -/
noncomputable def netPatch (M M' : Nat → Prop) (tp : Store (PlanView F)) (tg : Store (Geom F)) (n : SharedNet F) : SharedNet F :=
  ⟨n.roads, Store.patch M tp n.pvs, Store.patch M' tg n.geoms⟩

section
variable {P G M M' : Nat → Prop} (hP : ∀ i, P i → M i) (hG : ∀ i, G i → M' i) (tp : Store (PlanView F)) (tg : Store (Geom F))

local notation "HomN" => Hom (NetIn (F := F) P G) (netPatch M M' tp tg)

include hP

omit [PyFloat F] in
theorem hom_road (k : String) : HomN (fun _ => True) (SharedNet.road k) (SharedNet.road k) := by
  intro n h
  unfold SharedNet.road
  simp only [netPatch]
  cases hk : n.roads.get? k with
  | none => exact ⟨rfl, h⟩
  | some r => exact ⟨by simp only [RoadObj.read, patch_mem (hP _ (h.roads k r hk))], h, trivial⟩

include hG in
theorem hom_adjustPlanview (k : String) (b : Bool) : HomN (fun _ => True) (SharedNet.adjustPlanview k b) (SharedNet.adjustPlanview k b) := by
  intro n h
  unfold SharedNet.adjustPlanview
  simp only [netPatch]
  cases hk : n.roads.get? k with
  | none => exact ⟨rfl, h⟩
  | some r =>
    have hr := h.roads k r hk
    have := hom_adjustGeometries hG tg b ⟨n.pvs.cell r.pv, n.geoms⟩ (h.pvs _ hr)
    simp only [patch_mem (hP _ hr)]
    have keep : ∀ pv : PlanView F, PvIn G pv → ∀ g, NetIn P G { n with pvs := n.pvs.put r.pv pv, geoms := g } := by
      intro pv hpv g
      refine ⟨h.roads, fun v hv => ?_⟩
      simp only [Store.put, Store.modify]
      split
      · exact hpv
      · exact h.pvs v hv
    cases hg : PlanView.adjustGeometries b ⟨n.pvs.cell r.pv, n.geoms⟩ with
    | ok u st =>
      rw [hg] at this
      simp only [pvPatch] at this ⊢
      rw [this.1]
      exact ⟨by simp only [patch_put (hP _ hr)], keep _ this.2.1 _, trivial⟩
    | error e st =>
      rw [hg] at this
      simp only [pvPatch] at this ⊢
      rw [this.1]
      exact ⟨by simp only [patch_put (hP _ hr)], keep _ this.2 _⟩

theorem hom_setStartPoint (k : String) (p : Pose F) : HomN (fun _ => True) (SharedNet.setStartPoint k p) (SharedNet.setStartPoint k p) := by
  intro n h
  unfold SharedNet.setStartPoint
  simp only [netPatch]
  cases hk : n.roads.get? k with
  | none => exact ⟨rfl, h⟩
  | some r =>
    have hr := h.roads k r hk
    refine ⟨by simp only [patch_modify (hP _ hr)], ⟨h.roads, fun v hv => ?_⟩, trivial⟩
    simp only [Store.modify]
    split
    · exact h.pvs _ hr
    · exact h.pvs v hv

include hG in
theorem hom_adjustRoad (a b : PyId) (cp : Option ContactPoint) (x : Bool) :
    HomN (fun _ => True) (SharedNet.adjustRoadWrtNeighbour a b cp x) (SharedNet.adjustRoadWrtNeighbour a b cp x) :=
  (hom_road hP tp tg _).bind fun _ _ => (hom_orRaise (Q := fun _ => True) _ _ fun _ _ => trivial).bind fun _ _ =>
    (hom_road hP tp tg _).bind fun _ _ => (hom_lift (Q := fun _ => True) _ fun _ _ => trivial).bind fun _ _ =>
      (hom_setStartPoint hP tp tg _ _).bind fun _ _ => hom_adjustPlanview hP hG tp tg _ _

omit [PyFloat F] in
theorem hom_usable (l : Option Link) : HomN (fun _ => True) (SharedNet.usable l) (SharedNet.usable l) := by
  unfold SharedNet.usable
  cases l
  · exact hom_pure trivial
  · exact (hom_road hP tp tg _).bind fun _ _ => hom_pure trivial

omit [PyFloat F] in
theorem hom_danglingOther (i : Int) (l : Option Link) : HomN (fun _ => True) (SharedNet.danglingOther i l) (SharedNet.danglingOther i l) := by
  unfold SharedNet.danglingOther
  split
  · exact hom_pure trivial
  · cases l
    · exact hom_pure trivial
    · exact (hom_road hP tp tg _).bind fun _ _ => hom_pure trivial

include hG

theorem hom_visit (k : String) : HomN (fun _ => True) (SharedNet.visit k) (SharedNet.visit k) := by
  unfold SharedNet.visit
  refine (hom_road hP tp tg _).bind fun r _ => ?_
  split
  · exact hom_pure trivial
  · refine (hom_usable hP tp tg _).bind fun _ _ => ?_
    split
    · refine (hom_adjustRoad hP hG tp tg _ _ _ _).bind fun _ _ => (hom_danglingOther hP tp tg _ _).bind fun _ _ => ?_
      split
      · exact (hom_adjustRoad hP hG tp tg _ _ _ _).bind fun _ _ => hom_pure trivial
      · exact hom_pure trivial
    · refine (hom_usable hP tp tg _).bind fun _ _ => ?_
      split
      · refine (hom_adjustRoad hP hG tp tg _ _ _ _).bind fun _ _ => (hom_danglingOther hP tp tg _ _).bind fun _ _ => ?_
        split
        · exact (hom_adjustRoad hP hG tp tg _ _ _ _).bind fun _ _ => hom_pure trivial
        · exact hom_pure trivial
      · exact hom_pure trivial

theorem hom_pass : ∀ (ks : List String), HomN (fun _ => True) (SharedNet.pass ks) (SharedNet.pass ks)
  | [] => hom_pure trivial
  | k :: ks => (hom_visit hP hG tp tg k).bind fun _ _ => (hom_pass ks).bind fun _ _ => hom_pure trivial

theorem hom_passes (n : Nat) (ks : List String) : ∀ (m total : Nat), n - total ≤ m →
    HomN (fun _ => True) (SharedNet.passes n total ks) (SharedNet.passes n total ks) := by
  intro m
  induction m with
  | zero =>
    intro total h
    rw [SharedNet.passes, dif_neg (by omega)]
    exact hom_pure trivial
  | succ m ih =>
    intro total h
    rw [SharedNet.passes]
    split
    · refine (hom_pass hP hG tp tg _).bind fun c _ => ?_
      split
      · exact hom_raise
      · next h1 h2 =>
        by_cases hc : c = 0
        · subst hc
          have : total = n := by by_contra hne; exact h2 ⟨by omega, rfl⟩
          omega
        · exact ih _ (by omega)
    · exact hom_pure trivial

theorem hom_adjustFixed : ∀ (ks : List String), HomN (fun _ => True) (SharedNet.adjustFixed ks) (SharedNet.adjustFixed ks)
  | [] => hom_pure trivial
  | k :: ks => by
    rw [SharedNet.adjustFixed]
    refine (hom_road hP tp tg _).bind fun r _ => ?_
    split
    · exact (hom_adjustPlanview hP hG tp tg _ _).bind fun _ _ => (hom_adjustFixed ks).bind fun _ _ => hom_pure trivial
    · exact hom_adjustFixed ks

theorem hom_adjustStartpoints : HomN (fun _ => True) SharedNet.adjustStartpoints SharedNet.adjustStartpoints := by
  unfold SharedNet.adjustStartpoints
  refine hom_get fun n hn => (hom_adjustFixed hP hG tp tg _).bind fun c _ => ?_
  refine Hom.bind (Q := fun _ => True) ?_ fun c _ => hom_passes hP hG tp tg _ _ _ _ le_rfl
  dsimp only [netPatch]
  split
  · exact (hom_orRaise (Q := fun _ => True) _ _ fun _ _ => trivial).bind fun _ _ => (hom_adjustPlanview hP hG tp tg _ _).bind fun _ _ => hom_pure trivial
  · exact hom_pure trivial

end

end

end Pyodrx.Spec
