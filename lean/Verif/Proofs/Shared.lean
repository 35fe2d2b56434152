import Verif.Spec.Shared
import Verif.Proofs.NetworkErr

/-! # PlanView objects in a store: refinement, and counting when roads share one -/

namespace Pyodrx
open Spec

variable {F : Type}

theorem get?_unshared (net : SharedNet F) (k : String) :
    (unshared net).roads.get? k = (net.roads.get? k).map (·.read net.pvs) := by
  unfold unshared
  simp only
  generalize net.roads = d
  induction d with
  | nil => rfl
  | cons kv d ih =>
    obtain ⟨k0, v⟩ := kv
    simp only [List.map_cons, Dict.get?]
    split <;> simp [ih]

theorem keys_unshared (net : SharedNet F) : (unshared net).roads.keys = net.roads.keys := by
  simp [unshared, Dict.keys, Function.comp_def]

theorem read_put {pvs : Store (PlanView F)} {i : Nat} {f : PlanView F → PlanView F} (r : RoadObj F) :
    r.read (pvs.modify i f) = if r.pv = i then { r.read pvs with planview := f (pvs.cell i) } else r.read pvs := by
  unfold RoadObj.read Store.modify
  split <;> simp [*]

/-- Changing the PlanView object of a road changes that road and no other. -/
theorem unshared_modify {net : SharedNet F} (hn : net.roads.keys.Nodup) (ho : OwnPlanViews net) {k : String}
    {r : RoadObj F} (hr : net.roads.get? k = some r) (f : PlanView F → PlanView F) (g : Store (Geom F)) :
    unshared { net with pvs := net.pvs.modify r.pv f, geoms := g } =
      ⟨(unshared net).roads.set k { r.read net.pvs with planview := f (net.pvs.cell r.pv) }, g⟩ := by
  unfold unshared
  simp only
  congr 1
  unfold OwnPlanViews at ho
  revert hn ho hr
  generalize net.roads = d
  induction d with
  | nil => intro _ _ hr; cases hr
  | cons kv d ih =>
    obtain ⟨k0, v⟩ := kv
    intro hn ho hr
    simp only [Dict.keys, List.map_cons, List.nodup_cons] at hn
    by_cases hk : k0 = k
    · subst hk
      simp only [Dict.get?, if_true, Option.some.injEq] at hr
      subst hr
      simp only [List.map_cons, Dict.set, if_true, List.cons.injEq, Prod.mk.injEq, true_and]
      refine ⟨by simp [read_put], ?_⟩
      apply List.map_congr_left
      rintro ⟨k1, r1⟩ hm
      rw [read_put, if_neg]
      intro e
      have hne : k0 ≠ k1 := fun e => hn.1 (List.mem_map.mpr ⟨_, hm, e.symm⟩)
      refine ho k0 k1 v r1 (by simp [Dict.get?]) ?_ hne e.symm
      simp only [Dict.get?, if_neg hne]
      exact Dict.mem_get? hn.2 hm
    · simp only [Dict.get?, if_neg hk] at hr
      simp only [List.map_cons, Dict.set, if_neg hk, List.cons.injEq, Prod.mk.injEq, true_and]
      refine ⟨?_, ih hn.2 ?_ hr⟩
      · rw [read_put, if_neg]
        exact ho k0 k v r (by simp [Dict.get?]) (by simp [Dict.get?, hk, hr]) hk
      · intro k1 k2 r1 r2 h1 h2
        have hne : ∀ {k' r'}, Dict.get? d k' = some r' → k0 ≠ k' := fun h e => hn.1 (e ▸ Dict.mem_keys_of_get? h)
        exact ho k1 k2 r1 r2 (by simp only [Dict.get?, if_neg (hne h1), h1]) (by simp only [Dict.get?, if_neg (hne h2), h2])

/-- The two programs do the same, as long as no two roads share a PlanView. -/
def Same {α : Type} (m : EStateM PyErr (SharedNet F) α) (m' : EStateM PyErr (Net F) α) : Prop :=
  ∀ net, net.roads.keys.Nodup → OwnPlanViews net →
    match m net with
    | .ok a net' => m' (unshared net) = .ok a (unshared net') ∧ net'.roads = net.roads
    | .error e net' => m' (unshared net) = .error e (unshared net') ∧ net'.roads = net.roads

theorem same_pure {α : Type} (a : α) : Same (pure a : EStateM PyErr (SharedNet F) α) (Pure.pure a) :=
  fun _ _ _ => ⟨rfl, rfl⟩

theorem same_raise {α : Type} (e : PyErr) : Same (F := F) (Pyodrx.raise e : EStateM PyErr (SharedNet F) α) (Pyodrx.raise e) :=
  fun _ _ _ => ⟨rfl, rfl⟩

theorem same_orRaise {α : Type} (e : PyErr) (o : Option α) : Same (F := F) (Pyodrx.orRaise e o) (Pyodrx.orRaise e o) := by
  cases o with
  | none => exact same_raise e
  | some a => exact same_pure a

theorem same_liftExcept {α : Type} (x : Except PyErr α) : Same (F := F) (Pyodrx.liftExcept x) (Pyodrx.liftExcept x) := by
  cases x with
  | error e => exact same_raise e
  | ok a => exact same_pure a

theorem Same.bind {α β : Type} {m : EStateM PyErr (SharedNet F) α} {m' : EStateM PyErr (Net F) α}
    {f : α → EStateM PyErr (SharedNet F) β} {f' : α → EStateM PyErr (Net F) β} (h : Same m m') (hf : ∀ a, Same (f a) (f' a)) :
    Same (m >>= f) (m' >>= f') := by
  intro net hn ho
  have h1 := h net hn ho
  cases hm : m net with
  | error e net' =>
    rw [hm] at h1
    rw [bind_of_error hm, bind_of_error h1.1]
    exact ⟨rfl, h1.2⟩
  | ok a net' =>
    rw [hm] at h1
    rw [bind_of_ok hm, bind_of_ok h1.1]
    have h2 := hf a net' (by rw [h1.2]; exact hn) (by unfold OwnPlanViews; rw [h1.2]; exact ho)
    cases hf : f a net' with
    | ok b net2 => rw [hf] at h2; exact ⟨h2.1, h2.2.trans h1.2⟩
    | error e net2 => rw [hf] at h2; exact ⟨h2.1, h2.2.trans h1.2⟩

theorem same_road (k : String) : Same (SharedNet.road (F := F) k) (Net.road k) := by
  intro net hn ho
  unfold SharedNet.road Net.road
  rw [get?_unshared]
  cases h : net.roads.get? k <;> exact ⟨rfl, rfl⟩

section
variable [PyFloat F]

theorem same_adjustPlanview (k : String) (b : Bool) : Same (SharedNet.adjustPlanview (F := F) k b) (Net.adjustPlanview k b) := by
  intro net hn ho
  unfold SharedNet.adjustPlanview Net.adjustPlanview
  rw [get?_unshared]
  cases h : net.roads.get? k with
  | none => exact ⟨rfl, rfl⟩
  | some r =>
    simp only [Option.map_some]
    have e : (⟨(r.read net.pvs).planview, (unshared net).geoms⟩ : PVState F) = ⟨net.pvs.cell r.pv, net.geoms⟩ := rfl
    rw [e]
    cases ha : PlanView.adjustGeometries b ⟨net.pvs.cell r.pv, net.geoms⟩ with
    | ok u st => exact ⟨by simp only [Store.put]; rw [unshared_modify hn ho h], rfl⟩
    | error u st => exact ⟨by simp only [Store.put]; rw [unshared_modify hn ho h], rfl⟩

omit [PyFloat F] in
theorem same_setStartPoint (k : String) (p : Pose F) : Same (SharedNet.setStartPoint (F := F) k p) (Net.setStartPoint k p) := by
  intro net hn ho
  unfold SharedNet.setStartPoint Net.setStartPoint
  rw [get?_unshared]
  cases h : net.roads.get? k with
  | none => exact ⟨rfl, rfl⟩
  | some r =>
    simp only [Option.map_some]
    exact ⟨by rw [unshared_modify hn ho h]; rfl, trivial⟩

theorem same_adjustRoadWrtNeighbour (a b : PyId) (cp : Option ContactPoint) (c : Bool) :
    Same (SharedNet.adjustRoadWrtNeighbour (F := F) a b cp c) (Net.adjustRoadWrtNeighbour a b cp c) :=
  (same_road _).bind fun _ => (same_orRaise _ _).bind fun _ => (same_road _).bind fun _ =>
    (same_liftExcept _).bind fun _ => (same_setStartPoint _ _).bind fun _ => same_adjustPlanview _ _

omit [PyFloat F] in
theorem same_usable (l : Option Link) : Same (SharedNet.usable (F := F) l) (Net.usable l) := by
  cases l with
  | none => exact same_pure _
  | some l => exact (same_road _).bind fun _ => same_pure _

omit [PyFloat F] in
theorem same_danglingOther (t : Int) (l : Option Link) : Same (SharedNet.danglingOther (F := F) t l) (Net.danglingOther t l) := by
  unfold SharedNet.danglingOther Net.danglingOther
  split
  · exact same_pure _
  · cases l with
    | none => exact same_pure _
    | some l => exact (same_road _).bind fun _ => same_pure _

theorem same_visit (k : String) : Same (SharedNet.visit (F := F) k) (Net.visit k) := by
  refine (same_road k).bind fun r => ?_
  generalize r.predecessor = pr
  generalize r.successor = su
  generalize r.roadType = t
  split
  · exact same_pure _
  refine (same_usable _).bind fun a => ?_
  have hs : Same (F := F) (do
      let useSuc ← SharedNet.usable su
      match useSuc, su with
      | true, some s =>
        SharedNet.adjustRoadWrtNeighbour (.str k) s.elementId s.contactPoint false
        let other ← SharedNet.danglingOther t pr
        match other, pr with
        | true, some p =>
          SharedNet.adjustRoadWrtNeighbour p.elementId (.str k) (some .start)
            (p.contactPoint = some .start)
          pure 2
        | _, _ => pure 1
      | _, _ => pure 0) (do
      let useSuc ← Net.usable su
      match useSuc, su with
      | true, some s =>
        Net.adjustRoadWrtNeighbour (.str k) s.elementId s.contactPoint false
        let other ← Net.danglingOther t pr
        match other, pr with
        | true, some p =>
          Net.adjustRoadWrtNeighbour p.elementId (.str k) (some .start)
            (p.contactPoint = some .start)
          pure 2
        | _, _ => pure 1
      | _, _ => pure 0) := by
    refine (same_usable _).bind fun a => ?_
    cases a <;> cases su <;> try exact same_pure _
    refine (same_adjustRoadWrtNeighbour _ _ _ _).bind fun _ => (same_danglingOther _ _).bind fun b => ?_
    cases b <;> cases pr <;> try exact same_pure _
    exact (same_adjustRoadWrtNeighbour _ _ _ _).bind fun _ => same_pure _
  cases a <;> cases pr <;> try exact hs
  refine (same_adjustRoadWrtNeighbour _ _ _ _).bind fun _ => (same_danglingOther _ _).bind fun b => ?_
  cases b <;> cases su <;> try exact same_pure _
  exact (same_adjustRoadWrtNeighbour _ _ _ _).bind fun _ => same_pure _

theorem same_pass (ks : List String) : Same (SharedNet.pass (F := F) ks) (Net.pass ks) := by
  induction ks with
  | nil => exact same_pure _
  | cons k ks ih => exact (same_visit k).bind fun _ => ih.bind fun _ => same_pure _

theorem same_passes (n total : Nat) (ks : List String) : Same (SharedNet.passes (F := F) n total ks) (Net.passes n total ks) := by
  fun_induction Net.passes (F := F) n total ks with
  | case1 total h ih =>
    rw [SharedNet.passes.eq_def]
    rw [dif_pos h]
    refine (same_pass ks).bind fun c => ?_
    split
    · exact same_raise _
    · rename_i h2; exact ih c h2
  | case2 total h =>
    rw [SharedNet.passes.eq_def]
    rw [dif_neg h]
    exact same_pure _

theorem same_adjustFixed (ks : List String) : Same (SharedNet.adjustFixed (F := F) ks) (Net.adjustFixed ks) := by
  induction ks with
  | nil => exact same_pure _
  | cons k ks ih =>
    refine (same_road k).bind fun r => ?_
    split
    · exact (same_adjustPlanview _ _).bind fun _ => ih.bind fun _ => same_pure _
    · exact ih

theorem same_adjustStartpoints : Same (SharedNet.adjustStartpoints (F := F)) Net.adjustStartpoints := by
  intro net hn ho
  unfold SharedNet.adjustStartpoints Net.adjustStartpoints
  rw [bind_of_ok (get_eq _), bind_of_ok (get_eq _)]
  simp only [keys_unshared]
  revert net
  suffices H : ∀ keys : List String, Same (F := F) (do
      let c ← SharedNet.adjustFixed keys
      let c ← (if c = 0 then do
          let k ← orRaise .indexError keys.head?
          SharedNet.adjustPlanview k false
          pure 1
        else pure c)
      SharedNet.passes keys.length c keys) (do
      let c ← Net.adjustFixed keys
      let c ← (if c = 0 then do
          let k ← orRaise .indexError keys.head?
          Net.adjustPlanview k false
          pure 1
        else pure c)
      Net.passes keys.length c keys) from fun net hn ho => H _ net hn ho
  intro keys
  refine (same_adjustFixed _).bind fun c => Same.bind ?_ fun c => same_passes _ _ _
  split
  · exact (same_orRaise _ _).bind fun _ => (same_adjustPlanview _ _).bind fun _ => same_pure _
  · exact same_pure _

/-! ## Counting -/

/-- The PlanView objects of the roads that are not adjusted. -/
def openPlans (net : SharedNet F) : Finset Nat :=
  (net.roads.map (·.2.pv)).toFinset.filter fun i => (net.pvs.cell i).adjusted = false

omit [PyFloat F] in
theorem mem_pvs {net : SharedNet F} {k : String} {r : RoadObj F} (hr : net.roads.get? k = some r) :
    r.pv ∈ (net.roads.map (·.2.pv)).toFinset := by
  rw [List.mem_toFinset, List.mem_map]
  revert hr
  generalize net.roads = d
  induction d with
  | nil => intro h; cases h
  | cons kv d ih =>
    obtain ⟨k0, v⟩ := kv
    intro h
    unfold Dict.get? at h
    split at h
    · cases h; exact ⟨_, List.mem_cons_self, rfl⟩
    · obtain ⟨a, h1, h2⟩ := ih h; exact ⟨a, List.mem_cons_of_mem _ h1, h2⟩

/-- What a step does: nothing becomes unadjusted, and the references and the fixed marks stay. -/
structure Step (net net' : SharedNet F) : Prop where
  roads : net'.roads = net.roads
  fixed : ∀ i, (net'.pvs.cell i).fixed = (net.pvs.cell i).fixed
  adjusted : ∀ i, (net.pvs.cell i).adjusted = true → (net'.pvs.cell i).adjusted = true

omit [PyFloat F] in
theorem Step.refl (net : SharedNet F) : Step net net := ⟨rfl, fun _ => rfl, fun _ h => h⟩

omit [PyFloat F] in
theorem Step.trans {a b c : SharedNet F} (h : Step a b) (h' : Step b c) : Step a c :=
  ⟨h'.roads.trans h.roads, fun i => (h'.fixed i).trans (h.fixed i), fun i hi => h'.adjusted i (h.adjusted i hi)⟩

omit [PyFloat F] in
theorem Step.open {net net' : SharedNet F} (h : Step net net') : openPlans net' ⊆ openPlans net := by
  intro i
  simp only [openPlans, Finset.mem_filter, h.roads]
  rintro ⟨h1, h2⟩
  refine ⟨h1, ?_⟩
  by_contra hc
  rw [h.adjusted i (by simpa using hc)] at h2
  cases h2

theorem step_adjustPlanview {k : String} {b : Bool} {net net' : SharedNet F} {u : Unit}
    (h : SharedNet.adjustPlanview k b net = .ok u net') :
    Step net net' ∧ ∃ r, net.roads.get? k = some r ∧ (net'.pvs.cell r.pv).adjusted = true := by
  unfold SharedNet.adjustPlanview at h
  split at h
  · cases h
  rename_i r hr
  split at h
  · rename_i st hst
    cases h
    have ha := adjustGeometries_gen hst
    refine ⟨⟨rfl, fun i => ?_, fun i hi => ?_⟩, r, hr, by simp [Store.put, ha.adjusted]⟩
    · simp only [Store.put, Store.modify]
      split
      · rename_i e; subst e; exact ha.frame.1
      · rfl
    · simp only [Store.put, Store.modify]
      split
      · exact ha.adjusted
      · exact hi
  · cases h

omit [PyFloat F] in
theorem step_setStartPoint {k : String} {p : Pose F} {net net' : SharedNet F} {u : Unit}
    (h : SharedNet.setStartPoint k p net = .ok u net') : Step net net' := by
  unfold SharedNet.setStartPoint at h
  split at h
  · cases h
  rename_i r hr
  cases h
  refine ⟨rfl, fun i => ?_, fun i hi => ?_⟩ <;> simp only [Store.modify] <;> split
  · rename_i e; subst e; rfl
  · rfl
  · rename_i e; subst e; exact hi
  · exact hi

omit [PyFloat F] in
theorem sroad_ok {k : String} {net net' : SharedNet F} {r : Road F} (h : SharedNet.road k net = .ok r net') :
    net' = net ∧ ∃ o, net.roads.get? k = some o ∧ r = o.read net.pvs := by
  unfold SharedNet.road at h
  split at h
  · rename_i o ho; cases h; exact ⟨rfl, o, ho, rfl⟩
  · cases h

theorem step_adjustWrt {a b : PyId} {cp : Option ContactPoint} {c : Bool} {net net' : SharedNet F} {u : Unit}
    (h : SharedNet.adjustRoadWrtNeighbour a b cp c net = .ok u net') :
    Step net net' ∧ ∃ r, net.roads.get? a.toStr = some r ∧ (net'.pvs.cell r.pv).adjusted = true := by
  unfold SharedNet.adjustRoadWrtNeighbour at h
  obtain ⟨_, s1, h1, i1⟩ := bind_ok.mp h
  obtain ⟨_, s2, h2, i2⟩ := bind_ok.mp i1
  obtain ⟨_, s3, h3, i3⟩ := bind_ok.mp i2
  obtain ⟨_, s4, h4, i4⟩ := bind_ok.mp i3
  obtain ⟨_, s5, h5, i5⟩ := bind_ok.mp i4
  obtain ⟨rfl, _⟩ := sroad_ok h1
  obtain ⟨_, rfl⟩ := orRaise_ok.mp h2
  obtain ⟨rfl, _⟩ := sroad_ok h3
  obtain ⟨_, rfl⟩ := liftExcept_ok.mp h4
  have e5 := step_setStartPoint h5
  obtain ⟨e6, r, h7, h8⟩ := step_adjustPlanview i5
  exact ⟨e5.trans e6, r, by rw [← e5.roads]; exact h7, h8⟩

/-- Placing a road whose PlanView was not adjusted closes one more. -/
theorem close_adjustWrt {a b : PyId} {cp : Option ContactPoint} {c : Bool} {net net' : SharedNet F} {u : Unit}
    {r : RoadObj F} (hr : net.roads.get? a.toStr = some r) (hu : (net.pvs.cell r.pv).adjusted = false)
    (h : SharedNet.adjustRoadWrtNeighbour a b cp c net = .ok u net') :
    Step net net' ∧ (openPlans net').card + 1 ≤ (openPlans net).card := by
  obtain ⟨hs, r', h1, h2⟩ := step_adjustWrt h
  rw [hr] at h1
  cases h1
  refine ⟨hs, Finset.card_lt_card ⟨hs.open, fun hc => ?_⟩⟩
  have := hc (show r.pv ∈ openPlans net by simp only [openPlans, Finset.mem_filter]; exact ⟨mem_pvs hr, hu⟩)
  simp only [openPlans, Finset.mem_filter, h2] at this
  exact absurd this.2 (by simp)

omit [PyFloat F] in
theorem susable_ok {l : Option Link} {net net' : SharedNet F} {b : Bool} (h : SharedNet.usable l net = .ok b net') :
    net' = net := by
  cases l with
  | none => exact (pure_ok.mp h).2
  | some l =>
    obtain ⟨_, s1, h1, i1⟩ := bind_ok.mp h
    obtain ⟨rfl, _⟩ := sroad_ok h1
    exact (pure_ok.mp i1).2

omit [PyFloat F] in
theorem sdanglingOther_ok {t : Int} {l : Option Link} {net net' : SharedNet F} {b : Bool}
    (h : SharedNet.danglingOther t l net = .ok b net') : net' = net ∧
      (b = true → ∀ x, l = some x → ∃ r, net.roads.get? x.elementId.toStr = some r ∧ (net.pvs.cell r.pv).adjusted = false) := by
  unfold SharedNet.danglingOther at h
  split at h
  · obtain ⟨rfl, rfl⟩ := pure_ok.mp h
    exact ⟨rfl, by simp⟩
  cases l with
  | none =>
    obtain ⟨rfl, rfl⟩ := pure_ok.mp h
    exact ⟨rfl, by simp⟩
  | some l =>
    obtain ⟨_, s1, h1, h⟩ := bind_ok.mp h
    obtain ⟨rfl, o, h2, rfl⟩ := sroad_ok h1
    obtain ⟨rfl, rfl⟩ := pure_ok.mp h
    refine ⟨rfl, fun hb x hx => ?_⟩
    cases hx
    exact ⟨o, h2, by simpa [RoadObj.read] using hb⟩

theorem place_closes {k : String} {o : RoadObj F} {s2 net' : SharedNet F} {c : Nat} (ho : s2.roads.get? k = some o)
    (hadj : (s2.pvs.cell o.pv).adjusted = false) {nb : PyId} {cp : Option ContactPoint} {b : Bool} {t : Int}
    {l : Option Link} {f : Bool → EStateM PyErr (SharedNet F) Nat} (hf : f false = pure 1) (hf1 : l = none → f true = pure 1)
    (hf2 : ∀ s, l = some s → ∃ cp2 w, f true = (do
      SharedNet.adjustRoadWrtNeighbour s.elementId (.str k) cp2 w
      pure 2))
    (h : (do
      SharedNet.adjustRoadWrtNeighbour (.str k) nb cp b
      let other ← SharedNet.danglingOther t l
      f other) s2 = .ok c net') : Step s2 net' ∧ (openPlans net').card + c ≤ (openPlans s2).card := by
  obtain ⟨_, s3, h3, i3⟩ := bind_ok.mp h
  obtain ⟨e1, c1⟩ := close_adjustWrt (a := .str k) ho hadj h3
  obtain ⟨d, s4, h4, i4⟩ := bind_ok.mp i3
  obtain ⟨rfl, h5⟩ := sdanglingOther_ok h4
  cases d with
  | false =>
    rw [hf] at i4
    obtain ⟨rfl, rfl⟩ := pure_ok.mp i4
    exact ⟨e1, c1⟩
  | true =>
    cases l with
    | none =>
      rw [hf1 rfl] at i4
      obtain ⟨rfl, rfl⟩ := pure_ok.mp i4
      exact ⟨e1, c1⟩
    | some l =>
      obtain ⟨r2, g1, g2⟩ := h5 rfl l rfl
      obtain ⟨cp2, w, e⟩ := hf2 l rfl
      rw [e] at i4
      obtain ⟨_, s5, h6, i6⟩ := bind_ok.mp i4
      obtain ⟨rfl, rfl⟩ := pure_ok.mp i6
      obtain ⟨e2, c2⟩ := close_adjustWrt g1 g2 h6
      exact ⟨e1.trans e2, by omega⟩

/-- Each road counted closes a PlanView object of its own. -/
theorem visit_closes {k : String} {net net' : SharedNet F} {c : Nat} (h : SharedNet.visit k net = .ok c net') :
    Step net net' ∧ (openPlans net').card + c ≤ (openPlans net).card := by
  unfold SharedNet.visit at h
  obtain ⟨r, s1, h1, i1⟩ := bind_ok.mp h
  obtain ⟨rfl, o, ho, rfl⟩ := sroad_ok h1
  clear h h1
  by_cases hadj : (o.read s1.pvs).planview.adjusted = true
  · rw [if_pos hadj] at i1
    obtain ⟨rfl, rfl⟩ := pure_ok.mp i1
    exact ⟨.refl _, le_rfl⟩
  rw [if_neg hadj] at i1
  have hadj : (s1.pvs.cell o.pv).adjusted = false := by simpa [RoadObj.read] using hadj
  obtain ⟨u1, s2, h2, i2⟩ := bind_ok.mp i1
  obtain rfl := susable_ok h2
  clear i1 h2
  generalize (o.read s2.pvs).predecessor = pr at i2
  generalize (o.read s2.pvs).successor = su at i2
  generalize (o.read s2.pvs).roadType = t at i2
  cases u1 <;> cases pr
  case true.some =>
    refine place_closes ho hadj rfl ?_ ?_ i2
    · rintro rfl; rfl
    · rintro s rfl; exact ⟨_, _, rfl⟩
  all_goals
    obtain ⟨u2, s3, h3, i3⟩ := bind_ok.mp i2
    obtain rfl := susable_ok h3
    clear i2 h3
    cases u2 <;> cases su
    case true.some =>
      refine place_closes ho hadj rfl ?_ ?_ i3
      · first | (intro _; rfl) | (intro h; cases h)
      · first | (intro s h; cases h; done) | (intro s h; cases h; exact ⟨_, _, rfl⟩)
    all_goals
      obtain ⟨rfl, rfl⟩ := pure_ok.mp i3
      exact ⟨.refl _, le_rfl⟩

theorem pass_closes (ks : List String) : ∀ {net net' : SharedNet F} {c : Nat}, SharedNet.pass ks net = .ok c net' →
    Step net net' ∧ (openPlans net').card + c ≤ (openPlans net).card := by
  induction ks with
  | nil =>
    intro net net' c h
    obtain ⟨rfl, rfl⟩ := pure_ok.mp h
    exact ⟨.refl _, le_rfl⟩
  | cons k ks ih =>
    intro net net' c h
    obtain ⟨c1, s1, h1, h⟩ := bind_ok.mp h
    obtain ⟨c2, s2, h2, h⟩ := bind_ok.mp h
    obtain ⟨rfl, rfl⟩ := pure_ok.mp h
    obtain ⟨e1, d1⟩ := visit_closes h1
    obtain ⟨e2, d2⟩ := ih h2
    exact ⟨e1.trans e2, by omega⟩

theorem passes_stuck (n total : Nat) (ks : List String) : ∀ {net net' : SharedNet F} {u : Unit},
    total + (openPlans net).card < n → SharedNet.passes n total ks net ≠ .ok u net' := by
  fun_induction SharedNet.passes (F := F) n total ks with
  | case1 total h ih =>
    intro net net' u hc hk
    obtain ⟨c, s1, h1, hk⟩ := bind_ok.mp hk
    obtain ⟨_, d1⟩ := pass_closes ks h1
    split at hk
    · cases hk
    · rename_i h2
      exact ih c h2 (by omega) hk
  | case2 total h =>
    intro net net' u hc hk
    omega

/-- The roads whose PlanView has a given start. -/
def fixedRoads (net : SharedNet F) (ks : List String) : List String :=
  ks.filter fun k => ((net.roads.get? k).map fun r => (net.pvs.cell r.pv).fixed).getD false

theorem adjustFixed_count (ks : List String) : ∀ {net net' : SharedNet F} {c : Nat},
    SharedNet.adjustFixed ks net = .ok c net' → Step net net' ∧ c = (fixedRoads net ks).length ∧
      ∀ k ∈ fixedRoads net ks, ∃ r, net.roads.get? k = some r ∧ (net'.pvs.cell r.pv).adjusted = true := by
  induction ks with
  | nil =>
    intro net net' c h
    obtain ⟨rfl, rfl⟩ := pure_ok.mp h
    exact ⟨.refl _, rfl, by simp [fixedRoads]⟩
  | cons k ks ih =>
    intro net net' c h
    unfold SharedNet.adjustFixed at h
    obtain ⟨r, s1, h1, h⟩ := bind_ok.mp h
    obtain ⟨rfl, o, ho, rfl⟩ := sroad_ok h1
    have hcongr : ∀ {a b : SharedNet F}, Step a b → ∀ ks, fixedRoads b ks = fixedRoads a ks := by
      intro a b hs ks
      unfold fixedRoads
      rw [hs.roads]
      simp only [hs.fixed]
    split at h
    · rename_i hf
      have hf : (s1.pvs.cell o.pv).fixed = true := hf
      obtain ⟨_, s2, h2, h⟩ := bind_ok.mp h
      obtain ⟨c2, s3, h3, h⟩ := bind_ok.mp h
      obtain ⟨rfl, rfl⟩ := pure_ok.mp h
      obtain ⟨e1, r1, g1, g2⟩ := step_adjustPlanview h2
      obtain ⟨e2, rfl, g3⟩ := ih h3
      rw [hcongr e1] at g3 ⊢
      have hcons : fixedRoads s1 (k :: ks) = k :: fixedRoads s1 ks := by simp [fixedRoads, ho, hf]
      rw [hcons]
      refine ⟨e1.trans e2, by simp, fun k' hk' => ?_⟩
      rcases List.mem_cons.mp hk' with rfl | hk'
      · exact ⟨r1, g1, e2.adjusted _ g2⟩
      · rw [← e1.roads]; exact g3 k' hk'
    · rename_i hf
      have hf : (s1.pvs.cell o.pv).fixed = false := by simpa [RoadObj.read] using hf
      obtain ⟨e2, rfl, g3⟩ := ih h
      have hcons : fixedRoads s1 (k :: ks) = fixedRoads s1 ks := by simp [fixedRoads, ho, hf]
      rw [hcons]
      exact ⟨e2, rfl, g3⟩

theorem shared_stuck {net net' : SharedNet F} {u : Unit} (hn : net.roads.keys.Nodup) {k k' : String} {r r' : RoadObj F}
    (hr : net.roads.get? k = some r) (hr' : net.roads.get? k' = some r') (hne : k ≠ k') (hpv : r.pv = r'.pv)
    (hf : (net.pvs.cell r.pv).fixed = false) : SharedNet.adjustStartpoints net ≠ .ok u net' := by
  intro h
  unfold SharedNet.adjustStartpoints at h
  rw [bind_of_ok (get_eq _)] at h
  obtain ⟨c, s1, h1, h⟩ := bind_ok.mp h
  obtain ⟨e1, hc, g1⟩ := adjustFixed_count _ h1
  -- the open plans belong to roads without a given start, and two of these have the same
  let look : String → Nat := fun k => ((net.roads.get? k).map (·.pv)).getD 0
  let ks := net.roads.keys
  let free := ks.filter fun k => !((net.roads.get? k).map fun r => (net.pvs.cell r.pv).fixed).getD false
  have hlen : free.length + c = ks.length := by
    rw [hc]
    have := List.length_eq_length_filter_add (l := ks)
      (fun k => ((net.roads.get? k).map fun r => (net.pvs.cell r.pv).fixed).getD false)
    simp only [fixedRoads, free, ks] at this ⊢
    omega
  have hk : k ∈ free := by simp [free, ks, Dict.mem_keys_of_get? hr, hr, hf]
  have hk' : k' ∈ free := by simp [free, ks, Dict.mem_keys_of_get? hr', hr', ← hpv, hf]
  have hnf : free.Nodup := hn.filter _
  have hsub : openPlans s1 ⊆ (free.toFinset.erase k).image look := by
    intro i hi
    simp only [openPlans, Finset.mem_filter, List.mem_toFinset, List.mem_map, e1.roads] at hi
    obtain ⟨⟨⟨k1, r1⟩, hm, rfl⟩, hadj⟩ := hi
    have hg := Dict.mem_get? hn hm
    have hff : (net.pvs.cell r1.pv).fixed = false := by
      by_contra hfx
      obtain ⟨r2, h2, h3⟩ := g1 k1 (by simp [fixedRoads, Dict.mem_keys_of_get? hg, hg, by simpa using hfx])
      rw [hg] at h2
      cases h2
      rw [hadj] at h3
      cases h3
    rw [Finset.mem_image]
    by_cases hk1 : k1 = k
    · subst hk1
      rw [hg] at hr
      cases hr
      exact ⟨k', by simp [hk', Ne.symm hne], by simp [look, hr', hpv]⟩
    · exact ⟨k1, by simp [hk1, free, ks, Dict.mem_keys_of_get? hg, hg, hff], by simp [look, hg]⟩
  have himg : ((free.toFinset.erase k).image look).card + 1 ≤ free.length := by
    have h2 := Finset.card_image_le (s := free.toFinset.erase k) (f := look)
    have h3 := Finset.card_erase_add_one (List.mem_toFinset.mpr hk)
    rw [List.toFinset_card_of_nodup hnf] at h3
    omega
  simp only [ks] at hlen
  by_cases hc0 : c = 0
  · rw [if_pos hc0] at h
    obtain ⟨c2, s2, h2, i2⟩ := bind_ok.mp h
    obtain ⟨k0, s3, h3, i3⟩ := bind_ok.mp h2
    obtain ⟨hk0, rfl⟩ := orRaise_ok.mp h3
    obtain ⟨_, s4, h4, i4⟩ := bind_ok.mp i3
    obtain ⟨rfl, rfl⟩ := pure_ok.mp i4
    obtain ⟨e4, r4, g4, g5⟩ := step_adjustPlanview h4
    rw [e1.roads] at g4
    -- the PlanView of the first road is closed now
    refine passes_stuck _ _ _ ?_ i2
    have hin : r4.pv ∈ (free.toFinset.erase k).image look := by
      have hfree : k0 ∈ free := by
        by_contra hcon
        have hmem := Dict.mem_keys_of_get? g4
        have : k0 ∈ fixedRoads net net.roads.keys := by
          simp only [free, ks, List.mem_filter, not_and, Bool.not_eq_true', Bool.not_eq_false] at hcon
          simp only [fixedRoads, List.mem_filter]
          exact ⟨hmem, hcon hmem⟩
        rw [hc] at hc0
        rw [List.length_eq_zero_iff.mp hc0] at this
        cases this
      rw [Finset.mem_image]
      by_cases hkk : k0 = k
      · subst hkk
        rw [g4] at hr
        cases hr
        exact ⟨k', by simp [hk', Ne.symm hne], by simp [look, hr', hpv]⟩
      · exact ⟨k0, by simp [hkk, hfree], by simp [look, g4]⟩
    have hsub2 : openPlans s2 ⊆ ((free.toFinset.erase k).image look).erase r4.pv := by
      intro i hi
      rw [Finset.mem_erase]
      refine ⟨fun e => ?_, hsub (e4.open hi)⟩
      subst e
      simp only [openPlans, Finset.mem_filter, g5] at hi
      exact absurd hi.2 (by simp)
    have h5 := Finset.card_le_card hsub2
    have h6 := Finset.card_erase_add_one hin
    omega
  · rw [if_neg hc0, bind_of_ok (pure_eq _ _)] at h
    have h1 := Finset.card_le_card hsub
    exact passes_stuck _ _ _ (by omega) h

end

end Pyodrx
