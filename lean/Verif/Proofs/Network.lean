import Verif.Spec.Network
import Verif.Proofs.PlanViewGen

/-! # Placing the roads of a network: what every run does, for every arithmetic -/

namespace Pyodrx
open PyFloat Spec

variable {F : Type} [PyFloat F]

/-- Everything except the placement is unchanged. -/
def Road.same (r r' : Road F) : Prop :=
  r' = { r with planview := r'.planview } ∧ r.planview.frame r'.planview

omit [PyFloat F] in
theorem Road.same.refl (r : Road F) : r.same r := ⟨rfl, .refl _⟩
omit [PyFloat F] in
theorem Road.same.trans {a b c : Road F} (h : a.same b) (h' : b.same c) : a.same c :=
  ⟨by rw [h'.1, h.1], h.2.trans h'.2⟩

/-- `main_road.planview.set_start_point(p); main_road.planview.adjust_geometries(from_end)`, seen
from outside: road `k` (not yet adjusted) gets a new, adjusted planview, nothing else changes. -/
def Put (net : Net F) (k : String) (p : Pose F → Pose F) (fromEnd : Bool) (net' : Net F) : Prop :=
  ∃ r st, net.roads.get? k = some r ∧ r.planview.adjusted = false ∧
    PlanView.adjustGeometries fromEnd ⟨r.planview.setStartPoint (p r.planview.present), net.geoms⟩ =
      .ok () st ∧
    net' = ⟨net.roads.set k { r with planview := st.pv }, st.geoms⟩

/-- Attach the end `e` of road `k` to the end `e'` of the adjusted road `nb`. -/
def Placement (net : Net F) (k : String) (e : ContactPoint) (nb : String) (e' : ContactPoint)
    (net' : Net F) : Prop :=
  ∃ r n p, net.roads.get? k = some r ∧ net.roads.get? nb = some n ∧ n.planview.adjusted = true ∧
    neighbourPose n e' = .ok p ∧
    Put net k (fun _ => offsetPose (e = .start) (offsetAt r e) p) (!(e = .start : Bool)) net'

/-- A run: placements one after the other. -/
inductive History (roads0 : Dict (Road F)) : Net F → Nat → Net F → Prop where
  | refl (net : Net F) : History roads0 net 0 net
  | anchor {net net1 net2 : Net F} {m : Nat} {k : String} : History roads0 net m net1 →
      Anchor roads0 k → Put net1 k id false net2 → History roads0 net (m + 1) net2
  | place {net net1 net2 : Net F} {m : Nat} {k nb : String} {e e' : ContactPoint} :
      History roads0 net m net1 →
      PlacedBy net1.roads k e nb e' → Placement net1 k e nb e' net2 →
      History roads0 net (m + 1) net2

/-- A run that places anchors only. -/
inductive AnchorRun (roads0 : Dict (Road F)) : Net F → Nat → Net F → Prop where
  | refl (net : Net F) : AnchorRun roads0 net 0 net
  | anchor {net net1 net2 : Net F} {m : Nat} {k : String} : AnchorRun roads0 net m net1 →
      Anchor roads0 k → Put net1 k id false net2 → AnchorRun roads0 net (m + 1) net2

theorem AnchorRun.history {roads0 : Dict (Road F)} {a b : Net F} {m : Nat} (h : AnchorRun roads0 a m b) :
    History roads0 a m b := by
  induction h with
  | refl => exact .refl _
  | anchor _ hk hp ih => exact .anchor ih hk hp

theorem AnchorRun.trans {roads0 : Dict (Road F)} {a b c : Net F} {m n : Nat}
    (h : AnchorRun roads0 a m b) (h' : AnchorRun roads0 b n c) : AnchorRun roads0 a (m + n) c := by
  induction h' with
  | refl => exact h
  | anchor _ hk hp ih => exact .anchor ih hk hp

theorem History.trans {roads0 : Dict (Road F)} {a b c : Net F} {m n : Nat}
    (h : History roads0 a m b) (h' : History roads0 b n c) : History roads0 a (m + n) c := by
  induction h' with
  | refl => exact h
  | anchor _ hk hp ih => exact .anchor ih hk hp
  | place _ hk hp ih => exact .place ih hk hp

/-! ### The steps of the program -/

theorem road_ok {key : String} {net net' : Net F} {r : Road F} :
    Net.road key net = .ok r net' ↔ net.roads.get? key = some r ∧ net' = net := by
  unfold Net.road
  cases h : net.roads.get? key with
  | none => simp
  | some r' => simp only [EStateM.Result.ok.injEq, Option.some.injEq]; tauto

theorem road_error {key : String} {net net' : Net F} {e : PyErr} :
    Net.road key net = .error e net' ↔ net.roads.get? key = none ∧ e = .keyError ∧ net' = net := by
  unfold Net.road
  cases h : net.roads.get? key with
  | none => simp only [EStateM.Result.error.injEq, true_and]; tauto
  | some r' => simp

theorem adjustPlanview_put {key : String} {b : Bool} {net net' : Net F} {r : Road F} {u : Unit}
    (hr : net.roads.get? key = some r) (hu : r.planview.adjusted = false)
    (h : Net.adjustPlanview key b net = .ok u net') : Put net key id b net' := by
  unfold Net.adjustPlanview at h
  rw [hr] at h
  dsimp only at h
  split at h
  · rename_i st hst
    cases h
    exact ⟨r, st, hr, hu, hst, rfl⟩
  · exact absurd h (by simp)

omit [PyFloat F] in
/-- two assignments to the same key -/
theorem Dict.set_set (d : Dict (Road F)) (k : String) (a b : Road F) :
    (d.set k a).set k b = d.set k b := by
  induction d with
  | nil => simp [Dict.set]
  | cons kv d ih =>
    obtain ⟨k', v'⟩ := kv
    by_cases hk : k' = k <;> simp [Dict.set, hk, ih]

theorem adjustWrt_ok {road nb : PyId} {cp : Option ContactPoint} {e : ContactPoint}
    {net net' : Net F} {r n : Road F} {u : Unit}
    (hr : net.roads.get? road.toStr = some r) (hu : r.planview.adjusted = false)
    (hn : net.roads.get? nb.toStr = some n) (hna : n.planview.adjusted = true)
    (h : Net.adjustRoadWrtNeighbour road nb cp (e = .start : Bool) net = .ok u net') :
    ∃ e', cp = some e' ∧ Placement net road.toStr e nb.toStr e' net' := by
  unfold Net.adjustRoadWrtNeighbour at h
  replace h := bind_ok.mp h; obtain ⟨r', s1, h1, h⟩ := h
  replace h1 := road_ok.mp h1; obtain ⟨h1, rfl⟩ := h1
  replace h := bind_ok.mp h; obtain ⟨e', s2, h2, h⟩ := h
  replace h2 := orRaise_ok.mp h2; obtain ⟨h2, rfl⟩ := h2
  replace h := bind_ok.mp h; obtain ⟨n', s3, h3, h⟩ := h
  replace h3 := road_ok.mp h3; obtain ⟨h3, rfl⟩ := h3
  replace h := bind_ok.mp h; obtain ⟨p, s4, h4, h⟩ := h
  replace h4 := liftExcept_ok.mp h4; obtain ⟨h4, rfl⟩ := h4
  rw [hr] at h1; cases h1
  rw [hn] at h3; cases h3
  refine ⟨e', h2, r, n, p, hr, hn, hna, h4, ?_⟩
  replace h := bind_ok.mp h; obtain ⟨_, s5, h5, h⟩ := h
  have hoff : (if (e = .start : Bool) = true then r.laneOffsetPred else r.laneOffsetSuc) =
      offsetAt r e := by cases e <;> simp [offsetAt]
  unfold Net.setStartPoint at h5
  rw [hr] at h5
  dsimp only at h5
  cases h5
  unfold Net.adjustPlanview at h
  simp only [Dict.get?_set, if_true] at h
  rw [hoff] at h
  split at h
  · rename_i st hst
    cases h
    refine ⟨r, st, hr, hu, hst, ?_⟩
    congr 1
    exact Dict.set_set _ _ _ _
  · exact absurd h (by simp)

theorem usable_ok {link : Option Link} {net net' : Net F} {b : Bool} :
    Net.usable link net = .ok b net' ↔ net' = net ∧
      ((link = none ∧ b = false) ∨ ∃ l n, link = some l ∧
        net.roads.get? l.elementId.toStr = some n ∧
        b = (n.planview.adjusted && !(l.elementType = some .junction : Bool))) := by
  cases link with
  | none => simp only [Net.usable, pure_ok]; constructor <;> [rintro ⟨rfl, rfl⟩; skip] <;> simp_all
  | some l =>
    simp only [Net.usable]
    constructor
    · intro h
      replace h := bind_ok.mp h; obtain ⟨n, s, h1, h2⟩ := h
      replace h1 := road_ok.mp h1; obtain ⟨h1, rfl⟩ := h1
      replace h2 := pure_ok.mp h2; obtain ⟨rfl, rfl⟩ := h2
      exact ⟨rfl, .inr ⟨l, n, rfl, h1, rfl⟩⟩
    · rintro ⟨rfl, ⟨h, _⟩ | ⟨l', n, h, h1, rfl⟩⟩
      · simp at h
      · cases h
        rw [bind_of_ok (road_ok.mpr ⟨h1, rfl⟩)]
        rfl

theorem usable_error {link : Option Link} {net net' : Net F} {e : PyErr}
    (h : Net.usable link net = .error e net') : ∃ l, link = some l ∧ e = .keyError ∧
      net.roads.get? l.elementId.toStr = none := by
  cases link with
  | none => exact absurd h (by simp [Net.usable, pure_eq])
  | some l =>
    simp only [Net.usable] at h
    replace h := bind_error.mp h; rcases h with h | ⟨n, s, h1, h2⟩
    · replace h := road_error.mp h; obtain ⟨h, rfl, rfl⟩ := h
      exact ⟨l, rfl, rfl, h⟩
    · exact absurd h2 (by simp [pure_eq])

theorem dangling_ok {rt : Int} {link : Option Link} {net net' : Net F} {b : Bool} :
    Net.danglingOther rt link net = .ok b net' ↔ net' = net ∧
      (((rt = -1 ∨ link = none) ∧ b = false) ∨ ∃ l n, rt ≠ -1 ∧ link = some l ∧
        net.roads.get? l.elementId.toStr = some n ∧ b = !n.planview.adjusted) := by
  unfold Net.danglingOther
  split
  · rename_i h
    rw [pure_ok]
    constructor
    · rintro ⟨rfl, rfl⟩; exact ⟨rfl, .inl ⟨.inl h, rfl⟩⟩
    · rintro ⟨rfl, ⟨_, rfl⟩ | ⟨l, n, h', _⟩⟩
      · exact ⟨rfl, rfl⟩
      · exact absurd h h'
  · rename_i h
    cases link with
    | none =>
      simp only [pure_ok]
      constructor
      · rintro ⟨rfl, rfl⟩; exact ⟨rfl, .inl ⟨.inr (by trivial), rfl⟩⟩
      · rintro ⟨rfl, ⟨_, rfl⟩ | ⟨l, n, _, h', _⟩⟩
        · exact ⟨rfl, rfl⟩
        · simp at h'
    | some l =>
      dsimp only
      constructor
      · intro h0
        replace h0 := bind_ok.mp h0; obtain ⟨n, s, h1, h2⟩ := h0
        replace h1 := road_ok.mp h1; obtain ⟨h1, rfl⟩ := h1
        replace h2 := pure_ok.mp h2; obtain ⟨rfl, rfl⟩ := h2
        exact ⟨rfl, .inr ⟨l, n, h, rfl, h1, rfl⟩⟩
      · rintro ⟨rfl, ⟨hh | hh, _⟩ | ⟨l', n, _, hl, h1, rfl⟩⟩
        · exact absurd hh h
        · simp at hh
        · cases hl
          rw [bind_of_ok (road_ok.mpr ⟨h1, rfl⟩)]
          rfl

theorem dangling_error {rt : Int} {link : Option Link} {net net' : Net F} {e : PyErr}
    (h : Net.danglingOther rt link net = .error e net') : ∃ l, link = some l ∧ e = .keyError ∧
      net.roads.get? l.elementId.toStr = none := by
  unfold Net.danglingOther at h
  split at h
  · exact absurd h (by simp [pure_eq])
  · cases link with
    | none => exact absurd h (by simp [pure_eq])
    | some l =>
      dsimp only at h
      replace h := bind_error.mp h; rcases h with h | ⟨n, s, h1, h2⟩
      · replace h := road_error.mp h; obtain ⟨h, rfl, rfl⟩ := h
        exact ⟨l, rfl, rfl, h⟩
      · exact absurd h2 (by simp [pure_eq])

theorem Put.self {net net' : Net F} {k : String} {p : Pose F → Pose F} {b : Bool}
    (h : Put net k p b net') : ∃ r st, net.roads.get? k = some r ∧ r.planview.adjusted = false ∧
      net'.roads.get? k = some { r with planview := st.pv } ∧ net'.geoms = st.geoms ∧
      Adjusted b ⟨r.planview.setStartPoint (p r.planview.present), net.geoms⟩ st := by
  obtain ⟨r, st, h1, h2, h3, rfl⟩ := h
  exact ⟨r, st, h1, h2, by simp [Dict.get?_set], rfl, adjustGeometries_gen h3⟩

theorem Put.other {net net' : Net F} {k : String} {p : Pose F → Pose F} {b : Bool}
    (h : Put net k p b net') {k' : String} (hk : k' ≠ k) :
    net'.roads.get? k' = net.roads.get? k' := by
  obtain ⟨r, st, h1, h2, h3, rfl⟩ := h
  simp [Dict.get?_set, Ne.symm hk]

theorem Put.keys {net net' : Net F} {k : String} {p : Pose F → Pose F} {b : Bool}
    (h : Put net k p b net') : net'.roads.keys = net.roads.keys := by
  obtain ⟨r, st, h1, h2, h3, rfl⟩ := h
  exact Dict.keys_set_of_mem _ _ _ (Dict.mem_keys_of_get? h1)

/-- Only the placement of roads changes. -/
def SameNet (net net' : Dict (Road F)) : Prop :=
  net'.keys = net.keys ∧ ∀ k r', net'.get? k = some r' → ∃ r, net.get? k = some r ∧ r.same r'

omit [PyFloat F] in
theorem SameNet.refl (d : Dict (Road F)) : SameNet d d := ⟨rfl, fun _ r h => ⟨r, h, .refl r⟩⟩
omit [PyFloat F] in
theorem SameNet.trans {a b c : Dict (Road F)} (h : SameNet a b) (h' : SameNet b c) : SameNet a c :=
  ⟨h'.1.trans h.1, fun k r hr => by
    obtain ⟨r1, h1, s1⟩ := h'.2 k r hr
    obtain ⟨r2, h2, s2⟩ := h.2 k r1 h1
    exact ⟨r2, h2, s2.trans s1⟩⟩

omit [PyFloat F] in
theorem SameNet.fwd {a b : Dict (Road F)} (h : SameNet a b) {k : String} {r : Road F}
    (hr : a.get? k = some r) : ∃ r', b.get? k = some r' ∧ r.same r' := by
  have : k ∈ b.keys := by rw [h.1]; exact Dict.mem_keys_of_get? hr
  rw [← Dict.get?_isSome, Option.isSome_iff_exists] at this
  obtain ⟨r', h'⟩ := this
  obtain ⟨r0, h0, s0⟩ := h.2 k r' h'
  rw [hr] at h0; cases h0
  exact ⟨r', h', s0⟩

theorem Put.same {net net' : Net F} {k : String} {p : Pose F → Pose F} {b : Bool}
    (h : Put net k p b net') : SameNet net.roads net'.roads := by
  refine ⟨h.keys, fun k' r' hr' => ?_⟩
  by_cases hk : k' = k
  · subst hk
    obtain ⟨r, st, h1, h2, h3, _, h4⟩ := h.self
    rw [h3] at hr'; cases hr'
    exact ⟨r, h1, rfl, h4.frame⟩
  · rw [h.other hk] at hr'
    exact ⟨r', hr', .refl _⟩

omit [PyFloat F] in
theorem PlacedBy.mono {a b : Dict (Road F)} (h : SameNet a b) {k nb : String} {e e' : ContactPoint}
    (hp : PlacedBy b k e nb e') : PlacedBy a k e nb e' := by
  cases hp with
  | pred hr hl ht hc =>
    obtain ⟨r, h1, h2⟩ := h.2 _ _ hr
    rw [h2.1] at hl
    exact .pred h1 hl ht hc
  | succ hr hl ht hc =>
    obtain ⟨r, h1, h2⟩ := h.2 _ _ hr
    rw [h2.1] at hl
    exact .succ h1 hl ht hc
  | connPred hr ht hl =>
    obtain ⟨r, h1, h2⟩ := h.2 _ _ hr
    rw [h2.1] at hl ht
    exact .connPred h1 ht hl
  | connSucc hr ht hl =>
    obtain ⟨r, h1, h2⟩ := h.2 _ _ hr
    rw [h2.1] at hl ht
    exact .connSucc h1 ht hl

/-- A link that a visited road is about to be attached by. -/
def Usable (net : Net F) (link : Option Link) (l : Link) (n : Road F) : Prop :=
  link = some l ∧ net.roads.get? l.elementId.toStr = some n ∧ n.planview.adjusted = true ∧
    l.elementType ≠ some .junction

/-- No such link. -/
def Unusable (net : Net F) (link : Option Link) : Prop :=
  link = none ∨ ∃ l n, link = some l ∧ net.roads.get? l.elementId.toStr = some n ∧
    (n.planview.adjusted = false ∨ l.elementType = some .junction)

/-- The other link of a connecting road leads to a road that is not adjusted. -/
def Dangling (net : Net F) (rt : Int) (link : Option Link) (l : Link) (n : Road F) : Prop :=
  rt ≠ -1 ∧ link = some l ∧ net.roads.get? l.elementId.toStr = some n ∧ n.planview.adjusted = false

/-- No such road. -/
def NotDangling (net : Net F) (rt : Int) (link : Option Link) : Prop :=
  rt = -1 ∨ link = none ∨ ∃ l n, link = some l ∧ net.roads.get? l.elementId.toStr = some n ∧
    n.planview.adjusted = true

theorem usable_cases {link : Option Link} {net net' : Net F} {b : Bool}
    (h : Net.usable link net = .ok b net') : net' = net ∧
      ((b = true ∧ ∃ l n, Usable net link l n) ∨ (b = false ∧ Unusable net link)) := by
  obtain ⟨rfl, ⟨h1, h2⟩ | ⟨l, n, h1, h2, h3⟩⟩ := usable_ok.mp h
  · exact ⟨rfl, .inr ⟨h2, .inl h1⟩⟩
  · refine ⟨rfl, ?_⟩
    cases b with
    | true =>
      have : n.planview.adjusted = true ∧ l.elementType ≠ some .junction := by
        simpa using h3.symm
      exact .inl ⟨rfl, l, n, h1, h2, this⟩
    | false =>
      refine .inr ⟨rfl, .inr ⟨l, n, h1, h2, ?_⟩⟩
      cases ha : n.planview.adjusted with
      | false => exact .inl rfl
      | true =>
        right
        rw [ha, Bool.true_and] at h3
        by_contra hj
        simp [hj] at h3

theorem dangling_cases {rt : Int} {link : Option Link} {net net' : Net F} {b : Bool}
    (h : Net.danglingOther rt link net = .ok b net') : net' = net ∧
      ((b = true ∧ ∃ l n, Dangling net rt link l n) ∨ (b = false ∧ NotDangling net rt link)) := by
  obtain ⟨rfl, ⟨h1, h2⟩ | ⟨l, n, h0, h1, h2, h3⟩⟩ := dangling_ok.mp h
  · refine ⟨rfl, .inr ⟨h2, ?_⟩⟩
    rcases h1 with h1 | h1
    · exact .inl h1
    · exact .inr (.inl h1)
  · refine ⟨rfl, ?_⟩
    cases b with
    | true => exact .inl ⟨rfl, l, n, h0, h1, h2, by simpa using h3⟩
    | false => exact .inr ⟨rfl, .inr (.inr ⟨l, n, h1, h2, by simpa using h3⟩)⟩

omit [PyFloat F] in
theorem startBool (o : Option ContactPoint) :
    decide (o = some .start) = (o.getD .end = .start : Bool) := by
  cases o <;> simp

/-- One iteration of the for loop: nothing, one placement, or two. -/
theorem visit_cases {k : String} {net net' : Net F} {c : Nat} (h : Net.visit k net = .ok c net') :
    ∃ r, net.roads.get? k = some r ∧
      ((r.planview.adjusted = true ∧ c = 0 ∧ net' = net) ∨
       (r.planview.adjusted = false ∧
        ((c = 0 ∧ net' = net ∧ Unusable net r.predecessor ∧ Unusable net r.successor) ∨
         (∃ l n e' s, Usable net r.predecessor l n ∧ l.contactPoint = some e' ∧
            Placement net k .start l.elementId.toStr e' s ∧
            ((c = 1 ∧ net' = s ∧ NotDangling s r.roadType r.successor) ∨
             (∃ l2 n2, c = 2 ∧ Dangling s r.roadType r.successor l2 n2 ∧
               Placement s l2.elementId.toStr (l2.contactPoint.getD .end) k .end net'))) ∨
         (∃ l n e' s, Unusable net r.predecessor ∧ Usable net r.successor l n ∧
            l.contactPoint = some e' ∧
            Placement net k .end l.elementId.toStr e' s ∧
            ((c = 1 ∧ net' = s ∧ NotDangling s r.roadType r.predecessor) ∨
             (∃ l2 n2, c = 2 ∧ Dangling s r.roadType r.predecessor l2 n2 ∧
               Placement s l2.elementId.toStr (l2.contactPoint.getD .end) k .start net')))))) := by
  unfold Net.visit at h
  replace h := bind_ok.mp h; obtain ⟨r, s1, h1, h⟩ := h
  replace h1 := road_ok.mp h1; obtain ⟨hr, rfl⟩ := h1
  refine ⟨r, hr, ?_⟩
  split at h
  · rename_i ha
    replace h := pure_ok.mp h; obtain ⟨rfl, rfl⟩ := h
    exact .inl ⟨ha, rfl, rfl⟩
  rename_i hu
  replace hu : r.planview.adjusted = false := by simpa using hu
  refine .inr ⟨hu, ?_⟩
  replace h := bind_ok.mp h; obtain ⟨b, s2, h2, h⟩ := h
  replace h2 := usable_cases h2; obtain ⟨rfl, h2⟩ := h2
  rcases h2 with ⟨rfl, p, n, hU⟩ | ⟨rfl, hU⟩
  · obtain ⟨hp, hn, hna, ht⟩ := id hU
    simp only [hp] at h
    replace h := bind_ok.mp h; obtain ⟨_, s3, h3, h⟩ := h
    obtain ⟨e', hc, hpl⟩ := adjustWrt_ok (e := .start) (road := .str k) hr hu hn hna h3
    refine .inr (.inl ⟨p, n, e', s3, hU, hc, hpl, ?_⟩)
    replace h := bind_ok.mp h; obtain ⟨o, s4, h4, h⟩ := h
    replace h4 := dangling_cases h4; obtain ⟨rfl, h4⟩ := h4
    rcases h4 with ⟨rfl, l2, n2, hD⟩ | ⟨rfl, hD⟩
    · obtain ⟨ht2, hl2, hn2, hna2⟩ := id hD
      simp only [hl2] at h
      replace h := bind_ok.mp h; obtain ⟨_, s5, h5, h⟩ := h
      replace h := pure_ok.mp h; obtain ⟨rfl, rfl⟩ := h
      refine .inr ⟨l2, n2, rfl, hD, ?_⟩
      obtain ⟨r0, n0, p0, hr0, _, _, _, hput⟩ := hpl
      obtain ⟨r1, st, q1, q2, q3, _, q4⟩ := hput.self
      rw [startBool] at h5
      obtain ⟨e'', hc'', hpl2⟩ := adjustWrt_ok (road := l2.elementId) (nb := .str k) hn2
        hna2 q3 q4.adjusted h5
      cases hc''
      exact hpl2
    · replace h := pure_ok.mp h; obtain ⟨rfl, rfl⟩ := h
      exact .inl ⟨rfl, rfl, hD⟩
  · dsimp only at h
    replace h := bind_ok.mp h; obtain ⟨b', s3, h3, h⟩ := h
    replace h3 := usable_cases h3; obtain ⟨rfl, h3⟩ := h3
    rcases h3 with ⟨rfl, p, n, hU'⟩ | ⟨rfl, hU'⟩
    · obtain ⟨hp, hn, hna, ht⟩ := id hU'
      simp only [hp] at h
      replace h := bind_ok.mp h; obtain ⟨_, s4, h4, h⟩ := h
      obtain ⟨e', hc, hpl⟩ := adjustWrt_ok (e := .end) (road := .str k) hr hu hn hna h4
      refine .inr (.inr ⟨p, n, e', s4, hU, hU', hc, hpl, ?_⟩)
      replace h := bind_ok.mp h; obtain ⟨o, s5, h5, h⟩ := h
      replace h5 := dangling_cases h5; obtain ⟨rfl, h5⟩ := h5
      rcases h5 with ⟨rfl, l2, n2, hD⟩ | ⟨rfl, hD⟩
      · obtain ⟨ht2, hl2, hn2, hna2⟩ := id hD
        simp only [hl2] at h
        replace h := bind_ok.mp h; obtain ⟨_, s6, h6, h⟩ := h
        replace h := pure_ok.mp h; obtain ⟨rfl, rfl⟩ := h
        refine .inr ⟨l2, n2, rfl, hD, ?_⟩
        obtain ⟨r0, n0, p0, hr0, _, _, _, hput⟩ := hpl
        obtain ⟨r1, st, q1, q2, q3, _, q4⟩ := hput.self
        rw [startBool] at h6
        obtain ⟨e'', hc'', hpl2⟩ := adjustWrt_ok (road := l2.elementId) (nb := .str k) hn2
          hna2 q3 q4.adjusted h6
        cases hc''
        exact hpl2
      · replace h := pure_ok.mp h; obtain ⟨rfl, rfl⟩ := h
        exact .inl ⟨rfl, rfl, hD⟩
    · replace h := pure_ok.mp h; obtain ⟨rfl, rfl⟩ := h
      exact .inl ⟨rfl, rfl, hU, hU'⟩

theorem Placement.road {net net' : Net F} {k nb : String} {e e' : ContactPoint} {r : Road F}
    (h : Placement net k e nb e' net') (hr : net.roads.get? k = some r) :
    ∃ r', net'.roads.get? k = some r' ∧ r.same r' ∧ r'.planview.adjusted = true := by
  obtain ⟨r0, n0, p0, hr0, _, _, _, hput⟩ := h
  obtain ⟨r1, st, q1, q2, q3, _, q4⟩ := hput.self
  rw [hr] at q1; cases q1
  exact ⟨_, q3, ⟨rfl, q4.frame⟩, q4.adjusted⟩

theorem visit_history {roads0 : Dict (Road F)} {k : String} {net net' : Net F} {c : Nat}
    (h : Net.visit k net = .ok c net') : History roads0 net c net' := by
  obtain ⟨r, hr, ⟨_, rfl, rfl⟩ | ⟨hu, ⟨rfl, rfl, _⟩ |
    ⟨l, n, e', s, hU, hc, hp, hrest⟩ | ⟨l, n, e', s, _, hU, hc, hp, hrest⟩⟩⟩ := visit_cases h
  · exact .refl _
  · exact .refl _
  · have h1 : History roads0 net 1 s := .place (.refl _) (.pred hr hU.1 hU.2.2.2 hc) hp
    rcases hrest with ⟨rfl, rfl, _⟩ | ⟨l2, n2, rfl, hD, hp2⟩
    · exact h1
    · obtain ⟨r', q1, q2, _⟩ := hp.road hr
      exact .place h1 (.connSucc q1 (by rw [q2.1]; exact hD.1) (by rw [q2.1]; exact hD.2.1)) hp2
  · have h1 : History roads0 net 1 s := .place (.refl _) (.succ hr hU.1 hU.2.2.2 hc) hp
    rcases hrest with ⟨rfl, rfl, _⟩ | ⟨l2, n2, rfl, hD, hp2⟩
    · exact h1
    · obtain ⟨r', q1, q2, _⟩ := hp.road hr
      exact .place h1 (.connPred q1 (by rw [q2.1]; exact hD.1) (by rw [q2.1]; exact hD.2.1)) hp2

theorem pass_history {roads0 : Dict (Road F)} (ks : List String) : ∀ {net net' : Net F} {c : Nat},
    Net.pass ks net = .ok c net' → History roads0 net c net' := by
  induction ks with
  | nil => intro net net' c h; obtain ⟨rfl, rfl⟩ := pure_ok.mp h; exact .refl _
  | cons k ks ih =>
    intro net net' c h
    unfold Net.pass at h
    replace h := bind_ok.mp h; obtain ⟨c1, s1, h1, h⟩ := h
    replace h := bind_ok.mp h; obtain ⟨c2, s2, h2, h⟩ := h
    replace h := pure_ok.mp h; obtain ⟨rfl, rfl⟩ := h
    exact (visit_history h1).trans (ih h2)

theorem passes_history {roads0 : Dict (Road F)} (n : Nat) (keys : List String) :
    ∀ (j total : Nat) {net net' : Net F} {u : Unit}, n - total = j →
    Net.passes n total keys net = .ok u net' → ∃ m, n ≤ total + m ∧ History roads0 net m net' := by
  intro j
  induction j using Nat.strong_induction_on with
  | _ j ih =>
    intro total net net' u hj h
    unfold Net.passes at h
    split at h
    · rename_i hlt
      replace h := bind_ok.mp h; obtain ⟨c, s1, h1, h⟩ := h
      split at h
      · exact absurd h (by simp [raise_eq])
      · rename_i hc
        have hc0 : c ≠ 0 := by omega
        obtain ⟨m, hm, hh⟩ := ih (n - (total + c)) (by omega) (total + c) rfl h
        exact ⟨c + m, by omega, (pass_history _ h1).trans hh⟩
    · replace h := pure_ok.mp h; obtain ⟨_, rfl⟩ := h
      exact ⟨0, by omega, .refl _⟩

/-! ### Facts about runs -/

theorem History.same {roads0 : Dict (Road F)} {a b : Net F} {m : Nat} (h : History roads0 a m b) :
    SameNet a.roads b.roads := by
  induction h with
  | refl => exact .refl _
  | anchor _ _ hp ih => exact ih.trans hp.same
  | place _ _ hp ih =>
    obtain ⟨_, _, _, _, _, _, _, hput⟩ := hp
    exact ih.trans hput.same

/-- the number of adjusted roads -/
def countAdj (d : Dict (Road F)) : Nat := d.countP fun kv => kv.2.planview.adjusted

omit [PyFloat F] in
theorem countAdj_set {d : Dict (Road F)} {k : String} {r r' : Road F} (h : d.get? k = some r)
    (hr : r.planview.adjusted = false) (hr' : r'.planview.adjusted = true) :
    countAdj (d.set k r') = countAdj d + 1 := by
  induction d with
  | nil => simp [Dict.get?] at h
  | cons kv d ih =>
    obtain ⟨k0, v0⟩ := kv
    unfold Dict.get? at h
    unfold Dict.set
    split at h
    · rename_i hk
      cases h
      simp [countAdj, hk, hr, hr']
    · rename_i hk
      have := ih h
      simp only [hk, if_false, countAdj, List.countP_cons] at this ⊢
      omega

theorem Put.count {net net' : Net F} {k : String} {p : Pose F → Pose F} {b : Bool}
    (h : Put net k p b net') : countAdj net'.roads = countAdj net.roads + 1 := by
  obtain ⟨r, st, h1, h2, h3, rfl⟩ := h
  exact countAdj_set h1 h2 (adjustGeometries_gen h3).adjusted

theorem History.count {roads0 : Dict (Road F)} {a b : Net F} {m : Nat} (h : History roads0 a m b) :
    countAdj b.roads = countAdj a.roads + m := by
  induction h with
  | refl => rfl
  | anchor _ _ hp ih => rw [hp.count, ih]; omega
  | place _ _ hp ih =>
    obtain ⟨_, _, _, _, _, _, _, hput⟩ := hp
    rw [hput.count, ih]; omega

omit [PyFloat F] in
theorem countAdj_all {d : Dict (Road F)} (h : d.length ≤ countAdj d) {k : String} {r : Road F}
    (hr : d.get? k = some r) : r.planview.adjusted = true := by
  have h2 : countAdj d = d.length := le_antisymm List.countP_le_length h
  have h3 := List.countP_eq_length.mp h2
  have : (k, r) ∈ d := by
    clear h h2 h3
    induction d with
    | nil => simp [Dict.get?] at hr
    | cons kv d ih =>
      obtain ⟨k0, v0⟩ := kv
      unfold Dict.get? at hr
      split at hr
      · rename_i hk; cases hr; simp [hk]
      · exact List.mem_cons_of_mem _ (ih hr)
  exact h3 _ this

omit [PyFloat F] in
theorem Dict.mem_get? {α : Type} {d : Dict α} (hn : d.keys.Nodup) {k : String} {v : α}
    (h : (k, v) ∈ d) : d.get? k = some v := by
  induction d with
  | nil => simp at h
  | cons kv d ih =>
    obtain ⟨k0, v0⟩ := kv
    simp only [Dict.keys, List.map_cons, List.nodup_cons] at hn
    replace h := List.mem_cons.mp h
    rcases h with h | h
    · cases h; simp [Dict.get?]
    · have : k ≠ k0 := by
        rintro rfl
        exact hn.1 (List.mem_map.mpr ⟨(k, v), h, rfl⟩)
      simp [Dict.get?, Ne.symm this, ih hn.2 h]

/-- A road that is adjusted stays exactly as it is. -/
theorem Put.keep {net net' : Net F} {k : String} {p : Pose F → Pose F} {b : Bool}
    (h : Put net k p b net') {k' : String} {r : Road F} (hr : net.roads.get? k' = some r)
    (ha : r.planview.adjusted = true) : net'.roads.get? k' = some r := by
  by_cases hk : k' = k
  · subst hk
    obtain ⟨r1, st, h1, h2, _⟩ := h.self
    rw [hr] at h1; cases h1
    simp [ha] at h2
  · rw [h.other hk, hr]

/-! ### The first part of `adjust_startpoints` -/

theorem adjustFixed_history {roads0 : Dict (Road F)} (ks : List String) :
    ∀ {net net' : Net F} {c : Nat}, Net.adjustFixed ks net = .ok c net' → ks.Nodup →
    (∀ k ∈ ks, ∀ r, net.roads.get? k = some r → r.planview.adjusted = false ∧
      roads0.get? k = some r) →
    AnchorRun roads0 net c net' ∧
    (∀ k ∈ ks, ∀ r', net'.roads.get? k = some r' → r'.planview.adjusted = r'.planview.fixed) ∧
    (∀ k, k ∉ ks → net'.roads.get? k = net.roads.get? k) ∧
    (∀ k ∈ ks, ∀ r, net.roads.get? k = some r → r.planview.fixed = true → ∃ g st,
      PlanView.adjustGeometries false ⟨r.planview, g⟩ = .ok () st ∧
      net'.roads.get? k = some { r with planview := st.pv }) := by
  induction ks with
  | nil =>
    intro net net' c h _ _
    replace h := pure_ok.mp h; obtain ⟨rfl, rfl⟩ := h
    exact ⟨.refl _, by simp, by simp, by simp⟩
  | cons k ks ih =>
    intro net net' c h hn hf
    unfold Net.adjustFixed at h
    replace h := bind_ok.mp h; obtain ⟨r, s1, h1, h⟩ := h
    replace h1 := road_ok.mp h1; obtain ⟨hr, rfl⟩ := h1
    obtain ⟨hna, hnd⟩ := List.nodup_cons.mp hn
    have hfk := hf k (by simp) r hr
    split at h
    · rename_i hfix
      replace h := bind_ok.mp h; obtain ⟨_, s2, h2, h⟩ := h
      replace h := bind_ok.mp h; obtain ⟨c', s3, h3, h⟩ := h
      replace h := pure_ok.mp h; obtain ⟨rfl, rfl⟩ := h
      have hput := adjustPlanview_put hr hfk.1 h2
      obtain ⟨i1, i2, i3, i4⟩ := ih h3 hnd (fun k' hk' r' hr' => by
        rw [hput.other (fun e => hna (e ▸ hk'))] at hr'
        exact hf k' (by simp [hk']) r' hr')
      refine ⟨?_, ?_, ?_, ?_⟩
      · have : AnchorRun roads0 s1 1 s2 := .anchor (.refl _) (.inl ⟨r, hfk.2, hfix⟩) hput
        have := this.trans i1
        rwa [Nat.add_comm] at this
      · intro k' hk' r' hr'
        rcases List.mem_cons.mp hk' with rfl | hk'
        · rw [i3 _ hna] at hr'
          obtain ⟨r1, st, q1, q2, q3, _, q4⟩ := hput.self
          rw [hr] at q1; cases q1
          rw [q3] at hr'; cases hr'
          simp only [q4.adjusted, q4.frame.1, PlanView.setStartPoint, hfix]
        · exact i2 k' hk' r' hr'
      · intro k' hk'
        simp only [List.mem_cons, not_or] at hk'
        rw [i3 k' hk'.2, hput.other hk'.1]
      · intro k' hk' r' hr' hf'
        rcases List.mem_cons.mp hk' with rfl | hk'
        · rw [hr] at hr'; cases hr'
          rw [i3 _ hna]
          obtain ⟨r1, st, q1, _, q3, rfl⟩ := hput
          rw [hr] at q1; cases q1
          exact ⟨_, st, q3, by simp [Dict.get?_set]⟩
        · exact i4 k' hk' r' (by rwa [hput.other (fun e => hna (e ▸ hk'))]) hf'
    · rename_i hfix
      obtain ⟨i1, i2, i3, i4⟩ := ih h hnd (fun k' hk' r' hr' => hf k' (by simp [hk']) r' hr')
      refine ⟨i1, ?_, fun k' hk' => i3 k' (by simp_all), ?_⟩
      rotate_left
      · intro k' hk' r' hr' hf'
        rcases List.mem_cons.mp hk' with rfl | hk'
        · rw [hr] at hr'; cases hr'
          exact absurd hf' hfix
        · exact i4 k' hk' r' hr' hf'
      intro k' hk' r' hr'
      rcases List.mem_cons.mp hk' with rfl | hk'
      · rw [i3 _ hna, hr] at hr'; cases hr'
        simp only [Bool.not_eq_true] at hfix
        rw [hfk.1, hfix]
      · exact i2 k' hk' r' hr'

theorem adjustFixed_zero (ks : List String) : ∀ {net net' : Net F},
    Net.adjustFixed ks net = .ok 0 net' →
    net' = net ∧ ∀ k ∈ ks, ∀ r, net.roads.get? k = some r → r.planview.fixed = false := by
  induction ks with
  | nil => intro net net' h; obtain ⟨_, rfl⟩ := pure_ok.mp h; simp
  | cons k ks ih =>
    intro net net' h
    unfold Net.adjustFixed at h
    replace h := bind_ok.mp h; obtain ⟨r, s1, h1, h⟩ := h
    replace h1 := road_ok.mp h1; obtain ⟨hr, rfl⟩ := h1
    split at h
    · replace h := bind_ok.mp h; obtain ⟨_, s2, h2, h⟩ := h
      replace h := bind_ok.mp h; obtain ⟨c', s3, h3, h⟩ := h
      have := pure_ok.mp h
      omega
    · rename_i hfix
      obtain ⟨rfl, h2⟩ := ih h
      refine ⟨rfl, fun k' hk' r' hr' => ?_⟩
      rcases List.mem_cons.mp hk' with rfl | hk'
      · rw [hr] at hr'; cases hr'; simpa using hfix
      · exact h2 k' hk' r' hr'

/-- The state after the anchors have been placed. -/
theorem anchors_history {net net' : Net F} {c : Nat} (hn : net.roads.keys.Nodup)
    (hf : Fresh net.roads)
    (h : (do
      let c ← Net.adjustFixed net.roads.keys
      (if c = 0 then do
        let k ← orRaise .indexError net.roads.keys.head?
        Net.adjustPlanview k false
        pure 1
      else pure c) : EStateM PyErr (Net F) Nat) net = .ok c net') :
    AnchorRun net.roads net c net' ∧ 1 ≤ c ∧
    (∀ k r, net'.roads.get? k = some r → (r.planview.adjusted = true ↔ Anchor net.roads k)) ∧
    (∀ k r, Anchor net.roads k → net.roads.get? k = some r → ∃ g st,
      PlanView.adjustGeometries false ⟨r.planview, g⟩ = .ok () st ∧
      net'.roads.get? k = some { r with planview := st.pv }) := by
  replace h := bind_ok.mp h; obtain ⟨c1, s1, h1, h⟩ := h
  obtain ⟨i1, i2, i3, i4⟩ := adjustFixed_history (roads0 := net.roads) _ h1 hn
    (fun k _ r hr => ⟨(hf k r hr).1, hr⟩)
  split at h
  · rename_i hc
    subst hc
    obtain ⟨rfl, hz⟩ := adjustFixed_zero _ h1
    replace hz : ∀ k r, s1.roads.get? k = some r → r.planview.fixed = false :=
      fun k r hr => hz k (Dict.mem_keys_of_get? hr) r hr
    replace h := bind_ok.mp h; obtain ⟨k, s2, h2, h⟩ := h
    replace h2 := orRaise_ok.mp h2; obtain ⟨hk, rfl⟩ := h2
    replace h := bind_ok.mp h; obtain ⟨_, s3, h3, h⟩ := h
    replace h := pure_ok.mp h; obtain ⟨rfl, rfl⟩ := h
    obtain ⟨r, hr⟩ : ∃ r, s2.roads.get? k = some r := by
      rw [← Option.isSome_iff_exists, Dict.get?_isSome]
      exact List.mem_of_head? hk
    have hput := adjustPlanview_put hr (hf k r hr).1 h3
    have hanch : Anchor s2.roads k := .inr ⟨hz, hk⟩
    refine ⟨.anchor (.refl _) hanch hput, le_refl _, ?_, ?_⟩
    rotate_left
    · intro k' r' hk' hr'
      rcases hk' with ⟨r2, q1, q2⟩ | ⟨_, q⟩
      · rw [hz _ _ q1] at q2; simp at q2
      · rw [hk] at q; cases q
        rw [hr] at hr'; cases hr'
        obtain ⟨r1, st, q1, _, q3, rfl⟩ := hput
        rw [hr] at q1; cases q1
        exact ⟨_, st, q3, by simp [Dict.get?_set]⟩
    intro k' r' hr'
    by_cases hkk : k' = k
    · subst hkk
      obtain ⟨r1, st, q1, q2, q3, _, q4⟩ := hput.self
      rw [q3] at hr'; cases hr'
      simp [q4.adjusted, hanch]
    · rw [hput.other hkk] at hr'
      simp only [(hf k' r' hr').1, Bool.false_eq_true, false_iff]
      rintro (⟨r2, q1, q2⟩ | ⟨_, q⟩)
      · rw [hz _ _ q1] at q2; simp at q2
      · rw [hk] at q; exact hkk (by simpa using q.symm)
  · rename_i hc
    replace h := pure_ok.mp h; obtain ⟨rfl, rfl⟩ := h
    have hsome : ∃ k r0, net.roads.get? k = some r0 ∧ r0.planview.fixed = true := by
      by_contra hno
      have hcnt := i1.history.count
      have hsame := i1.history.same
      have h0 : countAdj net'.roads = 0 := by
        rw [countAdj, List.countP_eq_zero]
        intro kv hkv
        have hg := Dict.mem_get? (k := kv.1) (v := kv.2) (by rw [hsame.1]; exact hn) hkv
        have hm : kv.1 ∈ net.roads.keys := by rw [← hsame.1]; exact Dict.mem_keys_of_get? hg
        rw [i2 _ hm _ hg]
        obtain ⟨r0, q1, q2⟩ := hsame.2 _ _ hg
        rw [q2.2.1]
        intro hadj
        exact hno ⟨_, r0, q1, hadj⟩
      omega
    refine ⟨i1, Nat.pos_of_ne_zero hc, ?_, ?_⟩
    rotate_left
    · intro k r hk hr
      rcases hk with ⟨r2, q1, q2⟩ | ⟨q, _⟩
      · rw [hr] at q1; cases q1
        exact i4 k (Dict.mem_keys_of_get? hr) r hr q2
      · obtain ⟨k1, r1, q1, q2⟩ := hsome
        rw [q _ _ q1] at q2; simp at q2
    have hsame := i1.history.same
    have key : ∀ k r, net'.roads.get? k = some r →
        (r.planview.adjusted = true ↔ ∃ r0, net.roads.get? k = some r0 ∧ r0.planview.fixed = true) := by
      intro k r hr
      have hm : k ∈ net.roads.keys := by rw [← hsame.1]; exact Dict.mem_keys_of_get? hr
      rw [i2 k hm r hr]
      obtain ⟨r0, h0, hs⟩ := hsame.2 k r hr
      constructor
      · intro hh; exact ⟨r0, h0, by rw [← hs.2.1]; exact hh⟩
      · rintro ⟨r1, q1, q2⟩
        rw [h0] at q1; cases q1
        rw [hs.2.1]; exact q2
    intro k r hr
    rw [key k r hr]
    constructor
    · exact fun hh => .inl hh
    · rintro (hh | ⟨hh, _⟩)
      · exact hh
      · exfalso
        obtain ⟨k1, r1, q1, q2⟩ := hsome
        rw [hh _ _ q1] at q2; simp at q2

theorem adjustStartpoints_eq (net : Net F) : Net.adjustStartpoints net =
    ((do
      let c ← Net.adjustFixed net.roads.keys
      (if c = 0 then do
        let k ← orRaise .indexError net.roads.keys.head?
        Net.adjustPlanview k false
        pure 1
      else pure c)) >>= fun c => Net.passes net.roads.keys.length c net.roads.keys) net := by
  unfold Net.adjustStartpoints
  rw [bind_of_ok (get_eq _)]
  simp only [bind_assoc]

/-- Every successful run is a history that places all roads. -/
theorem startpoints_history {net net' : Net F} {u : Unit} (hn : net.roads.keys.Nodup)
    (hf : Fresh net.roads) (h : Net.adjustStartpoints net = .ok u net') :
    ∃ m, History net.roads net m net' ∧ net.roads.length ≤ m := by
  rw [adjustStartpoints_eq] at h
  replace h := bind_ok.mp h; obtain ⟨c, s1, h1, h⟩ := h
  obtain ⟨i1, _, _, _⟩ := anchors_history hn hf h1
  obtain ⟨m, hm, hh⟩ := passes_history (roads0 := net.roads) _ _ _ _ rfl h
  exact ⟨c + m, i1.history.trans hh, by simpa [Dict.keys] using hm⟩

omit [PyFloat F] in
theorem countAdj_fresh {d : Dict (Road F)} (hn : d.keys.Nodup) (hf : Fresh d) : countAdj d = 0 := by
  rw [countAdj, List.countP_eq_zero]
  intro kv hkv
  simp [(hf _ _ (Dict.mem_get? (k := kv.1) (v := kv.2) hn hkv)).1]

theorem startpoints_all {net net' : Net F} {u : Unit} (hn : net.roads.keys.Nodup)
    (hf : Fresh net.roads) (h : Net.adjustStartpoints net = .ok u net') {k : String} {r : Road F}
    (hr : net'.roads.get? k = some r) : r.planview.adjusted = true := by
  obtain ⟨m, hh, hm⟩ := startpoints_history hn hf h
  refine countAdj_all ?_ hr
  rw [hh.count, countAdj_fresh hn hf]
  have : net'.roads.length = net.roads.length := by
    simpa [Dict.keys] using congrArg List.length hh.same.1
  omega

/-! ### Where every road comes from -/

/-- The pose at which the end `e` of a road is put, given the pose taken from the neighbour. -/
def attachPose (e : ContactPoint) (d : Int) (p : Pose F) : Pose F :=
  match e with
  | .start => offsetPose true d p
  | .end => { offsetPose false d p with h := (offsetPose false d p).h +. pi }

/-- `k` was attached to `nb` by a declared link. -/
def AttachedTo (roads0 roads : Dict (Road F)) (k nb : String) : Prop :=
  ∃ e e' r n p, PlacedBy roads0 k e nb e' ∧ roads.get? k = some r ∧ roads.get? nb = some n ∧
    r.planview.adjusted = true ∧ n.planview.adjusted = true ∧ neighbourPose n e' = .ok p ∧
    endPose r e = some (attachPose e (offsetAt r e) p)

inductive Grown (roads0 roads : Dict (Road F)) : String → Prop where
  | anchor {k : String} {r r0 : Road F} : Anchor roads0 k → roads.get? k = some r →
      roads0.get? k = some r0 → r.planview.adjusted = true →
      r.planview.start = some r0.planview.present → Grown roads0 roads k
  | step {k nb : String} : AttachedTo roads0 roads k nb → Grown roads0 roads nb →
      Grown roads0 roads k

theorem Grown.mono {roads0 : Dict (Road F)} {net net' : Net F} {k0 : String} {p : Pose F → Pose F}
    {b : Bool} (hp : Put net k0 p b net') {k : String} (h : Grown roads0 net.roads k) :
    Grown roads0 net'.roads k := by
  induction h with
  | anchor h1 h2 h3 h4 h5 => exact .anchor h1 (hp.keep h2 h4) h3 h4 h5
  | step h _ ih =>
    obtain ⟨e, e', r, n, q, h1, h2, h3, h4, h5, h6, h7⟩ := h
    exact .step ⟨e, e', r, n, q, h1, hp.keep h2 h4, hp.keep h3 h5, h4, h5, h6, h7⟩ ih

/-- The state of one road during a run that started with `r0`: untouched, or adjusted by exactly one
call of `adjust_geometries`. -/
def RoadInv (roads0 roads : Dict (Road F)) (k : String) (r0 r : Road F) : Prop :=
  (r = r0 ∧ r.planview.adjusted = false) ∨
    (r.planview.adjusted = true ∧ Grown roads0 roads k ∧ ∃ b p g st,
      PlanView.adjustGeometries b ⟨r0.planview.setStartPoint p, g⟩ = .ok () st ∧
      r = { r0 with planview := st.pv })

theorem Placement.attach {net net' : Net F} {k nb : String} {e e' : ContactPoint} {r : Road F}
    (h : Placement net k e nb e' net') (hr : net.roads.get? k = some r) :
    ∃ r' n p, net'.roads.get? k = some r' ∧ r.same r' ∧ r'.planview.adjusted = true ∧
      net.roads.get? nb = some n ∧ n.planview.adjusted = true ∧
      net'.roads.get? nb = some n ∧ neighbourPose n e' = .ok p ∧
      endPose r' e = some (attachPose e (offsetAt r' e) p) := by
  obtain ⟨r0, n, p, hr0, hn, hna, hp, hput⟩ := h
  rw [hr] at hr0; cases hr0
  obtain ⟨r1, st, q1, q2, q3, _, q4⟩ := hput.self
  rw [hr] at q1; cases q1
  refine ⟨_, n, p, q3, ⟨rfl, q4.frame⟩, q4.adjusted, hn, hna, hput.keep hn hna, hp, ?_⟩
  cases e with
  | start => simpa [endPose, attachPose, PlanView.setStartPoint, offsetAt] using q4.start
  | «end» => simpa [endPose, attachPose, PlanView.setStartPoint, offsetAt] using q4.stop

theorem RoadInv.of_adjusted {roads0 roads : Dict (Road F)} {k : String} {r0 r : Road F}
    (h : RoadInv roads0 roads k r0 r) (ha : r.planview.adjusted = true) :
    Grown roads0 roads k ∧ ∃ b p g st,
      PlanView.adjustGeometries b ⟨r0.planview.setStartPoint p, g⟩ = .ok () st ∧
      r = { r0 with planview := st.pv } := by
  rcases h with ⟨_, h⟩ | h
  · rw [ha] at h; simp at h
  · exact h.2

theorem History.inv {roads0 : Dict (Road F)} {net0 net : Net F} {m : Nat}
    (h : History roads0 net0 m net) (he : roads0 = net0.roads) (hf : Fresh net0.roads) :
    ∀ k r, net.roads.get? k = some r → ∃ r0, roads0.get? k = some r0 ∧
      RoadInv roads0 net.roads k r0 r := by
  have put : ∀ {net1 net2 : Net F} {k0 : String} {p : Pose F → Pose F} {b : Bool},
      Put net1 k0 p b net2 → (∀ k r, net1.roads.get? k = some r → ∃ r0, roads0.get? k = some r0 ∧
        RoadInv roads0 net1.roads k r0 r) →
      Grown roads0 net2.roads k0 →
      (∀ k r, net2.roads.get? k = some r → ∃ r0, roads0.get? k = some r0 ∧
        RoadInv roads0 net2.roads k r0 r) := by
    intro net1 net2 k0 p b hp ih hg k r hr
    by_cases hk : k = k0
    · subst hk
      obtain ⟨r1, st, q1, q2, q5, q6⟩ := hp
      have q3 : net2.roads.get? k = some { r1 with planview := st.pv } := by
        rw [q6]; simp [Dict.get?_set]
      rw [q3] at hr; cases hr
      obtain ⟨r0, i1, i2⟩ := ih _ _ q1
      refine ⟨r0, i1, ?_⟩
      rcases i2 with ⟨i2, _⟩ | ⟨i2, _⟩
      · subst i2
        exact .inr ⟨(adjustGeometries_gen q5).adjusted, hg, b, _, _, st, q5, rfl⟩
      · rw [q2] at i2; simp at i2
    · rw [hp.other hk] at hr
      obtain ⟨r0, i1, i2⟩ := ih _ _ hr
      refine ⟨r0, i1, ?_⟩
      rcases i2 with i2 | ⟨i2, i3, i4⟩
      · exact .inl i2
      · exact .inr ⟨i2, i3.mono hp, i4⟩
  induction h with
  | refl => subst he; exact fun k r hr => ⟨r, hr, .inl ⟨rfl, (hf k r hr).1⟩⟩
  | anchor hh hk hp ih =>

    refine put hp ih ?_
    obtain ⟨r1, st, q1, q2, q3, _, q4⟩ := hp.self
    obtain ⟨r0, i1, i2⟩ := ih _ _ q1
    rcases i2 with ⟨i2, _⟩ | ⟨i2, _⟩
    · subst i2
      exact .anchor hk q3 i1 q4.adjusted (by simpa [PlanView.setStartPoint] using q4.start)
    · rw [q2] at i2; simp at i2
  | place hh hk hp ih =>

    have hhs := hh.same
    obtain ⟨r, _, _, hr, _⟩ := id hp
    obtain ⟨r', n, p, a1, a2, a3, a4, a5, a6, a7, a8⟩ := hp.attach hr
    obtain ⟨_, _, _, _, _, _, _, hput⟩ := hp
    refine put hput ih ?_
    refine .step ⟨_, _, r', n, p, PlacedBy.mono (he ▸ hhs) hk, a1, a6, a3, a5, a7, a8⟩ ?_
    obtain ⟨n0, _, hn⟩ := ih _ _ a4
    exact ((hn.of_adjusted a5).1).mono hput

theorem History.keep {roads0 : Dict (Road F)} {a b : Net F} {m : Nat} (h : History roads0 a m b)
    {k : String} {r : Road F} (hr : a.roads.get? k = some r) (ha : r.planview.adjusted = true) :
    b.roads.get? k = some r := by
  induction h with
  | refl => exact hr
  | anchor _ _ hp ih => exact hp.keep ih ha
  | place _ _ hp ih =>
    obtain ⟨_, _, _, _, _, _, _, hput⟩ := hp
    exact hput.keep ih ha

/-- Anchors are adjusted forward from the pose they had. -/
theorem startpoints_anchor {net net' : Net F} {u : Unit} (hn : net.roads.keys.Nodup)
    (hf : Fresh net.roads) (h : Net.adjustStartpoints net = .ok u net') {k : String} {r : Road F}
    (hk : Anchor net.roads k) (hr : net.roads.get? k = some r) : ∃ g st,
      PlanView.adjustGeometries false ⟨r.planview, g⟩ = .ok () st ∧
      net'.roads.get? k = some { r with planview := st.pv } := by
  rw [adjustStartpoints_eq] at h
  obtain ⟨c, s1, h1, h⟩ := bind_ok.mp h
  obtain ⟨i1, _, _, i4⟩ := anchors_history hn hf h1
  obtain ⟨m, hm, hh⟩ := passes_history (roads0 := net.roads) _ _ _ _ rfl h
  obtain ⟨g, st, q1, q2⟩ := i4 k r hk hr
  exact ⟨g, st, q1, hh.keep q2 (adjustGeometries_gen q1).adjusted⟩

end Pyodrx
