import Verif.Proofs.SharedFixed
import Verif.Props.Network
import Verif.Props.NoLoops

/-! # C73: PlanView objects and the roads that have them -/

namespace Pyodrx.Props
open Pyodrx Spec

section
variable {F : Type} [PyFloat F]

/-- C73: if no two roads have the same PlanView object, `adjust_startpoints` on objects does what it does on roads
with their planviews inside, whether it returns or raises: every theorem about `Net.adjustStartpoints` is one about
the program with PlanView objects. In every arithmetic. -/
theorem C73_own (net : SharedNet F) (hn : net.roads.keys.Nodup) (ho : OwnPlanViews net) :
    (∀ net', SharedNet.adjustStartpoints net = .ok () net' →
      Net.adjustStartpoints (unshared net) = .ok () (unshared net')) ∧
    (∀ e net', SharedNet.adjustStartpoints net = .error e net' →
      Net.adjustStartpoints (unshared net) = .error e (unshared net')) ∧
    (∀ k r net', (SharedNet.adjustStartpoints net = .ok () net' ∨ ∃ e, SharedNet.adjustStartpoints net = .error e net') →
      (net'.roads.get? k = some r ↔ net.roads.get? k = some r)) := by
  have h := same_adjustStartpoints net hn ho
  refine ⟨fun net' e => ?_, fun er net' e => ?_, fun k r net' e => ?_⟩
  · rw [e] at h; exact h.1
  · rw [e] at h; exact h.1
  · rcases e with e | ⟨er, e⟩ <;> rw [e] at h <;> rw [h.2]

/-- C73: if two roads have the same PlanView object, and it has no given start pose, `adjust_startpoints` does not
return, whatever the links and the other roads are. -/
theorem C73_shared (net : SharedNet F) (hn : net.roads.keys.Nodup) (k k' : String) (r r' : RoadObj F)
    (hr : net.roads.get? k = some r) (hr' : net.roads.get? k' = some r') (hne : k ≠ k') (hpv : r.pv = r'.pv)
    (hf : (net.pvs.cell r.pv).fixed = false) : ∃ e net', SharedNet.adjustStartpoints net = .error e net' := by
  cases h : SharedNet.adjustStartpoints net with
  | error e net' => exact ⟨e, net', rfl⟩
  | ok u net' => exact absurd h (shared_stuck hn hr hr' hne hpv hf)

/-- C73 (violated): if the roads of a network have one PlanView object with a given start pose, `adjust_startpoints`
returns, and each road has the geometries as many times as there are roads, one after the other. `st` is what a road
of its own would become, whose geometries are repeated that often. -/
theorem C73_shared_fixed (net : SharedNet F) (hn : net.roads ≠ []) (hk : net.roads.keys.Nodup) (p : Nat)
    (hp : ∀ kv ∈ net.roads, kv.2.pv = p) (hf : (net.pvs.cell p).fixed = true) (hov : (net.pvs.cell p).overridden = [])
    (st : PVState F)
    (hst : PlanView.adjustGeometries false
      ⟨{ net.pvs.cell p with raw := (List.replicate net.roads.length (net.pvs.cell p).raw).flatten }, net.geoms⟩ = .ok () st) :
    ∃ net', SharedNet.adjustStartpoints net = .ok () net' ∧ net'.roads = net.roads ∧
      (net'.pvs.cell p).adjGeoms = st.pv.adjGeoms ∧ (net'.pvs.cell p).presentS = st.pv.presentS ∧
      (net'.pvs.cell p).stop = st.pv.stop ∧ net'.geoms = st.geoms ∧
      st.pv.adjGeoms.length = (net.pvs.cell p).adjGeoms.length + net.roads.length * (net.pvs.cell p).raw.length := by
  let b0 : PVState F := ⟨{ net.pvs.cell p with
    raw := (List.replicate net.roads.length (net.pvs.cell p).raw).flatten, start := some (net.pvs.cell p).present }, net.geoms⟩
  have hgen := adjustGeometries_gen hst
  obtain ⟨b', hb, hb1, hb2, hb3, hb4, hb5⟩ : ∃ b', PlanView.fwdLoop 0 b0.pv.raw b0 = .ok () b' ∧
      st.pv.present = b'.pv.present ∧ st.pv.presentS = b'.pv.presentS ∧ st.pv.adjGeoms = b'.pv.adjGeoms ∧
      st.geoms = b'.geoms ∧ st.pv.stop = some b'.pv.present := by
    unfold PlanView.adjustGeometries at hst
    rw [bind_of_ok (get_eq _)] at hst
    simp only [if_true] at hst
    rw [bind_of_ok (modifyPV_eq _ _)] at hst
    obtain ⟨_, s1, h1, h2⟩ := bind_ok.mp hst
    rw [bind_of_ok (modifyPV_eq _ _), modifyPV_ok] at h2
    subst h2
    exact ⟨s1, h1, rfl, rfl, rfl, rfl, rfl⟩
  have hlen : net.roads.keys.length = net.roads.length := by simp [Dict.keys]
  have hkeys : ∀ k ∈ net.roads.keys, ∃ r, net.roads.get? k = some r ∧ r.pv = p := by
    intro k hk'
    simp only [Dict.keys, List.mem_map] at hk'
    obtain ⟨⟨k1, r⟩, hm, rfl⟩ := hk'
    exact ⟨r, Dict.mem_get? hk hm, hp _ hm⟩
  obtain ⟨net', g1, g2, g3, _, g5⟩ := adjustFixed_shared (p := p) net.roads.keys (net := net) (b := b0) (b' := b') (i := 0) hkeys hf
    ⟨rfl, rfl, rfl, hov, hov, rfl⟩ (by rw [hlen]; exact hb)
  have hne : net.roads.keys ≠ [] := by
    intro e
    rw [e] at hlen
    exact hn (List.length_eq_zero_iff.mp hlen.symm)
  refine ⟨net', ?_, g2, by rw [hb3, g3.2.2.1], by rw [hb2, g3.2.1], ?_, by rw [hb4, g3.2.2.2.2.2], ?_⟩
  · unfold SharedNet.adjustStartpoints
    rw [bind_of_ok (get_eq _), bind_of_ok g1]
    rw [if_neg (by simpa [List.length_eq_zero_iff] using hne), bind_of_ok (pure_eq _ _)]
    unfold SharedNet.passes
    rw [dif_neg (by omega)]
    rfl
  · rw [(g5 hne).2, hb5, g3.1]
  · have := congrArg List.length hgen.refs
    simp only [List.length_map, List.length_append, Bool.false_eq_true, if_false] at this
    rw [this]
    simp [List.length_flatten]

end

/-! ## Examples -/

section
variable {F : Type} [PyFloat F]

/-- A planview of one line (the geometry object `g`), with or without a given start pose. -/
def exPlan (g : Nat) (fixed : Bool) : PlanView F :=
  ⟨⟨PyFloat.ofInt 0, PyFloat.ofInt 0, PyFloat.ofInt 0⟩, PyFloat.ofInt 0, fixed, none, none, [g], [], [], false⟩

/-- Road 2 follows road 1; road `i` has the PlanView object `pv i`. -/
def exShared (pv1 pv2 : Nat) (fixed : Bool) : SharedNet F :=
  ⟨[("1", ⟨Road.new (.int 1) (exPlan 0 false) [] (-1) none none, pv1⟩),
    ("2", ⟨{ Road.new (.int 2) (exPlan 0 false) [] (-1) none none with
      predecessor := some ⟨.predecessor, .int 1, some .road, some .end, none⟩ }, pv2⟩)],
    ⟨fun i => exPlan i fixed, 2⟩, ⟨fun _ => .line ⟨PyFloat.ofInt 10⟩, 2⟩⟩

theorem exShared_nodup (a b : Nat) (x : Bool) : (exShared (F := F) a b x).roads.keys.Nodup := by
  rw [show (exShared (F := F) a b x).roads.keys = ["1", "2"] from rfl]
  decide

theorem exShared_get {a b : Nat} {x : Bool} {k : String} {r : RoadObj F} (h : (exShared a b x).roads.get? k = some r) :
    (k = "1" ∧ r.pv = a) ∨ (k = "2" ∧ r.pv = b) := by
  simp only [exShared, Dict.get?] at h
  repeat' split at h
  all_goals first | (cases h; done) | (cases h; subst_vars; simp)

/-- A road whose PlanView is adjusted is not touched. -/
theorem visit_adjusted {net : SharedNet F} {k : String} {r : RoadObj F} (hr : net.roads.get? k = some r)
    (ha : (net.pvs.cell r.pv).adjusted = true) : SharedNet.visit k net = .ok 0 net := by
  unfold SharedNet.visit
  have h : SharedNet.road k net = .ok (r.read net.pvs) net := by unfold SharedNet.road; rw [hr]
  have : (r.read net.pvs).planview.adjusted = true := ha
  rw [bind_of_ok h, if_pos this]
  rfl

/-- Two roads with one PlanView: the hypotheses of `C73_shared` hold, and the exception is `UndefinedRoadNetwork`. -/
example : (∃ r r', (exShared (F := F) 0 0 false).roads.get? "1" = some r ∧
    (exShared (F := F) 0 0 false).roads.get? "2" = some r' ∧ r.pv = r'.pv ∧
    ((exShared (F := F) 0 0 false).pvs.cell r.pv).fixed = false) ∧
    ∃ net', SharedNet.adjustStartpoints (exShared (F := F) 0 0 false) = .error .undefinedRoadNetwork net' := by
  refine ⟨⟨_, _, rfl, rfl, rfl, rfl⟩, ?_⟩
  obtain ⟨st, hst⟩ : ∃ st : PVState F, PlanView.adjustGeometries false ⟨exPlan 0 false, (exShared 0 0 false).geoms⟩ = .ok () st :=
    ⟨_, rfl⟩
  let net1 : SharedNet F := { exShared 0 0 false with pvs := (exShared 0 0 false).pvs.put 0 st.pv, geoms := st.geoms }
  have hap : SharedNet.adjustPlanview "1" false (exShared (F := F) 0 0 false) = .ok () net1 := by
    unfold SharedNet.adjustPlanview
    rw [show (exShared (F := F) 0 0 false).roads.get? "1" =
      some ⟨Road.new (.int 1) (exPlan 0 false) [] (-1) none none, 0⟩ from rfl]
    simp only
    rw [show (exShared (F := F) 0 0 false).pvs.cell 0 = exPlan 0 false from rfl, hst]
  have hadj : (net1.pvs.cell 0).adjusted = true := by
    simp [net1, Store.put, (adjustGeometries_gen hst).adjusted]
  have v1 : SharedNet.visit "1" net1 = .ok 0 net1 := visit_adjusted (k := "1") (net := net1) rfl hadj
  have v2 : SharedNet.visit "2" net1 = .ok 0 net1 := visit_adjusted (k := "2") (net := net1) rfl hadj
  have hp : SharedNet.pass ["1", "2"] net1 = .ok 0 net1 := by
    simp only [SharedNet.pass, bind_assoc]
    rw [bind_of_ok v1, bind_of_ok v2]
    rfl
  have h0 : SharedNet.adjustFixed ["1", "2"] (exShared (F := F) 0 0 false) = .ok 0 (exShared 0 0 false) := rfl
  have hk : (exShared (F := F) 0 0 false).roads.keys = ["1", "2"] := rfl
  refine ⟨net1, ?_⟩
  unfold SharedNet.adjustStartpoints
  rw [bind_of_ok (get_eq _)]
  simp only [hk]
  rw [bind_of_ok h0, if_pos rfl]
  simp only [bind_assoc]
  rw [List.head?_cons, bind_of_ok (orRaise_some _), bind_of_ok hap, bind_of_ok (pure_eq _ _)]
  unfold SharedNet.passes
  rw [dif_pos (by decide), bind_of_ok hp, dif_pos (by decide)]
  rfl

/-- Two roads with one PlanView of one line of length 10 that has a given start pose: both roads get two lines. -/
example : ∃ net', SharedNet.adjustStartpoints (exShared (F := F) 0 0 true) = .ok () net' ∧
    ∀ kv ∈ net'.roads, (net'.pvs.cell kv.2.pv).adjGeoms.length = 2 := by
  obtain ⟨net', h1, h2, h3, _, _, _, h4⟩ := C73_shared_fixed (exShared (F := F) 0 0 true) (by simp [exShared]) (exShared_nodup _ _ _) 0
    (by simp [exShared]) rfl rfl _ rfl
  refine ⟨net', h1, fun kv hkv => ?_⟩
  rw [h2] at hkv
  have : kv.2.pv = 0 := by revert kv; simp [exShared]
  rw [this, h3, h4]
  rfl

end

/-- `exNet` with PlanView objects. -/
noncomputable def exSharedNet : SharedNet ℝ :=
  ⟨exNet.roads.zipIdx.map fun kv => (kv.1.1, ⟨kv.1.2, kv.2⟩),
    ⟨fun i => ((exNet.roads[i]?).map fun kv => kv.2.planview).getD (exPlan 0 false), 4⟩, exNet.geoms⟩

/-- The hypotheses of `C73_own` hold of it, and `adjust_startpoints` returns. -/
example : exSharedNet.roads.keys.Nodup ∧ OwnPlanViews exSharedNet ∧ unshared exSharedNet = exNet ∧
    ∃ net', SharedNet.adjustStartpoints exSharedNet = .ok () net' := by
  have h1 : exSharedNet.roads.keys.Nodup := by
    rw [show exSharedNet.roads.keys = ["1", "2", "3", "4"] from rfl]
    decide
  have h2 : OwnPlanViews exSharedNet := by
    intro k k' r r' h h' hne
    simp only [exSharedNet, exNet, List.zipIdx_cons, List.zipIdx_nil, List.map_cons, List.map_nil, Dict.get?] at h h'
    repeat' split at h
    all_goals repeat' split at h'
    all_goals first | (cases h; done) | (cases h'; done) | (cases h; cases h'; subst_vars; simp at hne ⊢)
  have h3 : unshared exSharedNet = exNet := rfl
  refine ⟨h1, h2, h3, ?_⟩
  obtain ⟨a', ha⟩ := exNet_placed
  cases h : SharedNet.adjustStartpoints exSharedNet with
  | ok u net' => exact ⟨net', rfl⟩
  | error e net' =>
    have := (C73_own exSharedNet h1 h2).2.1 e net' h
    rw [h3, ha] at this
    cases this

end Pyodrx.Props
