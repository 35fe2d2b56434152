import Verif.Props.EmitGeometry
import Verif.Props.Network
import Verif.Props.Generators

/-! # Following `adjust_startpoints` step by step on networks whose roads are all laid out forward -/

namespace Pyodrx.Props
open Pyodrx Spec

/-- A planview with the pieces `pcs`, after it was adjusted forward from `p`. -/
noncomputable def laid (pv : PlanView ℝ) (pcs : List Piece) (p : Pose ℝ) : PlanView ℝ :=
  { pv with present := finish p pcs, presentS := totalLen pcs, start := some p
            stop := some (finish p pcs), adjGeoms := layout 0 p pcs, adjusted := true }

/-- The pieces of each road of a network. -/
structure Plans (net0 : Net ℝ) (pcs : String → List Piece) : Prop where
  fresh : ∀ k r, net0.roads.get? k = some r → FreshPlan r.planview ((pcs k).map (·.ref))
  describes : ∀ k r, net0.roads.get? k = some r → Describes net0.geoms (pcs k)
  free : ∀ k r, net0.roads.get? k = some r → ∀ pc ∈ pcs k, pc.heading = none

/-- A road of which it is known where it was placed, if at all. -/
noncomputable def placedRoad (pcs : String → List Piece) (pos : String → Option (Pose ℝ))
    (k : String) (r : Road ℝ) : Road ℝ :=
  match pos k with
  | none => r
  | some p => { r with planview := laid r.planview (pcs k) p }

/-- The network `net` is `net0` with the roads placed as `pos` says. -/
structure Laid (net0 : Net ℝ) (pcs : String → List Piece) (pos : String → Option (Pose ℝ))
    (net : Net ℝ) : Prop where
  keys : net.roads.keys = net0.roads.keys
  shapes : SameShapes net0.geoms net.geoms
  elements : SameElements net0.geoms net.geoms
  roads : ∀ k r, net0.roads.get? k = some r → net.roads.get? k = some (placedRoad pcs pos k r)

theorem adjust_laid {pv : PlanView ℝ} {pcs : List Piece} (hf : FreshPlan pv (pcs.map (·.ref)))
    {geoms : Store (Geom ℝ)} (hd : Describes geoms pcs) (hh : ∀ pc ∈ pcs, pc.heading = none)
    (p : Pose ℝ) : ∃ g', PlanView.adjustGeometries false ⟨pv.setStartPoint p, geoms⟩ =
      .ok () ⟨laid pv pcs p, g'⟩ ∧ SameShapes geoms g' ∧ SameElements geoms g' := by
  obtain ⟨g', h6, hs, _⟩ := adjust_forward_real (pv.setStartPoint p) pcs geoms hf.raw hd (by
    intro j hj
    left
    exact ⟨hf.headings, hh _ (List.getElem_mem hj)⟩)
  have hk := Keeps.adjustGeometries false ⟨pv.setStartPoint p, geoms⟩
  rw [h6] at hk
  refine ⟨g', ?_, hs, hk⟩
  rw [h6]
  obtain ⟨-, h1, h2⟩ := hf.unadjusted
  simp [laid, PlanView.setStartPoint, h1, h2]

section
variable {net0 net : Net ℝ} {pcs : String → List Piece} {pos : String → Option (Pose ℝ)}

theorem Laid.describes (hL : Laid net0 pcs pos net) (hP : Plans net0 pcs) {k : String} {r : Road ℝ}
    (hr : net0.roads.get? k = some r) : Describes net.geoms (pcs k) := by
  intro pc hpc
  rw [hL.shapes pc.ref]
  exact hP.describes k r hr pc hpc

/-- placing one more road -/
theorem Laid.put (hL : Laid net0 pcs pos net) {k : String} {r : Road ℝ}
    (hr : net0.roads.get? k = some r) (hk : pos k = none) (p : Pose ℝ) {g' : Store (Geom ℝ)}
    (hs : SameShapes net.geoms g') (he : SameElements net.geoms g') :
    Laid net0 pcs (Function.update pos k (some p))
      ⟨net.roads.set k { r with planview := laid r.planview (pcs k) p }, g'⟩ := by
  have hmem : k ∈ net.roads.keys := by rw [hL.keys]; exact Dict.mem_keys_of_get? hr
  refine ⟨?_, hL.shapes.trans hs, fun j => (he j).trans (hL.elements j), ?_⟩
  · dsimp only
    rw [Dict.keys_set_of_mem _ _ _ hmem, hL.keys]
  · intro k' r' hr'
    dsimp only
    rw [Dict.get?_set]
    by_cases h : k = k'
    · subst h
      rw [hr] at hr'; cases hr'
      simp [placedRoad]
    · rw [if_neg h, hL.roads k' r' hr']
      simp [placedRoad, Function.update_of_ne (Ne.symm h)]

/-- `adjust_geometries` on a road that stands at the origin -/
theorem Laid.adjustPlanview (hL : Laid net0 pcs pos net) (hP : Plans net0 pcs) {k : String}
    {r : Road ℝ} (hr : net0.roads.get? k = some r) (hk : pos k = none) :
    ∃ net', Net.adjustPlanview k false net = .ok () net' ∧
      Laid net0 pcs (Function.update pos k (some ⟨0, 0, 0⟩)) net' := by
  have hf := hP.fresh k r hr
  obtain ⟨g', h1, h2, h3⟩ := adjust_laid hf (hL.describes hP hr) (hP.free k r hr) ⟨0, 0, 0⟩
  rw [setStart_fresh hf] at h1
  refine ⟨_, ?_, hL.put hr hk ⟨0, 0, 0⟩ h2 h3⟩
  have hn := hL.roads k r hr
  simp only [placedRoad, hk] at hn
  unfold Net.adjustPlanview
  simp only [hn, h1]

/-- The pose at an end of a placed road, looking away from the road. -/
noncomputable def exitOf (pcs : String → List Piece) (nb : String) (q : Pose ℝ) :
    ContactPoint → Pose ℝ
  | .start => turned q
  | .end => finish q (pcs nb)

/-- placing a road at its predecessor -/
theorem Laid.adjustWrt (hL : Laid net0 pcs pos net) (hP : Plans net0 pcs) {road nb : PyId}
    {r n : Road ℝ} (hr : net0.roads.get? road.toStr = some r) (hk : pos road.toStr = none)
    (hn : net0.roads.get? nb.toStr = some n) {q : Pose ℝ} (hq : pos nb.toStr = some q)
    (hz : r.laneOffsetPred = 0) (e : ContactPoint) :
    ∃ net', Net.adjustRoadWrtNeighbour road nb (some e) true net = .ok () net' ∧
      Laid net0 pcs (Function.update pos road.toStr (some (exitOf pcs nb.toStr q e))) net' := by
  have hf := hP.fresh _ r hr
  obtain ⟨g', h1, h2, h3⟩ := adjust_laid hf (hL.describes hP hr) (hP.free _ r hr)
    (exitOf pcs nb.toStr q e)
  refine ⟨_, ?_, hL.put hr hk _ h2 h3⟩
  have hr' := hL.roads _ r hr
  simp only [placedRoad, hk] at hr'
  have hn' := hL.roads _ n hn
  simp only [placedRoad, hq] at hn'
  unfold Net.adjustRoadWrtNeighbour
  rw [bind_of_ok (Pyodrx.road_ok.mpr ⟨hr', rfl⟩), bind_of_ok (orRaise_some _),
    bind_of_ok (Pyodrx.road_ok.mpr ⟨hn', rfl⟩)]
  have hnp : neighbourPose { n with planview := laid n.planview (pcs nb.toStr) q } e =
      .ok (exitOf pcs nb.toStr q e) := by
    cases e <;> simp [neighbourPose, laid, exitOf, turned]
  rw [hnp, bind_of_ok (liftExcept_of_ok _)]
  simp only [if_true, hz]
  have ho : offsetPose true 0 (exitOf pcs nb.toStr q e) = exitOf pcs nb.toStr q e := by
    simp [offsetPose]
  rw [ho]
  have hset : Net.setStartPoint road.toStr (exitOf pcs nb.toStr q e) net = .ok () 
      ⟨net.roads.set road.toStr
        { r with planview := r.planview.setStartPoint (exitOf pcs nb.toStr q e) }, net.geoms⟩ := by
    unfold Net.setStartPoint
    simp only [hr']
  rw [bind_of_ok hset]
  unfold Net.adjustPlanview
  simp only [Dict.get?_set, if_true, Bool.not_true, h1]
  congr 2
  exact (Dict.set_set _ _ _ _).trans (by rw [hz])

theorem Laid.isAdjusted (hL : Laid net0 pcs pos net) (hP : Plans net0 pcs) {k : String} {r : Road ℝ}
    (hr : net0.roads.get? k = some r) :
    ∃ r', net.roads.get? k = some r' ∧ r'.planview.adjusted = (pos k).isSome ∧
      r' = { r with planview := r'.planview } := by
  refine ⟨_, hL.roads k r hr, ?_, ?_⟩ <;> unfold placedRoad <;> cases pos k
  · simpa using (hP.fresh k r hr).unadjusted.1
  · rfl
  · rfl
  · rfl

/-- visiting a road that has been placed -/
theorem Laid.visit_placed (hL : Laid net0 pcs pos net) (hP : Plans net0 pcs) {k : String}
    {r : Road ℝ} (hr : net0.roads.get? k = some r) (hk : (pos k).isSome) :
    Net.visit k net = .ok 0 net := by
  obtain ⟨r', h1, h2, h3⟩ := hL.isAdjusted hP hr
  unfold Net.visit
  rw [bind_of_ok (Pyodrx.road_ok.mpr ⟨h1, rfl⟩), h2, hk]
  rfl

/-- visiting an arm of a junction that has not been placed -/
theorem Laid.visit_arm (hL : Laid net0 pcs pos net) (hP : Plans net0 pcs) {k : String}
    {r : Road ℝ} (hr : net0.roads.get? k = some r) (l : Link) (hp : r.predecessor = some l)
    (ht : l.elementType = some .junction) (hl : l.elementId.toStr ∈ net0.roads.keys)
    (hs : r.successor = none) : Net.visit k net = .ok 0 net := by
  obtain ⟨r', h1, h2, h3⟩ := hL.isAdjusted hP hr
  have e1 : r'.predecessor = some l := by rw [h3]; exact hp
  have e2 : r'.successor = none := by rw [h3]; exact hs
  rw [← Dict.get?_isSome, Option.isSome_iff_exists] at hl
  obtain ⟨t, ht'⟩ := hl
  obtain ⟨t', q1, -, -⟩ := hL.isAdjusted hP ht'
  unfold Net.visit
  rw [bind_of_ok (Pyodrx.road_ok.mpr ⟨h1, rfl⟩)]
  split
  · rfl
  · have u1 : Net.usable r'.predecessor net = .ok false net :=
      usable_ok.mpr ⟨rfl, .inr ⟨l, t', e1, q1, by simp [ht]⟩⟩
    have u2 : Net.usable r'.successor net = .ok false net := usable_ok.mpr ⟨rfl, .inl ⟨e2, rfl⟩⟩
    rw [bind_of_ok u1]
    simp only
    rw [bind_of_ok u2]
    rfl

/-- visiting a connecting road between a placed road and another one -/
theorem Laid.visit_conn (hL : Laid net0 pcs pos net) (hP : Plans net0 pcs) {c : String}
    {r a b : Road ℝ} (hr : net0.roads.get? c = some r) (hc : pos c = none) (hrt : r.roadType ≠ -1)
    {p s : Link} (hp : r.predecessor = some p) (hs : r.successor = some s)
    (hpt : p.elementType = some .road) {e : ContactPoint} (hpc : p.contactPoint = some e)
    (hsc : s.contactPoint = some .start)
    (ha : net0.roads.get? p.elementId.toStr = some a) {q : Pose ℝ}
    (hq : pos p.elementId.toStr = some q)
    (hb : net0.roads.get? s.elementId.toStr = some b) (hne : s.elementId.toStr ≠ c)
    (hz : r.laneOffsetPred = 0) (hzb : b.laneOffsetPred = 0) :
    (pos s.elementId.toStr = none → ∃ net', Net.visit c net = .ok 2 net' ∧
      Laid net0 pcs (Function.update (Function.update pos c
          (some (exitOf pcs p.elementId.toStr q e))) s.elementId.toStr
          (some (finish (exitOf pcs p.elementId.toStr q e) (pcs c)))) net') ∧
    ((pos s.elementId.toStr).isSome → ∃ net', Net.visit c net = .ok 1 net' ∧
      Laid net0 pcs (Function.update pos c (some (exitOf pcs p.elementId.toStr q e))) net') := by
  obtain ⟨r', h1, h2, h3⟩ := hL.isAdjusted hP hr
  obtain ⟨a', q1, q2, -⟩ := hL.isAdjusted hP ha
  have hstr : (PyId.str c).toStr = c := rfl
  obtain ⟨net1, m1, m2⟩ := hL.adjustWrt hP (road := .str c) (nb := p.elementId) hr hc ha hq hz e
  rw [hstr] at m2
  obtain ⟨b', q3, q4, -⟩ := m2.isAdjusted hP hb
  rw [Function.update_of_ne hne] at q4
  have e1 : r'.predecessor = some p := by rw [h3]; exact hp
  have e2 : r'.successor = some s := by rw [h3]; exact hs
  have e3 : r'.roadType ≠ -1 := by rw [h3]; exact hrt
  have u1 : Net.usable r'.predecessor net = .ok true net :=
    usable_ok.mpr ⟨rfl, .inr ⟨p, a', e1, q1, by simp [q2, hq, hpt]⟩⟩
  have u2 : Net.danglingOther r'.roadType r'.successor net1 =
      .ok (!(pos s.elementId.toStr).isSome) net1 :=
    dangling_ok.mpr ⟨rfl, .inr ⟨s, b', e3, e2, q3, by rw [q4]⟩⟩
  have start : ∀ {x}, (Net.danglingOther r'.roadType r'.successor >>= fun other =>
        match other, r'.successor with
        | true, some s => do
          Net.adjustRoadWrtNeighbour s.elementId (.str c) (some .end) (s.contactPoint = some .start)
          pure 2
        | _, _ => pure 1) net1 = x → Net.visit c net = x := by
    intro x hx
    unfold Net.visit
    rw [bind_of_ok (Pyodrx.road_ok.mpr ⟨h1, rfl⟩), if_neg (by simp [h2, hc]), bind_of_ok u1, e1]
    simp only
    rw [hpc, bind_of_ok m1]
    exact hx
  constructor
  · intro hsn
    rw [hsn] at u2
    obtain ⟨net2, n1, n2⟩ := m2.adjustWrt hP (road := s.elementId) (nb := .str c) hb
      (by rw [Function.update_of_ne hne]; exact hsn) hr (q := exitOf pcs p.elementId.toStr q e)
      (by simp [hstr]) hzb .end
    refine ⟨net2, start ?_, n2⟩
    rw [bind_of_ok u2, e2]
    simp only [Option.isSome_none, Bool.not_false, hsc, decide_true]
    rw [bind_of_ok n1]
    rfl
  · intro hss
    rw [hss] at u2
    refine ⟨net1, start ?_, m2⟩
    rw [bind_of_ok u2]
    rfl

/-- visiting a normal road that follows a placed road -/
theorem Laid.visit_pred (hL : Laid net0 pcs pos net) (hP : Plans net0 pcs) {k : String} {r n : Road ℝ}
    (hr : net0.roads.get? k = some r) (hk : pos k = none) (hrt : r.roadType = -1) {p : Link}
    (hp : r.predecessor = some p) (hpt : p.elementType = some .road) {e : ContactPoint} (hpc : p.contactPoint = some e)
    (hn : net0.roads.get? p.elementId.toStr = some n) {q : Pose ℝ} (hq : pos p.elementId.toStr = some q)
    (hz : r.laneOffsetPred = 0) : ∃ net', Net.visit k net = .ok 1 net' ∧
      Laid net0 pcs (Function.update pos k (some (exitOf pcs p.elementId.toStr q e))) net' := by
  obtain ⟨r', h1, h2, h3⟩ := hL.isAdjusted hP hr
  obtain ⟨a', q1, q2, -⟩ := hL.isAdjusted hP hn
  obtain ⟨net1, m1, m2⟩ := hL.adjustWrt hP (road := .str k) (nb := p.elementId) hr hk hn hq hz e
  have e1 : r'.predecessor = some p := by rw [h3]; exact hp
  have e3 : r'.roadType = -1 := by rw [h3]; exact hrt
  have u1 : Net.usable r'.predecessor net = .ok true net :=
    usable_ok.mpr ⟨rfl, .inr ⟨p, a', e1, q1, by simp [q2, hq, hpt]⟩⟩
  refine ⟨net1, ?_, m2⟩
  unfold Net.visit
  rw [bind_of_ok (Pyodrx.road_ok.mpr ⟨h1, rfl⟩), if_neg (by simp [h2, hk]), bind_of_ok u1, e1]
  simp only
  rw [hpc, bind_of_ok m1]
  have u2 : Net.danglingOther r'.roadType r'.successor net1 = .ok false net1 :=
    dangling_ok.mpr ⟨rfl, .inl ⟨.inl e3, rfl⟩⟩
  rw [bind_of_ok u2]
  rfl

/-- Road `c` is a connecting road that begins at the end `e` of road `a` and ends at the start of road
`b`, both in the network. -/
def ConnIn (net0 : Net ℝ) (c a : String) (e : ContactPoint) (b : String) : Prop :=
  ∃ r ra rb p s, net0.roads.get? c = some r ∧ r.roadType ≠ -1 ∧ r.predecessor = some p ∧
    r.successor = some s ∧ p.elementType = some .road ∧ p.contactPoint = some e ∧
    s.contactPoint = some .start ∧ p.elementId.toStr = a ∧ s.elementId.toStr = b ∧
    r.laneOffsetPred = 0 ∧ net0.roads.get? a = some ra ∧ net0.roads.get? b = some rb ∧
    rb.laneOffsetPred = 0

theorem Laid.visit_connIn (hL : Laid net0 pcs pos net) (hP : Plans net0 pcs) {c a b : String}
    {e : ContactPoint} (h : ConnIn net0 c a e b) (hc : pos c = none) {q : Pose ℝ}
    (hq : pos a = some q) (hne : b ≠ c) :
    (pos b = none → ∃ net', Net.visit c net = .ok 2 net' ∧
      Laid net0 pcs (Function.update (Function.update pos c (some (exitOf pcs a q e))) b
          (some (finish (exitOf pcs a q e) (pcs c)))) net') ∧
    ((pos b).isSome → ∃ net', Net.visit c net = .ok 1 net' ∧
      Laid net0 pcs (Function.update pos c (some (exitOf pcs a q e))) net') := by
  obtain ⟨r, ra, rb, p, s, h1, h2, h3, h4, h5, h6, h7, rfl, rfl, h8, h9, h10, h11⟩ := h
  exact hL.visit_conn hP h1 hc h2 h3 h4 h5 h6 h7 h9 hq h10 hne h8 h11

/-- The connecting roads that begin at the placed road `a`: each places the road at its other end. -/
theorem pass_from (hP : Plans net0 pcs) (a : String) (e : ContactPoint) (q : Pose ℝ) :
    ∀ (L : List (String × String)) (net : Net ℝ) (pos : String → Option (Pose ℝ)),
    Laid net0 pcs pos net → pos a = some q → (∀ x ∈ L, ConnIn net0 x.1 a e x.2) →
    (L.flatMap fun x => [x.1, x.2]).Nodup → (∀ x ∈ L, pos x.1 = none ∧ pos x.2 = none) →
    ∃ net' pos', Net.pass (L.map (·.1)) net = .ok (2 * L.length) net' ∧ Laid net0 pcs pos' net' ∧
      (∀ x ∈ L, pos' x.1 = some (exitOf pcs a q e) ∧
        pos' x.2 = some (finish (exitOf pcs a q e) (pcs x.1))) ∧
      (∀ k, k ∉ L.flatMap (fun x => [x.1, x.2]) → pos' k = pos k) := by
  intro L
  induction L with
  | nil => intro net pos hL _ _ _ _; exact ⟨net, pos, rfl, hL, by simp, by simp⟩
  | cons x L ih =>
    intro net pos hL ha hc hnd hnone
    obtain ⟨c, b⟩ := x
    simp only [List.flatMap_cons, List.cons_append, List.nil_append, List.nodup_cons,
      List.mem_cons, not_or] at hnd
    obtain ⟨⟨hcb, hcL⟩, hbL, hnd⟩ := hnd
    have h0 := hnone (c, b) (by simp)
    dsimp only at h0
    obtain ⟨net1, v1, l1⟩ := (hL.visit_connIn hP (hc (c, b) (by simp)) h0.1 ha (Ne.symm hcb)).1 h0.2
    have hac : a ≠ c := by rintro rfl; rw [ha] at h0; simp at h0
    have hab : a ≠ b := by rintro rfl; rw [ha] at h0; simp at h0
    have hmem : ∀ y ∈ L, y.1 ∈ L.flatMap (fun x => [x.1, x.2]) ∧ y.2 ∈ L.flatMap (fun x => [x.1, x.2]) :=
      fun y hy => ⟨List.mem_flatMap.mpr ⟨y, hy, by simp⟩, List.mem_flatMap.mpr ⟨y, hy, by simp⟩⟩
    obtain ⟨net', pos', p1, p2, p3, p4⟩ := ih net1 _ l1
      (by rw [Function.update_of_ne hab, Function.update_of_ne hac]; exact ha)
      (fun y hy => hc y (by simp [hy])) hnd (fun y hy => by
        have hm := hmem y hy
        have := hnone y (by simp [hy])
        refine ⟨?_, ?_⟩
        · have n1 : y.1 ≠ b := by intro h; rw [h] at hm; exact hbL hm.1
          have n2 : y.1 ≠ c := by intro h; rw [h] at hm; exact hcL hm.1
          rw [Function.update_of_ne n1, Function.update_of_ne n2]; exact this.1
        · have n1 : y.2 ≠ b := by intro h; rw [h] at hm; exact hbL hm.2
          have n2 : y.2 ≠ c := by intro h; rw [h] at hm; exact hcL hm.2
          rw [Function.update_of_ne n1, Function.update_of_ne n2]; exact this.2)
    refine ⟨net', pos', ?_, p2, ?_, ?_⟩
    · simp only [List.map_cons, Net.pass, List.length_cons]
      rw [bind_of_ok v1, bind_of_ok p1]
      rw [pure_eq]; congr 1; omega
    · intro y hy
      rcases List.mem_cons.mp hy with rfl | hy
      · rw [p4 c hcL, p4 b hbL, Function.update_of_ne hcb]
        simp
      · exact p3 y hy
    · intro k hk
      simp only [List.flatMap_cons, List.cons_append, List.nil_append, List.mem_cons, not_or] at hk
      rw [p4 k hk.2.2, Function.update_of_ne hk.2.1, Function.update_of_ne hk.1]

/-- The connecting roads between placed roads. -/
theorem pass_between (hP : Plans net0 pcs) :
    ∀ (L : List (String × String × ContactPoint × String)) (net : Net ℝ)
      (pos : String → Option (Pose ℝ)),
    Laid net0 pcs pos net → (∀ x ∈ L, ConnIn net0 x.1 x.2.1 x.2.2.1 x.2.2.2) →
    (L.map (·.1)).Nodup → (∀ x ∈ L, pos x.1 = none ∧ (pos x.2.1).isSome ∧ (pos x.2.2.2).isSome) →
    ∃ net' pos', Net.pass (L.map (·.1)) net = .ok L.length net' ∧ Laid net0 pcs pos' net' ∧
      (∀ x ∈ L, ∃ q, pos x.2.1 = some q ∧ pos' x.1 = some (exitOf pcs x.2.1 q x.2.2.1)) ∧
      (∀ k, k ∉ L.map (·.1) → pos' k = pos k) := by
  intro L
  induction L with
  | nil => intro net pos hL _ _ _; exact ⟨net, pos, rfl, hL, by simp, by simp⟩
  | cons x L ih =>
    intro net pos hL hc hnd hpos
    obtain ⟨c, a, e, b⟩ := x
    simp only [List.map_cons, List.nodup_cons] at hnd
    obtain ⟨h1, h2, h3⟩ := hpos (c, a, e, b) (by simp)
    dsimp only at h1 h2 h3
    obtain ⟨q, hq⟩ := Option.isSome_iff_exists.mp h2
    have keep : ∀ {k}, (pos k).isSome → ∀ v, Function.update pos c v k = pos k := by
      intro k hk v
      rw [Function.update_of_ne]
      rintro rfl; rw [h1] at hk; simp at hk
    obtain ⟨net1, v1, l1⟩ := (hL.visit_connIn hP (hc (c, a, e, b) (by simp)) h1 hq
      (show b ≠ c by intro h; rw [h, h1] at h3; simp at h3)).2 h3
    obtain ⟨net', pos', p1, p2, p3, p4⟩ := ih net1 _ l1 (fun y hy => hc y (by simp [hy])) hnd.2
      (fun y hy => by
        obtain ⟨g1, g2, g3⟩ := hpos y (by simp [hy])
        refine ⟨?_, ?_, ?_⟩
        · rw [Function.update_of_ne, g1]
          rintro rfl; exact hnd.1 (List.mem_map.mpr ⟨y, hy, rfl⟩)
        · rw [keep g2]; exact g2
        · rw [keep g3]; exact g3)
    refine ⟨net', pos', ?_, p2, ?_, ?_⟩
    · simp only [List.map_cons, Net.pass, List.length_cons]
      rw [bind_of_ok v1, bind_of_ok p1]
      rw [pure_eq]; congr 1; omega
    · intro y hy
      rcases List.mem_cons.mp hy with rfl | hy
      · refine ⟨q, hq, ?_⟩
        rw [p4 c hnd.1]; simp
      · obtain ⟨q', e1, e2⟩ := p3 y hy
        obtain ⟨-, g2, -⟩ := hpos y (by simp [hy])
        rw [keep g2] at e1
        exact ⟨q', e1, e2⟩
    · intro k hk
      simp only [List.map_cons, List.mem_cons, not_or] at hk
      rw [p4 k hk.2, Function.update_of_ne hk.1]

theorem pass_idle (ks : List String) (h : ∀ k ∈ ks, Net.visit k net = .ok 0 net) :
    Net.pass ks net = .ok 0 net := by
  induction ks with
  | nil => rfl
  | cons k ks ih =>
    simp only [Net.pass]
    rw [bind_of_ok (h k (by simp)), bind_of_ok (ih fun x hx => h x (by simp [hx]))]
    rfl

theorem pass_append (ks ls : List String) {net1 net2 : Net ℝ} {m n : Nat}
    (h1 : Net.pass ks net = .ok m net1) (h2 : Net.pass ls net1 = .ok n net2) :
    Net.pass (ks ++ ls) net = .ok (m + n) net2 := by
  induction ks generalizing net m with
  | nil => cases h1; simpa using h2
  | cons k ks ih =>
    simp only [Net.pass] at h1
    obtain ⟨c, s1, e1, h1⟩ := bind_ok.mp h1
    obtain ⟨cs, s2, e2, h1⟩ := bind_ok.mp h1
    obtain ⟨rfl, rfl⟩ := pure_ok.mp h1
    simp only [List.cons_append, Net.pass]
    rw [bind_of_ok e1, bind_of_ok (ih e2), pure_eq]
    congr 1; omega

/-- If all roads are placed by one pass, that is the result. -/
theorem startpoints_one_pass {k0 : String} {net1 net2 : Net ℝ} {c : Nat}
    (hn : net.roads.keys.head? = some k0)
    (hno : ∀ k r, net.roads.get? k = some r → r.planview.fixed = false)
    (h1 : Net.adjustPlanview k0 false net = .ok () net1)
    (h2 : Net.pass net.roads.keys net1 = .ok c net2) (hc : 1 + c = net.roads.keys.length)
    (h0 : 0 < c) :
    Net.adjustStartpoints net = .ok () net2 := by
  have hfix : ∀ ks : List String, (∀ k ∈ ks, k ∈ net.roads.keys) →
      Net.adjustFixed ks net = .ok 0 net := by
    intro ks
    induction ks with
    | nil => intro _; rfl
    | cons k ks ih =>
      intro hk
      have hm := hk k (by simp)
      rw [← Dict.get?_isSome, Option.isSome_iff_exists] at hm
      obtain ⟨r, hr⟩ := hm
      simp only [Net.adjustFixed]
      rw [bind_of_ok (Pyodrx.road_ok.mpr ⟨hr, rfl⟩), if_neg (by simp [hno k r hr])]
      exact ih fun x hx => hk x (by simp [hx])
  unfold Net.adjustStartpoints
  rw [bind_of_ok (get_eq _)]
  rw [bind_of_ok (hfix _ fun k hk => hk)]
  simp only [if_true]
  have h3 : (orRaise PyErr.indexError net.roads.keys.head? >>= fun k =>
      Net.adjustPlanview k false >>= fun _ => (pure 1 : EStateM PyErr (Net ℝ) Nat)) net =
      .ok 1 net1 := by
    rw [hn, bind_of_ok (orRaise_some _), bind_of_ok h1]
    rfl
  rw [bind_of_ok h3]
  rw [Net.passes, dif_pos (by omega), bind_of_ok h2, dif_neg (by omega), Net.passes, dif_neg (by omega)]
  rfl

end

end Pyodrx.Props
