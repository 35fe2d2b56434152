import Verif.Proofs.Shared

/-! # A PlanView adjusted several times from its start -/

namespace Pyodrx
open PyFloat Spec

section
variable {F : Type} [PyFloat F]

/-- The same as far as the forward loop can see, without forced headings. -/
def Agree (a b : PVState F) : Prop :=
  a.pv.present = b.pv.present ∧ a.pv.presentS = b.pv.presentS ∧ a.pv.adjGeoms = b.pv.adjGeoms ∧
    a.pv.overridden = [] ∧ b.pv.overridden = [] ∧ a.geoms = b.geoms

/-- The two programs give the same result on states that agree. -/
def Alike {α : Type} (m m' : EStateM PyErr (PVState F) α) : Prop :=
  ∀ a b, Agree a b → ∀ u a', m a = .ok u a' → ∃ b', m' b = .ok u b' ∧ Agree a' b'

omit [PyFloat F] in
theorem Alike.bind {α β : Type} {m m' : EStateM PyErr (PVState F) α} {f f' : α → EStateM PyErr (PVState F) β}
    (h : Alike m m') (hf : ∀ x, Alike (f x) (f' x)) : Alike (m >>= f) (m' >>= f') := by
  intro a b hab u a' hm
  obtain ⟨x, s, h1, h2⟩ := bind_ok.mp hm
  obtain ⟨s', h3, h4⟩ := h a b hab _ _ h1
  obtain ⟨b', h5, h6⟩ := hf x s s' h4 _ _ h2
  exact ⟨b', by rw [bind_of_ok h3]; exact h5, h6⟩

omit [PyFloat F] in
theorem alike_pure {α : Type} (x : α) : Alike (F := F) (pure x) (pure x) := by
  intro a b h u a' hm
  obtain ⟨rfl, rfl⟩ := pure_ok.mp hm
  exact ⟨b, rfl, h⟩

omit [PyFloat F] in
theorem alike_orRaise {α : Type} (e : PyErr) (o : Option α) : Alike (F := F) (orRaise e o) (orRaise e o) := by
  intro a b h u a' hm
  obtain ⟨rfl, rfl⟩ := orRaise_ok.mp hm
  exact ⟨b, rfl, h⟩

omit [PyFloat F] in
theorem alike_modify {f : PlanView F → PlanView F}
    (hf : ∀ p q : PlanView F, p.present = q.present → p.presentS = q.presentS → p.adjGeoms = q.adjGeoms →
      (f p).present = (f q).present ∧ (f p).presentS = (f q).presentS ∧ (f p).adjGeoms = (f q).adjGeoms ∧
      (f p).overridden = p.overridden ∧ (f q).overridden = q.overridden) : Alike (modifyPV f) (modifyPV f) := by
  rintro a b ⟨h1, h2, h3, h4, h5, h6⟩ u a' hm
  cases hm
  obtain ⟨g1, g2, g3, g4, g5⟩ := hf a.pv b.pv h1 h2 h3
  exact ⟨_, rfl, g1, g2, g3, g4.trans h4, g5.trans h5, h6⟩

theorem alike_callEnd (r : Nat) (p : Pose F) : Alike (callEnd r p) (callEnd r p) := by
  rintro a b ⟨h1, h2, h3, h4, h5, h6⟩ u a' hm
  unfold callEnd at hm ⊢
  rw [← h6]
  split at hm
  · rename_i g hg
    cases hm
    exact ⟨{ b with geoms := a.geoms.put r g }, rfl, h1, h2, h3, h4, h5, rfl⟩
  · cases hm

theorem alike_fwdStep (i j r : Nat) : Alike (F := F) (PlanView.fwdStep i r) (PlanView.fwdStep j r) := by
  rintro a b h u a' hm
  unfold PlanView.fwdStep at hm ⊢
  rw [bind_of_ok (get_eq _)] at hm ⊢
  obtain ⟨h1, h2, h3, h4, h5, h6⟩ := id h
  simp only [h4, h5, List.length_nil, Nat.lt_irrefl, gt_iff_lt, if_false] at hm ⊢
  rw [bind_of_ok (get_eq _)] at hm ⊢
  rw [h1, h2] at hm
  revert a b
  have key : ∀ s p, Alike (F := F) (do
      let g ← AdjGeom.new s p r
      let (p, len) ← callEnd r ⟨g.x, g.y, g.heading⟩
      modifyPV fun pv => { pv with present := p }
      let l ← orRaise .typeError len
      modifyPV fun pv => { pv with presentS := pv.presentS +. l }
      modifyPV fun pv => { pv with adjGeoms := pv.adjGeoms ++ [g] }) (do
      let g ← AdjGeom.new s p r
      let (p, len) ← callEnd r ⟨g.x, g.y, g.heading⟩
      modifyPV fun pv => { pv with present := p }
      let l ← orRaise .typeError len
      modifyPV fun pv => { pv with presentS := pv.presentS +. l }
      modifyPV fun pv => { pv with adjGeoms := pv.adjGeoms ++ [g] }) := by
    intro s p
    refine ((alike_callEnd r p).bind fun _ => alike_pure _).bind fun g => (alike_callEnd r _).bind fun v =>
      (alike_modify ?_).bind fun _ => (alike_orRaise _ _).bind fun l => (alike_modify ?_).bind fun _ => alike_modify ?_
    all_goals intro p q e1 e2 e3; simp [*]
  intro a b h h1 h2 h3 h4 h5 h6 hm
  exact key _ _ a b h u a' hm

theorem alike_fwdLoop (rs : List Nat) : ∀ i j, Alike (F := F) (PlanView.fwdLoop i rs) (PlanView.fwdLoop j rs) := by
  induction rs with
  | nil => intro i j; exact alike_pure _
  | cons r rs ih => intro i j; exact (alike_fwdStep i j r).bind fun _ => ih _ _

theorem fwdLoop_append (rs rs' : List Nat) : ∀ i, PlanView.fwdLoop (F := F) i (rs ++ rs') =
    (do PlanView.fwdLoop i rs; PlanView.fwdLoop (i + rs.length) rs') := by
  induction rs with
  | nil => intro i; simp [PlanView.fwdLoop]
  | cons r rs ih =>
    intro i
    simp only [List.cons_append, PlanView.fwdLoop, ih, bind_assoc, List.length_cons]
    congr 1
    funext _
    congr 1
    funext _
    rw [Nat.add_assoc, Nat.add_comm 1]

/-- One adjustment, on a state that agrees. -/
theorem adjust_agree {a b b' : PVState F} {u : Unit} {i : Nat} (h : Agree b a)
    (hb : PlanView.fwdLoop i a.pv.raw b = .ok u b') : ∃ a', PlanView.adjustGeometries false a = .ok () a' ∧
      Agree b' a' ∧ a'.pv.raw = a.pv.raw ∧ a'.pv.fixed = a.pv.fixed ∧ a'.pv.adjusted = true ∧
      a'.pv.stop = some b'.pv.present := by
  let a1 : PVState F := { a with pv := { a.pv with start := some a.pv.present } }
  obtain ⟨a2, h1, h2⟩ := alike_fwdLoop a.pv.raw i 0 b a1 h _ _ hb
  obtain ⟨hf, _⟩ := fwdLoop_gen _ h1
  refine ⟨{ a2 with pv := { a2.pv with stop := some a2.pv.present, adjusted := true } }, ?_, h2, hf.2.1, hf.1, rfl, ?_⟩
  · unfold PlanView.adjustGeometries
    rw [bind_of_ok (get_eq _)]
    simp only [if_true]
    rw [bind_of_ok (modifyPV_eq _ _), bind_of_ok h1, bind_of_ok (modifyPV_eq _ _)]
    rfl
  · simp [h2.1]

theorem adjustFixed_shared {p : Nat} (ks : List String) : ∀ {net : SharedNet F} {b b' : PVState F} {i : Nat} {u : Unit},
    (∀ k ∈ ks, ∃ r, net.roads.get? k = some r ∧ r.pv = p) → (net.pvs.cell p).fixed = true →
    Agree b ⟨net.pvs.cell p, net.geoms⟩ →
    PlanView.fwdLoop i (List.replicate ks.length (net.pvs.cell p).raw).flatten b = .ok u b' →
    ∃ net', SharedNet.adjustFixed ks net = .ok ks.length net' ∧ net'.roads = net.roads ∧
      Agree b' ⟨net'.pvs.cell p, net'.geoms⟩ ∧ (∀ j, j ≠ p → net'.pvs.cell j = net.pvs.cell j) ∧
      (ks ≠ [] → (net'.pvs.cell p).adjusted = true ∧ (net'.pvs.cell p).stop = some (net'.pvs.cell p).present) := by
  induction ks with
  | nil =>
    intro net b b' i u hk hf ha hb
    obtain ⟨_, rfl⟩ := pure_ok.mp hb
    exact ⟨net, rfl, rfl, ha, fun _ _ => rfl, by simp⟩
  | cons k ks ih =>
    intro net b b' i u hk hf ha hb
    obtain ⟨r, hr, rfl⟩ := hk k (by simp)
    rw [List.length_cons, List.replicate_succ, List.flatten_cons, fwdLoop_append] at hb
    obtain ⟨_, b1, hb1, hb2⟩ := bind_ok.mp hb
    obtain ⟨a1, h1, h2, h3, h4, h5, h6⟩ := adjust_agree (a := ⟨net.pvs.cell r.pv, net.geoms⟩) ha hb1
    let net1 : SharedNet F := { net with pvs := net.pvs.put r.pv a1.pv, geoms := a1.geoms }
    have hc : net1.pvs.cell r.pv = a1.pv := by simp [net1, Store.put]
    have hap : SharedNet.adjustPlanview k false net = .ok () net1 := by
      unfold SharedNet.adjustPlanview
      rw [hr]
      simp only [h1]
      rfl
    have h3' : a1.pv.raw = (net.pvs.cell r.pv).raw := h3
    have h4' : a1.pv.fixed = (net.pvs.cell r.pv).fixed := h4
    obtain ⟨net2, g1, g2, g3, g4, g5⟩ := ih (net := net1) (b := b1) (b' := b') (i := i + (net.pvs.cell r.pv).raw.length) (u := u)
      (fun k' hk' => hk k' (by simp [hk'])) (by rw [hc, h4']; exact hf) (by rw [hc]; exact h2) (by rw [hc, h3']; exact hb2)
    refine ⟨net2, ?_, g2, g3, fun j hj => (g4 j hj).trans (by simp [net1, Store.put, Store.modify, hj]), fun _ => ?_⟩
    · unfold SharedNet.adjustFixed
      have hroad : SharedNet.road k net = .ok (r.read net.pvs) net := by unfold SharedNet.road; rw [hr]
      rw [bind_of_ok hroad]
      have : (r.read net.pvs).planview.fixed = true := hf
      rw [if_pos this, bind_of_ok hap, bind_of_ok g1]
      rfl
    · by_cases he : ks = []
      · subst he
        obtain ⟨_, rfl⟩ := pure_ok.mp g1
        obtain ⟨_, rfl⟩ := pure_ok.mp hb2
        rw [hc]
        exact ⟨h5, by rw [h6, h2.1]⟩
      · exact g5 he

end

end Pyodrx
