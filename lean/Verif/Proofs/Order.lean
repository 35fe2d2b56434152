import Verif.Spec.Order
import Verif.Proofs.NoLoops

/-! # The order in which roads are placed: `adjust_geometries` only touches the geometries of its own planview -/

namespace Pyodrx
open PyFloat Spec

variable {F : Type} [PyFloat F] {α β : Type}

omit [PyFloat F] in
/-- The program `m` reads and writes no geometry objects besides `S`. -/
def Local (S : Nat → Prop) (m : EStateM PyErr (PVState F) α) : Prop :=
  ∀ st a st', m st = .ok a st' → (∀ j, ¬ S j → st'.geoms.cell j = st.geoms.cell j) ∧ st'.geoms.next = st.geoms.next ∧
    ∀ st2 : PVState F, st2.pv = st.pv → (∀ j, S j → st2.geoms.cell j = st.geoms.cell j) →
      ∃ st2', m st2 = .ok a st2' ∧ st2'.pv = st'.pv ∧ ∀ j, S j → st2'.geoms.cell j = st'.geoms.cell j

omit [PyFloat F] in
theorem Local.bind {S : Nat → Prop} {m : EStateM PyErr (PVState F) α} {f : α → EStateM PyErr (PVState F) β}
    (hm : Local S m) (hf : ∀ a, Local S (f a)) : Local S (m >>= f) := by
  intro st b st' h
  obtain ⟨a, s1, h1, h2⟩ := bind_ok.mp h
  obtain ⟨m1, m2, m3⟩ := hm _ _ _ h1
  obtain ⟨f1, f2, f3⟩ := hf a _ _ _ h2
  refine ⟨fun j hj => (f1 j hj).trans (m1 j hj), f2.trans m2, fun st2 hp hg => ?_⟩
  obtain ⟨s2, q1, q2, q3⟩ := m3 st2 hp hg
  obtain ⟨s3, w1, w2, w3⟩ := f3 s2 q2 q3
  exact ⟨s3, by rw [bind_of_ok q1]; exact w1, w2, w3⟩

omit [PyFloat F] in
theorem Local.pure {S : Nat → Prop} (a : α) : Local S (Pure.pure a : EStateM PyErr (PVState F) α) := by
  intro st b st' h
  obtain ⟨rfl, rfl⟩ := pure_ok.mp h
  exact ⟨fun _ _ => rfl, rfl, fun st2 hp hg => ⟨st2, rfl, hp, hg⟩⟩

omit [PyFloat F] in
theorem Local.orRaise {S : Nat → Prop} (e : PyErr) (o : Option α) :
    Local S (Pyodrx.orRaise e o : EStateM PyErr (PVState F) α) := by
  intro st b st' h
  obtain ⟨rfl, rfl⟩ := orRaise_ok.mp h
  exact ⟨fun _ _ => rfl, rfl, fun st2 hp hg => ⟨st2, rfl, hp, hg⟩⟩

omit [PyFloat F] in
theorem Local.modifyPV {S : Nat → Prop} (f : PlanView F → PlanView F) : Local S (Pyodrx.modifyPV f) := by
  intro st b st' h
  cases h
  exact ⟨fun _ _ => rfl, rfl, fun st2 hp hg => ⟨_, rfl, by rw [hp], hg⟩⟩

omit [PyFloat F] in
theorem Local.get {S : Nat → Prop} {f : PVState F → EStateM PyErr (PVState F) α} (hf : ∀ st, Local S (f st))
    (hp : ∀ st st2, st2.pv = st.pv → f st2 = f st) : Local S (MonadState.get >>= f) := by
  intro st b st' h
  rw [bind_of_ok (get_eq st)] at h
  obtain ⟨f1, f2, f3⟩ := hf _ _ _ _ h
  refine ⟨f1, f2, fun st2 h1 h2 => ?_⟩
  obtain ⟨s2, q1, q2⟩ := f3 st2 h1 h2
  exact ⟨s2, by rw [bind_of_ok (get_eq st2), hp st st2 h1]; exact q1, q2⟩

theorem Local.callEnd {S : Nat → Prop} {r : Nat} (hr : S r) (p : Pose F) : Local S (Pyodrx.callEnd r p) := by
  intro st a st' h
  unfold Pyodrx.callEnd at h
  split at h
  · rename_i v g hg
    cases h
    refine ⟨fun j hj => ?_, rfl, fun st2 h1 h2 => ?_⟩
    · have : j ≠ r := fun e => hj (e ▸ hr)
      simp [Store.put, Store.modify, this]
    · refine ⟨⟨st2.pv, st2.geoms.put r g⟩, ?_, h1, fun j hj => ?_⟩
      · unfold Pyodrx.callEnd
        rw [h2 r hr, hg]
      · simp only [Store.put, Store.modify]
        split
        · rfl
        · exact h2 j hj
  · simp at h

theorem Local.callStart {S : Nat → Prop} {r : Nat} (hr : S r) (p : Pose F) : Local S (Pyodrx.callStart r p) := by
  intro st a st' h
  unfold Pyodrx.callStart at h
  split at h
  · rename_i v g hg
    cases h
    refine ⟨fun j hj => ?_, rfl, fun st2 h1 h2 => ?_⟩
    · have : j ≠ r := fun e => hj (e ▸ hr)
      simp [Store.put, Store.modify, this]
    · refine ⟨⟨st2.pv, st2.geoms.put r g⟩, ?_, h1, fun j hj => ?_⟩
      · unfold Pyodrx.callStart
        rw [h2 r hr, hg]
      · simp only [Store.put, Store.modify]
        split
        · rfl
        · exact h2 j hj
  · simp at h

theorem Local.adjGeom {S : Nat → Prop} {r : Nat} (hr : S r) (s : F) (p : Pose F) : Local S (AdjGeom.new s p r) :=
  (Local.callEnd hr p).bind fun _ => .pure _

theorem Local.fwdStep {S : Nat → Prop} {r : Nat} (hr : S r) (i : Nat) :
    Local S (PlanView.fwdStep i r : EStateM PyErr (PVState F) Unit) := by
  have rest : Local S (do
      let st ← MonadState.get
      let g ← AdjGeom.new st.pv.presentS st.pv.present r
      let (p, len) ← Pyodrx.callEnd r ⟨g.x, g.y, g.heading⟩
      Pyodrx.modifyPV fun pv => { pv with present := p }
      let l ← Pyodrx.orRaise .typeError len
      Pyodrx.modifyPV fun pv => { pv with presentS := pv.presentS +. l }
      Pyodrx.modifyPV fun pv => { pv with adjGeoms := pv.adjGeoms ++ [g] } : EStateM PyErr (PVState F) Unit) := by
    refine .get (fun st => ?_) (fun st st2 h => by rw [h])
    exact (Local.adjGeom hr _ _).bind fun g => (Local.callEnd hr _).bind fun v => (Local.modifyPV _).bind fun _ =>
      (Local.orRaise _ _).bind fun l => (Local.modifyPV _).bind fun _ => Local.modifyPV _
  unfold PlanView.fwdStep
  refine .get (fun st => ?_) (fun st st2 h => by rw [h])
  split
  · exact (Local.orRaise _ _).bind fun h => (Local.modifyPV _).bind fun _ => rest
  · exact rest

theorem Local.fwdLoop {S : Nat → Prop} (rs : List Nat) : ∀ (_ : ∀ r ∈ rs, S r) (i : Nat),
    Local S (PlanView.fwdLoop i rs : EStateM PyErr (PVState F) Unit) := by
  induction rs with
  | nil => intro _ i; exact Local.pure _
  | cons r rs ih =>
    intro h i
    exact (Local.fwdStep (h r (by simp)) i).bind fun _ => ih (fun r hr => h r (by simp [hr])) _

theorem Local.bwdStep {S : Nat → Prop} {r : Nat} (hr : S r) :
    Local S (PlanView.bwdStep r : EStateM PyErr (PVState F) (Option F)) := by
  unfold PlanView.bwdStep
  refine .get (fun st => ?_) (fun st st2 h => by rw [h])
  exact (Local.adjGeom hr _ _).bind fun g => (Local.callStart hr _).bind fun v => (Local.modifyPV _).bind fun _ => .pure _

theorem Local.bwdLoop {S : Nat → Prop} (rs : List Nat) : ∀ (_ : ∀ r ∈ rs, S r),
    Local S (PlanView.bwdLoop rs : EStateM PyErr (PVState F) (List (Option F))) := by
  induction rs with
  | nil => intro _; exact Local.pure _
  | cons r rs ih =>
    intro h
    exact (Local.bwdStep (h r (by simp))).bind fun _ => (ih (fun r hr => h r (by simp [hr]))).bind fun _ => .pure _

theorem Local.sLoop {S : Nat → Prop} (ls : List F) : Local S (PlanView.sLoop ls : EStateM PyErr (PVState F) Unit) := by
  induction ls with
  | nil => exact Local.pure _
  | cons l ls ih => exact (Local.modifyPV _).bind fun _ => (Local.modifyPV _).bind fun _ => ih

/-- `adjust_geometries` reads and writes the geometries of the planview only. -/
theorem adjust_local {S : Nat → Prop} {b : Bool} {st st' : PVState F} {u : Unit}
    (h : PlanView.adjustGeometries b st = .ok u st') (hr : ∀ g ∈ st.pv.raw, S g) :
    (∀ j, ¬ S j → st'.geoms.cell j = st.geoms.cell j) ∧ st'.geoms.next = st.geoms.next ∧
    ∀ st2 : PVState F, st2.pv = st.pv → (∀ j, S j → st2.geoms.cell j = st.geoms.cell j) →
      ∃ st2', PlanView.adjustGeometries b st2 = .ok u st2' ∧ st2'.pv = st'.pv ∧
        ∀ j, S j → st2'.geoms.cell j = st'.geoms.cell j := by
  have body : Local S (do
      if b = false then
        Pyodrx.modifyPV fun pv => { pv with start := some pv.present }
        PlanView.fwdLoop 0 st.pv.raw
        Pyodrx.modifyPV fun pv => { pv with stop := some pv.present }
      else
        Pyodrx.modifyPV fun pv => { pv with stop := some { pv.present with h := pv.present.h +. pi } }
        let lengths ← PlanView.bwdLoop st.pv.raw.reverse
        Pyodrx.modifyPV fun pv => { pv with start := some { pv.present with h := pv.present.h +. pi } }
        let ls ← Pyodrx.orRaise .typeError (allSome lengths)
        Pyodrx.modifyPV fun pv => { pv with presentS := ofInt 0 }
        PlanView.sLoop ls
      Pyodrx.modifyPV fun pv => { pv with adjusted := true } : EStateM PyErr (PVState F) Unit) := by
    split
    · exact ((Local.modifyPV _).bind fun _ => (Local.fwdLoop _ hr 0).bind fun _ => (Local.modifyPV _).bind fun _ =>
        Local.modifyPV _)
    · exact (Local.modifyPV _).bind fun _ => (Local.bwdLoop _ (by simpa using hr)).bind fun _ =>
        (Local.modifyPV _).bind fun _ => (Local.orRaise _ _).bind fun _ => (Local.modifyPV _).bind fun _ =>
        (Local.sLoop _).bind fun _ => Local.modifyPV _
  obtain ⟨h1, h2, h3⟩ := body st u st' h
  refine ⟨h1, h2, fun st2 q1 q2 => ?_⟩
  obtain ⟨s2, w1, w2⟩ := h3 st2 q1 q2
  refine ⟨s2, ?_, w2⟩
  unfold PlanView.adjustGeometries
  rw [bind_of_ok (get_eq st2), q1]
  exact w1

/-! ### Roads with geometries of their own -/

/-- Road `k` was adjusted once, from pose `p`, with the geometry objects the network started with. -/
def Outcome (net0 net : Net F) (k : String) (p : Pose F) (b : Bool) : Prop :=
  ∃ r0 st, net0.roads.get? k = some r0 ∧
    PlanView.adjustGeometries b ⟨r0.planview.setStartPoint p, net0.geoms⟩ = .ok () st ∧
    net.roads.get? k = some { r0 with planview := st.pv } ∧ ∀ g ∈ r0.planview.raw, net.geoms.cell g = st.geoms.cell g

/-- Road `k` was placed as an anchor. -/
def ByAnchor (net0 net : Net F) (k : String) : Prop :=
  Anchor net0.roads k ∧ ∃ r0, net0.roads.get? k = some r0 ∧ Outcome net0 net k r0.planview.present false

/-- Road `k` was placed through a joint. -/
def ByJoint (net0 net : Net F) (k : String) (e : ContactPoint) (nb : String) (e' : ContactPoint) : Prop :=
  PlacedBy net0.roads k e nb e' ∧ ∃ r0 n q, net0.roads.get? k = some r0 ∧ net.roads.get? nb = some n ∧
    n.planview.adjusted = true ∧ neighbourPose n e' = .ok q ∧
    Outcome net0 net k (offsetPose (e = .start) (offsetAt r0 e) q) (!(e = .start : Bool))

/-- Nothing was done with road `k`. -/
def Untouched (net0 net : Net F) (k : String) : Prop :=
  ∃ r0, net0.roads.get? k = some r0 ∧ net.roads.get? k = some r0 ∧ r0.planview.adjusted = false ∧
    ∀ g ∈ r0.planview.raw, net.geoms.cell g = net0.geoms.cell g

theorem Put.outcome {net0 net net' : Net F} {k : String} {p : Pose F → Pose F} {b : Bool}
    (h : Put net k p b net') (hu : Untouched net0 net k) : ∃ r0, net0.roads.get? k = some r0 ∧
      net.roads.get? k = some r0 ∧ Outcome net0 net' k (p r0.planview.present) b ∧
      (∀ j, j ∉ r0.planview.raw → net'.geoms.cell j = net.geoms.cell j) ∧ net'.geoms.next = net.geoms.next := by
  obtain ⟨r0, u1, u2, u3, u4⟩ := hu
  obtain ⟨r, st, h1, h2, h3, rfl⟩ := h
  rw [u2] at h1; cases h1
  obtain ⟨l1, l2, l3⟩ := adjust_local (S := fun j => j ∈ r0.planview.raw) h3 (fun g hg => hg)
  obtain ⟨st2, q1, q2, q3⟩ := l3 ⟨r0.planview.setStartPoint (p r0.planview.present), net0.geoms⟩ rfl
    (fun j hj => (u4 j hj).symm)
  refine ⟨r0, u1, u2, ⟨r0, st2, u1, q1, ?_, fun g hg => (q3 g hg).symm⟩, l1, l2⟩
  simp [Dict.get?_set, q2]

theorem Outcome.adjusted {net0 net : Net F} {k : String} {p : Pose F} {b : Bool} (h : Outcome net0 net k p b) :
    ∃ r, net.roads.get? k = some r ∧ r.planview.adjusted = true := by
  obtain ⟨r0, st, h1, h2, h3, h4⟩ := h
  exact ⟨_, h3, (adjustGeometries_gen h2).adjusted⟩

theorem Outcome.keep {net0 net net' : Net F} (hp : Private net0.roads) {k k' : String} {p : Pose F → Pose F} {b : Bool}
    (h : Put net k p b net') (hu : Untouched net0 net k) {p' : Pose F} {b' : Bool} (ho : Outcome net0 net k' p' b') :
    Outcome net0 net' k' p' b' := by
  obtain ⟨r, a1, a2⟩ := ho.adjusted
  obtain ⟨r0, st, h1, h2, h3, h4⟩ := ho
  have hk : k' ≠ k := by
    rintro rfl
    obtain ⟨r1, st1, i1, i2, _⟩ := h
    rw [i1] at a1; cases a1
    rw [a2] at i2; simp at i2
  obtain ⟨r1, i1, i2, i3, i4, i5⟩ := h.outcome hu
  refine ⟨r0, st, h1, h2, by rw [h.other hk, h3], fun g hg => ?_⟩
  rw [i4 g (fun hg' => hp k' k r0 r1 h1 i1 hk g hg hg'), h4 g hg]

theorem Untouched.keep {net0 net net' : Net F} (hp : Private net0.roads) {k k' : String} {p : Pose F → Pose F} {b : Bool}
    (h : Put net k p b net') (hu : Untouched net0 net k) (hk : k' ≠ k) (ho : Untouched net0 net k') :
    Untouched net0 net' k' := by
  obtain ⟨r0, h1, h2, h3, h4⟩ := ho
  obtain ⟨r1, i1, i2, i3, i4, i5⟩ := h.outcome hu
  refine ⟨r0, h1, by rw [h.other hk, h2], h3, fun g hg => ?_⟩
  rw [i4 g (fun hg' => hp k' k r0 r1 h1 i1 hk g hg hg'), h4 g hg]

theorem ByAnchor.keep {net0 net net' : Net F} (hp : Private net0.roads) {k k' : String} {p : Pose F → Pose F} {b : Bool}
    (h : Put net k p b net') (hu : Untouched net0 net k) (ho : ByAnchor net0 net k') : ByAnchor net0 net' k' := by
  obtain ⟨h1, r0, h2, h3⟩ := ho
  exact ⟨h1, r0, h2, h3.keep hp h hu⟩

theorem ByJoint.keep {net0 net net' : Net F} (hp : Private net0.roads) {k k' nb : String} {e e' : ContactPoint}
    {p : Pose F → Pose F} {b : Bool} (h : Put net k p b net') (hu : Untouched net0 net k)
    (ho : ByJoint net0 net k' e nb e') : ByJoint net0 net' k' e nb e' := by
  obtain ⟨h1, r0, n, q, h2, h3, h4, h5, h6⟩ := ho
  exact ⟨h1, r0, n, q, h2, h.keep h3 h4, h4, h5, h6.keep hp h hu⟩

theorem Rooted.mono {A A' : String → Prop} {S S' : String → ContactPoint → String → ContactPoint → Prop} {k : String}
    (h : Rooted A S k) (hA : ∀ k, A k → A' k) (hS : ∀ k e nb e', S k e nb e' → S' k e nb e') : Rooted A' S' k := by
  induction h with
  | anchor h => exact .anchor (hA _ h)
  | step h _ ih => exact .step (hS _ _ _ _ h) ih

/-- The state of a run: every road is as it was, or placed and joined to an anchor. -/
structure Ordered (net0 net : Net F) : Prop where
  keys : net.roads.keys = net0.roads.keys
  road : ∀ k ∈ net0.roads.keys, Untouched net0 net k ∨ Rooted (ByAnchor net0 net) (ByJoint net0 net) k
  cells : ∀ j, (∀ k r, net0.roads.get? k = some r → j ∉ r.planview.raw) → net.geoms.cell j = net0.geoms.cell j
  next : net.geoms.next = net0.geoms.next

theorem Rooted.adjusted {net0 net : Net F} {k : String} (h : Rooted (ByAnchor net0 net) (ByJoint net0 net) k) :
    ∃ r, net.roads.get? k = some r ∧ r.planview.adjusted = true := by
  cases h with
  | anchor h => obtain ⟨_, _, _, h⟩ := h; exact h.adjusted
  | step h _ => obtain ⟨_, _, _, _, _, _, _, _, h⟩ := h; exact h.adjusted

theorem Ordered.untouched {net0 net : Net F} (h : Ordered net0 net) {k : String} {r : Road F}
    (hr : net.roads.get? k = some r) (ha : r.planview.adjusted = false) : Untouched net0 net k := by
  rcases h.road k (by rw [← h.keys]; exact Dict.mem_keys_of_get? hr) with h | h
  · exact h
  · obtain ⟨r', h1, h2⟩ := h.adjusted
    rw [hr] at h1; cases h1
    rw [ha] at h2; simp at h2

theorem Ordered.rooted {net0 net : Net F} (h : Ordered net0 net) {k : String} {r : Road F}
    (hr : net.roads.get? k = some r) (ha : r.planview.adjusted = true) :
    Rooted (ByAnchor net0 net) (ByJoint net0 net) k := by
  rcases h.road k (by rw [← h.keys]; exact Dict.mem_keys_of_get? hr) with h | h
  · obtain ⟨r0, _, h1, h2, _⟩ := h
    rw [hr] at h1; cases h1
    rw [ha] at h2; simp at h2
  · exact h

theorem Ordered.put {net0 net net' : Net F} (hp : Private net0.roads) (ho : Ordered net0 net) {k : String}
    {p : Pose F → Pose F} {b : Bool} (h : Put net k p b net') (hu : Untouched net0 net k)
    (hk : Rooted (ByAnchor net0 net') (ByJoint net0 net') k) : Ordered net0 net' := by
  obtain ⟨r1, i1, i2, i3, i4, i5⟩ := h.outcome hu
  refine ⟨h.keys.trans ho.keys, fun k' hk' => ?_, fun j hj => ?_, i5.trans ho.next⟩
  · by_cases e : k' = k
    · subst e; exact .inr hk
    · rcases ho.road k' hk' with q | q
      · exact .inl (Untouched.keep hp h hu e q)
      · exact .inr (q.mono (fun _ hh => hh.keep hp h hu) (fun _ _ _ _ hh => hh.keep hp h hu))
  · rw [i4 j (hj k r1 i1), ho.cells j hj]

theorem Ordered.init {net : Net F} (hf : Fresh net.roads) : Ordered net net := by
  refine ⟨rfl, fun k hk => .inl ?_, fun _ _ => rfl, rfl⟩
  rw [← Dict.get?_isSome, Option.isSome_iff_exists] at hk
  obtain ⟨r, hr⟩ := hk
  exact ⟨r, hr, hr, (hf k r hr).1, fun _ _ => rfl⟩

theorem AnchorRun.ordered {net0 net net' : Net F} {m : Nat} (hp : Private net0.roads)
    (h : AnchorRun net0.roads net m net') (h0 : Ordered net0 net)
    (ha : ∀ k r, net.roads.get? k = some r → r.planview.adjusted = true → ByAnchor net0 net k) :
    Ordered net0 net' ∧ ∀ k r, net'.roads.get? k = some r → r.planview.adjusted = true → ByAnchor net0 net' k := by
  induction h with
  | refl => exact ⟨h0, ha⟩
  | @anchor _ _ _ k0 _ hk hput ih =>
    obtain ⟨i1, i2⟩ := ih
    obtain ⟨r, st, q1, q2, _⟩ := id hput
    have hu := i1.untouched q1 q2
    obtain ⟨r0, j1, j2, j3, _⟩ := hput.outcome hu
    have hby : ByAnchor net0 _ _ := ⟨hk, r0, j1, j3⟩
    refine ⟨i1.put hp hput hu (.anchor hby), fun k' r' hr' ha' => ?_⟩
    by_cases e : k' = k0
    · subst e; exact hby
    · rw [hput.other e] at hr'
      exact (i2 k' r' hr' ha').keep hp hput hu

theorem History.ordered {net0 net net' : Net F} {m : Nat} (hp : Private net0.roads)
    (h : History net0.roads net m net') (h0 : Ordered net0 net) (hs0 : SameNet net0.roads net.roads) :
    Ordered net0 net' ∧ ∀ k, ByAnchor net0 net k → ByAnchor net0 net' k := by
  induction h with
  | refl => exact ⟨h0, fun _ h => h⟩
  | anchor _ hk hput ih =>
    obtain ⟨i1, i2⟩ := ih
    obtain ⟨r, st, q1, q2, _⟩ := id hput
    have hu := i1.untouched q1 q2
    obtain ⟨r0, j1, j2, j3, _⟩ := hput.outcome hu
    have hby : ByAnchor net0 _ _ := ⟨hk, r0, j1, j3⟩
    exact ⟨i1.put hp hput hu (.anchor hby), fun k' hk' => (i2 k' hk').keep hp hput hu⟩
  | place hh hk hpl ih =>
    obtain ⟨i1, i2⟩ := ih
    obtain ⟨r, n, q, a1, a2, a3, a4, hput⟩ := hpl
    obtain ⟨r', st, q1, q2, _⟩ := id hput
    have hu := i1.untouched q1 q2
    obtain ⟨r0, j1, j2, j3, _⟩ := hput.outcome hu
    rw [a1] at j2; cases j2
    have hby : ByJoint net0 _ _ _ _ _ := ⟨PlacedBy.mono (hs0.trans hh.same) hk, r, n, q, j1, hput.keep a2 a3, a3, a4, j3⟩
    have hnb := (i1.rooted a2 a3).mono (fun _ h => h.keep hp hput hu) (fun _ _ _ _ h => h.keep hp hput hu)
    exact ⟨i1.put hp hput hu (.step hby hnb), fun k' hk' => (i2 k' hk').keep hp hput hu⟩

/-- After a normal return every road is placed with the geometries the network started with. -/
theorem startpoints_ordered {net net' : Net F} {u : Unit} (hn : net.roads.keys.Nodup) (hf : Fresh net.roads)
    (hp : Private net.roads) (h : Net.adjustStartpoints net = .ok u net') :
    Ordered net net' ∧ (∀ k ∈ net.roads.keys, Rooted (ByAnchor net net') (ByJoint net net') k) ∧
    ∀ k ∈ net.roads.keys, Anchor net.roads k → ByAnchor net net' k := by
  have hall := fun k r => startpoints_all hn hf h (k := k) (r := r)
  rw [adjustStartpoints_eq] at h
  obtain ⟨c, s1, h1, h⟩ := bind_ok.mp h
  obtain ⟨i1, _, i3, _⟩ := anchors_history hn hf h1
  obtain ⟨m, hm, hh⟩ := passes_history (roads0 := net.roads) _ _ _ _ rfl h
  obtain ⟨o1, o2⟩ := i1.ordered hp (.init hf) (fun k r hr ha => by rw [(hf k r hr).1] at ha; simp at ha)
  obtain ⟨w1, w2⟩ := hh.ordered hp o1 i1.history.same
  have get : ∀ {n : Net F}, Ordered net n → ∀ k ∈ net.roads.keys, ∃ r, n.roads.get? k = some r := by
    intro n hn k hk
    rwa [← hn.keys, ← Dict.get?_isSome, Option.isSome_iff_exists] at hk
  refine ⟨w1, fun k hk => ?_, fun k hk ha => ?_⟩
  · obtain ⟨r, hr⟩ := get w1 k hk
    exact w1.rooted hr (hall k r hr)
  · obtain ⟨r, hr⟩ := get o1 k hk
    exact w2 k (o2 k r hr ((i3 k r hr).mpr ha))

/-! ### Two orders -/

theorem Outcome.eq {a b a' b' : Net F} (hg : a.geoms = b.geoms) {k : String} {r0 : Road F}
    (ha : a.roads.get? k = some r0) (hb : b.roads.get? k = some r0) {p : Pose F} {d : Bool}
    (h : Outcome a a' k p d) (h' : Outcome b b' k p d) :
    a'.roads.get? k = b'.roads.get? k ∧ ∀ g ∈ r0.planview.raw, a'.geoms.cell g = b'.geoms.cell g := by
  obtain ⟨r1, st, q1, q2, q3, q4⟩ := h
  obtain ⟨r2, st2, w1, w2, w3, w4⟩ := h'
  rw [ha] at q1; cases q1
  rw [hb] at w1; cases w1
  rw [← hg, q2] at w2
  cases w2
  exact ⟨by rw [q3, w3], fun g hg => by rw [q4 g hg, w4 g hg]⟩

omit [PyFloat F] in
theorem PlacedBy.congr {a b : Dict (Road F)} (h : ∀ k, a.get? k = b.get? k) {k nb : String} {e e' : ContactPoint}
    (hp : PlacedBy a k e nb e') : PlacedBy b k e nb e' := by
  cases hp with
  | pred hr hl ht hc => exact .pred (by rw [← h]; exact hr) hl ht hc
  | succ hr hl ht hc => exact .succ (by rw [← h]; exact hr) hl ht hc
  | connPred hr ht hl => exact .connPred (by rw [← h]; exact hr) ht hl
  | connSucc hr ht hl => exact .connSucc (by rw [← h]; exact hr) ht hl

theorem Dict.mem_keys_congr {α : Type} {a b : Dict α} (h : ∀ k, a.get? k = b.get? k) (k : String) :
    k ∈ a.keys ↔ k ∈ b.keys := by
  rw [← Dict.get?_isSome, ← Dict.get?_isSome, h]

/-- Two networks with the same roads and anchors and no loops are placed alike. -/
theorem order_irrelevant {a b a' b' : Net F} (hna : a.roads.keys.Nodup) (hnb : b.roads.keys.Nodup)
    (hfa : Fresh a.roads) (hpa : Private a.roads) (hl : NoLoops a.roads)
    (hget : ∀ k, a.roads.get? k = b.roads.get? k) (hgeoms : a.geoms = b.geoms)
    (hanchor : ∀ k, Anchor a.roads k ↔ Anchor b.roads k)
    (ha : Net.adjustStartpoints a = .ok () a') (hb : Net.adjustStartpoints b = .ok () b') :
    (∀ k, a'.roads.get? k = b'.roads.get? k) ∧ a'.geoms = b'.geoms := by
  have hfb : Fresh b.roads := fun k r hr => hfa k r (by rw [hget]; exact hr)
  have hpb : Private b.roads := fun k k' r r' hr hr' => hpa k k' r r' (by rw [hget]; exact hr) (by rw [hget]; exact hr')
  obtain ⟨oa, ra, aa⟩ := startpoints_ordered hna hfa hpa ha
  obtain ⟨ob, rb, ab⟩ := startpoints_ordered hnb hfb hpb hb
  have hkeys := Dict.mem_keys_congr hget
  obtain ⟨ja, pa⟩ := exists_placing (roads0 := a.roads) (fun k h => h.1) ra
  obtain ⟨jb, pb⟩ := exists_placing (roads0 := a.roads) (A := ByAnchor b b') (S := ByJoint b b')
    (fun k h => (hanchor k).mpr h.1) (fun k hk => rb k ((hkeys k).mp hk))
  have huniq := pa.unique pb (fun h => h.1) (fun h => PlacedBy.congr (fun k => (hget k).symm) h.1) hl
  obtain ⟨d, hd⟩ := pa.depth
  have key : ∀ n k, d k = n → k ∈ a.roads.keys → a'.roads.get? k = b'.roads.get? k ∧
      ∀ r0, a.roads.get? k = some r0 → ∀ g ∈ r0.planview.raw, a'.geoms.cell g = b'.geoms.cell g := by
    intro n
    induction n using Nat.strong_induction_on with
    | _ n ih =>
      intro k hdk hk
      by_cases hanch : Anchor a.roads k
      · obtain ⟨_, r0, h1, h2⟩ := aa k hk hanch
        obtain ⟨_, r1, h3, h4⟩ := ab k ((hkeys k).mp hk) ((hanchor k).mp hanch)
        have h5 := hget k
        rw [h1, h3] at h5
        cases h5
        obtain ⟨e1, e2⟩ := h2.eq hgeoms h1 h3 h4
        exact ⟨e1, fun r hr => by rw [h1] at hr; cases hr; exact e2⟩
      · have sa := pa.step k hk hanch
        have sb := pb.step k hk hanch
        rw [← huniq k hk hanch] at sb
        obtain ⟨_, r0, n1, q1, x1, x2, x3, x4, x5⟩ := sa
        obtain ⟨_, r1, n2, q2, y1, y2, y3, y4, y5⟩ := sb
        have h5 := hget k
        rw [x1, y1] at h5
        cases h5
        have hnb : (ja k).2.1 ∈ a.roads.keys := by rw [← oa.keys]; exact Dict.mem_keys_of_get? x2
        have := (ih _ (by rw [← hdk]; exact hd k hk hanch) _ rfl hnb).1
        rw [x2, y2] at this
        cases this
        rw [x4] at y4
        cases y4
        obtain ⟨e1, e2⟩ := x5.eq hgeoms x1 y1 y5
        exact ⟨e1, fun r hr => by rw [x1] at hr; cases hr; exact e2⟩
  refine ⟨fun k => ?_, ?_⟩
  · by_cases hk : k ∈ a.roads.keys
    · exact (key _ k rfl hk).1
    · have h1 : ¬ (a'.roads.get? k).isSome := by rw [Dict.get?_isSome, oa.keys]; exact hk
      have h2 : ¬ (b'.roads.get? k).isSome := by rw [Dict.get?_isSome, ob.keys, ← hkeys]; exact hk
      rw [Bool.not_eq_true, Option.isSome_eq_false_iff, Option.isNone_iff_eq_none] at h1 h2
      rw [h1, h2]
  · have hc : a'.geoms.cell = b'.geoms.cell := by
      funext j
      by_cases hj : ∃ k r, a.roads.get? k = some r ∧ j ∈ r.planview.raw
      · obtain ⟨k, r, hr, hj⟩ := hj
        exact (key _ k rfl (Dict.mem_keys_of_get? hr)).2 r hr j hj
      · have hj' : ∀ k r, a.roads.get? k = some r → j ∉ r.planview.raw := fun k r hr hm => hj ⟨k, r, hr, hm⟩
        rw [oa.cells j hj', ob.cells j (fun k r hr => hj' k r (by rw [hget]; exact hr)), hgeoms]
    have hnx : a'.geoms.next = b'.geoms.next := by rw [oa.next, ob.next, hgeoms]
    cases hA : a'.geoms; cases hB : b'.geoms
    rw [hA, hB] at hc hnx
    simp only at hc hnx
    rw [hc, hnx]

end Pyodrx
