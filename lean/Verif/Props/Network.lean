import Verif.Proofs.NetworkReal
import Verif.Proofs.NetworkErr
import Verif.Props.PlanView

/-! # C15, C17-C23: placing the roads of a network -/

namespace Pyodrx.Props
open Pyodrx PyFloat Spec

variable {F : Type} [PyFloat F]

/-! ## C17 -/

/-- A complete iteration of the `while` loop of `adjust_startpoints`, after which the loop test is
evaluated again: `s.1` roads are counted as adjusted before, `s'.1` after it. -/
def Iteration (n : Nat) (keys : List String) (s s' : Nat × Net F) : Prop :=
  s.1 < n ∧ ∃ c, Net.pass keys s.2 = .ok c s'.2 ∧ s'.1 = s.1 + c ∧ ¬ (s'.1 ≠ n ∧ c = 0)

/-- C17: however the network looks, no run of the loop has more iterations than there are roads not
counted as adjusted. -/
theorem C17_bound (n : Nat) (keys : List String) (f : Nat → Nat × Net F) (m : Nat)
    (h : ∀ i < m, Iteration n keys (f i) (f (i + 1))) : m ≤ n - (f 0).1 := by
  have key : ∀ i ≤ m, (f 0).1 + i ≤ (f i).1 := by
    intro i
    induction i with
    | zero => intro _; simp
    | succ i ih =>
      intro hi
      have := ih (by omega)
      obtain ⟨_, c, _, h2, h3⟩ := h i (by omega)
      omega
  cases m with
  | zero => omega
  | succ m =>
    have h1 := key m (by omega)
    obtain ⟨h2, _⟩ := h m (by omega)
    omega

/-- C17: there is no infinite run. -/
theorem C17_no_infinite_run (n : Nat) (keys : List String) :
    ¬ ∃ f : Nat → Nat × Net F, ∀ i, Iteration n keys (f i) (f (i + 1)) := by
  rintro ⟨f, h⟩
  have := C17_bound n keys f (n - (f 0).1 + 1) (fun i _ => h i)
  omega

theorem passes_run (n : Nat) (keys : List String) : ∀ (j total : Nat) (net : Net F),
    n - total = j →
    ∃ (m : Nat) (f : Nat → Nat × Net F), f 0 = (total, net) ∧
      (∀ i < m, Iteration n keys (f i) (f (i + 1))) ∧
      ((n ≤ (f m).1 ∧ Net.passes n total keys net = .ok () (f m).2) ∨
       ((f m).1 < n ∧ ∃ net', Net.pass keys (f m).2 = .ok 0 net' ∧
         Net.passes n total keys net = .error .undefinedRoadNetwork net') ∨
       ((f m).1 < n ∧ ∃ e net', Net.pass keys (f m).2 = .error e net' ∧
         Net.passes n total keys net = .error e net')) := by
  intro j
  induction j using Nat.strong_induction_on with
  | _ j ih =>
    intro total net hj
    rw [Net.passes]
    split
    · rename_i hlt
      cases hp : Net.pass keys net with
      | error e net' =>
        refine ⟨0, fun _ => (total, net), rfl, by simp, .inr (.inr ⟨hlt, e, net', hp, ?_⟩)⟩
        rw [bind_of_error hp]
      | ok c net' =>
        rw [bind_of_ok hp]
        split
        · rename_i hc
          obtain ⟨_, rfl⟩ := hc
          exact ⟨0, fun _ => (total, net), rfl, by simp, .inr (.inl ⟨hlt, net', hp, rfl⟩)⟩
        · rename_i hc
          obtain ⟨m, f, h1, h2, h3⟩ := ih (n - (total + c)) (by omega) (total + c) net' rfl
          refine ⟨m + 1, fun i => if i = 0 then (total, net) else f (i - 1), rfl, ?_, by simpa using h3⟩
          intro i hi
          cases i with
          | zero => simp only [if_true]; exact ⟨hlt, c, by simp [h1, hp], by simp [h1], by simpa [h1] using hc⟩
          | succ i => simpa using h2 i (by omega)
    · rename_i hlt
      exact ⟨0, fun _ => (total, net), rfl, by simp, .inl ⟨by simpa using hlt, rfl⟩⟩

/-- The part of `adjust_startpoints` before the loop: place the anchors and count them. -/
def placeAnchors (net : Net F) : EStateM PyErr (Net F) Nat := do
  let c ← Net.adjustFixed net.roads.keys
  if c = 0 then do
    let k ← orRaise .indexError net.roads.keys.head?
    Net.adjustPlanview k false
    pure 1
  else pure c

/-- C17: every call of `adjust_startpoints`, on any network, either raises while the anchors are
placed, or performs fewer than `len(roads)` complete iterations of the loop and then returns, raises
`UndefinedRoadNetwork` after a further iteration that placed nothing, or passes on an exception
raised in that further iteration. -/
theorem C17_run (net : Net F) :
    (∃ e net', placeAnchors net net = .error e net' ∧
      Net.adjustStartpoints net = .error e net') ∨
    ∃ (c m : Nat) (net1 : Net F) (f : Nat → Nat × Net F), placeAnchors net net = .ok c net1 ∧
      1 ≤ c ∧ f 0 = (c, net1) ∧ m ≤ net.roads.length - 1 ∧
      (∀ i < m, Iteration net.roads.length net.roads.keys (f i) (f (i + 1))) ∧
      ((net.roads.length ≤ (f m).1 ∧ Net.adjustStartpoints net = .ok () (f m).2) ∨
       ((f m).1 < net.roads.length ∧ ∃ net', Net.pass net.roads.keys (f m).2 = .ok 0 net' ∧
         Net.adjustStartpoints net = .error .undefinedRoadNetwork net') ∨
       ((f m).1 < net.roads.length ∧ ∃ e net', Net.pass net.roads.keys (f m).2 = .error e net' ∧
         Net.adjustStartpoints net = .error e net')) := by
  have heq : Net.adjustStartpoints net =
      (placeAnchors net >>= fun c => Net.passes net.roads.keys.length c net.roads.keys) net :=
    adjustStartpoints_eq net
  cases h1 : placeAnchors net net with
  | error e net' => exact .inl ⟨e, net', rfl, by rw [heq, bind_of_error h1]⟩
  | ok c s1 =>
    right
    rw [bind_of_ok h1] at heq
    have hc : 1 ≤ c := by
      obtain ⟨c1, s2, _, h1⟩ := bind_ok.mp h1
      split at h1
      · obtain ⟨k, s3, _, h1⟩ := bind_ok.mp h1
        obtain ⟨_, s4, _, h1⟩ := bind_ok.mp h1
        obtain ⟨rfl, _⟩ := pure_ok.mp h1
        exact le_refl _
      · obtain ⟨rfl, _⟩ := pure_ok.mp h1
        omega
    obtain ⟨m, f, i1, i2, i3⟩ := passes_run net.roads.keys.length net.roads.keys _ c s1 rfl
    have hl : net.roads.keys.length = net.roads.length := by simp [Dict.keys]
    rw [hl] at i2 i3 heq
    have hb := C17_bound _ _ f m i2
    rw [i1] at hb
    refine ⟨c, m, s1, f, rfl, hc, i1, by dsimp only at hb; omega, i2, ?_⟩
    rw [heq]
    exact i3

/-! ## C18 -/

/-- C18: after a normal return on fresh roads, the network has the same roads, each of them is
adjusted, its planview is the result of exactly one call of `adjust_geometries` (forward or from the
end, from some start point) on the fresh planview, and each carries exactly one emitted geometry per added geometry (in the order added, or,
for a road placed from its end, in the reverse order). -/
theorem C18_placed_once (net net' : Net F) (hn : net.roads.keys.Nodup) (hf : Fresh net.roads)
    (h : Net.adjustStartpoints net = .ok () net') :
    net'.roads.keys = net.roads.keys ∧
    ∀ k r0, net.roads.get? k = some r0 → ∃ r, net'.roads.get? k = some r ∧
      r.planview.adjusted = true ∧ r.planview.raw = r0.planview.raw ∧
      (∃ fromEnd p g st, PlanView.adjustGeometries fromEnd ⟨r0.planview.setStartPoint p, g⟩ =
        .ok () st ∧ r.planview = st.pv) ∧
      r.planview.adjGeoms.length = r0.planview.raw.length ∧
      (r.planview.adjGeoms.map (·.geom) = r0.planview.raw ∨
        r.planview.adjGeoms.map (·.geom) = r0.planview.raw.reverse) := by
  obtain ⟨m, hh, _⟩ := startpoints_history hn hf h
  refine ⟨hh.same.1, fun k r0 hr0 => ?_⟩
  obtain ⟨r, hr, hs⟩ := hh.same.fwd hr0
  have ha := startpoints_all hn hf h hr
  obtain ⟨r1, h1, h2⟩ := hh.inv rfl hf k r hr
  rw [hr0] at h1; cases h1
  obtain ⟨_, b, p, g, st, q1, q2⟩ := h2.of_adjusted ha
  have hg := (adjustGeometries_gen q1).refs
  simp only [PlanView.setStartPoint, (hf k r0 hr0).2, List.map_nil, List.nil_append] at hg
  have hpv : r.planview = st.pv := by rw [q2]
  refine ⟨r, hr, ha, hs.2.2.1, ⟨b, p, g, st, q1, hpv⟩, ?_, ?_⟩
  · rw [hpv, ← List.length_map (f := fun a : AdjGeom F => a.geom), hg]
    cases b <;> simp
  · rw [hpv, hg]; cases b <;> simp

/-- C18: and nothing but the placement changed: links, lanes, ids, types, objects and signals of
every road are as before. -/
theorem C18_only_placement (net net' : Net F) (hn : net.roads.keys.Nodup) (hf : Fresh net.roads)
    (h : Net.adjustStartpoints net = .ok () net') (k : String) (r0 : Road F)
    (hr0 : net.roads.get? k = some r0) : ∃ r, net'.roads.get? k = some r ∧
      r = { r0 with planview := r.planview } ∧ r.planview.fixed = r0.planview.fixed := by
  obtain ⟨m, hh, _⟩ := startpoints_history hn hf h
  obtain ⟨r, hr, hs⟩ := hh.same.fwd hr0
  exact ⟨r, hr, hs.1, hs.2.1⟩

/-! ## C19, C21 -/

/-- The pose of someone standing at the end `e'` of a road, looking away from the road. -/
noncomputable def leaving (e' : ContactPoint) (q : Pose ℝ) : Pose ℝ :=
  match e' with | .start => turned q | .end => q

theorem neighbourPose_real {n : Road ℝ} {e' : ContactPoint} {p : Pose ℝ}
    (h : neighbourPose n e' = .ok p) : ∃ q, endPose n e' = some q ∧
      p = leaving e' q := by
  cases e' with
  | start =>
    simp only [neighbourPose] at h
    cases hs : n.planview.start with
    | none => rw [hs] at h; simp at h
    | some q0 => rw [hs] at h; cases h; exact ⟨_, hs, rfl⟩
  | «end» =>
    simp only [neighbourPose] at h
    cases hs : n.planview.stop with
    | none => rw [hs] at h; simp at h
    | some q0 => rw [hs] at h; cases h; exact ⟨_, hs, rfl⟩

theorem attach_meets (e e' : ContactPoint) (d : Int) (q : Pose ℝ) :
    Meets d e (attachPose e d (leaving e' q)) e' q := by
  cases e <;> cases e' <;>
    simp only [Meets, attachPose, leaving, offsetPose, turned, outgoing, if_true, Bool.false_eq_true,
      if_false, real_add, real_mul, real_sin, real_cos, real_pi, real_ofInt, Int.cast_mul,
      Int.cast_neg, Int.cast_ofNat, Real.sin_add_pi, Real.cos_add_pi]
  · exact ⟨by ring, by ring, 0, by simp⟩
  · exact ⟨by ring, by ring, 0, by simp⟩
  · exact ⟨by ring, by ring, 0, by simp⟩
  · exact ⟨by ring, by ring, 0, by simp⟩

theorem _root_.Pyodrx.AttachedTo.joined {roads0 roads : Dict (Road ℝ)} {k nb : String}
    (h : AttachedTo roads0 roads k nb) : JoinedTo roads0 roads k nb := by
  obtain ⟨e, e', r, n, p, h1, h2, h3, _, _, h4, h5⟩ := h
  obtain ⟨q, hq, rfl⟩ := neighbourPose_real h4
  exact ⟨e, e', r, n, _, q, h1, h2, h3, h5, hq, attach_meets e e' _ q⟩

theorem _root_.Pyodrx.Grown.connected {roads0 roads : Dict (Road ℝ)} {k : String} (h : Grown roads0 roads k) :
    Connected roads0 roads k := by
  induction h with
  | anchor h _ _ _ _ => exact .anchor h
  | step h _ ih => exact .step h.joined ih

/-- C19/C21: after a normal return on fresh roads, every road is an anchor or was put at another
road by a declared link: their ends meet there, shifted by 3 times the lane offset of the placed
road to the left of its driving direction; following these joints from any road one comes to an
anchor. -/
theorem C19_connected_with_offset (net net' : Net ℝ) (hn : net.roads.keys.Nodup)
    (hf : Fresh net.roads) (h : Net.adjustStartpoints net = .ok () net') :
    ∀ k ∈ net.roads.keys, Connected net.roads net'.roads k := by
  intro k hk
  obtain ⟨m, hh, _⟩ := startpoints_history hn hf h
  rw [← hh.same.1, ← Dict.get?_isSome, Option.isSome_iff_exists] at hk
  obtain ⟨r, hr⟩ := hk
  obtain ⟨r1, h1, h2⟩ := hh.inv rfl hf k r hr
  exact (h2.of_adjusted (startpoints_all hn hf h hr)).1.connected

/-- C19: with zero lane offsets, every road that is not an anchor coincides at one of its ends with
the end of another road to which it is linked: same position, opposite outgoing directions. -/
theorem C19_linked_roads_meet (net net' : Net ℝ) (hn : net.roads.keys.Nodup)
    (hf : Fresh net.roads)
    (hz : ∀ k r, net.roads.get? k = some r → r.laneOffsetPred = 0 ∧ r.laneOffsetSuc = 0)
    (h : Net.adjustStartpoints net = .ok () net') (k : String) (hk : k ∈ net.roads.keys)
    (ha : ¬ Anchor net.roads k) :
    ∃ nb e e' r n p q, PlacedBy net.roads k e nb e' ∧
      net'.roads.get? k = some r ∧ net'.roads.get? nb = some n ∧
      endPose r e = some p ∧ endPose n e' = some q ∧
      p.x = q.x ∧ p.y = q.y ∧ SameHeading (outgoing e p.h) (outgoing e' q.h + Real.pi) ∧
      Connected net.roads net'.roads nb := by
  have hc := C19_connected_with_offset net net' hn hf h k hk
  cases hc with
  | anchor hc => exact absurd hc ha
  | step hj hnb =>
    rename_i nb
    obtain ⟨e, e', r, n, p, q, h1, h2, h3, h4, h5, h6, h7, h8⟩ := hj
    obtain ⟨m, hh, _⟩ := startpoints_history hn hf h
    obtain ⟨r0, i1, i2⟩ := hh.same.2 k r h2
    have hoff : offsetAt r e = 0 := by
      rw [i2.1]
      cases e
      · exact (hz k r0 i1).1
      · exact (hz k r0 i1).2
    rw [hoff] at h6 h7
    exact ⟨nb, e, e', r, n, p, q, h1, h2, h3, h4, h5, by simpa using h6, by simpa using h7, h8, hnb⟩

/-- C21: placing a road at its predecessor (successor) with a lane offset puts its start (end) 3
times the offset to the left of its own driving direction from the end of the neighbour. -/
theorem C21_offset (net net' : Net ℝ) (road nb : PyId) (cp : Option ContactPoint)
    (asPred : Bool) (r : Road ℝ) (hr : net.roads.get? road.toStr = some r)
    (h : Net.adjustRoadWrtNeighbour road nb cp asPred net = .ok () net') :
    ∃ e' n q r' p, cp = some e' ∧ net.roads.get? nb.toStr = some n ∧ endPose n e' = some q ∧
      net'.roads.get? road.toStr = some r' ∧
      endPose r' (if asPred then .start else .end) = some p ∧
      Meets (if asPred then r.laneOffsetPred else r.laneOffsetSuc)
        (if asPred then .start else .end) p e' q := by
  have he : asPred = ((if asPred then ContactPoint.start else .end) = .start : Bool) := by
    cases asPred <;> rfl
  generalize (if asPred then ContactPoint.start else ContactPoint.end) = e at he ⊢
  subst he
  unfold Net.adjustRoadWrtNeighbour at h
  replace h := bind_ok.mp h; obtain ⟨r', s1, h1, h⟩ := h
  replace h1 := road_ok.mp h1; obtain ⟨h1, rfl⟩ := h1
  replace h := bind_ok.mp h; obtain ⟨e', s2, h2, h⟩ := h
  replace h2 := orRaise_ok.mp h2; obtain ⟨h2, rfl⟩ := h2
  replace h := bind_ok.mp h; obtain ⟨n, s3, h3, h⟩ := h
  replace h3 := road_ok.mp h3; obtain ⟨h3, rfl⟩ := h3
  replace h := bind_ok.mp h; obtain ⟨p, s4, h4, h⟩ := h
  replace h4 := liftExcept_ok.mp h4; obtain ⟨h4, rfl⟩ := h4
  rw [hr] at h1; cases h1
  obtain ⟨q, hq, rfl⟩ := neighbourPose_real h4
  replace h := bind_ok.mp h; obtain ⟨_, s5, h5, h⟩ := h
  unfold Net.setStartPoint at h5
  rw [hr] at h5
  dsimp only at h5
  cases h5
  unfold Net.adjustPlanview at h
  simp only [Dict.get?_set, if_true] at h
  split at h
  · rename_i st hst
    cases h
    have hadj := adjustGeometries_gen hst
    refine ⟨e', n, q, { r with planview := st.pv }, _, h2, h3, hq, by simp [Dict.get?_set], ?_,
      attach_meets e e' _ q⟩
    cases e with
    | start => simpa [endPose, attachPose, PlanView.setStartPoint] using hadj.start
    | «end» => simpa [endPose, attachPose, PlanView.setStartPoint] using hadj.stop
  · exact absurd h (by simp)

/-- C21: compared with the placement of the same road with offset zero, an offset `d` moves the
placed end by `3 * d` to the left and leaves its heading as it is. -/
theorem C21_shift (net net1 net0 : Net ℝ) (road nb : PyId) (cp : Option ContactPoint)
    (asPred : Bool) (r : Road ℝ) (hr : net.roads.get? road.toStr = some r)
    (hself : road.toStr ≠ nb.toStr)
    (h1 : Net.adjustRoadWrtNeighbour road nb cp asPred net = .ok () net1)
    (h0 : Net.adjustRoadWrtNeighbour road nb cp asPred { net with
      roads := net.roads.set road.toStr { r with laneOffsetPred := 0, laneOffsetSuc := 0 } } =
        .ok () net0) :
    let e := if asPred then ContactPoint.start else .end
    let d : Int := if asPred then r.laneOffsetPred else r.laneOffsetSuc
    ∃ r1 r0 p1 p0, net1.roads.get? road.toStr = some r1 ∧ net0.roads.get? road.toStr = some r0 ∧
      endPose r1 e = some p1 ∧ endPose r0 e = some p0 ∧
      p1.x = p0.x - 3 * d * Real.sin p0.h ∧ p1.y = p0.y + 3 * d * Real.cos p0.h ∧
      SameHeading p1.h p0.h := by
  obtain ⟨e', n, q, r1, p1, a1, a2, a3, a4, a5, a6⟩ := C21_offset net net1 road nb cp asPred r hr h1
  obtain ⟨f', n', q', r0, p0, b1, b2, b3, b4, b5, b6⟩ := C21_offset _ net0 road nb cp asPred
    { r with laneOffsetPred := 0, laneOffsetSuc := 0 } (by simp [Dict.get?_set]) h0
  rw [a1] at b1; cases b1
  simp only [Dict.get?_set, hself, if_false] at b2
  rw [a2] at b2; cases b2
  rw [a3] at b3; cases b3
  have hh : SameHeading p1.h p0.h := by
    obtain ⟨_, _, n1, c1⟩ := a6
    obtain ⟨_, _, n0, c0⟩ := b6
    refine ⟨n1 - n0, ?_⟩
    push_cast
    cases asPred <;> simp only [outgoing, if_true, Bool.false_eq_true, if_false] at c1 c0 <;> linarith
  refine ⟨r1, r0, p1, p0, a4, b4, a5, b5, ?_, ?_, hh⟩
  all_goals
    obtain ⟨n0, hn0⟩ := hh
    obtain ⟨x1, y1, _⟩ := a6
    obtain ⟨x0, y0, _⟩ := b6
    have hs : Real.sin p1.h = Real.sin p0.h := by
      rw [hn0, mul_comm (2 * Real.pi) (n0 : ℝ)]; exact Real.sin_add_int_mul_two_pi _ _
    have hc : Real.cos p1.h = Real.cos p0.h := by
      rw [hn0, mul_comm (2 * Real.pi) (n0 : ℝ)]; exact Real.cos_add_int_mul_two_pi _ _
    simp at x0 y0
    first | rw [x1, x0, hs] | rw [y1, y0, hc]

/-! ## C22 -/

/-- C22: a road with a given start pose starts there after placement: its planview is adjusted
forward from the pose it was given, whatever links it has. -/
theorem C22_fixed_roads (net net' : Net F) (hn : net.roads.keys.Nodup) (hf : Fresh net.roads)
    (h : Net.adjustStartpoints net = .ok () net') (k : String) (r0 : Road F)
    (hr0 : net.roads.get? k = some r0) (hfix : r0.planview.fixed = true) :
    ∃ r g st, net'.roads.get? k = some r ∧
      PlanView.adjustGeometries false ⟨r0.planview, g⟩ = .ok () st ∧ r.planview = st.pv ∧
      r.planview.start = some r0.planview.present := by
  obtain ⟨g, st, q1, q2⟩ := startpoints_anchor hn hf h (.inl ⟨r0, hr0, hfix⟩) hr0
  exact ⟨_, g, st, q2, q1, rfl, by simpa using (adjustGeometries_gen q1).start⟩

/-- C22: a road made from a `PlanView(x, y, h)` starts at `(x, y, h)` after placement. -/
theorem C22_given_start (net net' : Net ℝ) (hn : net.roads.keys.Nodup) (hf : Fresh net.roads)
    (h : Net.adjustStartpoints net = .ok () net') (k : String) (r0 : Road ℝ)
    (hr0 : net.roads.get? k = some r0) (x y hd : ℝ) (pv : PlanView ℝ) (pcs : List Piece)
    (hpv : PlanView.new (some x) (some y) (some hd) = .ok pv) (hr : r0.planview = addAll pv pcs) :
    ∃ r, net'.roads.get? k = some r ∧ r.planview.start = some ⟨x, y, hd⟩ := by
  have : pv = { PlanView.setStartPoint (PlanView.mk ⟨0,0,0⟩ 0 false none none [] [] [] false)
      ⟨x, y, hd⟩ with fixed := true } := by
    simp [PlanView.new] at hpv
    rw [← hpv]
  obtain ⟨r, g, st, q1, _, _, q4⟩ := C22_fixed_roads net net' hn hf h k r0 hr0
    (by rw [hr, addAll_eq, this])
  refine ⟨r, q1, ?_⟩
  rw [q4, hr, addAll_eq, this]
  rfl

/-- C22: if no road has a given start pose, the first added road is the one that starts where its
planview stands: at (0,0) with heading 0 for a road made from `PlanView()`. -/
theorem C22_first_road (net net' : Net ℝ) (hn : net.roads.keys.Nodup) (hf : Fresh net.roads)
    (hno : ∀ k r, net.roads.get? k = some r → r.planview.fixed = false)
    (h : Net.adjustStartpoints net = .ok () net') (k : String) (hk : net.roads.keys.head? = some k)
    (r0 : Road ℝ) (hr0 : net.roads.get? k = some r0) (pv : PlanView ℝ) (pcs : List Piece)
    (hpv : PlanView.new none none none = .ok pv) (hr : r0.planview = addAll pv pcs) :
    ∃ r, net'.roads.get? k = some r ∧ r.planview.start = some ⟨0, 0, 0⟩ := by
  obtain ⟨g, st, q1, q2⟩ := startpoints_anchor hn hf h (.inr ⟨hno, hk⟩) hr0
  refine ⟨_, q2, ?_⟩
  have h1 := (adjustGeometries_gen q1).start
  simp only [Bool.false_eq_true, if_false] at h1
  simp only [PlanView.new, Except.ok.injEq] at hpv
  dsimp only
  rw [h1, hr, addAll_eq, ← hpv]
  simp

/-! ## C20 -/

section
variable {E : Eval F}

theorem adjustFixed_good {net0 : Net F} (hw : Placeable E net0) (ks : List String) :
    ∀ {net : Net F}, Good E net0 net → (∀ k ∈ ks, k ∈ net0.roads.keys) →
    ∃ c net', Net.adjustFixed ks net = .ok c net' ∧ Good E net0 net' := by
  induction ks with
  | nil => intro net hg _; exact ⟨0, net, rfl, hg⟩
  | cons k ks ih =>
    intro net hg hk
    obtain ⟨_, r, _, hr, _⟩ := hg.road (hk k (by simp))
    unfold Net.adjustFixed
    rw [bind_of_ok (road_ok.mpr ⟨hr, rfl⟩)]
    split
    · obtain ⟨s1, h1, g1⟩ := hg.adjustPlanview hw (hk k (by simp)) false
      obtain ⟨c, s2, h2, g2⟩ := ih g1 (fun k' hk' => hk k' (by simp [hk']))
      rw [bind_of_ok h1, bind_of_ok h2]
      exact ⟨_, s2, rfl, g2⟩
    · exact ih hg (fun k' hk' => hk k' (by simp [hk']))

theorem placeAnchors_good {net : Net F} (hw : Placeable E net) :
    ∃ c net', placeAnchors net net = .ok c net' ∧ Good E net net' := by
  have hg : Good E net net := ⟨.refl _, fun _ h => h, fun k r hr ha => by
    rw [(hw.fresh k r hr).1] at ha; simp at ha⟩
  obtain ⟨c, s1, h1, g1⟩ := adjustFixed_good hw net.roads.keys hg (fun _ h => h)
  unfold placeAnchors
  rw [bind_of_ok h1]
  split
  · obtain ⟨k, hk⟩ : ∃ k, net.roads.keys.head? = some k := by
      cases h : net.roads with
      | nil => exact absurd h hw.nonempty
      | cons a l => exact ⟨a.1, rfl⟩
    rw [hk, bind_of_ok (orRaise_some _)]
    obtain ⟨s2, h2, g2⟩ := g1.adjustPlanview hw (List.mem_of_head? hk) false
    rw [bind_of_ok h2]
    exact ⟨1, s2, rfl, g2⟩
  · exact ⟨c, s1, rfl, g1⟩

theorem Grown.reachable {roads0 roads : Dict (Road F)} {k : String} (h : Grown roads0 roads k) :
    Reachable roads0 k := by
  induction h with
  | anchor h _ _ _ _ => exact .anchor h
  | step h _ ih => obtain ⟨e, e', _, _, _, h1, _⟩ := h; exact .step h1 ih

theorem startpoints_placeable {net : Net F} (hw : Placeable E net) :
    ((∃ net', Net.adjustStartpoints net = .ok () net' ∧ Good E net net') ∧
      ∀ k ∈ net.roads.keys, Reachable net.roads k) ∨
    ((∃ net', Net.adjustStartpoints net = .error .undefinedRoadNetwork net') ∧
      ¬ ∀ k ∈ net.roads.keys, Reachable net.roads k) := by
  obtain ⟨c, s1, h1, g1⟩ := placeAnchors_good hw
  obtain ⟨hist, hc1, hadj, _⟩ := anchors_history hw.nodup hw.fresh h1
  replace hist := hist.history
  have heq : Net.adjustStartpoints net =
      (placeAnchors net >>= fun c => Net.passes net.roads.keys.length c net.roads.keys) net :=
    adjustStartpoints_eq net
  rw [bind_of_ok h1] at heq
  have hconn : ConnClosed s1 := by
    intro k r l t hr hrt ha _ _
    obtain ⟨r0, q1, q2⟩ := g1.same.2 k r hr
    exact absurd (hw.anchors k r0 q1 ((hadj k r hr).mp ha)) (by rw [q2.1] at hrt; exact hrt)
  rcases passes_total hw _ c s1 rfl g1 hconn (fun k r hr ha => (hadj k r hr).mpr ha)
    (by rw [hist.count, countAdj_fresh hw.nodup hw.fresh]; omega) with
    ⟨net', h2, hgood⟩ | ⟨net', h2, hs, hcnt, hreach⟩
  · left
    rw [h2] at heq
    refine ⟨⟨net', heq, hgood⟩, fun k hk => ?_⟩
    obtain ⟨m, hh, _⟩ := startpoints_history hw.nodup hw.fresh heq
    rw [← hh.same.1, ← Dict.get?_isSome, Option.isSome_iff_exists] at hk
    obtain ⟨r, hr⟩ := hk
    obtain ⟨r0, _, i2⟩ := hh.inv rfl hw.fresh k r hr
    exact Grown.reachable (i2.of_adjusted (startpoints_all hw.nodup hw.fresh heq hr)).1
  · right
    rw [h2] at heq
    refine ⟨⟨net', heq⟩, fun hall => ?_⟩
    have : countAdj net'.roads = net'.roads.length := by
      rw [countAdj, List.countP_eq_length]
      intro kv hkv
      have hg := Dict.mem_get? (k := kv.1) (v := kv.2) (by rw [hs.1]; exact hw.nodup) hkv
      exact hreach kv.1 kv.2 (hall _ (by rw [← hs.1]; exact Dict.mem_keys_of_get? hg)) hg
    have hl : net'.roads.length = net.roads.keys.length := by
      rw [← hs.1]; simp [Dict.keys]
    omega

end

theorem startpoints_wellFormed {net : Net ℝ} (hw : WellFormed net) :
    ((∃ net', Net.adjustStartpoints net = .ok () net' ∧ Good realEval net net') ∧
      ∀ k ∈ net.roads.keys, Reachable net.roads k) ∨
    ((∃ net', Net.adjustStartpoints net = .error .undefinedRoadNetwork net') ∧
      ¬ ∀ k ∈ net.roads.keys, Reachable net.roads k) :=
  startpoints_placeable hw.placeable

/-- C20: on a well-formed network, `adjust_startpoints` returns normally exactly if every road can
be reached from an anchor along the declared links. -/
theorem C20_succeeds_iff (net : Net ℝ) (hw : WellFormed net) :
    (∃ net', Net.adjustStartpoints net = .ok () net') ↔
      ∀ k ∈ net.roads.keys, Reachable net.roads k := by
  rcases startpoints_wellFormed hw with ⟨h1, h2⟩ | ⟨⟨net', h1⟩, h2⟩
  · exact ⟨fun _ => h2, fun _ => ⟨h1.choose, h1.choose_spec.1⟩⟩
  · refine ⟨fun ⟨n2, h3⟩ => ?_, fun h => absurd h h2⟩
    rw [h1] at h3; simp at h3

/-- C20: and otherwise it raises `UndefinedRoadNetwork`, never anything else. -/
theorem C20_otherwise (net : Net ℝ) (hw : WellFormed net)
    (h : ¬ ∀ k ∈ net.roads.keys, Reachable net.roads k) :
    ∃ net', Net.adjustStartpoints net = .error .undefinedRoadNetwork net' := by
  rcases startpoints_wellFormed hw with ⟨_, h2⟩ | ⟨h1, _⟩
  · exact absurd h2 h
  · exact h1

theorem get?_perm {a b : Dict (Road ℝ)} (hp : a.Perm b) (hn : a.keys.Nodup) (k : String) :
    b.get? k = a.get? k := by
  have hnb : b.keys.Nodup := by
    have : (a.keys).Perm b.keys := hp.map _
    exact this.nodup_iff.mp hn
  have mem : ∀ {d : Dict (Road ℝ)} {r}, d.get? k = some r → (k, r) ∈ d := by
    intro d r h
    induction d with
    | nil => simp [Dict.get?] at h
    | cons kv d ih =>
      obtain ⟨k0, v0⟩ := kv
      unfold Dict.get? at h
      split at h
      · rename_i hk; cases h; simp [hk]
      · exact List.mem_cons_of_mem _ (ih h)
  cases h : a.get? k with
  | some r => exact Dict.mem_get? hnb (hp.mem_iff.mp (mem h))
  | none =>
    rw [Dict.get?_eq_none] at h ⊢
    have : (a.keys).Perm b.keys := hp.map _
    rwa [← this.mem_iff]

/-- C20: whether placement succeeds does not depend on the order in which the roads were added, as
long as the same road comes first (this only matters if no road has a given start pose). -/
theorem C20_order (net1 net2 : Net ℝ) (h1 : WellFormed net1) (h2 : WellFormed net2)
    (hp : net1.roads.Perm net2.roads) (hfirst : net1.roads.keys.head? = net2.roads.keys.head?) :
    (∃ net', Net.adjustStartpoints net1 = .ok () net') ↔
      (∃ net', Net.adjustStartpoints net2 = .ok () net') := by
  have hg := get?_perm hp h1.nodup
  have hk : ∀ k, k ∈ net2.roads.keys ↔ k ∈ net1.roads.keys := by
    intro k; rw [← Dict.get?_isSome, ← Dict.get?_isSome, hg]
  have key : ∀ (a b : Dict (Road ℝ)), (∀ k, b.get? k = a.get? k) → a.keys.head? = b.keys.head? →
      ∀ k, Reachable a k → Reachable b k := by
    intro a b hab hf k h
    induction h with
    | anchor h =>
      refine .anchor ?_
      rcases h with ⟨r, h1, h2⟩ | ⟨h1, h2⟩
      · exact .inl ⟨r, by rw [hab]; exact h1, h2⟩
      · exact .inr ⟨fun k' r hr => h1 k' r (by rw [← hab]; exact hr), by rw [← hf]; exact h2⟩
    | @step k nb e e' h _ ih =>
      have hb : PlacedBy b k e nb e' := by
        cases h with
        | pred q1 q2 q3 q4 => exact .pred (by rw [hab]; exact q1) q2 q3 q4
        | succ q1 q2 q3 q4 => exact .succ (by rw [hab]; exact q1) q2 q3 q4
        | connPred q1 q2 q3 => exact .connPred (by rw [hab]; exact q1) q2 q3
        | connSucc q1 q2 q3 => exact .connSucc (by rw [hab]; exact q1) q2 q3
      exact .step hb ih
  rw [C20_succeeds_iff net1 h1, C20_succeeds_iff net2 h2]
  constructor
  · exact fun h k hk' => key _ _ hg hfirst k (h k ((hk k).mp hk'))
  · exact fun h k hk' => key _ _ (fun k => (hg k).symm) hfirst.symm k (h k ((hk k).mpr hk'))

/-! ## C23 -/

/-- C23: on any network whatsoever, `adjust_startpoints` raises `KeyError` only if some link names an
id that is not the id of a road. -/
theorem C23_key_error (net net' : Net F) (h : Net.adjustStartpoints net = .error .keyError net') :
    ∃ k r l, net.roads.get? k = some r ∧ (r.predecessor = some l ∨ r.successor = some l) ∧
      l.elementId.toStr ∉ net.roads.keys :=
  (startpoints_err h).1 rfl

/-- C23: and it raises `UnboundLocalError` only if some link to a road has no contact point. -/
theorem C23_unbound_local (net net' : Net F)
    (h : Net.adjustStartpoints net = .error .unboundLocalError net') :
    ∃ k r l, net.roads.get? k = some r ∧ (r.predecessor = some l ∨ r.successor = some l) ∧
      l.elementType ≠ some .junction ∧ l.contactPoint = none :=
  (startpoints_err h).2.1 rfl

/-- C23 (violation): a junction id is looked up among the roads. If no road has a given start pose
and the second added road has a predecessor, of whatever kind, whose id is not the id of a road, the
call raises `KeyError`. -/
theorem C23_unresolvable_raises (net : Net ℝ) (k0 k1 : String) (ks : List String) (r0 r1 : Road ℝ)
    (l : Link) (hkeys : net.roads.keys = k0 :: k1 :: ks) (hne : k1 ≠ k0)
    (hno : ∀ k r, net.roads.get? k = some r → r.planview.fixed = false)
    (hr0 : net.roads.get? k0 = some r0) (hr1 : net.roads.get? k1 = some r1)
    (hev : Evaluable net.geoms r0.planview) (hu : r1.planview.adjusted = false)
    (hl : r1.predecessor = some l) (hm : l.elementId.toStr ∉ net.roads.keys) :
    ∃ net', Net.adjustStartpoints net = .error .keyError net' := by
  have hfix : ∀ ks : List String, (∀ k ∈ ks, k ∈ net.roads.keys) →
      Net.adjustFixed ks net = .ok 0 net := by
    intro ks
    induction ks with
    | nil => intro _; rfl
    | cons k ks ih =>
      intro hk
      obtain ⟨r, hr⟩ : ∃ r, net.roads.get? k = some r := by
        rw [← Option.isSome_iff_exists, Dict.get?_isSome]; exact hk k (by simp)
      unfold Net.adjustFixed
      rw [bind_of_ok (road_ok.mpr ⟨hr, rfl⟩), hno k r hr]
      exact ih (fun k' hk' => hk k' (by simp [hk']))
  obtain ⟨st, hst, _⟩ := adjust_total false r0.planview net.geoms hev
  have hadj := adjustGeometries_gen hst
  have hap : Net.adjustPlanview k0 false net =
      .ok () ⟨net.roads.set k0 { r0 with planview := st.pv }, st.geoms⟩ := by
    simp [Net.adjustPlanview, hr0, hst]
  have hanch : placeAnchors net net =
      .ok 1 ⟨net.roads.set k0 { r0 with planview := st.pv }, st.geoms⟩ := by
    unfold placeAnchors
    rw [bind_of_ok (hfix _ (fun _ h => h)), if_pos rfl, hkeys, List.head?_cons,
      bind_of_ok (orRaise_some _), bind_of_ok hap]
    rfl
  have heq : Net.adjustStartpoints net =
      (placeAnchors net >>= fun c => Net.passes net.roads.keys.length c net.roads.keys) net :=
    adjustStartpoints_eq net
  rw [heq, bind_of_ok hanch, Net.passes, dif_pos (by rw [hkeys]; simp)]
  have hv0 : Net.visit k0 ⟨net.roads.set k0 { r0 with planview := st.pv }, st.geoms⟩ =
      .ok 0 ⟨net.roads.set k0 { r0 with planview := st.pv }, st.geoms⟩ := by
    unfold Net.visit
    have hg : (net.roads.set k0 { r0 with planview := st.pv }).get? k0 =
        some { r0 with planview := st.pv } := by simp [Dict.get?_set]
    rw [bind_of_ok (road_ok.mpr ⟨hg, rfl⟩), if_pos hadj.adjusted]
    rfl
  have hv1 : Net.visit k1 ⟨net.roads.set k0 { r0 with planview := st.pv }, st.geoms⟩ =
      .error .keyError ⟨net.roads.set k0 { r0 with planview := st.pv }, st.geoms⟩ := by
    unfold Net.visit
    have hg : (net.roads.set k0 { r0 with planview := st.pv }).get? k1 = some r1 := by
      simp [Dict.get?_set, Ne.symm hne, hr1]
    rw [bind_of_ok (road_ok.mpr ⟨hg, rfl⟩)]
    rw [if_neg (by simp [hu]), hl]
    refine bind_of_error ?_
    unfold Net.usable
    refine bind_of_error (road_error.mpr ⟨?_, rfl, rfl⟩)
    have : k0 ≠ l.elementId.toStr := by
      rintro rfl; exact hm (Dict.mem_keys_of_get? hr0)
    simp only [Dict.get?_set, this, if_false]
    exact (Dict.get?_eq_none _ _).mpr hm
  have hp : Net.pass net.roads.keys ⟨net.roads.set k0 { r0 with planview := st.pv }, st.geoms⟩ =
      .error .keyError ⟨net.roads.set k0 { r0 with planview := st.pv }, st.geoms⟩ := by
    rw [hkeys]
    unfold Net.pass
    rw [bind_of_ok hv0]
    refine bind_of_error ?_
    unfold Net.pass
    exact bind_of_error hv1
  exact ⟨_, bind_of_error hp⟩

/-! ## C15 (network part) -/

theorem pass_done (ks : List String) {net : Net F}
    (h : ∀ k ∈ ks, ∃ r, net.roads.get? k = some r ∧ r.planview.adjusted = true) :
    Net.pass ks net = .ok 0 net := by
  induction ks with
  | nil => rfl
  | cons k ks ih =>
    obtain ⟨r, hr, ha⟩ := h k (by simp)
    have : Net.visit k net = .ok 0 net := by
      unfold Net.visit
      rw [bind_of_ok (road_ok.mpr ⟨hr, rfl⟩), if_pos ha]
      rfl
    unfold Net.pass
    rw [bind_of_ok this, bind_of_ok (ih (fun k' hk' => h k' (by simp [hk'])))]
    rfl

theorem adjustFixed_again (ks : List String) : ∀ {net : Net ℝ},
    (∀ k r, net.roads.get? k = some r → r.planview.adjusted = true ∧
      Evaluable net.geoms r.planview) → (∀ k ∈ ks, k ∈ net.roads.keys) →
    ∃ c net', Net.adjustFixed ks net = .ok c net' ∧ net'.roads.keys = net.roads.keys ∧
      (∀ k r, net'.roads.get? k = some r → r.planview.adjusted = true ∧
        Evaluable net'.geoms r.planview) ∧
      c = ks.countP (fun k => ((net.roads.get? k).map (·.planview.fixed)).getD false) ∧
      ∀ k, (net'.roads.get? k).map (·.planview.fixed) = (net.roads.get? k).map (·.planview.fixed) := by
  induction ks with
  | nil => intro net h _; exact ⟨0, net, rfl, rfl, h, rfl, fun _ => rfl⟩
  | cons k ks ih =>
    intro net h hk
    obtain ⟨r, hr⟩ : ∃ r, net.roads.get? k = some r := by
      rw [← Option.isSome_iff_exists, Dict.get?_isSome]; exact hk k (by simp)
    unfold Net.adjustFixed
    rw [bind_of_ok (road_ok.mpr ⟨hr, rfl⟩)]
    by_cases hf : r.planview.fixed = true
    · rw [if_pos hf]
      obtain ⟨st, hst, hsh⟩ := adjust_total false r.planview net.geoms (h k r hr).2
      have hadj := adjustGeometries_gen hst
      have hap : Net.adjustPlanview k false net =
          .ok () ⟨net.roads.set k { r with planview := st.pv }, st.geoms⟩ := by
        simp [Net.adjustPlanview, hr, hst]
      have hkeys := Dict.keys_set_of_mem net.roads k { r with planview := st.pv }
        (Dict.mem_keys_of_get? hr)
      have hfx : ∀ k', ((net.roads.set k { r with planview := st.pv }).get? k').map
          (·.planview.fixed) = (net.roads.get? k').map (·.planview.fixed) := by
        intro k'
        rw [Dict.get?_set]
        split
        · rename_i e; subst e; simp [hr, hadj.frame.1]
        · rfl
      obtain ⟨c, net', h1, h2, h3, h4, h5⟩ := ih
        (net := ⟨net.roads.set k { r with planview := st.pv }, st.geoms⟩) (by
          intro k' r' hr'
          simp only [Dict.get?_set] at hr'
          split at hr'
          · cases hr'
            exact ⟨hadj.adjusted, Evaluable.mono (h k r hr).2 hsh hadj.frame⟩
          · exact ⟨(h k' r' hr').1, Evaluable.mono (h k' r' hr').2 hsh (.refl _)⟩)
        (fun k' hk' => by dsimp only; rw [hkeys]; exact hk k' (by simp [hk']))
      rw [bind_of_ok hap, bind_of_ok h1]
      refine ⟨c + 1, net', rfl, h2.trans hkeys, h3, ?_, fun k' => (h5 k').trans (hfx k')⟩
      rw [List.countP_cons_of_pos (by simp [hr, hf]), h4]
      simp only [hfx]
    · rw [if_neg hf]
      obtain ⟨c, net', h1, h2, h3, h4, h5⟩ := ih h (fun k' hk' => hk k' (by simp [hk']))
      refine ⟨c, net', h1, h2, h3, ?_, h5⟩
      rw [List.countP_cons_of_neg (by simp [hr, hf]), h4]

/-- C15: on a network of at least two roads that are all adjusted already, one of them without a
given start pose, `adjust_startpoints` raises `UndefinedRoadNetwork`. -/
theorem C15_network_again (net : Net ℝ)
    (hall : ∀ k r, net.roads.get? k = some r → r.planview.adjusted = true ∧
      Evaluable net.geoms r.planview)
    (htwo : 2 ≤ net.roads.length)
    (hfree : ∃ k r, net.roads.get? k = some r ∧ r.planview.fixed = false) :
    ∃ net', Net.adjustStartpoints net = .error .undefinedRoadNetwork net' := by
  obtain ⟨c, s1, h1, h2, h3, h4, h5⟩ := adjustFixed_again net.roads.keys hall (fun _ h => h)
  have hlen : net.roads.keys.length = net.roads.length := by simp [Dict.keys]
  have hc : c < net.roads.keys.length := by
    rw [h4]
    refine lt_of_le_of_ne List.countP_le_length fun heq => ?_
    obtain ⟨k, r, hr, hf⟩ := hfree
    have := List.countP_eq_length.mp heq k (Dict.mem_keys_of_get? hr)
    simp [hr, hf] at this
  obtain ⟨c', net', ha, hk', hadj', hc'⟩ : ∃ c' net', placeAnchors net net = .ok c' net' ∧
      net'.roads.keys = net.roads.keys ∧
      (∀ k r, net'.roads.get? k = some r → r.planview.adjusted = true) ∧
      c' < net.roads.keys.length := by
    unfold placeAnchors
    rw [bind_of_ok h1]
    split
    · obtain ⟨k, hk⟩ : ∃ k, net.roads.keys.head? = some k := by
        cases h : net.roads with
        | nil => rw [h] at htwo; simp at htwo
        | cons a l => exact ⟨a.1, rfl⟩
      rw [hk, bind_of_ok (orRaise_some _)]
      obtain ⟨r, hr⟩ : ∃ r, s1.roads.get? k = some r := by
        rw [← Option.isSome_iff_exists, Dict.get?_isSome, h2]; exact List.mem_of_head? hk
      obtain ⟨st, hst, hsh⟩ := adjust_total false r.planview s1.geoms (h3 k r hr).2
      have hap : Net.adjustPlanview k false s1 =
          .ok () ⟨s1.roads.set k { r with planview := st.pv }, st.geoms⟩ := by
        simp [Net.adjustPlanview, hr, hst]
      rw [bind_of_ok hap]
      refine ⟨1, _, rfl, ?_, ?_, by omega⟩
      · exact (Dict.keys_set_of_mem _ _ _ (Dict.mem_keys_of_get? hr)).trans h2
      · intro k' r' hr'
        simp only [Dict.get?_set] at hr'
        split at hr'
        · cases hr'; exact (adjustGeometries_gen hst).adjusted
        · exact (h3 k' r' hr').1
    · exact ⟨c, s1, rfl, h2, fun k r hr => (h3 k r hr).1, hc⟩
  have heq : Net.adjustStartpoints net =
      (placeAnchors net >>= fun c => Net.passes net.roads.keys.length c net.roads.keys) net :=
    adjustStartpoints_eq net
  have hp : Net.pass net.roads.keys net' = .ok 0 net' := by
    refine pass_done _ fun k hk => ?_
    rw [← hk', ← Dict.get?_isSome, Option.isSome_iff_exists] at hk
    obtain ⟨r, hr⟩ := hk
    exact ⟨r, hr, hadj' k r hr⟩
  rw [heq, bind_of_ok ha, Net.passes, dif_pos hc', bind_of_ok hp, dif_pos ⟨by omega, rfl⟩]
  exact ⟨net', rfl⟩

/-- C15: on a well-formed network of at least two roads, one of them without a given start pose, a
second `adjust_startpoints` after a successful one always raises `UndefinedRoadNetwork`. -/
theorem C15_network_twice (net net' : Net ℝ) (hw : WellFormed net)
    (h : Net.adjustStartpoints net = .ok () net') (htwo : 2 ≤ net.roads.length)
    (hfree : ∃ k r, net.roads.get? k = some r ∧ r.planview.fixed = false) :
    ∃ net'', Net.adjustStartpoints net' = .error .undefinedRoadNetwork net'' := by
  obtain ⟨⟨n2, h2, hg⟩, _⟩ | ⟨⟨n2, h2⟩, _⟩ := startpoints_wellFormed hw
  · rw [h] at h2; cases h2
    have hlen : net'.roads.length = net.roads.length := by
      have := congrArg List.length hg.same.1
      simpa [Dict.keys] using this
    refine C15_network_again net' (fun k r hr => ⟨startpoints_all hw.nodup hw.fresh h hr,
      hg.evaluable hw.placeable hr⟩) (by omega) ?_
    obtain ⟨k, r, hr, hf⟩ := hfree
    obtain ⟨r0, r', q1, q2, q3⟩ := hg.road (Dict.mem_keys_of_get? hr)
    rw [hr] at q1; cases q1
    exact ⟨k, r', q2, by rw [q3.2.1]; exact hf⟩
  · rw [h] at h2; simp at h2

/-! ## A concrete network

Roads 1 - 4; road 2 follows road 1, road 3 is a connecting road (of junction 5) from the end of road 2
to the start of road 4. No road has a given start pose, so road 1 is the anchor. -/

/-- An unplaced road consisting of one geometry. -/
noncomputable def exRoad (id : Int) (rt : Int) (g : Nat) (pred succ : Option Link) (off : Int) :
    Road ℝ :=
  { Road.new (.int id) ⟨⟨0, 0, 0⟩, 0, false, none, none, [g], [], [], false⟩ [] rt none none with
    predecessor := pred, successor := succ, laneOffsetPred := off }

noncomputable def exNet : Net ℝ :=
  { roads := [("1", exRoad 1 (-1) 0 none none 0),
      ("2", exRoad 2 (-1) 1 (some ⟨.predecessor, .int 1, some .road, some .end, none⟩) none 1),
      ("3", exRoad 3 5 2 (some ⟨.predecessor, .int 2, some .road, some .end, none⟩)
        (some ⟨.successor, .int 4, some .road, some .start, none⟩) 0),
      ("4", exRoad 4 (-1) 3 none none 0)]
    geoms := ⟨fun i => .line ⟨i + 1⟩, 4⟩ }

theorem exNet_get {k : String} {r : Road ℝ} (h : exNet.roads.get? k = some r) :
    (k = "1" ∧ r = exRoad 1 (-1) 0 none none 0) ∨
    (k = "2" ∧ r = exRoad 2 (-1) 1 (some ⟨.predecessor, .int 1, some .road, some .end, none⟩) none 1) ∨
    (k = "3" ∧ r = exRoad 3 5 2 (some ⟨.predecessor, .int 2, some .road, some .end, none⟩)
        (some ⟨.successor, .int 4, some .road, some .start, none⟩) 0) ∨
    (k = "4" ∧ r = exRoad 4 (-1) 3 none none 0) := by
  simp only [exNet, Dict.get?] at h
  repeat' split at h
  all_goals first | (cases h; done) | skip
  all_goals (cases h; subst_vars; simp)

theorem exNet_wellFormed : WellFormed exNet := by
  have e1 : strInt 1 = "1" := by decide
  have e2 : strInt 2 = "2" := by decide
  have e4 : strInt 4 = "4" := by decide
  have hk : exNet.roads.keys = ["1", "2", "3", "4"] := rfl
  refine ⟨by simp [exNet], by rw [hk]; decide, ?_, ?_, ?_, ?_, ?_, ?_⟩
  · intro k r h
    rcases exNet_get h with ⟨_, rfl⟩ | ⟨_, rfl⟩ | ⟨_, rfl⟩ | ⟨_, rfl⟩ <;> exact ⟨rfl, rfl⟩
  · intro k r l h hl
    rw [hk]
    rcases exNet_get h with ⟨_, rfl⟩ | ⟨_, rfl⟩ | ⟨_, rfl⟩ | ⟨_, rfl⟩ <;>
      rcases hl with hl | hl <;> cases hl <;> simp [PyId.toStr, e1, e2, e4]
  · intro k r l h hl ht
    rcases exNet_get h with ⟨_, rfl⟩ | ⟨_, rfl⟩ | ⟨_, rfl⟩ | ⟨_, rfl⟩ <;>
      rcases hl with hl | hl <;> cases hl <;> simp
  · intro k r h
    rcases exNet_get h with ⟨_, rfl⟩ | ⟨_, rfl⟩ | ⟨_, rfl⟩ | ⟨_, rfl⟩ <;>
      exact ⟨fun g _ => by simp [exNet, shapeOf], .inl rfl⟩
  · intro k r l h ht hl
    rcases exNet_get h with ⟨_, rfl⟩ | ⟨_, rfl⟩ | ⟨_, rfl⟩ | ⟨_, rfl⟩ <;>
      rcases hl with hl | hl <;> cases hl <;> first | exact absurd rfl ht | skip
    all_goals
      refine ⟨by simp, fun t h' => ?_⟩
      simp only [PyId.toStr, e2, e4] at h'
      rcases exNet_get h' with ⟨q, rfl⟩ | ⟨q, rfl⟩ | ⟨q, rfl⟩ | ⟨q, rfl⟩ <;>
        first | rfl | exact absurd q (by decide)
  · intro k r h ha
    rcases ha with ⟨r', h', hf⟩ | ⟨_, h'⟩
    · rcases exNet_get h' with ⟨_, rfl⟩ | ⟨_, rfl⟩ | ⟨_, rfl⟩ | ⟨_, rfl⟩ <;> cases hf
    · rw [hk] at h'
      rcases exNet_get h with ⟨rfl, rfl⟩ | ⟨rfl, rfl⟩ | ⟨rfl, rfl⟩ | ⟨rfl, rfl⟩ <;>
        first | rfl | exact absurd h' (by decide)

theorem exNet_reachable : ∀ k ∈ exNet.roads.keys, Reachable exNet.roads k := by
  have e1 : strInt 1 = "1" := by decide
  have e2 : strInt 2 = "2" := by decide
  have e4 : strInt 4 = "4" := by decide
  have h1 : Reachable exNet.roads "1" := by
    refine .anchor (.inr ⟨fun k r h => ?_, rfl⟩)
    rcases exNet_get h with ⟨_, rfl⟩ | ⟨_, rfl⟩ | ⟨_, rfl⟩ | ⟨_, rfl⟩ <;> rfl
  have h2 : Reachable exNet.roads "2" := by
    refine .step (nb := "1") (e := .start) (e' := .end) ?_ h1
    have := PlacedBy.pred (roads := exNet.roads) (k := "2") (cp := .end)
      (l := ⟨.predecessor, .int 1, some .road, some .end, none⟩) rfl rfl (by simp) rfl
    simpa only [PyId.toStr, e1] using this
  have h3 : Reachable exNet.roads "3" := by
    refine .step (nb := "2") (e := .start) (e' := .end) ?_ h2
    have := PlacedBy.pred (roads := exNet.roads) (k := "3") (cp := .end)
      (l := ⟨.predecessor, .int 2, some .road, some .end, none⟩) rfl rfl (by simp) rfl
    simpa only [PyId.toStr, e2] using this
  have h4 : Reachable exNet.roads "4" := by
    refine .step (nb := "3") (e := .start) (e' := .end) ?_ h3
    have := PlacedBy.connSucc (roads := exNet.roads) (c := "3")
      (l := ⟨.successor, .int 4, some .road, some .start, none⟩) rfl (by simp [exRoad, Road.new]) rfl
    simpa only [PyId.toStr, e4, Option.getD_some] using this
  intro k hk
  have : exNet.roads.keys = ["1", "2", "3", "4"] := rfl
  rw [this] at hk
  simp only [List.mem_cons, List.not_mem_nil, or_false] at hk
  rcases hk with rfl | rfl | rfl | rfl <;> assumption

/-- The hypotheses of C20 hold of the example, and therefore those of C17-C19, C22 (a successful run
from a fresh network with distinct ids). -/
theorem exNet_placed : ∃ net', Net.adjustStartpoints exNet = .ok () net' :=
  (C20_succeeds_iff exNet exNet_wellFormed).mpr exNet_reachable

example : ∃ net', Net.adjustStartpoints exNet = .ok () net' ∧ exNet.roads.keys.Nodup ∧
    Fresh exNet.roads ∧ Connected exNet.roads net'.roads "4" := by
  obtain ⟨net', h⟩ := exNet_placed
  refine ⟨net', h, exNet_wellFormed.nodup, exNet_wellFormed.fresh, ?_⟩
  have hs := C18_only_placement exNet net' exNet_wellFormed.nodup exNet_wellFormed.fresh h
  exact C19_connected_with_offset exNet net' exNet_wellFormed.nodup exNet_wellFormed.fresh h "4"
    (by have : exNet.roads.keys = ["1", "2", "3", "4"] := rfl
        rw [this]; simp)

/-- Without road 2's predecessor link, road 2 cannot be placed and the call raises. -/
noncomputable def exNetCut : Net ℝ :=
  { roads := [("1", exRoad 1 (-1) 0 none none 0), ("2", exRoad 2 (-1) 1 none none 0)]
    geoms := exNet.geoms }

example : ∃ net', Net.adjustStartpoints exNetCut = .error .undefinedRoadNetwork net' := by
  have get : ∀ {k r}, exNetCut.roads.get? k = some r →
      (k = "1" ∧ r = exRoad 1 (-1) 0 none none 0) ∨ (k = "2" ∧ r = exRoad 2 (-1) 1 none none 0) := by
    intro k r h
    simp only [exNetCut, Dict.get?] at h
    repeat' split at h
    all_goals first | (cases h; done) | (cases h; subst_vars; simp)
  have hk : exNetCut.roads.keys = ["1", "2"] := rfl
  have hanchor : ∀ k, Anchor exNetCut.roads k → k = "1" := by
    rintro k (⟨r, h, hf⟩ | ⟨_, h⟩)
    · rcases get h with ⟨_, rfl⟩ | ⟨_, rfl⟩ <;> cases hf
    · rw [hk] at h; cases h; rfl
  refine C20_otherwise exNetCut ⟨by simp [exNetCut], by rw [hk]; decide, ?_, ?_, ?_, ?_, ?_, ?_⟩ ?_
  · intro k r h; rcases get h with ⟨_, rfl⟩ | ⟨_, rfl⟩ <;> exact ⟨rfl, rfl⟩
  · intro k r l h hl; rcases get h with ⟨_, rfl⟩ | ⟨_, rfl⟩ <;> rcases hl with hl | hl <;> cases hl
  · intro k r l h hl; rcases get h with ⟨_, rfl⟩ | ⟨_, rfl⟩ <;> rcases hl with hl | hl <;> cases hl
  · intro k r h
    rcases get h with ⟨_, rfl⟩ | ⟨_, rfl⟩ <;>
      exact ⟨fun g _ => by simp [exNetCut, exNet, shapeOf], .inl rfl⟩
  · intro k r l h _ hl
    rcases get h with ⟨_, rfl⟩ | ⟨_, rfl⟩ <;> rcases hl with hl | hl <;> cases hl
  · intro k r h _; rcases get h with ⟨_, rfl⟩ | ⟨_, rfl⟩ <;> rfl
  · intro hall
    have := hall "2" (by rw [hk]; simp)
    cases this with
    | anchor h => exact absurd (hanchor _ h) (by decide)
    | step h _ =>
      generalize hkk : "2" = k at h
      cases h with
      | pred h1 h2 => rcases get h1 with ⟨_, rfl⟩ | ⟨_, rfl⟩ <;> cases h2
      | succ h1 h2 => rcases get h1 with ⟨_, rfl⟩ | ⟨_, rfl⟩ <;> cases h2
      | connPred h1 _ h2 => rcases get h1 with ⟨_, rfl⟩ | ⟨_, rfl⟩ <;> cases h2
      | connSucc h1 _ h2 => rcases get h1 with ⟨_, rfl⟩ | ⟨_, rfl⟩ <;> cases h2

/-- A second road whose predecessor is junction 9. -/
noncomputable def exNetJunction : Net ℝ :=
  { roads := [("1", exRoad 1 (-1) 0 none none 0),
      ("2", exRoad 2 (-1) 1 (some ⟨.predecessor, .int 9, some .junction, none, none⟩) none 0)]
    geoms := exNet.geoms }

/-- It makes the call raise `KeyError` (C23). -/
example : ∃ net', Net.adjustStartpoints exNetJunction = .error .keyError net' := by
  have e9 : strInt 9 = "9" := by decide
  refine C23_unresolvable_raises exNetJunction "1" "2" [] _ _ _ rfl (by decide) ?_ rfl rfl
    ⟨fun g _ => by simp [exNetJunction, exNet, shapeOf], .inl rfl⟩ rfl rfl ?_
  · intro k r h
    simp only [exNetJunction, Dict.get?] at h
    repeat' split at h
    all_goals first | (cases h; done) | (cases h; rfl)
  · simp [PyId.toStr, e9, Dict.keys, exNetJunction]

/-- C15 on the example. -/
example : ∃ net' net'', Net.adjustStartpoints exNet = .ok () net' ∧
    Net.adjustStartpoints net' = .error .undefinedRoadNetwork net'' := by
  obtain ⟨net', h⟩ := exNet_placed
  obtain ⟨net'', h2⟩ := C15_network_twice exNet net' exNet_wellFormed h (by simp [exNet])
    ⟨"1", _, rfl, rfl⟩
  exact ⟨net', net'', h, h2⟩

/-- C21 on the example: road 2, which has lane offset 1, is put at the end of road 1. -/
example : ∃ (net net' : Net ℝ) (r : Road ℝ), net.roads.get? "2" = some r ∧ r.laneOffsetPred = 1 ∧
    Net.adjustRoadWrtNeighbour (.str "2") (.str "1") (some .end) true net = .ok () net' := by
  obtain ⟨net, h⟩ := exNet_placed
  obtain ⟨⟨n2, h2, hg⟩, _⟩ | ⟨⟨n2, h2⟩, _⟩ := startpoints_wellFormed exNet_wellFormed
  · rw [h] at h2; cases h2
    have hk : exNet.roads.keys = ["1", "2", "3", "4"] := rfl
    obtain ⟨q0, q, q1, q2, q3⟩ := hg.road (k := "2") (by rw [hk]; simp)
    obtain ⟨n0, n, n1, n2, n3⟩ := hg.road (k := "1") (by rw [hk]; simp)
    obtain ⟨net', h', _⟩ := hg.adjustWrt exNet_wellFormed.placeable (road := .str "2") (nb := .str "1")
      (by rw [hk]; simp [PyId.toStr]) n2
      (startpoints_all exNet_wellFormed.nodup exNet_wellFormed.fresh h n2) .end true
    refine ⟨net, net', q, q2, ?_, h'⟩
    rw [q3.1]
    rcases exNet_get q1 with ⟨e, rfl⟩ | ⟨_, rfl⟩ | ⟨e, rfl⟩ | ⟨e, rfl⟩
    · exact absurd e (by decide)
    · rfl
    · exact absurd e (by decide)
    · exact absurd e (by decide)
  · rw [h] at h2; simp at h2

end Pyodrx.Props
