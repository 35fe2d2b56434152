import Verif.Spec.FloatNetwork
import Verif.Props.Float
import Verif.Proofs.FloatTrack
import Verif.Props.FloatBackward
import Verif.Props.Network

/-! # C69: the roads of a network in floating point arithmetic -/

namespace Pyodrx.Props
open Pyodrx Pyodrx.Spec PyFloat

variable {R : Rounding}

/-- A coordinate shifted by `n` times a number `t` that approximates `t'`. -/
theorem shift_coord (R : Rounding) (n : ℤ) {t t' c x : ℝ} (h : |t - t'| ≤ R.u * c) (hc : 0 ≤ c) (ht : |t'| ≤ 1) :
    |R.rnd (R.rnd (R.rnd n * t) + x) - (x + n * t')| ≤ R.u * (|x| + |(n:ℝ)| * (1.01 * c + 3.1)) := by
  have h0 := R.u_nonneg
  have hn := abs_nonneg (n:ℝ)
  have e := R.err (n:ℝ)
  have hr : |R.rnd n| ≤ 1.001 * |(n:ℝ)| := by
    calc |R.rnd n| = |(R.rnd n - n) + n| := by ring_nf
      _ ≤ |R.rnd n - n| + |(n:ℝ)| := abs_add_le _ _
      _ ≤ R.u * |(n:ℝ)| + |(n:ℝ)| := by linarith
      _ ≤ 1 / 1000 * |(n:ℝ)| + |(n:ℝ)| := by linarith [mul_le_mul_of_nonneg_right R.u_small hn]
      _ = _ := by ring
  have a : |R.rnd n * t - n * t'| ≤ R.u * (|(n:ℝ)| * (1.001 * c + 1)) := by
    calc |R.rnd n * t - n * t'| = |R.rnd n * (t - t') + (R.rnd n - n) * t'| := by ring_nf
      _ ≤ |R.rnd n| * |t - t'| + |R.rnd n - n| * |t'| := by rw [← abs_mul, ← abs_mul]; exact abs_add_le _ _
      _ ≤ (1.001 * |(n:ℝ)|) * (R.u * c) + (R.u * |(n:ℝ)|) * 1 := by
          refine add_le_add (mul_le_mul hr h (abs_nonneg _) (by positivity)) ?_
          exact mul_le_mul e ht (abs_nonneg _) (by positivity)
      _ = _ := by ring
  have hb : |(n:ℝ) * t'| ≤ |(n:ℝ)| := by
    rw [abs_mul]; exact (mul_le_mul_of_nonneg_left ht hn).trans (by simp)
  have b := R.near a (by positivity) hb
  have c' : |R.rnd (R.rnd n * t) + x - (x + n * t')| ≤
      R.u * (1.001 * (|(n:ℝ)| * (1.001 * c + 1)) + |(n:ℝ)|) := by convert b using 2; ring
  have hd : |x + n * t'| ≤ |x| + |(n:ℝ)| := (abs_add_le _ _).trans (by linarith)
  refine (R.near c' (by positivity) hd).trans (mul_le_mul_of_nonneg_left ?_ h0)
  have : 0 ≤ |(n:ℝ)| * c := by positivity
  nlinarith

/-- The same for `n = -3d` or `n = 3d`; nothing happens for `d = 0`. -/
theorem shift_near (R : Rounding) (n d : ℤ) (hn : n = 3 * d ∨ n = -3 * d) {t t' H x : ℝ} (hx : R.rnd x = x)
    (h : |t - t'| ≤ R.u * (1.2 * H + 13.2)) (hH : 0 ≤ H) (ht : |t'| ≤ 1) :
    |R.rnd (R.rnd (R.rnd n * t) + x) - (x + n * t')| ≤ R.u * (|(d:ℝ)| * (|x| + 4 * H + 50)) := by
  by_cases hd : d = 0
  · subst hd
    have : n = 0 := by omega
    subst this
    simp [R.zero, hx]
  · have h0 := R.u_nonneg
    have h1 : (1:ℝ) ≤ |(d:ℝ)| := by
      have : (1:ℤ) ≤ |d| := Int.one_le_abs hd
      exact_mod_cast this
    have h2 : |(n:ℝ)| = 3 * |(d:ℝ)| := by
      rcases hn with rfl | rfl <;> push_cast <;> rw [abs_mul] <;> norm_num
    refine (shift_coord R n h (by positivity) ht).trans (mul_le_mul_of_nonneg_left ?_ h0)
    rw [h2]
    nlinarith [abs_nonneg x, mul_nonneg (abs_nonneg (d:ℝ)) hH, mul_nonneg (sub_nonneg.mpr h1) (abs_nonneg x)]

/-- The pose of someone standing at the end `e'` of a road, looking away from the road. -/
noncomputable def leavingFl (e' : ContactPoint) (q : Pose (Fl R)) : Pose (Fl R) :=
  match e' with | .start => { q with h := q.h +. pi } | .end => q

theorem neighbourPose_fl {n : Road (Fl R)} {e' : ContactPoint} {p : Pose (Fl R)}
    (h : neighbourPose n e' = .ok p) : ∃ q, endPose n e' = some q ∧ p = leavingFl e' q := by
  cases e' with
  | start =>
    simp only [neighbourPose] at h
    cases hs : n.planview.start with
    | none => rw [hs] at h; simp at h
    | some q0 => rw [hs] at h; cases h; exact ⟨_, hs, rfl⟩
  | «end» =>
    simp only [neighbourPose] at h
    cases hs : n.planview.stop with
    | none => rw [hs] at h; simp at h
    | some q0 => rw [hs] at h; cases h; exact ⟨_, hs, rfl⟩

theorem attach_meets_nearly (e e' : ContactPoint) (d : Int) (q : Pose (Fl R)) :
    MeetsNearly R.u d e (real (attachPose e d (leavingFl e' q))) e' (real q) := by
  have h0 := R.u_nonneg
  have hq := abs_nonneg q.h.val
  -- the heading of the one who leaves
  have hl : ∃ h' : ℝ, |(leavingFl e' q).h.val - h'| ≤ R.u * (|q.h.val| + 6.4) ∧ |h'| ≤ |q.h.val| + 3.15 ∧
      h' = outgoing e' q.h.val := by
    cases e' with
    | start =>
      refine ⟨_, ?_, ?_, rfl⟩
      · have := near_add_pi R (h := q.h.val) (h' := q.h.val) (c := 0) (by simp) le_rfl
        simpa [leavingFl, outgoing] using this
      · exact (abs_add_le _ _).trans (by linarith [pi_le])
    | «end» =>
      refine ⟨_, ?_, ?_, rfl⟩
      · simp only [leavingFl, outgoing, sub_self, abs_zero]; positivity
      · simp only [outgoing]; linarith
  obtain ⟨h', hl1, hl2, hl3⟩ := hl
  have hxy : (leavingFl e' q).x = q.x ∧ (leavingFl e' q).y = q.y := by cases e' <;> exact ⟨rfl, rfl⟩
  set w := leavingFl e' q with hw
  have hwh : |w.h.val| ≤ 1.001 * |q.h.val| + 3.16 := by
    calc |w.h.val| = |(w.h.val - h') + h'| := by ring_nf
      _ ≤ |w.h.val - h'| + |h'| := abs_add_le _ _
      _ ≤ R.u * (|q.h.val| + 6.4) + (|q.h.val| + 3.15) := add_le_add hl1 hl2
      _ ≤ 1 / 1000 * (|q.h.val| + 6.4) + (|q.h.val| + 3.15) := by
          linarith [mul_le_mul_of_nonneg_right R.u_small (show 0 ≤ |q.h.val| + 6.4 by positivity)]
      _ ≤ _ := by linarith
  cases e with
  | start =>
    have cs : |R.rnd (R.sin w.h.val) - Real.sin w.h.val| ≤ R.u * (1.2 * |q.h.val| + 13.2) :=
      (R.near_sin (a := w.h.val) (b := w.h.val) (c := 0) (by simp)).trans (mul_le_mul_of_nonneg_left (by linarith) h0)
    have cc : |R.rnd (R.cos w.h.val) - Real.cos w.h.val| ≤ R.u * (1.2 * |q.h.val| + 13.2) :=
      (R.near_cos (a := w.h.val) (b := w.h.val) (c := 0) (by simp)).trans (mul_le_mul_of_nonneg_left (by linarith) h0)
    refine ⟨?_, ?_, ?_⟩
    · have := shift_near R (-d * 3) d (.inr (by ring)) q.x.rep cs hq (Real.abs_sin_le_one _)
      simp only [real, attachPose, offsetPose, if_true, fl_add, fl_mul, fl_ofInt, fl_sin, hxy.1]
      convert this using 2; push_cast; ring
    · have := shift_near R (d * 3) d (.inl (by ring)) q.y.rep cc hq (Real.abs_cos_le_one _)
      simp only [real, attachPose, offsetPose, if_true, fl_add, fl_mul, fl_ofInt, fl_cos, hxy.2]
      convert this using 2; push_cast; ring
    · show |w.h.val + Real.pi - (outgoing e' q.h.val + Real.pi)| ≤ R.u * (2.1 * |q.h.val| + 16)
      rw [← hl3]
      refine le_trans ?_ (hl1.trans (mul_le_mul_of_nonneg_left (by linarith) h0))
      rw [add_sub_add_right_eq_sub]
  | «end» =>
    -- the heading at the end
    have b : |R.rnd (w.h.val + R.rnd Real.pi) - (w.h.val + Real.pi)| ≤ R.u * (1.1 * |q.h.val| + 10) := by
      have := near_add_pi R (h := w.h.val) (h' := w.h.val) (c := 0) (by simp) le_rfl
      exact this.trans (mul_le_mul_of_nonneg_left (by linarith) h0)
    set H := R.rnd (w.h.val + R.rnd Real.pi) with hH
    have sinw : |R.rnd (R.sin w.h.val) - -Real.sin H| ≤ R.u * (1.2 * |q.h.val| + 13.2) := by
      have s1 := R.near_sin (a := w.h.val) (b := w.h.val) (c := 0) (by simp)
      have s2 : |Real.sin w.h.val - -Real.sin H| ≤ |H - (w.h.val + Real.pi)| := by
        have := Real.abs_sin_sub_sin_le H (w.h.val + Real.pi)
        rw [Real.sin_add_pi] at this
        convert this using 2; ring
      have s3 := abs_sub_le (R.rnd (R.sin w.h.val)) (Real.sin w.h.val) (-Real.sin H)
      have s4 : 0 ≤ R.u * (0.1 * |q.h.val| + 0.1) := by positivity
      linarith
    have cosw : |R.rnd (R.cos w.h.val) - -Real.cos H| ≤ R.u * (1.2 * |q.h.val| + 13.2) := by
      have s1 := R.near_cos (a := w.h.val) (b := w.h.val) (c := 0) (by simp)
      have s2 : |Real.cos w.h.val - -Real.cos H| ≤ |H - (w.h.val + Real.pi)| := by
        have := Real.abs_cos_sub_cos_le H (w.h.val + Real.pi)
        rw [Real.cos_add_pi] at this
        convert this using 2; ring
      have s3 := abs_sub_le (R.rnd (R.cos w.h.val)) (Real.cos w.h.val) (-Real.cos H)
      have s4 : 0 ≤ R.u * (0.1 * |q.h.val| + 0.1) := by positivity
      linarith
    refine ⟨?_, ?_, ?_⟩
    · have := shift_near R (d * 3) d (.inl (by ring)) q.x.rep sinw hq (by rw [abs_neg]; exact Real.abs_sin_le_one _)
      simp only [real, attachPose, offsetPose, Bool.false_eq_true, if_false, fl_add, fl_mul, fl_ofInt, fl_sin, fl_pi,
        hxy.1]
      convert this using 2; push_cast; ring
    · have := shift_near R (-d * 3) d (.inr (by ring)) q.y.rep cosw hq (by rw [abs_neg]; exact Real.abs_cos_le_one _)
      simp only [real, attachPose, offsetPose, Bool.false_eq_true, if_false, fl_add, fl_mul, fl_ofInt, fl_cos, fl_pi,
        hxy.2]
      convert this using 2; push_cast; ring
    · show |R.rnd (w.h.val + R.rnd Real.pi) - (outgoing e' q.h.val + Real.pi)| ≤ R.u * (2.1 * |q.h.val| + 16)
      have := near_add_pi R hl1 (by positivity)
      rw [← hl3]
      exact this.trans (mul_le_mul_of_nonneg_left (by linarith) h0)

theorem _root_.Pyodrx.AttachedTo.joinedNearly {roads0 roads : Dict (Road (Fl R))} {k nb : String}
    (h : AttachedTo roads0 roads k nb) : JoinedNearly roads0 roads k nb := by
  obtain ⟨e, e', r, n, p, h1, h2, h3, _, _, h4, h5⟩ := h
  obtain ⟨q, hq, rfl⟩ := neighbourPose_fl h4
  exact ⟨e, e', r, n, _, q, h1, h2, h3, h5, hq, attach_meets_nearly e e' _ q⟩

theorem _root_.Pyodrx.Grown.connectedNearly {roads0 roads : Dict (Road (Fl R))} {k : String}
    (h : Grown roads0 roads k) : ConnectedNearly roads0 roads k := by
  induction h with
  | anchor h _ _ _ _ => exact .anchor h
  | step h _ ih => exact .step h.joinedNearly ih

/-- C69: after a normal return on fresh roads, every road is an anchor or was put at another road by a declared link:
up to rounding errors their ends meet there, shifted by 3 times the lane offset of the placed road; following these
joints from any road one comes to an anchor. -/
theorem C69_joints (net net' : Net (Fl R)) (hn : net.roads.keys.Nodup) (hf : Fresh net.roads)
    (h : Net.adjustStartpoints net = .ok () net') : ∀ k ∈ net.roads.keys, ConnectedNearly net.roads net'.roads k := by
  intro k hk
  obtain ⟨m, hh, _⟩ := startpoints_history hn hf h
  rw [← hh.same.1, ← Dict.get?_isSome, Option.isSome_iff_exists] at hk
  obtain ⟨r, hr⟩ := hk
  obtain ⟨r1, h1, h2⟩ := hh.inv rfl hf k r hr
  exact (h2.of_adjusted (startpoints_all hn hf h hr)).1.connectedNearly

/-- C69: without lane offsets, roads are put together without any gap: the numbers of the positions are equal. -/
theorem C69_no_gap (net net' : Net (Fl R)) (hn : net.roads.keys.Nodup) (hf : Fresh net.roads)
    (hz : ∀ k r, net.roads.get? k = some r → r.laneOffsetPred = 0 ∧ r.laneOffsetSuc = 0)
    (h : Net.adjustStartpoints net = .ok () net') (k : String) (hk : k ∈ net.roads.keys)
    (ha : ¬ Anchor net.roads k) :
    ∃ nb e e' r n p q, PlacedBy net.roads k e nb e' ∧
      net'.roads.get? k = some r ∧ net'.roads.get? nb = some n ∧
      endPose r e = some p ∧ endPose n e' = some q ∧ p.x = q.x ∧ p.y = q.y ∧
      |outgoing e p.h.val - (outgoing e' q.h.val + Real.pi)| ≤ R.u * (2.1 * |q.h.val| + 16) ∧
      ConnectedNearly net.roads net'.roads nb := by
  have hc := C69_joints net net' hn hf h k hk
  cases hc with
  | anchor hc => exact absurd hc ha
  | step hj hnb =>
    rename_i nb
    obtain ⟨e, e', r, n, p, q, h1, h2, h3, h4, h5, h6, h7, h8⟩ := hj
    obtain ⟨m, hh, _⟩ := startpoints_history hn hf h
    obtain ⟨r0, i1, i2⟩ := hh.same.2 k r h2
    have hoff : offsetAt r e = 0 := by
      rw [i2.1]
      cases e
      · exact (hz k r0 i1).1
      · exact (hz k r0 i1).2
    rw [hoff] at h6 h7
    simp only [Int.cast_zero, abs_zero, zero_mul, mul_zero, sub_zero, add_zero, real] at h6 h7
    exact ⟨nb, e, e', r, n, p, q, h1, h2, h3, h4, h5, Fl.ext (sub_eq_zero.mp (abs_nonpos_iff.mp h6)),
      Fl.ext (sub_eq_zero.mp (abs_nonpos_iff.mp h7)), h8, hnb⟩

/-- C69: after a normal return on fresh roads, the written geometries of every road without given headings lead from the
start of the road to its end, up to rounding errors: in the order they are written, or in the reverse order. -/
theorem C69_tracks (net net' : Net (Fl R)) (hn : net.roads.keys.Nodup) (hf : Fresh net.roads)
    (harcs : ArcsCurved net.geoms) (h : Net.adjustStartpoints net = .ok () net') (k : String) (r : Road (Fl R))
    (hr : net'.roads.get? k = some r) (ho : r.planview.overridden = []) :
    ∃ p q, endPose r .start = some p ∧ endPose r .end = some q ∧
      (TrackNearly net'.geoms r.planview.adjGeoms p q ∨ TrackNearly net'.geoms r.planview.adjGeoms.reverse p q) := by
  have hKept : Kept (SameCurvature net.geoms) := kept_curvature net.geoms
  have hBack : KeptBack (SameCurvature net.geoms) := keptBack_curvature net.geoms
  obtain ⟨m, hh, _⟩ := startpoints_history hn hf h
  obtain ⟨hc, hi⟩ := hh.kept hKept hBack (fun j => ⟨rfl, fun a ha => harcs j a ha⟩)
  obtain ⟨r0, h0, h1⟩ := hi k r hr
  rcases h1 with rfl | ⟨b, p, g, st, hK, hadj, rfl⟩
  · have := startpoints_all hn hf h hr
    rw [(hf k r h0).1] at this; simp at this
  · have hfr := (adjustGeometries_gen hadj).frame
    obtain ⟨p', q', h1, h2, h3⟩ := adjust_track hKept hBack hadj hK (hf k r0 h0).2 (by rw [← hfr.2.2]; exact ho)
    refine ⟨p', q', h1, h2, ?_⟩
    cases b
    · exact .inl (h3.congr fun j => (hc j).1.symm)
    · exact .inr (h3.congr fun j => (hc j).1.symm)

/-- Planviews in floating point arithmetic that can be adjusted. -/
def floatEval (R : Rounding) : Eval (Fl R) where
  Ok g pv := (∀ r ∈ pv.raw, Spec.Usable (g.cell r)) ∧ (pv.overridden = [] ∨ pv.raw.length ≤ pv.overridden.length)
  frame {g pv pv'} h hf := by
    obtain ⟨-, h1, h2⟩ := hf
    rw [h1, h2]; exact h
  adjust {g pv} h b := by
    suffices hs : ∃ st, PlanView.adjustGeometries b ⟨pv, g⟩ = .ok () st ∧
        ∀ j, Spec.Usable (g.cell j) → Spec.Usable (st.geoms.cell j) by
      obtain ⟨st, h1, h2⟩ := hs
      exact ⟨st, h1, fun pv' hp => ⟨fun r hr => h2 r (hp.1 r hr), hp.2⟩⟩
    have hE : ∀ r ∈ pv.raw, ∀ (c : Geom (Fl R)) (p : Pose (Fl R)), (Spec.Usable (g.cell r) → Spec.Usable c) →
        ∃ q l c', Geom.getEndData p c = .ok (q, some l) c' ∧ (Spec.Usable (g.cell r) → Spec.Usable c') := by
      intro r hr c p hc
      obtain ⟨q, l, c', h1, h2⟩ := usable_end (hc (h.1 r hr)) p
      exact ⟨q, l, c', h1, fun _ => h2⟩
    cases b with
    | false =>
      exact adjust_forward_succeeds (K := fun r c => Spec.Usable (g.cell r) → Spec.Usable c) ⟨pv, g⟩ hE h.2 (fun _ h => h)
    | true =>
      refine adjust_backward_succeeds (K := fun r c => Spec.Usable (g.cell r) → Spec.Usable c) ⟨pv, g⟩ hE ?_ (fun _ h => h)
      intro r hr c p hc
      obtain ⟨q, l, c', h1, h2⟩ := usable_start (hc (h.1 r hr)) p
      exact ⟨q, l, c', h1, fun _ => h2⟩

/-- The dichotomy behind the two theorems below. -/
theorem startpoints_usable {net : Net (Fl R)} (hw : WellLinked net) (hu : UsableRoads net) :
    ((∃ net', Net.adjustStartpoints net = .ok () net') ∧ ∀ k ∈ net.roads.keys, Reachable net.roads k) ∨
    ((∃ net', Net.adjustStartpoints net = .error .undefinedRoadNetwork net') ∧
      ¬ ∀ k ∈ net.roads.keys, Reachable net.roads k) := by
  rcases startpoints_placeable (E := floatEval R) { hw with ok := hu } with ⟨⟨n, h1, -⟩, h2⟩ | h
  · exact .inl ⟨⟨n, h1⟩, h2⟩
  · exact .inr h

/-- C69: in floating point arithmetic too, placing a network of roads with usable geometries whose links are well
declared returns normally exactly if every road can be reached from an anchor. -/
theorem C69_succeeds_iff (net : Net (Fl R)) (hw : WellLinked net) (hu : UsableRoads net) :
    (∃ net', Net.adjustStartpoints net = .ok () net') ↔ ∀ k ∈ net.roads.keys, Reachable net.roads k := by
  rcases startpoints_usable hw hu with ⟨h1, h2⟩ | ⟨⟨net', h1⟩, h2⟩
  · exact ⟨fun _ => h2, fun _ => h1⟩
  · refine ⟨fun ⟨n2, h3⟩ => ?_, fun h => absurd h h2⟩
    rw [h1] at h3; simp at h3

/-- C69: and otherwise it raises `UndefinedRoadNetwork`, never anything else. -/
theorem C69_otherwise (net : Net (Fl R)) (hw : WellLinked net) (hu : UsableRoads net)
    (h : ¬ ∀ k ∈ net.roads.keys, Reachable net.roads k) :
    ∃ net', Net.adjustStartpoints net = .error .undefinedRoadNetwork net' := by
  rcases startpoints_usable hw hu with ⟨_, h2⟩ | ⟨h1, _⟩
  · exact absurd h2 h
  · exact h1

/-! ## A network in doubles

Road 2 (an arc) follows road 1 (a line) shifted by a lane; road 3, a connecting road of junction 5, leads on from the end
of road 2 to the end of road 4, which is adjusted from its end. -/

/-- An unplaced road consisting of one geometry. -/
noncomputable def flRoad (id : Int) (rt : Int) (g : Nat) (pred succ : Option Link) (off : Int) : Road (Fl double) :=
  { Road.new (.int id) ⟨⟨ofInt 0, ofInt 0, ofInt 0⟩, ofInt 0, false, none, none, [g], [], [], false⟩ [] rt none none with
    predecessor := pred, successor := succ, laneOffsetPred := off }

noncomputable def flNet : Net (Fl double) :=
  { roads := [("1", flRoad 1 (-1) 0 none none 0),
      ("2", flRoad 2 (-1) 1 (some ⟨.predecessor, .int 1, some .road, some .end, none⟩) none 1),
      ("3", flRoad 3 5 0 (some ⟨.predecessor, .int 2, some .road, some .end, none⟩)
        (some ⟨.successor, .int 4, some .road, some .end, none⟩) 0),
      ("4", flRoad 4 (-1) 1 none none 0)]
    geoms := ⟨fun r => if r = 0 then .line ⟨ofInt 2⟩ else .arc ⟨ofInt 1, some (ofInt 2), none⟩, 2⟩ }

theorem flNet_get {k : String} {r : Road (Fl double)} (h : flNet.roads.get? k = some r) :
    (k = "1" ∧ r = flRoad 1 (-1) 0 none none 0) ∨
    (k = "2" ∧ r = flRoad 2 (-1) 1 (some ⟨.predecessor, .int 1, some .road, some .end, none⟩) none 1) ∨
    (k = "3" ∧ r = flRoad 3 5 0 (some ⟨.predecessor, .int 2, some .road, some .end, none⟩)
        (some ⟨.successor, .int 4, some .road, some .end, none⟩) 0) ∨
    (k = "4" ∧ r = flRoad 4 (-1) 1 none none 0) := by
  simp only [flNet, Dict.get?] at h
  repeat' split at h
  all_goals first | (cases h; done) | skip
  all_goals (cases h; subst_vars; simp)

theorem flNet_linked : WellLinked flNet := by
  have e1 : strInt 1 = "1" := by decide
  have e2 : strInt 2 = "2" := by decide
  have e4 : strInt 4 = "4" := by decide
  have hk : flNet.roads.keys = ["1", "2", "3", "4"] := rfl
  refine ⟨by simp [flNet], by rw [hk]; decide, ?_, ?_, ?_, ?_, ?_⟩
  · intro k r h
    rcases flNet_get h with ⟨_, rfl⟩ | ⟨_, rfl⟩ | ⟨_, rfl⟩ | ⟨_, rfl⟩ <;> exact ⟨rfl, rfl⟩
  · intro k r l h hl
    rw [hk]
    rcases flNet_get h with ⟨_, rfl⟩ | ⟨_, rfl⟩ | ⟨_, rfl⟩ | ⟨_, rfl⟩ <;>
      rcases hl with hl | hl <;> cases hl <;> simp [PyId.toStr, e1, e2, e4]
  · intro k r l h hl ht
    rcases flNet_get h with ⟨_, rfl⟩ | ⟨_, rfl⟩ | ⟨_, rfl⟩ | ⟨_, rfl⟩ <;>
      rcases hl with hl | hl <;> cases hl <;> simp
  · intro k r l h ht hl
    rcases flNet_get h with ⟨_, rfl⟩ | ⟨_, rfl⟩ | ⟨_, rfl⟩ | ⟨_, rfl⟩ <;>
      rcases hl with hl | hl <;> cases hl <;> first | exact absurd rfl ht | skip
    all_goals
      refine ⟨by simp, fun t h' => ?_⟩
      simp only [PyId.toStr, e2, e4] at h'
      rcases flNet_get h' with ⟨q, rfl⟩ | ⟨q, rfl⟩ | ⟨q, rfl⟩ | ⟨q, rfl⟩ <;>
        first | rfl | exact absurd q (by decide)
  · intro k r h ha
    rcases ha with ⟨r', h', hf⟩ | ⟨_, h'⟩
    · rcases flNet_get h' with ⟨_, rfl⟩ | ⟨_, rfl⟩ | ⟨_, rfl⟩ | ⟨_, rfl⟩ <;> cases hf
    · rw [hk] at h'
      rcases flNet_get h with ⟨rfl, rfl⟩ | ⟨rfl, rfl⟩ | ⟨rfl, rfl⟩ | ⟨rfl, rfl⟩ <;>
        first | rfl | exact absurd h' (by decide)

theorem flNet_reachable : ∀ k ∈ flNet.roads.keys, Reachable flNet.roads k := by
  have e1 : strInt 1 = "1" := by decide
  have e2 : strInt 2 = "2" := by decide
  have e4 : strInt 4 = "4" := by decide
  have h1 : Reachable flNet.roads "1" := by
    refine .anchor (.inr ⟨fun k r h => ?_, rfl⟩)
    rcases flNet_get h with ⟨_, rfl⟩ | ⟨_, rfl⟩ | ⟨_, rfl⟩ | ⟨_, rfl⟩ <;> rfl
  have h2 : Reachable flNet.roads "2" := by
    refine .step (nb := "1") (e := .start) (e' := .end) ?_ h1
    have := PlacedBy.pred (roads := flNet.roads) (k := "2") (cp := .end)
      (l := ⟨.predecessor, .int 1, some .road, some .end, none⟩) rfl rfl (by simp) rfl
    simpa only [PyId.toStr, e1] using this
  have h3 : Reachable flNet.roads "3" := by
    refine .step (nb := "2") (e := .start) (e' := .end) ?_ h2
    have := PlacedBy.pred (roads := flNet.roads) (k := "3") (cp := .end)
      (l := ⟨.predecessor, .int 2, some .road, some .end, none⟩) rfl rfl (by simp) rfl
    simpa only [PyId.toStr, e2] using this
  have h4 : Reachable flNet.roads "4" := by
    refine .step (nb := "3") (e := .end) (e' := .end) ?_ h3
    have := PlacedBy.connSucc (roads := flNet.roads) (c := "3")
      (l := ⟨.successor, .int 4, some .road, some .end, none⟩) rfl (by simp [flRoad, Road.new]) rfl
    simpa only [PyId.toStr, e4, Option.getD_some] using this
  intro k hk
  have : flNet.roads.keys = ["1", "2", "3", "4"] := rfl
  rw [this] at hk
  simp only [List.mem_cons, List.not_mem_nil, or_false] at hk
  rcases hk with rfl | rfl | rfl | rfl <;> assumption

/-- The hypotheses of all theorems about C69 (those of `C69_no_gap` hold with lane offset 0 for road 2). -/
example : ∃ net', WellLinked flNet ∧ UsableRoads flNet ∧ ArcsCurved flNet.geoms ∧
    Net.adjustStartpoints flNet = .ok () net' ∧ ConnectedNearly flNet.roads net'.roads "4" := by
  have v1 : (ofInt 1 : Fl double).val = 1 := Rounding.ofInt_one _
  have v2 : (ofInt 2 : Fl double).val = 2 := by
    have := double.two
    simpa using this
  have hu : UsableRoads flNet := by
    intro k r h
    have : ∀ g, Spec.Usable (flNet.geoms.cell g) := by
      intro g
      by_cases h0 : g = 0
      · simp [flNet, h0, Spec.Usable]
      · simp [flNet, h0, Spec.Usable, v1, v2]
    rcases flNet_get h with ⟨_, rfl⟩ | ⟨_, rfl⟩ | ⟨_, rfl⟩ | ⟨_, rfl⟩ <;> exact ⟨fun g _ => this g, .inl rfl⟩
  obtain ⟨net', h⟩ := (C69_succeeds_iff flNet flNet_linked hu).mpr flNet_reachable
  refine ⟨net', flNet_linked, hu, ?_, h, C69_joints flNet net' flNet_linked.nodup flNet_linked.fresh h "4" ?_⟩
  · intro r a hr
    by_cases h0 : r = 0
    · simp [flNet, h0] at hr
    · simp only [flNet, h0, if_false, Geom.arc.injEq] at hr
      rw [← hr, v1]; norm_num
  · have : flNet.roads.keys = ["1", "2", "3", "4"] := rfl
    rw [this]; simp

end Pyodrx.Props
