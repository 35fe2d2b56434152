import Verif.Spec.SessionJoints
import Verif.Props.SessionLinks
import Verif.Props.NoLoops

/-! # C96: joints of roads after `adjust_roads_and_lanes`, in programs of calls -/

namespace Pyodrx.Props
open Pyodrx Pyodrx.Spec PyFloat

variable {R : Rounding}

/-- The entries of the dictionary of an OpenDrive object are added roads under their ids. -/
theorem dict_road (p : List (Call (Fl R))) (hd : Drawing p) (s : Session (Fl R)) (o : Nat) (name : String)
    (ho : .openDrive o name ∈ p) {k : String} {v : Nat} (hv : (k, v) ∈ ((runCalls p s).2.openDrives.cell o).roads) :
    .addRoad o v ∈ p ∧ RoadIs v p ((runCalls p s).2.roads.cell v) ∧ ((runCalls p s).2.roads.cell v).attrs.id.toStr = k := by
  obtain ⟨name', roads, h1, h2, h3, h4⟩ := odrIs_program p hd.proper s o ⟨_, ho, rfl⟩
  obtain ⟨k1, k2⟩ := (idsInv_program p hd.proper s).keys o ⟨_, ho, rfl⟩
  obtain ⟨m1, m2⟩ := k2 _ hv
  have hr := roadIs_program p hd.proper s v m1
  rw [h2] at hv k1
  have hg := h4 k
  rw [Dict.mem_get? k1 hv] at hg
  obtain ⟨a, b, e, -, -⟩ := filter_getLast hg.symm
  have hmem : v ∈ roadCalls o p := by rw [e]; simp
  exact ⟨roadCalls_mem.mp hmem, hr, m2⟩

/-- The key of a road. -/
noncomputable def keyOf (p : List (Call (Fl R))) (s : Session (Fl R)) (v : Nat) : String := ((runCalls p s).2.roads.cell v).attrs.id.toStr

theorem keyOf_eq (p : List (Call (Fl R))) (hd : Drawing p) (s : Session (Fl R)) {o v : Nat} {i : PyId} {t : Int}
    (h : AddsRoad p o v i t) : keyOf p s v = i.toStr := by
  obtain ⟨-, pv, l, n, ru, h⟩ := h
  have hr := roadIs_program p hd.proper s v ⟨_, h, rfl⟩
  have := made_once hd.proper (x := .road v) h hr.made rfl rfl
  injection this with _ e
  rw [keyOf, ← e]

/-- A declared joint of the network is declared by the program. -/
theorem placed_declared (p : List (Call (Fl R))) (s : Session (Fl R)) (hs : Blank s) (o : Nat) (h : LaidOut p o)
    {k nb : String} {e e' : ContactPoint} (hp : PlacedBy (worldOf (runCalls p s).2 o).net.roads k e nb e') :
    ∃ v w, k = keyOf p s v ∧ nb = keyOf p s w ∧ (Declares p o v e w e' ∨ Declares p o w e' v e) := by
  obtain ⟨name, ho⟩ := h.document
  obtain ⟨hw, -⟩ := program_linked p h.drawing s hs o name ho h.linked
  have conv : ∀ {v l k r}, RoadOf p s o v l k r → AddsRoad p o v r.id r.roadType := by
    intro v l k r hr
    obtain ⟨h1, pv, n, ru, h2⟩ := hr.adds
    exact ⟨h1, _, _, _, _, h2⟩
  have own : ∀ {k r a e c}, (worldOf (runCalls p s).2 o).net.roads.get? k = some r → linkAt r e = some a →
      a.elementType ≠ some .junction → a.contactPoint = some c →
      ∃ v w, k = keyOf p s v ∧ a.elementId.toStr = keyOf p s w ∧ Declares p o v e w c := by
    intro k r a e c hr hlk ht hc
    obtain ⟨v, l, hv⟩ := world_road p s o h hr
    have hk' := hw.resolvable k r a hr (by cases e; exacts [.inl hlk, .inr hlk])
    obtain ⟨r', hr'⟩ := Option.isSome_iff_exists.mp ((Dict.get?_isSome _ _).mpr hk')
    obtain ⟨w, m, hw'⟩ := world_road p s o h hr'
    refine ⟨v, w, ?_, ?_, r.id, _, r'.id, _, a, conv hv, conv hw', (hv.links e).symm.trans hlk, ht, hw'.key.symm, hc⟩
    · rw [keyOf_eq p h.drawing s (conv hv), hv.key]
    · rw [keyOf_eq p h.drawing s (conv hw'), hw'.key]
  have conn : ∀ {k r a e}, (worldOf (runCalls p s).2 o).net.roads.get? k = some r → r.roadType ≠ -1 → linkAt r e = some a →
      ∃ v w, k = keyOf p s v ∧ a.elementId.toStr = keyOf p s w ∧ Declares p o v e w (a.contactPoint.getD .end) := by
    intro k r a e hr ht hlk
    have hor : r.predecessor = some a ∨ r.successor = some a := by cases e; exacts [.inl hlk, .inr hlk]
    have h1 := (hw.connecting k r a hr ht hor).1
    obtain ⟨cp, hc⟩ := Option.ne_none_iff_exists'.mp (hw.contacts k r a hr hor h1)
    obtain ⟨v, w, a1, a2, a3⟩ := own hr hlk h1 hc
    exact ⟨v, w, a1, a2, by rw [hc]; exact a3⟩
  cases hp with
  | pred hr hl ht hc =>
    obtain ⟨v, w, a1, a2, a3⟩ := own (e := .start) hr hl ht hc
    exact ⟨v, w, a1, a2, .inl a3⟩
  | succ hr hl ht hc =>
    obtain ⟨v, w, a1, a2, a3⟩ := own (e := .end) hr hl ht hc
    exact ⟨v, w, a1, a2, .inl a3⟩
  | connPred hr ht hl =>
    obtain ⟨v, w, a1, a2, a3⟩ := conn (e := .start) hr ht hl
    exact ⟨w, v, a2, a1, .inr a3⟩
  | connSucc hr ht hl =>
    obtain ⟨v, w, a1, a2, a3⟩ := conn (e := .end) hr ht hl
    exact ⟨w, v, a2, a1, .inr a3⟩

/-- A program without loops leaves a network without loops. -/
theorem program_noLoops (p : List (Call (Fl R))) (s : Session (Fl R)) (hs : Blank s) (o : Nat) (h : LaidOut p o)
    (hn : NoLoopsProgram p o) : NoLoops (worldOf (runCalls p s).2 o).net.roads := by
  obtain ⟨name, ho⟩ := h.document
  obtain ⟨L, placed, h1, h2, h3, h4⟩ := hn
  have adds : ∀ {v}, .addRoad o v ∈ p → ∃ i l t, AddsLanes p o v i l t := by
    intro v hv
    have inv := inv_drawing p h.drawing hs
    obtain ⟨i, pv, l, t, n, ru, a, -⟩ := inv.roads v (inv.puts o v hv).2
    exact ⟨i, l, t, hv, _, _, _, a⟩
  refine ⟨L.map fun x => ((keyOf p s x.1.1, x.1.2), (keyOf p s x.2.1, x.2.2)), placed.map (keyOf p s), ?_, ?_, ?_, by simpa using h4⟩
  · intro k e nb e' hp
    obtain ⟨v, w, rfl, rfl, hd⟩ := placed_declared p s hs o h hp
    have key : ((v, e), (w, e')) ∈ L ∨ ((w, e'), (v, e)) ∈ L := by
      rcases hd with hd | hd
      · exact h1 _ _ _ _ hd
      · exact (h1 _ _ _ _ hd).symm
    rcases key with key | key
    · exact .inl (List.mem_map.mpr ⟨_, key, rfl⟩)
    · exact .inr (List.mem_map.mpr ⟨_, key, rfl⟩)
  · refine List.Nodup.map_on (fun v hv w hw e => ?_) h2
    obtain ⟨i, l, t, a1, _, _, _, a2⟩ := adds (h3 v hv).1
    obtain ⟨j, m, u, b1, _, _, _, b2⟩ := adds (h3 w hw).1
    rw [keyOf_eq p h.drawing s ⟨a1, _, _, _, _, a2⟩, keyOf_eq p h.drawing s ⟨b1, _, _, _, _, b2⟩] at e
    exact h.linked.ids v i t w j u ⟨a1, _, _, _, _, a2⟩ ⟨b1, _, _, _, _, b2⟩ e
  · intro k hk
    obtain ⟨v, hv, rfl⟩ := List.mem_map.mp hk
    obtain ⟨i, l, t, a1, pv, n, ru, a2⟩ := adds (h3 v hv).1
    rw [keyOf_eq p h.drawing s ⟨a1, _, _, _, _, a2⟩]
    obtain ⟨-, -, -, -, n5⟩ := C88_drawn p h.drawing s hs o name ho
    refine ⟨(n5 _).mpr ⟨v, i, pv, l, t, n, ru, a2, a1, rfl⟩, fun hanc => (h3 v hv).2 ?_⟩
    exact (anchor_iff p h.drawing s hs o name ho h.linked ⟨a1, _, _, _, _, a2⟩).mp hanc

/-- The road `v` in the network that `adjust_roads_and_lanes` leaves. -/
theorem adjusted_road (p : List (Call (Fl R))) (s : Session (Fl R)) (o : Nat) (h : LaidOut p o) {s' : Session (Fl R)}
    {pvs : Store (PlanView (Fl R))} {geoms : Store (Geom (Fl R))} {lanes : Store (Lane (Fl R))}
    (hs' : s' = { (runCalls p s).2 with planviews := pvs, geoms := geoms, laneObjs := lanes })
    {v : Nat} {i : PyId} {pv l : Nat} {t : Int} {n ru : Option String} (a1 : .addRoad o v ∈ p) (a2 : .road v i pv l t n ru ∈ p)
    {r : Road (Fl R)} (hr : (worldOf s' o).net.roads.get? i.toStr = some r) (e : ContactPoint) :
    endPose r e = posePoint s' pv e ∧ offsetAt r e = offsetCall v p e := by
  obtain ⟨name, ho⟩ := h.document
  obtain ⟨v', hv, rfl⟩ := worldOf_get hr
  have e1 : s'.openDrives = (runCalls p s).2.openDrives := by rw [hs']
  have e2 : s'.roads = (runCalls p s).2.roads := by rw [hs']
  rw [e1] at hv
  obtain ⟨b1, b2, b3⟩ := dict_road p h.drawing s o name ho hv
  have := h.linked.ids _ _ _ _ _ _ ⟨b1, _, _, _, _, b2.made⟩ ⟨a1, _, _, _, _, a2⟩ b3
  subst this
  have hm := made_once h.drawing.proper (x := .road v') a2 b2.made rfl rfl
  injection hm with _ _ hpv
  have hpv' : (s'.roads.cell v').pv = pv := by rw [e2, ← hpv]
  refine ⟨?_, ?_⟩
  · cases e <;> simp only [endPose, posePoint, Session.readRoad, hpv']
  · rw [← linksAre_offset b2.links e]
    cases e <;> simp only [offsetAt, laneOffsetAt, Session.readRoad, e2]

/-- C96: in a program whose calls are in any order and whose joints have no loops, `adjust_roads_and_lanes` puts the road ends of every
joint declared with `add_predecessor`, `add_successor` to each other: the positions that `get_start_point()`, `get_end_point()` of the
PlanViews return are equal but for the declared lane offset, and the headings are opposite (going out), up to rounding. -/
theorem C96_joints (p : List (Call (Fl R))) (s : Session (Fl R)) (hs : Blank s) (o : Nat) (h : LaidOut p o) (hn : NoLoopsProgram p o)
    (v w : Nat) (e e' : ContactPoint) (hd : Declares p o v e w e') (i j : PyId) (pv pw l m : Nat) (t u : Int) (n ru n' ru' : Option String)
    (hv : .road v i pv l t n ru ∈ p) (hw : .road w j pw m u n' ru' ∈ p) :
    ((Call.adjust o).step (runCalls p s).2).1 = none ∧
    let s' := ((Call.adjust o).step (runCalls p s).2).2
    ∃ P Q, posePoint s' pv e = some P ∧ posePoint s' pw e' = some Q ∧
      (MeetsNearly R.u (offsetCall v p e) e (real P) e' (real Q) ∨ MeetsNearly R.u (offsetCall w p e') e' (real Q) e (real P)) := by
  obtain ⟨name, ho⟩ := h.document
  obtain ⟨i1, t1, j1, u1, a, ⟨d1, _, _, _, _, d2⟩, ⟨d3, _, _, _, _, d4⟩, d5, d6, d7, d8⟩ := hd
  cases made_once h.drawing.proper (x := .road v) hv d2 rfl rfl
  cases made_once h.drawing.proper (x := .road w) hw d4 rfl rfl
  obtain ⟨hlk, hu⟩ := program_linked p h.drawing s hs o name ho h.linked
  obtain ⟨n1, -, -, own, -⟩ := C88_drawn p h.drawing s hs o name ho
  rw [worldOf_keys] at n1
  have hav := adjust_values _ o n1 own
  have hret := (C92_returns p h.drawing s hs o name ho h.linked h.fitting).1.mpr h.reached
  refine ⟨hret, ?_⟩
  simp only [Call.step, Call.run] at hret ⊢
  cases ha : Session.adjust o (runCalls p s).2 with
  | error er s2 => rw [ha] at hret; cases hret
  | ok _ s2 =>
    rw [ha] at hav
    obtain ⟨hadj, pvs, geoms, lanes, hs2, -⟩ := hav
    have hnet := adjustRoadsAndLanes_net hadj
    obtain ⟨r, b1, -, -, -, -, b6⟩ := added_road p h.drawing s hs o name ho h.linked d1 hv
    have hlink : linkAt r e = some a := (linksAre_linkCall b6 e).trans d5
    have hp : PlacedBy (worldOf (runCalls p s).2 o).net.roads i.toStr e j.toStr e' := by
      rw [← d7]
      cases e
      · exact .pred b1 hlink d6 d8
      · exact .succ b1 hlink d6 d8
    obtain ⟨r1, r2, P, Q, c1, c2, c3, c4, c5⟩ := C71_float _ _ hlk.nodup hlk.fresh (program_noLoops p s hs o h hn) hnet _ _ _ _ hp
    obtain ⟨x1, x2⟩ := adjusted_road p s o h hs2 d1 hv c1 e
    obtain ⟨y1, y2⟩ := adjusted_road p s o h hs2 d3 hw c2 e'
    rw [x2, y2] at c5
    exact ⟨P, Q, x1.symm.trans c3, y1.symm.trans c4, c5⟩

theorem abs_sin_sub (x y : ℝ) : |Real.sin x - Real.sin y| ≤ |x - y| := by
  rw [Real.sin_sub_sin, abs_mul, abs_mul]
  have h1 : |Real.sin ((x - y) / 2)| ≤ |(x - y) / 2| := Real.abs_sin_le_abs
  have h2 := Real.abs_cos_le_one ((x + y) / 2)
  rw [abs_div] at h1
  have : |(2 : ℝ)| = 2 := abs_of_pos two_pos
  rw [this] at h1 ⊢
  nlinarith [abs_nonneg (Real.sin ((x - y) / 2)), abs_nonneg (Real.cos ((x + y) / 2)), abs_nonneg (x - y)]

theorem abs_cos_sub (x y : ℝ) : |Real.cos x - Real.cos y| ≤ |x - y| := by
  have := abs_sin_sub (x + Real.pi / 2) (y + Real.pi / 2)
  rwa [Real.sin_add_pi_div_two, Real.sin_add_pi_div_two, add_sub_add_right_eq_sub] at this

/-- Directions of road ends that meet. -/
theorem meets_direction {δ : ℝ} {n : Int} {e e' : ContactPoint} {P Q : Pose ℝ} (h : MeetsNearly δ n e P e' Q) :
    |Real.sin P.h - sideSign e e' * Real.sin Q.h| ≤ δ * (2.1 * |Q.h| + 16) ∧
      |Real.cos P.h - sideSign e e' * Real.cos Q.h| ≤ δ * (2.1 * |Q.h| + 16) := by
  obtain ⟨-, -, h3⟩ := h
  cases e <;> cases e' <;> simp only [outgoing] at h3 <;> simp only [sideSign, reduceCtorEq, if_true, if_false, one_mul, neg_one_mul, sub_neg_eq_add]
  · have a := abs_sin_sub (P.h + Real.pi) (Q.h + Real.pi + Real.pi)
    have b := abs_cos_sub (P.h + Real.pi) (Q.h + Real.pi + Real.pi)
    rw [Real.sin_add_pi, Real.sin_add_pi, Real.sin_add_pi, neg_neg, ← neg_add', abs_neg] at a
    rw [Real.cos_add_pi, Real.cos_add_pi, Real.cos_add_pi, neg_neg, ← neg_add', abs_neg] at b
    exact ⟨a.trans h3, b.trans h3⟩
  · have a := abs_sin_sub (P.h + Real.pi) (Q.h + Real.pi)
    have b := abs_cos_sub (P.h + Real.pi) (Q.h + Real.pi)
    rw [Real.sin_add_pi, Real.sin_add_pi, neg_sub_neg, abs_sub_comm] at a
    rw [Real.cos_add_pi, Real.cos_add_pi, neg_sub_neg, abs_sub_comm] at b
    exact ⟨a.trans h3, b.trans h3⟩
  · have a := abs_sin_sub P.h (Q.h + Real.pi + Real.pi)
    have b := abs_cos_sub P.h (Q.h + Real.pi + Real.pi)
    rw [Real.sin_add_pi, Real.sin_add_pi, neg_neg] at a
    rw [Real.cos_add_pi, Real.cos_add_pi, neg_neg] at b
    exact ⟨a.trans h3, b.trans h3⟩
  · have a := abs_sin_sub P.h (Q.h + Real.pi)
    have b := abs_cos_sub P.h (Q.h + Real.pi)
    rw [Real.sin_add_pi, sub_neg_eq_add] at a
    rw [Real.cos_add_pi, sub_neg_eq_add] at b
    exact ⟨a.trans h3, b.trans h3⟩

/-- Cross sections of road ends that meet. -/
theorem meets_beside {δ : ℝ} {e e' : ContactPoint} {P Q : Pose ℝ} (h : MeetsNearly δ 0 e P e' Q) (t : ℝ) :
    |(beside P t).1 - (beside Q (sideSign e e' * t)).1| ≤ |t| * (δ * (2.1 * |Q.h| + 16)) ∧
    |(beside P t).2 - (beside Q (sideSign e e' * t)).2| ≤ |t| * (δ * (2.1 * |Q.h| + 16)) := by
  obtain ⟨k1, k2⟩ := meets_direction h
  obtain ⟨h1, h2, -⟩ := h
  simp only [Int.cast_zero, mul_zero, zero_mul, sub_zero, add_zero, abs_zero, abs_nonpos_iff, sub_eq_zero] at h1 h2
  refine ⟨?_, ?_⟩
  · have : (beside P t).1 - (beside Q (sideSign e e' * t)).1 = -(t * (Real.sin P.h - sideSign e e' * Real.sin Q.h)) := by
      simp only [beside]; rw [h1]; ring
    rw [this, abs_neg, abs_mul]
    exact mul_le_mul_of_nonneg_left k1 (abs_nonneg t)
  · have : (beside P t).2 - (beside Q (sideSign e e' * t)).2 = t * (Real.cos P.h - sideSign e e' * Real.cos Q.h) := by
      simp only [beside]; rw [h2]; ring
    rw [this, abs_mul]
    exact mul_le_mul_of_nonneg_left k2 (abs_nonneg t)

/-- C96: where no lane offset is given, the reference lines of the two roads end in the very same point, and the cross sections of the
two roads coincide up to rounding: the point at the distance `t` to the left of one is the one at `t` to the left (or to the right, if
two starts or two ends meet) of the other. So lane borders continue. -/
theorem C96_cross_section (p : List (Call (Fl R))) (s : Session (Fl R)) (hs : Blank s) (o : Nat) (h : LaidOut p o) (hn : NoLoopsProgram p o)
    (v w : Nat) (e e' : ContactPoint) (hd : Declares p o v e w e') (i j : PyId) (pv pw l m : Nat) (t u : Int) (n ru n' ru' : Option String)
    (hv : .road v i pv l t n ru ∈ p) (hw : .road w j pw m u n' ru' ∈ p)
    (hov : offsetCall v p e = 0) (how : offsetCall w p e' = 0) :
    let s' := ((Call.adjust o).step (runCalls p s).2).2
    ∃ P Q, posePoint s' pv e = some P ∧ posePoint s' pw e' = some Q ∧ (real P).x = (real Q).x ∧ (real P).y = (real Q).y ∧
      ∃ a, (a = |(real P).h| ∨ a = |(real Q).h|) ∧ ∀ d : ℝ,
        |(beside (real P) d).1 - (beside (real Q) (sideSign e e' * d)).1| ≤ |d| * (R.u * (2.1 * a + 16)) ∧
        |(beside (real P) d).2 - (beside (real Q) (sideSign e e' * d)).2| ≤ |d| * (R.u * (2.1 * a + 16)) := by
  obtain ⟨-, P, Q, h1, h2, h3⟩ := C96_joints p s hs o h hn v w e e' hd i j pv pw l m t u n ru n' ru' hv hw
  rw [hov, how] at h3
  refine ⟨P, Q, h1, h2, ?_⟩
  have pos : ∀ {δ : ℝ} {e e' : ContactPoint} {P Q : Pose ℝ}, MeetsNearly δ 0 e P e' Q → P.x = Q.x ∧ P.y = Q.y := by
    rintro δ e e' P Q ⟨h1, h2, -⟩
    simpa only [Int.cast_zero, mul_zero, zero_mul, sub_zero, add_zero, abs_zero, abs_nonpos_iff, sub_eq_zero] using And.intro h1 h2
  rcases h3 with h3 | h3
  · exact ⟨(pos h3).1, (pos h3).2, _, .inr rfl, fun d => meets_beside h3 d⟩
  · refine ⟨(pos h3).1.symm, (pos h3).2.symm, _, .inl rfl, fun d => ?_⟩
    have hm := meets_beside h3 (sideSign e e' * d)
    have e1 : sideSign e' e = sideSign e e' := by simp only [sideSign, eq_comm]
    have e2 : sideSign e e' * (sideSign e e' * d) = d := by unfold sideSign; split <;> ring
    have e3 : |sideSign e e' * d| = |d| := by unfold sideSign; split <;> simp
    rw [e1, e2, e3] at hm
    rw [abs_sub_comm (beside (real P) d).1, abs_sub_comm (beside (real P) d).2]
    exact hm

end Pyodrx.Props
