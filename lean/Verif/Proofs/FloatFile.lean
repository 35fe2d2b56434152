import Verif.Spec.FloatFile
import Verif.Props.FloatPoly
import Verif.Props.FloatNetwork
import Verif.Proofs.ReadNetwork

/-! # The document of a network in floating point arithmetic -/

namespace Pyodrx.Props
open Pyodrx Pyodrx.Spec PyFloat

section generic
variable {F : Type} [PyFloat F]

/-- The state of a run: every road is untouched, or was adjusted once, with geometry objects that have the properties
that every evaluation keeps. -/
def OnceK (K : Nat → Geom F → Prop) (A : String → Prop) (net0 net : Net F) : Prop :=
  (∀ j, K j (net.geoms.cell j)) ∧ ∀ k r, net.roads.get? k = some r → ∃ r0, net0.roads.get? k = some r0 ∧
    ((r = r0 ∧ r.planview.adjusted = false) ∨
      (r.planview.adjusted = true ∧ ∃ b p g st, (b = true → ¬ A k) ∧ (∀ j, K j (g.cell j)) ∧
        PlanView.adjustGeometries b ⟨r0.planview.setStartPoint p, g⟩ = .ok () st ∧ r = { r0 with planview := st.pv }))

variable {K : Nat → Geom F → Prop} (hKept : Kept K) (hBack : KeptBack K)
include hKept hBack

theorem OnceK.put {A : String → Prop} {net0 net1 net2 : Net F}
    {k0 : String} {p : Pose F → Pose F} {b : Bool} (hp : Put net1 k0 p b net2) (hb : b = true → ¬ A k0)
    (h : OnceK K A net0 net1) : OnceK K A net0 net2 := by
  obtain ⟨hs, ih⟩ := h
  have hp' := hp
  obtain ⟨r1, st, q1, q2, q5, q6⟩ := hp
  obtain ⟨r0, i1, i2⟩ := ih _ _ q1
  have hr1 : r1 = r0 := by
    rcases i2 with ⟨i2, _⟩ | ⟨i2, _⟩
    · exact i2
    · rw [q2] at i2; simp at i2
  subst hr1
  refine ⟨?_, fun k r hr => ?_⟩
  · rw [q6]
    cases b with
    | false =>
      obtain ⟨_, _, _, _, _, _, _, _, _, _, _, _, _, hk⟩ := adjust_forward_calls hKept q5 hs
      exact hk
    | true =>
      obtain ⟨_, _, _, _, _, _, _, _, _, _, _, hk⟩ := adjust_backward_calls hKept hBack q5 hs
      exact hk
  by_cases hk : k = k0
  · subst hk
    have q3 : net2.roads.get? k = some { r1 with planview := st.pv } := by
      rw [q6]; simp [Dict.get?_set]
    rw [q3] at hr; cases hr
    exact ⟨r1, i1, .inr ⟨(adjustGeometries_gen q5).adjusted, b, _, _, st, hb, hs, q5, rfl⟩⟩
  · rw [hp'.other hk] at hr
    exact ih _ _ hr

theorem OnceK.anchors {A : String → Prop} {roads0 : Dict (Road F)} {net0 a b : Net F} {m : Nat}
    (h : AnchorRun roads0 a m b) (ha : OnceK K A net0 a) : OnceK K A net0 b := by
  induction h with
  | refl => exact ha
  | anchor _ _ hp ih => exact ih.put hKept hBack hp (by simp)

theorem OnceK.run {A : String → Prop} {roads0 : Dict (Road F)} {net0 a b : Net F} {m : Nat}
    (h : History roads0 a m b) (ha : OnceK K A net0 a)
    (hadj : ∀ k r, a.roads.get? k = some r → A k → r.planview.adjusted = true) : OnceK K A net0 b := by
  induction h with
  | refl => exact ha
  | anchor _ _ hp ih => exact ih.put hKept hBack hp (by simp)
  | @place net1 net2 m k nb e e' hh _ hp ih =>
    obtain ⟨_, _, _, _, _, _, _, hput⟩ := hp
    refine ih.put hKept hBack hput fun _ hA => ?_
    obtain ⟨r, _, q1, q2, _⟩ := hput
    obtain ⟨r0, h0, _⟩ := hh.same.2 _ _ q1
    have h1 := hadj _ _ h0 hA
    have h2 := hh.keep h0 h1
    rw [q1] at h2; cases h2
    rw [q2] at h1; simp at h1

/-- After a normal return every road was adjusted once, the anchors forward. -/
theorem startpoints_onceK {net net' : Net F} (hn : net.roads.keys.Nodup) (hf : Fresh net.roads)
    (hK : ∀ j, K j (net.geoms.cell j))
    (h : Net.adjustStartpoints net = .ok () net') : OnceK K (Anchor net.roads) net net' := by
  rw [adjustStartpoints_eq] at h
  obtain ⟨c, s1, h1, h⟩ := bind_ok.mp h
  obtain ⟨i1, _, i3, _⟩ := anchors_history hn hf h1
  obtain ⟨m, hm, hh⟩ := passes_history (roads0 := net.roads) _ _ _ _ rfl h
  have h0 : OnceK K (Anchor net.roads) net net := ⟨hK, fun k r hr => ⟨r, hr, .inl ⟨rfl, (hf k r hr).1⟩⟩⟩
  exact (h0.anchors hKept hBack i1).run hKept hBack hh fun k r hr hA => (i3 k r hr).mpr hA

omit hKept hBack

/-- A single geometry that is adjusted from its end gets s = 0. -/
theorem backward_single_s {pv : PlanView F} {g : Store (Geom F)} {st : PVState F}
    (h : PlanView.adjustGeometries true ⟨pv, g⟩ = .ok () st) (hadj : pv.adjGeoms = [])
    {r : Nat} (hl : pv.raw = [r]) : ∃ a, st.pv.adjGeoms = [a] ∧ a.s = some (ofInt 0) := by
  unfold PlanView.adjustGeometries at h
  rw [bind_of_ok (get_eq _)] at h
  simp only [Bool.true_eq_false, if_false] at h
  rw [bind_of_ok (modifyPV_eq _ _)] at h
  obtain ⟨ls, s1, h1, h⟩ := bind_ok.mp h
  rw [bind_of_ok (modifyPV_eq _ _)] at h
  obtain ⟨ls', s2, h2, h⟩ := bind_ok.mp h
  obtain ⟨h2, rfl⟩ := orRaise_ok.mp h2
  rw [bind_of_ok (modifyPV_eq _ _)] at h
  obtain ⟨_, s3, h3, h⟩ := bind_ok.mp h
  rw [modifyPV_ok] at h
  subst h
  rw [hl] at h1
  unfold PlanView.bwdLoop at h1
  obtain ⟨l, s4, h4, h5⟩ := bind_ok.mp h1
  obtain ⟨ls2, s5, h6, h7⟩ := bind_ok.mp h5
  cases h6
  cases h7
  obtain ⟨a, -, ea⟩ := bwdStep_s h4
  simp only [hadj, List.nil_append] at ea
  cases l with
  | none => cases h2
  | some l =>
    cases h2
    unfold PlanView.sLoop at h3
    rw [bind_of_ok (modifyPV_eq _ _), bind_of_ok (modifyPV_eq _ _)] at h3
    cases h3
    exact ⟨{ a with s := some (ofInt 0) }, by simp [setLastS, ea], rfl⟩

/-- What is read of a planview. -/
theorem readPlanView_rel {geoms : Store (Geom F)} {pv : PlanView F} {gs : List (RGeometry F)}
    (h : readPlanView (pv.getElement geoms) = some gs) :
    List.Forall₂ (fun (a : AdjGeom F) g => a.s = some g.s ∧ a.x = g.x ∧ a.y = g.y ∧ a.heading = g.hdg ∧
      a.length = some g.length ∧ readCurve (geoms.cell a.geom).getElement = some g.curve) pv.adjGeoms gs := by
  rw [readPlanView, PlanView.getElement, Xml.tag_elem, if_pos rfl, Xml.children_elem] at h
  generalize pv.adjGeoms = l at h
  induction l generalizing gs with
  | nil => cases h; exact .nil
  | cons a l ih =>
    rw [List.map_cons, List.mapM_cons] at h
    obtain ⟨g, h1, h⟩ := Option.bind_eq_some_iff.mp h
    obtain ⟨gs', h2, h⟩ := Option.bind_eq_some_iff.mp h
    cases h
    refine .cons ?_ (ih h2)
    cases hs : a.s with
    | none => simp [readGeometry, AdjGeom.getElement, need, Xml.attr, Dict.get?, hs, Val.ofOpt, numOf] at h1
    | some s =>
      cases hl : a.length with
      | none => simp [readGeometry, AdjGeom.getElement, need, Xml.attr, Dict.get?, hs, hl, Val.ofOpt, numOf] at h1
      | some L =>
        cases hc : readCurve (geoms.cell a.geom).getElement with
        | none =>
          simp [readGeometry, AdjGeom.getElement, need, Xml.attr, Dict.get?, hs, hl, Val.ofOpt, numOf_num, hc] at h1
        | some c =>
          simp [readGeometry, AdjGeom.getElement, need, Xml.attr, Dict.get?, hs, hl, Val.ofOpt, numOf_num, hc] at h1
          subst h1
          exact ⟨rfl, rfl, rfl, rfl, rfl, rfl⟩

/-- When a planview can be read. -/
theorem readPlanView_ok {geoms : Store (Geom F)} {pv : PlanView F}
    (h : ∀ a ∈ pv.adjGeoms, a.s.isSome ∧ a.length.isSome ∧ (readCurve (geoms.cell a.geom).getElement).isSome) :
    ∃ gs, readPlanView (pv.getElement geoms) = some gs := by
  rw [readPlanView, PlanView.getElement, Xml.tag_elem, if_pos rfl, Xml.children_elem]
  generalize pv.adjGeoms = l at h
  induction l with
  | nil => exact ⟨[], rfl⟩
  | cons a l ih =>
    obtain ⟨gs, hgs⟩ := ih fun a ha => h a (by simp [ha])
    obtain ⟨h1, h2, h3⟩ := h a (by simp)
    obtain ⟨s, hs⟩ := Option.isSome_iff_exists.mp h1
    obtain ⟨L, hl⟩ := Option.isSome_iff_exists.mp h2
    obtain ⟨c, hc⟩ := Option.isSome_iff_exists.mp h3
    refine ⟨⟨s, a.x, a.y, a.heading, L, c⟩ :: gs, ?_⟩
    rw [List.map_cons, List.mapM_cons, hgs]
    simp [readGeometry, AdjGeom.getElement, need, Xml.attr, Dict.get?, hs, hl, Val.ofOpt, numOf_num, hc]

theorem readCurve_line (l : Line F) : readCurve (Geom.line l).getElement = some .line := by
  simp [readCurve, Geom.getElement]
theorem readCurve_spiral (s : Spiral F) :
    readCurve (Geom.spiral s).getElement = some (.spiral s.curvstart s.curvend) := by
  simp [readCurve, Geom.getElement, need, Xml.attr, Dict.get?, numOf_num]
theorem readCurve_arc (a : Arc F) : readCurve (Geom.arc a).getElement = some (.arc a.curvature) := by
  simp [readCurve, Geom.getElement, need, Xml.attr, Dict.get?, numOf_num]
theorem readCurve_poly {g : ParamPoly3 F} {c : RCurve F} (h : readCurve (Geom.poly g).getElement = some c) :
    ∃ n, c = .paramPoly3 g.au g.bu g.cu g.du g.av g.bv g.cv g.dv n ∧ (n = true ↔ g.prange = "normalized") := by
  by_cases h1 : g.prange = "normalized"
  · simp [readCurve, Geom.getElement, need, Xml.attr, Dict.get?, numOf_num, readRange, textOf_str, h1] at h
    exact ⟨true, h.symm, by simp [h1]⟩
  · by_cases h2 : g.prange = "arcLength"
    · simp [readCurve, Geom.getElement, need, Xml.attr, Dict.get?, numOf_num, readRange, textOf_str, h2] at h
      exact ⟨false, h.symm, by simp [h1]⟩
    · simp [readCurve, Geom.getElement, need, Xml.attr, Dict.get?, numOf_num, readRange, textOf_str, h1, h2] at h

end generic

variable {R : Rounding}

/-- Everything evaluation keeps. -/
def SameAll (geoms : Store (Geom (Fl R))) (r : Nat) (c : Geom (Fl R)) : Prop :=
  SameShape geoms r c ∧ SamePoly geoms r c

theorem kept_all (geoms : Store (Geom (Fl R))) : Kept (SameAll geoms) := fun r c p v c' h he =>
  ⟨kept_shape (kept_curvature geoms) r c p v c' h.1 he, kept_poly geoms r c p v c' h.2 he⟩

theorem keptBack_all (geoms : Store (Geom (Fl R))) : KeptBack (SameAll geoms) := by
  intro r c p v c' h he
  refine ⟨keptBack_shape (keptBack_curvature geoms) r c p v c' h.1 he, ?_⟩
  have h2 := h.2
  have := getStartData_kind he
  cases c with
  | line l => simp only at this; subst this; exact h2
  | spiral l => simp only at this; subst this; exact h2
  | arc a => obtain ⟨a', rfl, -⟩ := this; exact h2
  | poly g => obtain ⟨len, rfl⟩ := this; exact h2

theorem endsAt_congr {u f a : ℝ} {g g' : RGeometry ℝ} {q : Pose ℝ} (h1 : g.curve = g'.curve) (h2 : g.length = g'.length)
    (h3 : g.start = g'.start) (h : g.EndsAt u f a q) : g'.EndsAt u f a q := by
  unfold RGeometry.EndsAt at *
  rw [← h1, ← h2, ← h3]; exact h

/-- A geometry that was evaluated from its start ends where the road goes on. -/
theorem Twice.endsAt {f a : ℝ} (hf : FresnelAccurate R f) (ha : ArctanAccurate R a) {geoms geoms' : Store (Geom (Fl R))}
    {i : Nat} {p q : Pose (Fl R)} {c : Geom (Fl R)} {l : Fl R} {g : RGeometry (Fl R)}
    (hc : SameAll geoms i c) (hc' : SameAll geoms i (geoms'.cell i)) (h : Twice p c (some g.length) q l)
    (hg : readCurve (geoms'.cell i).getElement = some g.curve) (hp : g.real.start = real p) :
    g.real.EndsAt R.u f a (real q) := by
  obtain ⟨⟨⟨c1, c2⟩, c3⟩, c4⟩ := hc
  obtain ⟨⟨⟨d1, -⟩, d3⟩, d4⟩ := hc'
  have e1 : curvature c = curvature (geoms'.cell i) := c1.trans d1.symm
  have e3 : spiralOf c = spiralOf (geoms'.cell i) := c3.trans d3.symm
  have e4 : polyOf c = polyOf (geoms'.cell i) := Eq.trans c4 (Eq.symm d4)
  cases hx : geoms'.cell i with
  | line x =>
    rw [hx] at hg e1
    rw [readCurve_line, Option.some.injEq] at hg
    have hr : g.real.curve = .line := by simp [RGeometry.real, ← hg, RCurve.real]
    obtain ⟨n1, n2, n3⟩ := h.near c2 (k := 0) e1
    simp only [RGeometry.EndsAt, hr, hp]
    exact EndsNearly.of_forward R.u_nonneg n1 n2 n3
  | arc x =>
    rw [hx] at hg e1
    rw [readCurve_arc, Option.some.injEq] at hg
    have hr : g.real.curve = .arc x.curvature.val := by simp [RGeometry.real, ← hg, RCurve.real]
    obtain ⟨n1, n2, n3⟩ := h.near c2 (k := x.curvature.val) e1
    simp only [RGeometry.EndsAt, hr, hp]
    exact EndsNearly.of_forward R.u_nonneg n1 n2 n3
  | spiral x =>
    rw [hx] at hg e3
    rw [readCurve_spiral, Option.some.injEq] at hg
    have hr : g.real.curve = .spiral x.curvstart.val x.curvend.val := by simp [RGeometry.real, ← hg, RCurve.real]
    simp only [RGeometry.EndsAt, hr, hp]
    exact h.spiralEnds hf (k0 := x.curvstart) (k1 := x.curvend) e3
  | poly x =>
    rw [hx] at hg e4
    obtain ⟨n, hn, hn'⟩ := readCurve_poly hg
    have hr : g.real.curve = .paramPoly3 x.au.val x.bu.val x.cu.val x.du.val x.av.val x.bv.val x.cv.val x.dv.val n := by
      simp [RGeometry.real, hn, RCurve.real]
    have := Twice.near_poly ha (g := { x with length := none }) e4 h
    have ht : finalParam { x with length := none } g.length = if n = true then 1 else g.real.length := by
      simp only [finalParam, RGeometry.real]
      by_cases hn1 : n = true
      · rw [if_pos (hn'.mp hn1), if_pos hn1]
      · rw [if_neg (fun h => hn1 (hn'.mpr h)), if_neg hn1]
    rw [ht] at this
    simp only [RGeometry.EndsAt, hr, hp]
    obtain ⟨t1, t2, t3⟩ := this
    exact ⟨t1, t2, t3 trivial⟩

/-- The same for a geometry that was evaluated from its end. -/
theorem TwiceBack.endsAt {f a : ℝ} (hf : FresnelAccurate R f) {geoms geoms' : Store (Geom (Fl R))}
    {i : Nat} {p q : Pose (Fl R)} {c : Geom (Fl R)} {g : RGeometry (Fl R)}
    (hc : SameAll geoms i c) (hc' : SameAll geoms i (geoms'.cell i)) (h : TwiceBack p c (some g.length) q)
    (hnp : polyOf (geoms.cell i) = none)
    (hg : readCurve (geoms'.cell i).getElement = some g.curve)
    (hp : g.real.start = ⟨q.x.val, q.y.val, (q.h +. pi).val⟩) :
    g.real.EndsAt R.u f a (real { p with h := p.h +. pi }) := by
  obtain ⟨⟨⟨c1, c2⟩, c3⟩, c4⟩ := hc
  obtain ⟨⟨⟨d1, -⟩, d3⟩, d4⟩ := hc'
  have e1 : curvature c = curvature (geoms'.cell i) := c1.trans d1.symm
  have e3 : spiralOf c = spiralOf (geoms'.cell i) := c3.trans d3.symm
  cases hx : geoms'.cell i with
  | line x =>
    rw [hx] at hg e1
    rw [readCurve_line, Option.some.injEq] at hg
    have hr : g.real.curve = .line := by simp [RGeometry.real, ← hg, RCurve.real]
    obtain ⟨n1, n2, n3⟩ := h.near c2 (k := 0) e1
    simp only [RGeometry.EndsAt, hr, hp]
    exact EndsNearly.of_backward R.u_nonneg n1 n2 n3
  | arc x =>
    rw [hx] at hg e1
    rw [readCurve_arc, Option.some.injEq] at hg
    have hr : g.real.curve = .arc x.curvature.val := by simp [RGeometry.real, ← hg, RCurve.real]
    obtain ⟨n1, n2, n3⟩ := h.near c2 (k := x.curvature.val) e1
    simp only [RGeometry.EndsAt, hr, hp]
    exact EndsNearly.of_backward R.u_nonneg n1 n2 n3
  | spiral x =>
    rw [hx] at hg e3
    rw [readCurve_spiral, Option.some.injEq] at hg
    have hr : g.real.curve = .spiral x.curvstart.val x.curvend.val := by simp [RGeometry.real, ← hg, RCurve.real]
    simp only [RGeometry.EndsAt, hr, hp]
    exact h.spiralEnds hf (k0 := x.curvstart) (k1 := x.curvend) e3
  | poly x =>
    rw [SamePoly, hx, hnp] at d4
    cases d4

/-- The next s-coordinate. -/
theorem station_near {s s' L l : Fl R} (hs : s' = s +. l) (hl : |l.val - L.val| ≤ R.u * (4 * |L.val|)) :
    |s'.val - (s.val + L.val)| ≤ R.u * (|s.val| + 6 * |L.val|) := by
  have h0 := R.u_nonneg
  rw [hs, fl_add]
  have a : |s.val + l.val - (s.val + L.val)| ≤ R.u * (4 * |L.val|) := by
    rw [add_sub_add_left_eq_sub]; exact hl
  refine (R.near a (by positivity) (abs_add_le _ _)).trans (mul_le_mul_of_nonneg_left ?_ h0)
  linarith [abs_nonneg L.val]

/-- Geometries that were read, one after the other. -/
theorem chained_forward {f a : ℝ} {as : List (AdjGeom (Fl R))} {gs : List (RGeometry (Fl R))}
    {T : AdjGeom (Fl R) → RGeometry (Fl R) → Prop} (hrel : List.Forall₂ T as gs) :
    ∀ (S : Nat → Fl R) (Q : Nat → Pose (Fl R)),
    (∀ j (hj : j < as.length) (hj' : j < gs.length), T as[j] gs[j] →
      gs[j].s = S j ∧ gs[j].real.start = real (Q j) ∧
      |(S (j + 1)).val - ((S j).val + gs[j].length.val)| ≤ R.u * (|(S j).val| + 6 * |gs[j].length.val|) ∧
      gs[j].real.EndsAt R.u f a (real (Q (j + 1)))) →
    ChainedNearly R.u f a (S 0).val (real (Q 0)) (gs.map RGeometry.real) (S as.length).val (real (Q as.length)) := by
  induction hrel with
  | nil => intro S Q _; exact ⟨rfl, rfl⟩
  | @cons x g as gs hx hrel ih =>
    intro S Q h
    obtain ⟨h1, h2, h3, h4⟩ := h 0 (by simp) (by simp) (by simpa using hx)
    simp only [List.getElem_cons_zero] at h1 h2 h3 h4
    refine ⟨by simp [RGeometry.real, h1], h2, (S 1).val, real (Q 1), h3, h4, ?_⟩
    exact ih (fun j => S (j + 1)) (fun j => Q (j + 1)) fun j hj hj' hT => by
      have := h (j + 1) (by simpa using hj) (by simpa using hj') (by simpa using hT)
      simpa using this

/-- The ends of a chain. -/
theorem chainedNearly_ends {u f a s e : ℝ} {p q : Pose ℝ} {gs : List (RGeometry ℝ)}
    (h : ChainedNearly u f a s p gs e q) (hne : gs ≠ []) :
    gs.head?.map RGeometry.start = some p ∧ ∃ g, gs.getLast? = some g ∧ g.EndsAt u f a q := by
  induction gs generalizing s p with
  | nil => exact absurd rfl hne
  | cons g gs ih =>
    obtain ⟨_, h2, s', m, _, h4, h5⟩ := h
    refine ⟨by simp [h2], ?_⟩
    cases gs with
    | nil => obtain ⟨_, h6⟩ := h5; exact ⟨g, rfl, by rw [h6]; exact h4⟩
    | cons g' gs => simpa using (ih h5 (by simp)).2

/-- What is read of an adjusted planview without given headings: nearly one line, from its start to its end. -/
theorem read_chained {f a : ℝ} (hf : FresnelAccurate R f) (ha : ArctanAccurate R a) {geoms0 g g' : Store (Geom (Fl R))}
    {pv : PlanView (Fl R)} {b : Bool} {st : PVState (Fl R)}
    (hK : ∀ j, SameAll geoms0 j (g.cell j)) (hK' : ∀ j, SameAll geoms0 j (g'.cell j))
    (hadj : PlanView.adjustGeometries b ⟨pv, g⟩ = .ok () st)
    (h1 : pv.adjGeoms = []) (h2 : pv.overridden = []) (h3 : pv.presentS = ofInt 0) (h4 : pv.raw ≠ [])
    (hp : b = true → ∀ i, pv.raw = [i] → polyOf (geoms0.cell i) = none)
    {gs : List (RGeometry (Fl R))} (hgs : readPlanView (st.pv.getElement g') = some gs) :
    gs ≠ [] ∧ ∃ p q, st.pv.start = some p ∧ st.pv.stop = some q ∧
      ChainedNearly R.u f a 0 (real p) (gs.map RGeometry.real) st.pv.getTotalLength.val (real q) := by
  have hrel := readPlanView_rel hgs
  have hz : (ofInt 0 : Fl R).val = 0 := R.ofInt_zero
  cases b with
  | false =>
    obtain ⟨S, P, Q, len, l, c, hE, hS0, hSn, hQ0, hst, hsp, hs, -⟩ := adjust_forward_calls (kept_all geoms0) hadj hK
    simp only [h1, List.nil_append] at hE
    have hlen : st.pv.adjGeoms.length = pv.raw.length := by rw [hE]; simp
    refine ⟨?_, _, _, hst, hsp, ?_⟩
    · intro h0
      rw [h0] at hrel
      have := hrel.length_eq
      rw [hlen] at this
      exact h4 (List.length_eq_zero_iff.mp this)
    have hch := chained_forward (f := f) (a := a) hrel S Q ?_
    · rw [hlen, hSn, hS0, hQ0] at hch
      simp only [h3, hz] at hch
      exact hch
    · rintro j hj hj' ⟨t1, t2, t3, t4, t5, t6⟩
      have hj0 : j < pv.raw.length := by omega
      have ej : st.pv.adjGeoms[j] = ⟨some (S j), (P j).x, (P j).y, (P j).h, len j, pv.raw[j]⟩ := by
        simp only [hE, List.getElem_mapIdx]
      rw [ej] at t1 t2 t3 t4 t5 t6
      simp only at t1 t2 t3 t4 t5 t6
      obtain ⟨k1, -, -, k2, k3, k4⟩ := hs j hj0
      have hstart : gs[j].real.start = real (Q j) := by
        rw [← k2 h2]
        simp only [RGeometry.start, RGeometry.real, real, t2, t3, t4]
      rw [t5] at k4
      refine ⟨(Option.some.inj t1).symm, hstart, ?_, ?_⟩
      · obtain ⟨L', hL', -, p2⟩ := k4.length k1.1.1.2
        cases hL'
        exact station_near k3 (by linarith)
      · exact Twice.endsAt hf ha k1 (hK' _) k4 t6 (by rw [hstart, k2 h2])
  | true =>
    obtain ⟨i, hi⟩ : ∃ i, pv.raw = [i] := by
      match hr : pv.raw, h4 with
      | [i], _ => exact ⟨i, rfl⟩
      | i :: j :: l, _ =>
        have := backward_unreadable (g' := g') hadj h1 (by rw [hr]; simp)
        rw [this] at hgs; cases hgs
    obtain ⟨S, Q, L, c, hE, hS0, hSn, hQ0, hst, hsp, hs, -⟩ :=
      adjust_backward_calls (kept_all geoms0) (keptBack_all geoms0) hadj hK
    obtain ⟨x, hx, hxs⟩ := backward_single_s hadj h1 hi
    rw [hx] at hrel
    cases hrel with
    | @cons _ gg _ _ hT hnil =>
      cases hnil
      obtain ⟨t1, t2, t3, t4, t5, t6⟩ := hT
      simp only [hi, h1, hx, List.map_nil, List.nil_append, List.map_cons, List.reverse_singleton, List.length_singleton,
        List.mapIdx_cons, List.mapIdx_nil, List.cons.injEq, and_true, AdjGeom.rest, Prod.mk.injEq] at hE hSn hst hsp
      obtain ⟨e1, e2, e3, e4, e5⟩ := hE
      obtain ⟨k1, k2, k3⟩ := hs 0 (by simp [hi])
      simp only [hi, List.reverse_singleton, List.getElem_singleton] at k1
      have hL : L 0 = gg.length := by rw [e4] at t5; exact Option.some.inj t5
      rw [hL] at k2 k3
      rw [e5] at t6
      refine ⟨by simp, _, _, hst, hsp, ?_, ?_, st.pv.getTotalLength.val, _, ?_, ?_, rfl, rfl⟩
      · rw [hxs] at t1
        have e := Option.some.inj t1
        show gg.s.val = 0
        rw [← e]; exact hz
      · simp only [RGeometry.start, RGeometry.real, real, ← t2, ← t3, ← t4, e1, e2, e3, Nat.zero_add]
      · have := station_near (L := gg.length) (l := gg.length) k2 (by
          rw [sub_self, abs_zero]; exact mul_nonneg R.u_nonneg (by positivity))
        rw [hS0, hz, Nat.zero_add, hSn] at this
        exact this
      · rw [← hQ0]
        refine TwiceBack.endsAt hf k1 (hK' _) k3 (hp rfl i hi) t6 ?_
        simp only [RGeometry.start, RGeometry.real, ← t2, ← t3, ← t4, e1, e2, e3, Nat.zero_add]

/-- When it can be read. -/
theorem read_possible {geoms0 g g' : Store (Geom (Fl R))}
    {pv : PlanView (Fl R)} {b : Bool} {st : PVState (Fl R)}
    (hK : ∀ j, SameAll geoms0 j (g.cell j)) (hK' : ∀ j, SameAll geoms0 j (g'.cell j))
    (hadj : PlanView.adjustGeometries b ⟨pv, g⟩ = .ok () st) (h1 : pv.adjGeoms = [])
    (hr : ∀ i ∈ pv.raw, ∀ x, polyOf (geoms0.cell i) = some x → x.prange = "normalized" ∨ x.prange = "arcLength")
    (hb : b = false ∨ ∃ i, pv.raw = [i]) : ∃ gs, readPlanView (st.pv.getElement g') = some gs := by
  have hcurve : ∀ i ∈ pv.raw, (readCurve (g'.cell i).getElement).isSome := by
    intro i hi
    have d4 := (hK' i).2
    cases hx : g'.cell i with
    | line x => rw [readCurve_line]; rfl
    | arc x => rw [readCurve_arc]; rfl
    | spiral x => rw [readCurve_spiral]; rfl
    | poly x =>
      rw [SamePoly, hx] at d4
      rcases hr i hi _ d4.symm with h | h <;>
        simp only at h <;>
        simp [readCurve, Geom.getElement, need, Xml.attr, Dict.get?, numOf_num, readRange, textOf_str, h]
  refine readPlanView_ok ?_
  cases b with
  | false =>
    obtain ⟨S, P, Q, len, l, c, hE, -, -, -, -, -, hs, -⟩ := adjust_forward_calls (kept_all geoms0) hadj hK
    simp only [h1, List.nil_append] at hE
    intro x hx
    rw [hE] at hx
    obtain ⟨j, hj, rfl⟩ := List.getElem_of_mem hx
    simp only [List.length_mapIdx] at hj
    simp only [List.getElem_mapIdx]
    obtain ⟨k1, -, -, -, -, k4⟩ := hs j hj
    obtain ⟨L', hL', -⟩ := k4.length k1.1.1.2
    exact ⟨rfl, by rw [hL']; rfl, hcurve _ (List.getElem_mem _)⟩
  | true =>
    obtain ⟨i, hi⟩ := hb.resolve_left (by simp)
    obtain ⟨x, hx, hxs⟩ := backward_single_s hadj h1 hi
    obtain ⟨S, Q, L, c, hE, -, -, -, -, -, -, -⟩ := adjust_backward_calls (kept_all geoms0) (keptBack_all geoms0) hadj hK
    simp only [hi, h1, hx, List.map_nil, List.nil_append, List.map_cons, List.reverse_singleton,
      List.mapIdx_cons, List.mapIdx_nil, List.cons.injEq, and_true, AdjGeom.rest, Prod.mk.injEq] at hE
    obtain ⟨-, -, -, e4, e5⟩ := hE
    intro y hy
    rw [hx, List.mem_singleton] at hy
    subst hy
    exact ⟨by rw [hxs]; rfl, by rw [e4]; rfl, by rw [e5]; exact hcurve i (by simp [hi])⟩

end Pyodrx.Props
