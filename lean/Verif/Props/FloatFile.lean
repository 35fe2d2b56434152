import Verif.Proofs.FloatFile
import Verif.Props.ReadNetwork

/-! # C86: the written file of a network in floating point arithmetic -/

namespace Pyodrx.Props
open Pyodrx Pyodrx.Spec PyFloat

variable {R : Rounding}

theorem _root_.Pyodrx.Spec.DrawnFl.fields {k : String} {r : Road (Fl R)} (h : DrawnFl k r) :
    r.planview.raw ≠ [] ∧ r.planview.overridden = [] ∧ r.planview.adjGeoms = [] ∧ r.planview.presentS = ofInt 0 ∧
      r.planview.adjusted = false := by
  obtain ⟨x, y, h', pv, calls, h1, h2, h3, h4⟩ := h.plan
  obtain ⟨e1, e2, e3, e4, _⟩ := newFl_eq x y h' pv h1
  have e5 : pv.adjusted = false := by
    cases x <;> cases y <;> cases h' <;> simp [PlanView.new] at h1 <;> subst h1 <;> rfl
  rw [h2, addEach_eq]
  refine ⟨by simp [e1, h3], ?_, e3, e4, e5⟩
  simp only [e2, List.nil_append, List.filterMap_eq_nil_iff]
  exact h4

theorem _root_.Pyodrx.Spec.DrawnNetFl.fresh {net : Net (Fl R)} (h : DrawnNetFl net) : Fresh net.roads :=
  fun k r hr => ⟨(h.drawn k r hr).fields.2.2.2.2, (h.drawn k r hr).fields.2.2.1⟩

/-- What a reader sees of a placed road. -/
theorem _root_.Pyodrx.Spec.DrawnNetFl.read {net net' : Net (Fl R)} (h : DrawnNetFl net)
    (hadj : Net.adjustStartpoints net = .ok () net') {k : String} {r : Road (Fl R)} (hr : net'.roads.get? k = some r) :
    ∃ r0, net.roads.get? k = some r0 ∧ r = { r0 with planview := r.planview } ∧
      (Anchor net.roads k ∨ (∃ i, r0.planview.raw = [i]) →
        (∀ i ∈ r0.planview.raw, ∀ x, polyOf (net.geoms.cell i) = some x →
          x.prange = "normalized" ∨ x.prange = "arcLength") →
        ∃ gs, readPlanView (r.planview.getElement net'.geoms) = some gs) ∧
      ∀ f a, FresnelAccurate R f → ArctanAccurate R a →
      ∀ gs, readPlanView (r.planview.getElement net'.geoms) = some gs → gs ≠ [] ∧
        ∃ p q, r.planview.start = some p ∧ r.planview.stop = some q ∧
          ChainedNearly R.u f a 0 (real p) (gs.map RGeometry.real) r.planview.getTotalLength.val (real q) := by
  have hfr := h.fresh
  obtain ⟨hs, ho⟩ := startpoints_onceK (kept_all net.geoms) (keptBack_all net.geoms) h.nodup hfr
    (fun j => ⟨⟨⟨rfl, fun a ha => h.arcs j a ha⟩, rfl⟩, rfl⟩) hadj
  obtain ⟨r0, h0, h1⟩ := ho k r hr
  have hA := startpoints_all h.nodup hfr hadj hr
  rcases h1 with ⟨_, h1⟩ | ⟨_, b, p, g, st, hb, hg, e1, e2⟩
  · rw [hA] at h1; simp at h1
  · obtain ⟨f1, f2, f3, f4, f5⟩ := (h.drawn k r0 h0).fields
    have hpv : r.planview = st.pv := by rw [e2]
    refine ⟨r0, h0, by rw [e2], ?_, ?_⟩
    · intro hd hrange
      rw [hpv]
      refine read_possible hg hs e1 f3 hrange ?_
      rcases hd with hA | hd
      · left
        cases b
        · rfl
        · exact absurd hA (hb rfl)
      · exact .inr hd
    · intro f a hf ha gs hgs
      rw [hpv] at hgs ⊢
      exact read_chained hf ha hg hs e1 f3 f2 f4 f1 (fun hb' i hi => h.poly k r0 i h0 (hb hb') hi) hgs

section
variable {net net' : Net (Fl R)} (h : DrawnNetFl net) {f a : ℝ} (hf : FresnelAccurate R f) (ha : ArctanAccurate R a)
  (hadj : Net.adjustStartpoints net = .ok () net') {hp : Heap (Fl R)} (hgeoms : hp.geoms = net'.geoms)
  {gs : Road (Fl R) → List (RGeometry (Fl R))}
  (hgs : ∀ kv ∈ net'.roads, readPlanView (kv.2.planview.getElement hp.geoms) = some (gs kv.2))
include h hf ha hadj hgeoms hgs

theorem _root_.Pyodrx.Spec.DrawnNetFl.pose {k : String} {r : Road (Fl R)} (hr : net'.roads.get? k = some r)
    {e : ContactPoint} {p : Pose (Fl R)} (hpo : endPose r e = some p) :
    (shownRoad hp r (gs r)).NearlyAt f a e (real p) := by
  obtain ⟨r0, h0, _, _, h1⟩ := h.read hadj hr
  have hm := Dict.get?_some_mem hr
  obtain ⟨hne, p0, q, e1, e2, e3⟩ := h1 f a hf ha (gs r) (by rw [← hgeoms]; exact hgs (k, r) hm)
  obtain ⟨c1, g, c2, c3⟩ := chainedNearly_ends e3 (by simpa using hne)
  cases e with
  | start =>
    have : r.planview.start = some p := hpo
    rw [e1] at this; cases this
    simpa [RRoad.NearlyAt, shownRoad, List.head?_map, Function.comp_def] using c1
  | «end» =>
    have : r.planview.stop = some p := hpo
    rw [e2] at this; cases this
    rw [List.getLast?_map, Option.map_eq_some_iff] at c2
    obtain ⟨g', c2, rfl⟩ := c2
    exact ⟨g', c2, c3⟩

omit hf ha hgeoms hgs in
theorem _root_.Pyodrx.Spec.DrawnNetFl.linked {k nb : String} {e e' : ContactPoint} (hl : PlacedBy net.roads k e nb e')
    {r n : Road (Fl R)} (hr : net'.roads.get? k = some r) (hn : net'.roads.get? nb = some n) :
    (shownRoad hp r (gs r)).LinkedTo e (shownRoad hp n (gs n)) e' := by
  obtain ⟨r0, h0, er, _⟩ := h.read hadj hr
  obtain ⟨n0, hn0, en, _⟩ := h.read hadj hn
  have dr := h.drawn k r0 h0
  have dn := h.drawn nb n0 hn0
  have idr : r.id.toStr = k := by rw [er]; exact dr.id
  have idn : n.id.toStr = nb := by rw [en]; exact dn.id
  have lr : r.links = r0.links := by rw [er]
  have ln : n.links = n0.links := by rw [en]
  have tn : n.roadType = n0.roadType := by rw [en]
  cases hl with
  | @pred _ r1 l cp h1 h2 h3 h4 =>
    rw [h0] at h1; cases h1
    refine .inl ⟨shownLink l, ?_, ?_, h3, idn.symm, h4⟩
    · simp only [shownRoad, lr]
      exact List.mem_map.mpr ⟨l, List.mem_filter.mpr ⟨(dr.pred l h2).1, by simp [(dr.pred l h2).2]⟩, rfl⟩
    · simp [shownLink, (dr.pred l h2).2, LinkKind.text, linkTag]
  | @succ _ r1 l cp h1 h2 h3 h4 =>
    rw [h0] at h1; cases h1
    refine .inl ⟨shownLink l, ?_, ?_, h3, idn.symm, h4⟩
    · simp only [shownRoad, lr]
      exact List.mem_map.mpr ⟨l, List.mem_filter.mpr ⟨(dr.succ l h2).1, by simp [(dr.succ l h2).2]⟩, rfl⟩
    · simp [shownLink, (dr.succ l h2).2, LinkKind.text, linkTag]
  | @connPred _ r1 l h1 h2 h3 =>
    rw [hn0] at h1; cases h1
    refine .inr ⟨by simpa [shownRoad, tn] using h2, shownLink l, ?_, ?_, idr.symm, rfl⟩
    · simp only [shownRoad, ln]
      exact List.mem_map.mpr ⟨l, List.mem_filter.mpr ⟨(dn.pred l h3).1, by simp [(dn.pred l h3).2]⟩, rfl⟩
    · simp [shownLink, (dn.pred l h3).2, LinkKind.text, linkTag]
  | @connSucc _ r1 l h1 h2 h3 =>
    rw [hn0] at h1; cases h1
    refine .inr ⟨by simpa [shownRoad, tn] using h2, shownLink l, ?_, ?_, idr.symm, rfl⟩
    · simp only [shownRoad, ln]
      exact List.mem_map.mpr ⟨l, List.mem_filter.mpr ⟨(dn.succ l h3).1, by simp [(dn.succ l h3).2]⟩, rfl⟩
    · simp [shownLink, (dn.succ l h3).2, LinkKind.text, linkTag]

theorem _root_.Pyodrx.Spec.DrawnNetFl.joins {k nb : String} (hj : JoinedNearly net.roads net'.roads k nb)
    {r n : Road (Fl R)} (hr : net'.roads.get? k = some r) (hn : net'.roads.get? nb = some n) :
    (shownRoad hp r (gs r)).JoinsNearly f a (declaredOffset net.roads k) (shownRoad hp n (gs n)) := by
  obtain ⟨e, e', r', n', p, q, h1, h2, h3, h4, h5, h6⟩ := hj
  rw [hr] at h2; cases h2
  rw [hn] at h3; cases h3
  refine ⟨e, e', _, _, h.linked hadj h1 hr hn, h.pose hf ha hadj hgeoms hgs hr h4,
    h.pose hf ha hadj hgeoms hgs hn h5, ?_⟩
  obtain ⟨r0, h0, er, _⟩ := h.read hadj hr
  have : declaredOffset net.roads k e = offsetAt r e := by
    rw [declaredOffset, h0, er]
    cases e <;> rfl
  rwa [this]

end

/-- C86: after a normal return of `adjust_roads_and_lanes` on a drawn network in floating point arithmetic, whoever reads
the emitted document finds, up to rounding errors: the geometries of every road form one line of the length of the road,
from s = 0; and every road is an anchor or is linked to another road of the document and joins it there, shifted by its
lane offset, and going on like that one comes to an anchor. `f` and `a` are the accuracies of scipy's Fresnel integrals
and of numpy's arctan2. -/
theorem C86_document (f a : ℝ) (hf : FresnelAccurate R f) (ha : ArctanAccurate R a)
    (w w' : World (Fl R)) (hw : DrawnNetFl w.net)
    (h : World.adjustRoadsAndLanes w = .ok () w') (o : OpenDrive (Fl R)) (hp : Heap (Fl R)) (date : String)
    (ho : o.roads = w'.net.roads) (hgeoms : hp.geoms = w'.net.geoms)
    (hgood : ∀ kv ∈ o.roads, GoodRoad hp kv.2) (element : Xml (Fl R)) (he : o.getElement hp date = .ok element)
    (doc : RDocument (Fl R)) (hdoc : readDocument element = some doc) :
    doc.roads.map RRoad.id = w.net.roads.keys ∧ ∀ rd ∈ doc.roads, rd.OneLineNearly f a ∧
      doc.LeadsNearly f a (Anchor w.net.roads) (declaredOffset w.net.roads) rd := by
  have hadj := adjustRoadsAndLanes_net h
  have hkeys : w'.net.roads.keys = w.net.roads.keys := (C18_placed_once w.net w'.net hw.nodup hw.fresh hadj).1
  have hnd : w'.net.roads.keys.Nodup := by rw [hkeys]; exact hw.nodup
  obtain ⟨gs, hgs, rfl⟩ := document_read he hgood hdoc
  rw [ho] at hgs
  have hid : ∀ {k : String} {r : Road (Fl R)}, w'.net.roads.get? k = some r → r.id.toStr = k := by
    intro k r hr
    obtain ⟨r0, h0, er, _⟩ := hw.read hadj hr
    rw [er]; exact (hw.drawn k r0 h0).id
  refine ⟨?_, ?_⟩
  · rw [← hkeys, ho, List.map_map]
    refine List.map_congr_left fun kv hkv => ?_
    exact hid (Dict.mem_get? hnd hkv)
  intro rd hrd
  rw [ho] at hrd
  obtain ⟨⟨k, r⟩, hkr, rfl⟩ := List.mem_map.mp hrd
  have hr : w'.net.roads.get? k = some r := Dict.mem_get? hnd hkr
  constructor
  · obtain ⟨r0, h0, _, _, h1⟩ := hw.read hadj hr
    obtain ⟨_, p0, q, _, _, e3⟩ := h1 f a hf ha (gs r) (by rw [← hgeoms]; exact hgs (k, r) hkr)
    exact ⟨_, _, e3⟩
  · have hc := C69_joints w.net w'.net hw.nodup hw.fresh hadj k
      (by rw [← hkeys]; exact Dict.mem_keys_of_get? hr)
    clear hkr hrd
    induction hc generalizing r with
    | @anchor k hA =>
      refine .anchor ?_
      show Anchor w.net.roads r.id.toStr
      rw [hid hr]; exact hA
    | @step k nb hj _ ih =>
      obtain ⟨n, hn⟩ : ∃ n, w'.net.roads.get? nb = some n := by
        obtain ⟨e, e', _, n, _, _, _, _, hn, _⟩ := hj
        exact ⟨n, hn⟩
      refine .step (y := shownRoad hp n (gs n)) ?_ ?_ (ih n hn)
      · exact List.mem_map.mpr ⟨(nb, n), by rw [ho]; exact Dict.get?_some_mem hn, rfl⟩
      · have := hw.joins hf ha hadj hgeoms hgs hj hr hn
        show RRoad.JoinsNearly f a (declaredOffset w.net.roads r.id.toStr) _ _
        rwa [hid hr]

/-- C86: what "up to rounding errors" says of a geometry is nothing but the exact end of the curve if nothing is rounded
(`u = 0`): the end of a line, arc or spiral is the end prescribed by OpenDRIVE, the end of a ParamPoly3 that has a tangent
there is the same position and direction. -/
theorem C86_exact (f a : ℝ) (g : RGeometry ℝ) (q : Pose ℝ) (h : g.EndsAt 0 f a q) :
    match g.curve with
    | .paramPoly3 _ bU cU dU _ bV cV dV n =>
      let t := if n then 1 else g.length
      q.x = g.stop.x ∧ q.y = g.stop.y ∧ ((bU + 2 * cU * t + 3 * dU * t ^ 2 ≠ 0 ∨ bV + 2 * cV * t + 3 * dV * t ^ 2 ≠ 0) →
        Complex.exp (q.h * Complex.I) = Complex.exp (g.stop.h * Complex.I))
    | _ => q = g.stop := by
  have ends : ∀ k L p q, EndsNearly 0 k L p q → q = exactEnd k L p := by
    rintro k L p q ⟨h1, h2, h3⟩
    simp only [zero_mul, abs_nonpos_iff, sub_eq_zero] at h1 h2 h3
    exact Pose.ext' h1.symm h2.symm h3.symm
  have stop : g.stop = (g.curve.shape g.length).place g.start := rfl
  obtain ⟨s, x, y, hd, len, c⟩ := g
  cases c with
  | line =>
    refine (ends _ _ _ _ h).trans ?_
    rw [stop]
    simp only [RCurve.shape, ← drive_eq_place (fun _ => 0) (by fun_prop), exactEnd, zero_mul]
  | arc k =>
    refine (ends _ _ _ _ h).trans ?_
    rw [stop]
    simp only [RCurve.shape, ← drive_eq_place (fun s => k * s) (by fun_prop), exactEnd]
  | spiral k0 k1 =>
    obtain ⟨h1, h2, h3⟩ := h
    simp only [zero_mul, abs_nonpos_iff, sub_eq_zero] at h1 h2 h3
    show q = _
    refine (Pose.ext' h1.symm h2.symm h3.symm).trans ?_
    rw [stop]
    simp only [RCurve.shape, ← drive_eq_place (fun s => k0 * s + (k1 - k0) / len * (s ^ 2 / 2)) (by fun_prop), spiralEnd]
    congr 1
    funext s
    ring
  | paramPoly3 aU bU cU dU aV bV cV dV n =>
    obtain ⟨h1, h2, h3⟩ := h
    simp only [zero_mul, abs_nonpos_iff, sub_eq_zero, norm_le_zero_iff] at h1 h2 h3
    simp only [stop, RCurve.shape, Shape.place, RGeometry.start] at h1 h2 h3 ⊢
    refine ⟨h1.trans ?_, h2.trans ?_, fun hw => (h3 ?_).trans ?_⟩
    · simp only [Complex.add_re, Complex.mul_re, Complex.exp_ofReal_mul_I_re, Complex.exp_ofReal_mul_I_im, cubic]
      ring
    · simp only [Complex.add_im, Complex.mul_im, Complex.exp_ofReal_mul_I_re, Complex.exp_ofReal_mul_I_im, cubic]
      ring
    · intro h0
      rw [Complex.ext_iff] at h0
      simp only [deriv_cubic, Complex.zero_re, Complex.zero_im] at h0
      exact hw.elim (fun h => h h0.1) (fun h => h h0.2)
    · simp only [deriv_cubic]
      generalize hz : (⟨bU + 2 * cU * _ + 3 * dU * _ ^ 2, bV + 2 * cV * _ + 3 * dV * _ ^ 2⟩ : ℂ) = z
      have hz0 : z ≠ 0 := by
        rw [← hz]
        intro h0
        rw [Complex.ext_iff] at h0
        exact hw.elim (fun h => h h0.1) (fun h => h h0.2)
      have hn : (‖z‖ : ℂ) ≠ 0 := by simpa using hz0
      have : z / (‖z‖ : ℂ) = Complex.exp (Complex.arg z * Complex.I) := by
        rw [div_eq_iff hn, mul_comm]
        exact (Complex.norm_mul_exp_arg_mul_I z).symm
      rw [this, ← Complex.exp_add]
      push_cast
      ring_nf

/-- C86: the document can be read if every road that is not an anchor has only one geometry, and every ParamPoly3 has one
of the two ranges of OpenDRIVE. -/
theorem C86_readable (w w' : World (Fl R)) (hw : DrawnNetFl w.net)
    (h : World.adjustRoadsAndLanes w = .ok () w') (o : OpenDrive (Fl R)) (hp : Heap (Fl R)) (date : String)
    (ho : o.roads = w'.net.roads) (hgeoms : hp.geoms = w'.net.geoms)
    (hgood : ∀ kv ∈ o.roads, GoodRoad hp kv.2) (element : Xml (Fl R)) (he : o.getElement hp date = .ok element)
    (hone : ∀ k r, w.net.roads.get? k = some r → ¬ Anchor w.net.roads k → r.planview.raw.length = 1)
    (hrange : ∀ k r, w.net.roads.get? k = some r → ∀ i ∈ r.planview.raw, ∀ x,
      polyOf (w.net.geoms.cell i) = some x → x.prange = "normalized" ∨ x.prange = "arcLength") :
    ∃ doc, readDocument element = some doc := by
  have hadj := adjustRoadsAndLanes_net h
  have hkeys : w'.net.roads.keys = w.net.roads.keys := (C18_placed_once w.net w'.net hw.nodup hw.fresh hadj).1
  have hnd : w'.net.roads.keys.Nodup := by rw [hkeys]; exact hw.nodup
  refine ⟨_, C59_document hp date o element he
    (fun r => (readPlanView (r.planview.getElement hp.geoms)).getD []) (fun kv hkv => ?_)⟩
  refine ⟨hgood kv hkv, ?_⟩
  rw [ho] at hkv
  have hr : w'.net.roads.get? kv.1 = some kv.2 := Dict.mem_get? hnd hkv
  obtain ⟨r0, h0, _, h1, _⟩ := hw.read hadj hr
  obtain ⟨gs, hgs⟩ := h1 (by
    by_cases hA : Anchor w.net.roads kv.1
    · exact .inl hA
    · exact .inr (List.length_eq_one_iff.mp (hone kv.1 r0 h0 hA))) (hrange kv.1 r0 h0)
  rw [hgeoms, hgs]; rfl

/-- C86: and so in the file: what a reader of the text written by `write_xml` (plain or pretty printed) finds
has these properties. `show'` prints numbers, `readNum` reads them (see C64). -/
theorem C86_file (f a : ℝ) (hf : FresnelAccurate R f) (ha : ArctanAccurate R a)
    (w w' : World (Fl R)) (hw : DrawnNetFl w.net)
    (h : World.adjustRoadsAndLanes w = .ok () w') (o : OpenDrive (Fl R)) (hp : Heap (Fl R)) (date : String)
    (ho : o.roads = w'.net.roads) (hgeoms : hp.geoms = w'.net.geoms)
    (hgood : ∀ kv ∈ o.roads, GoodRoad hp kv.2) (element : Xml (Fl R)) (he : o.getElement hp date = .ok element)
    (hone : ∀ k r, w.net.roads.get? k = some r → ¬ Anchor w.net.roads k → r.planview.raw.length = 1)
    (hrange : ∀ k r, w.net.roads.get? k = some r → ∀ i ∈ r.planview.raw, ∀ x,
      polyOf (w.net.geoms.cell i) = some x → x.prange = "normalized" ∨ x.prange = "arcLength")
    (show' : Fl R → String) (readNum : String → Option (Fl R)) (hnone : readNum "None" = none)
    (hnum : ∀ x, Occurs (.num x) element → readNum (show' x) = some x)
    (hrep : ∀ kv ∈ o.roads, ∀ i ∈ kv.2.objects, RepeatsNamed (hp.so.objs.cell i))
    (hshow : ∀ x, ∀ c ∈ (show' x).toList, XmlParser.isXmlChar c = true ∧ c ≠ '\n' ∧ c ≠ '\r' ∧ c ≠ '\t')
    (hlegal : ∀ s ∈ userTexts hp date o, ∀ c ∈ s.toList, XmlParser.isXmlChar c = true)
    (filename : Option String) (pretty : Bool)
    (hplain : pretty = true → ∀ s ∈ userTexts hp date o, ∀ c ∈ s.toList, c ≠ '\n' ∧ c ≠ '\r' ∧ c ≠ '\t') :
    ∃ text doc, o.writeXml show' hp date filename pretty = .ok (filename.getD (o.name ++ ".xodr"), text) ∧
      readFile readNum text = some doc ∧ doc.roads.map RRoad.id = w.net.roads.keys ∧
      ∀ rd ∈ doc.roads, rd.OneLineNearly f a ∧
        doc.LeadsNearly f a (Anchor w.net.roads) (declaredOffset w.net.roads) rd := by
  obtain ⟨doc, hdoc⟩ := C86_readable w w' hw h o hp date ho hgeoms hgood element he hone hrange
  have hconc := C86_document f a hf ha w w' hw h o hp date ho hgeoms hgood element he doc hdoc
  obtain ⟨l1, l2⟩ := C63_texts show' hp date o element he hrep
  have hl := l1 (fun x c hc => (hshow x c hc).1) hlegal
  cases pretty with
  | false =>
    obtain ⟨text, h1, _, h3⟩ := C63_plain show' hp date o filename element he hrep hl
    exact ⟨text, doc, h1, (readFile_of hnone he hnum hrep h3).trans hdoc, hconc⟩
  | true =>
    obtain ⟨text, h1, _, h3⟩ := C63_pretty show' hp date o filename element he hrep hl
    exact ⟨text, doc, h1, (readFile_of hnone he hnum hrep (h3.mpr (l2 (fun x c hc => (hshow x c hc).2) (hplain rfl)))).trans hdoc, hconc⟩

end Pyodrx.Props
