import Verif.Proofs.FloatSpiralTrack
import Verif.Props.FloatNetwork

/-! # C83: spirals in floating point arithmetic -/

namespace Pyodrx.Props
open Pyodrx Pyodrx.Spec PyFloat

variable {R : Rounding}

/-- C83: consecutive geometries fit after a spiral: a geometry starts at the exact end of the spiral before it, up to
rounding errors (and, unless headings were given, with its heading). -/
theorem C83_gap (f : ℝ) (hf : FresnelAccurate R f) (x y h : Option (Fl R)) (pv : PlanView (Fl R))
    (hpv : PlanView.new x y h = .ok pv) (calls : List (Nat × Option (Fl R))) (geoms : Store (Geom (Fl R)))
    (harcs : ArcsCurved geoms) (st : PVState (Fl R))
    (hadj : PlanView.adjustGeometries false ⟨addEach pv calls, geoms⟩ = .ok () st)
    (i : Nat) (g g' : AdjGeom (Fl R)) (hg : st.pv.adjGeoms[i]? = some g) (hg' : st.pv.adjGeoms[i + 1]? = some g')
    (k0 k1 : Fl R) (hk : spiralOf (st.geoms.cell g.geom) = some (k0, k1)) (L : Fl R) (hL : g.length = some L) :
    let e := spiralEnd k0.val k1.val L.val (written g)
    |g'.x.val - e.x| ≤ R.u * spiralUnits f k0.val k1.val L.val g.x.val g.heading.val ∧
    |g'.y.val - e.y| ≤ R.u * spiralUnits f k0.val k1.val L.val g.y.val g.heading.val ∧
    ((∀ c ∈ calls, c.2 = none) → |g'.heading.val - e.h| ≤
      R.u * (|g.heading.val| + 3.1 * |k0.val * L.val| + 3.7 * |(k1.val - k0.val) * L.val|)) := by
  obtain ⟨n1, n2, n3, n4, n5⟩ := newFl_eq x y h pv hpv
  rw [addEach_eq] at hadj
  simp only [n1, n2, List.nil_append] at hadj
  obtain ⟨S, P, Q, len, l, c, hE, -, -, -, -, -, hs, hK⟩ :=
    adjust_forward_calls (kept_shape (kept_curvature geoms)) hadj (fun j => ⟨⟨rfl, fun a ha => harcs j a ha⟩, rfl⟩)
  simp only [n3, List.nil_append, List.length_map] at hE hs
  rw [hE] at hg hg'
  have hi : i + 1 < calls.length := by
    have := (List.getElem?_eq_some_iff.mp hg').1; simpa using this
  rw [List.getElem?_eq_getElem (by simp; omega)] at hg
  rw [List.getElem?_eq_getElem (by simp; omega)] at hg'
  simp only [List.getElem_mapIdx, List.getElem_map, Option.some.injEq] at hg hg'
  subst hg hg'
  simp only at hL hk
  obtain ⟨⟨-, k3⟩, -, -, -, -, ht⟩ := hs i (by omega)
  obtain ⟨-, j1, j2, j3, -, -⟩ := hs (i + 1) hi
  rw [hL] at ht
  have := ht.near_spiral hf (k3.trans (((hK _).2.symm.trans (by simpa using hk))))
  simp only [j1, j2] at this ⊢
  refine ⟨this.1, this.2.1, ?_⟩
  intro hno
  rw [j3 (by rw [List.filterMap_eq_nil_iff]; exact hno)]
  exact this.2.2

/-- C83: the end of the planview is the exact end of its last spiral, up to rounding errors. -/
theorem C83_end (f : ℝ) (hf : FresnelAccurate R f) (x y h : Option (Fl R)) (pv : PlanView (Fl R))
    (hpv : PlanView.new x y h = .ok pv) (calls : List (Nat × Option (Fl R))) (geoms : Store (Geom (Fl R)))
    (harcs : ArcsCurved geoms) (st : PVState (Fl R))
    (hadj : PlanView.adjustGeometries false ⟨addEach pv calls, geoms⟩ = .ok () st)
    (g : AdjGeom (Fl R)) (hg : st.pv.adjGeoms.getLast? = some g)
    (k0 k1 : Fl R) (hk : spiralOf (st.geoms.cell g.geom) = some (k0, k1)) (L : Fl R) (hL : g.length = some L) :
    let e := spiralEnd k0.val k1.val L.val (written g)
    ∃ q, st.pv.stop = some q ∧
    |q.x.val - e.x| ≤ R.u * spiralUnits f k0.val k1.val L.val g.x.val g.heading.val ∧
    |q.y.val - e.y| ≤ R.u * spiralUnits f k0.val k1.val L.val g.y.val g.heading.val ∧
    |q.h.val - e.h| ≤ R.u * (|g.heading.val| + 3.1 * |k0.val * L.val| + 3.7 * |(k1.val - k0.val) * L.val|) := by
  obtain ⟨n1, n2, n3, n4, n5⟩ := newFl_eq x y h pv hpv
  rw [addEach_eq] at hadj
  simp only [n1, n2, List.nil_append] at hadj
  obtain ⟨S, P, Q, len, l, c, hE, -, -, -, -, hq, hs, hK⟩ :=
    adjust_forward_calls (kept_shape (kept_curvature geoms)) hadj (fun j => ⟨⟨rfl, fun a ha => harcs j a ha⟩, rfl⟩)
  simp only [n3, List.nil_append, List.length_map] at hE hs hq
  rw [hE, List.getLast?_eq_getElem?] at hg
  have hi := (List.getElem?_eq_some_iff.mp hg).1
  rw [List.getElem?_eq_getElem hi] at hg
  simp only [List.length_mapIdx, List.length_map] at hi hg
  simp only [List.getElem_mapIdx, List.getElem_map, Option.some.injEq] at hg
  subst hg
  simp only at hL hk
  obtain ⟨⟨-, k3⟩, -, -, -, -, ht⟩ := hs _ hi
  rw [hL] at ht
  refine ⟨_, hq, ?_⟩
  have := ht.near_spiral hf (k3.trans (((hK _).2.symm.trans (by simpa using hk))))
  rwa [Nat.sub_add_cancel (by omega)] at this

/-- C83: a planview adjusted from its start or from its end, without given headings: the written geometries lead from its
start to its end, up to rounding errors; the spirals as well as the lines and arcs. -/
theorem C83_planview (f : ℝ) (hf : FresnelAccurate R f) (x y h : Option (Fl R)) (pv : PlanView (Fl R))
    (hpv : PlanView.new x y h = .ok pv) (objs : List Nat) (geoms : Store (Geom (Fl R))) (harcs : ArcsCurved geoms)
    (target : Option (Pose (Fl R))) (st : PVState (Fl R))
    (hadj : (match target with
      | none => PlanView.adjustGeometries false ⟨addEach pv (objs.map (·, none)), geoms⟩
      | some t => PlanView.adjustGeometries true ⟨(addEach pv (objs.map (·, none))).setStartPoint t, geoms⟩) = .ok () st) :
    ∃ p q, st.pv.start = some p ∧ st.pv.stop = some q ∧
      DrivenNearly f geoms (if target.isSome then st.pv.adjGeoms.reverse else st.pv.adjGeoms) p q := by
  obtain ⟨n1, n2, n3, n4, n5⟩ := newFl_eq x y h pv hpv
  have hno : (objs.map (fun o => (o, (none : Option (Fl R))))).filterMap (·.2) = [] := by simp
  rw [addEach_eq] at hadj
  cases target with
  | none =>
    refine adjust_driven (b := false) hf (kept_shape (kept_curvature geoms)) (keptBack_shape (keptBack_curvature geoms)) hadj
      (fun j => ⟨⟨rfl, fun a ha => harcs j a ha⟩, rfl⟩) ?_ ?_
    · exact n3
    · simp only [n2, hno, List.append_nil]
  | some t =>
    refine adjust_driven (b := true) hf (kept_shape (kept_curvature geoms)) (keptBack_shape (keptBack_curvature geoms)) hadj
      (fun j => ⟨⟨rfl, fun a ha => harcs j a ha⟩, rfl⟩) ?_ ?_
    · exact n3
    · simp only [PlanView.setStartPoint, n2, hno, List.append_nil]

/-- C83: the same for the roads of a network. -/
theorem C83_tracks (f : ℝ) (hfr : FresnelAccurate R f) (net net' : Net (Fl R)) (hn : net.roads.keys.Nodup)
    (hf : Fresh net.roads) (harcs : ArcsCurved net.geoms) (h : Net.adjustStartpoints net = .ok () net') (k : String)
    (r : Road (Fl R)) (hr : net'.roads.get? k = some r) (ho : r.planview.overridden = []) :
    ∃ p q, endPose r .start = some p ∧ endPose r .end = some q ∧
      (DrivenNearly f net'.geoms r.planview.adjGeoms p q ∨
       DrivenNearly f net'.geoms r.planview.adjGeoms.reverse p q) := by
  have hKept : Kept (SameShape net.geoms) := kept_shape (kept_curvature net.geoms)
  have hBack : KeptBack (SameShape net.geoms) := keptBack_shape (keptBack_curvature net.geoms)
  obtain ⟨m, hh, _⟩ := startpoints_history hn hf h
  obtain ⟨hc, hi⟩ := hh.kept hKept hBack (fun j => ⟨⟨rfl, fun a ha => harcs j a ha⟩, rfl⟩)
  obtain ⟨r0, h0, h1⟩ := hi k r hr
  rcases h1 with rfl | ⟨b, p, g, st, hK, hadj, rfl⟩
  · have := startpoints_all hn hf h hr
    rw [(hf k r h0).1] at this; simp at this
  · have hfr' := (adjustGeometries_gen hadj).frame
    obtain ⟨p', q', h1, h2, h3⟩ := adjust_driven hfr hKept hBack hadj hK (hf k r0 h0).2 (by rw [← hfr'.2.2]; exact ho)
    refine ⟨p', q', h1, h2, ?_⟩
    cases b
    · exact .inl (h3.congr (fun j => (hc j).1.1.symm) fun j => (hc j).2.symm)
    · exact .inr (h3.congr (fun j => (hc j).1.1.symm) fun j => (hc j).2.symm)

/-- The hypotheses: doubles, a line of length 2 and a spiral of length 2 from curvature 0 to curvature 1; a road through
line, spiral, line. -/
example : ∃ (geoms : Store (Geom (Fl double))) (pv : PlanView (Fl double)) (st : PVState (Fl double)) (k0 k1 : Fl double),
    FresnelAccurate double 1 ∧ PlanView.new none none none = .ok pv ∧ ArcsCurved geoms ∧
    PlanView.adjustGeometries false ⟨addEach pv [(0, none), (1, none), (0, none)], geoms⟩ = .ok () st ∧
    spiralOf (geoms.cell 1) = some (k0, k1) ∧ k0.val = 0 ∧ k1.val = 1 := by
  let geoms : Store (Geom (Fl double)) :=
    ⟨fun r => if r = 0 then .line ⟨ofInt 2⟩ else .spiral ⟨ofInt 0, ofInt 1, some (ofInt 2)⟩, 2⟩
  have h1 : (ofInt 1 : Fl double).val = 1 := Rounding.ofInt_one _
  have h2 : (ofInt 2 : Fl double).val = 2 := by
    have := double.two
    simpa using this
  obtain ⟨pv, hpv⟩ := (C10_succeeds_iff (F := Fl double) none none none).mpr (by simp)
  obtain ⟨st, hst⟩ := C67_succeeds none none none pv hpv [(0, none), (1, none), (0, none)] (.inl (by simp)) geoms (by
    rintro ⟨r, -⟩ -
    by_cases h0 : r = 0
    · simp [geoms, h0, Spec.Usable]
    · simp [geoms, h0, Spec.Usable, h2])
  refine ⟨geoms, pv, st, ofInt 0, ofInt 1, ⟨by norm_num, fun z => ⟨?_, ?_⟩⟩, hpv, ?_, hst, rfl,
    Rounding.ofInt_zero _, h1⟩
  · rw [one_mul]; exact double.err _
  · rw [one_mul]; exact double.err _
  · intro r a hr
    by_cases h0 : r = 0
    · simp [geoms, h0] at hr
    · simp [geoms, h0] at hr

end Pyodrx.Props
