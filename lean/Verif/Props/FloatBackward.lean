import Verif.Proofs.FloatBackward
import Verif.Props.Float

/-! # C70: planviews adjusted from their end, in floating point arithmetic -/

namespace Pyodrx.Props
open Pyodrx Pyodrx.Spec PyFloat

variable {R : Rounding}

theorem keptBack_curvature (geoms : Store (Geom (Fl R))) : KeptBack (F := Fl R) (fun r c =>
    curvature c = curvature (geoms.cell r) ∧ ∀ a, c = .arc a → a.curvature.val ≠ 0) := by
  intro r c p v c' ⟨h1, h2⟩ h
  have := getStartData_kind h
  cases c with
  | line l => simp only at this; subst this; exact ⟨h1, h2⟩
  | spiral l => simp only at this; subst this; exact ⟨h1, h2⟩
  | arc a =>
    simp only at this
    obtain ⟨a', rfl, hc⟩ := this
    refine ⟨?_, ?_⟩
    · rw [← h1]; simp [curvature, hc]
    · intro b hb; cases hb; rw [hc]; exact h2 a rfl
  | poly g =>
    simp only at this
    obtain ⟨len, rfl⟩ := this
    exact ⟨by rw [← h1]; rfl, by intro a ha; cases ha⟩

/-- Everything about adjusting from the end that the theorems below use. -/
theorem backward_float (x y h : Option (Fl R)) (pv : PlanView (Fl R)) (hpv : PlanView.new x y h = .ok pv)
    (calls : List (Nat × Option (Fl R))) (target : Pose (Fl R)) (geoms : Store (Geom (Fl R))) (harcs : ArcsCurved geoms)
    (st : PVState (Fl R))
    (hadj : PlanView.adjustGeometries true ⟨(addEach pv calls).setStartPoint target, geoms⟩ = .ok () st) :
    ∃ (S L : Nat → Fl R) (Q : Nat → Pose (Fl R)) (c : Nat → Geom (Fl R)),
      st.pv.adjGeoms.map AdjGeom.rest = (calls.map (·.1)).reverse.mapIdx
        (fun j r => ((Q (j + 1)).x, (Q (j + 1)).y, (Q (j + 1)).h +. pi, some (L j), r)) ∧
      S 0 = ofInt 0 ∧ S calls.length = st.pv.presentS ∧ Q 0 = target ∧
      st.pv.start = some { Q calls.length with h := (Q calls.length).h +. pi } ∧
      st.pv.stop = some { target with h := target.h +. pi } ∧
      ∀ j (hj : j < calls.length),
        curvature (c j) = curvature (st.geoms.cell ((calls.map (·.1)).reverse[j]'(by simpa using hj))) ∧
        (∀ a, c j = .arc a → a.curvature.val ≠ 0) ∧ S (j + 1) = S j +. L j ∧
        TwiceBack (Q j) (c j) (some (L j)) (Q (j + 1)) := by
  obtain ⟨n1, n2, n3, n4, n5⟩ := newFl_eq x y h pv hpv
  rw [addEach_eq] at hadj
  simp only [n1, n2, List.nil_append, PlanView.setStartPoint] at hadj
  obtain ⟨S, Q, L, c, hE, hS0, hSn, hQ0, hst, hsp, hs, hK⟩ :=
    adjust_backward_calls (kept_curvature geoms) (keptBack_curvature geoms) hadj
      (fun j => ⟨rfl, fun a ha => harcs j a ha⟩)
  simp only [n3, List.map_nil, List.nil_append, List.length_map] at hE hSn hst hs
  refine ⟨S, L, Q, c, hE, hS0, hSn, hQ0, hst, hsp, ?_⟩
  intro j hj
  obtain ⟨⟨k1, k2⟩, hS, ht⟩ := hs j hj
  exact ⟨by rw [k1]; exact ((hK _).1).symm, k2, hS, ht⟩

/-- C70: geometries with a usable length can be adjusted from the end as well. -/
theorem C70_succeeds (x y h : Option (Fl R)) (pv : PlanView (Fl R)) (hpv : PlanView.new x y h = .ok pv)
    (calls : List (Nat × Option (Fl R))) (target : Pose (Fl R)) (geoms : Store (Geom (Fl R)))
    (hu : ∀ c ∈ calls, Usable (geoms.cell c.1)) :
    ∃ st, PlanView.adjustGeometries true ⟨(addEach pv calls).setStartPoint target, geoms⟩ = .ok () st := by
  obtain ⟨n1, n2, n3, n4, n5⟩ := newFl_eq x y h pv hpv
  suffices h : ∃ st, PlanView.adjustGeometries true ⟨(addEach pv calls).setStartPoint target, geoms⟩ = .ok () st ∧
      ∀ j, j ∈ calls.map (·.1) → Usable (st.geoms.cell j) by
    obtain ⟨st, hst, -⟩ := h
    exact ⟨st, hst⟩
  have hm : ∀ r ∈ ((addEach pv calls).setStartPoint target).raw, r ∈ calls.map (·.1) := by
    intro r hr
    rw [addEach_eq] at hr
    simpa [n1, PlanView.setStartPoint] using hr
  refine adjust_backward_succeeds (K := fun r c => r ∈ calls.map (·.1) → Usable c)
    ⟨(addEach pv calls).setStartPoint target, geoms⟩ ?_ ?_ (fun j hj => by
      obtain ⟨c, hc, rfl⟩ := List.mem_map.mp hj
      exact hu c hc)
  · intro r hr c p hc
    obtain ⟨q, l, c', h1, h2⟩ := usable_end (hc (hm r hr)) p
    exact ⟨q, l, c', h1, fun _ => h2⟩
  · intro r hr c p hc
    obtain ⟨q, l, c', h1, h2⟩ := usable_start (hc (hm r hr)) p
    exact ⟨q, l, c', h1, fun _ => h2⟩

/-- What is emitted at position `i`. -/
theorem rest_get {l : List (AdjGeom (Fl R))} {l' : List (Fl R × Fl R × Fl R × Option (Fl R) × Nat)}
    (h : l.map AdjGeom.rest = l') {i : Nat} {g : AdjGeom (Fl R)} (hg : l[i]? = some g) : l'[i]? = some g.rest := by
  rw [← h, List.getElem?_map, hg]; rfl

/-- C70: geometries are emitted in reverse order; the exact end of a line or arc is the start of the geometry emitted
before it, with its heading, up to rounding errors. -/
theorem C70_gap (x y h : Option (Fl R)) (pv : PlanView (Fl R)) (hpv : PlanView.new x y h = .ok pv)
    (calls : List (Nat × Option (Fl R))) (target : Pose (Fl R)) (geoms : Store (Geom (Fl R))) (harcs : ArcsCurved geoms)
    (st : PVState (Fl R))
    (hadj : PlanView.adjustGeometries true ⟨(addEach pv calls).setStartPoint target, geoms⟩ = .ok () st)
    (i : Nat) (g g' : AdjGeom (Fl R)) (hg' : st.pv.adjGeoms[i]? = some g') (hg : st.pv.adjGeoms[i + 1]? = some g)
    (k : ℝ) (hk : curvature (st.geoms.cell g.geom) = some k) (L : Fl R) (hL : g.length = some L) :
    let e := exactEnd k L.val (written g)
    let H := g'.heading.val
    |e.x - g'.x.val| ≤ R.u * (3 * |g'.x.val| + |L.val| * (4 * |H| + 8 * |k * L.val| + 23) + (5 * |H| + 40) * radius k) ∧
    |e.y - g'.y.val| ≤ R.u * (3 * |g'.y.val| + |L.val| * (4 * |H| + 8 * |k * L.val| + 23) + (5 * |H| + 40) * radius k) ∧
    |e.h - H| ≤ R.u * (4 * |H| + 8 * |k * L.val| + 23) := by
  obtain ⟨S, L', Q, c, hE, -, -, -, -, -, hs⟩ := backward_float x y h pv hpv calls target geoms harcs st hadj
  have e1 := rest_get hE hg'
  have e2 := rest_get hE hg
  have hi : i + 1 < calls.length := by
    have := (List.getElem?_eq_some_iff.mp e2).1; simpa using this
  rw [List.getElem?_eq_getElem (by simp; omega)] at e1
  rw [List.getElem?_eq_getElem (by simp; omega)] at e2
  simp only [List.getElem_mapIdx, Option.some.injEq, AdjGeom.rest, Prod.mk.injEq] at e1 e2
  obtain ⟨x1, y1, h1, -, -⟩ := e1
  obtain ⟨x2, y2, h2, l2, r2⟩ := e2
  rw [hL] at l2
  simp only [Option.some.injEq] at l2
  obtain ⟨k1, k2, -, ht⟩ := hs (i + 1) hi
  rw [l2] at ht
  rw [r2] at k1
  have := ht.near k2 (k1.trans hk)
  simp only [written]
  rw [← x1, ← y1, ← h1, ← x2, ← y2, ← h2]
  exact this

/-- C70: the exact end of the line or arc emitted first is the end of the planview, which is the given pose, turned; the
planview starts where the geometry emitted last does. -/
theorem C70_end (x y h : Option (Fl R)) (pv : PlanView (Fl R)) (hpv : PlanView.new x y h = .ok pv)
    (calls : List (Nat × Option (Fl R))) (target : Pose (Fl R)) (geoms : Store (Geom (Fl R))) (harcs : ArcsCurved geoms)
    (st : PVState (Fl R))
    (hadj : PlanView.adjustGeometries true ⟨(addEach pv calls).setStartPoint target, geoms⟩ = .ok () st)
    (g g' : AdjGeom (Fl R)) (hg : st.pv.adjGeoms.head? = some g) (hg' : st.pv.adjGeoms.getLast? = some g')
    (k : ℝ) (hk : curvature (st.geoms.cell g.geom) = some k) (L : Fl R) (hL : g.length = some L) :
    let e := exactEnd k L.val (written g)
    ∃ q, st.pv.stop = some q ∧ q.x = target.x ∧ q.y = target.y ∧
    |q.h.val - (target.h.val + Real.pi)| ≤ R.u * (|target.h.val| + 6.4) ∧
    |e.x - q.x.val| ≤ R.u * (3 * |q.x.val| + |L.val| * (4 * |q.h.val| + 8 * |k * L.val| + 23) + (5 * |q.h.val| + 40) * radius k) ∧
    |e.y - q.y.val| ≤ R.u * (3 * |q.y.val| + |L.val| * (4 * |q.h.val| + 8 * |k * L.val| + 23) + (5 * |q.h.val| + 40) * radius k) ∧
    |e.h - q.h.val| ≤ R.u * (4 * |q.h.val| + 8 * |k * L.val| + 23) ∧
    st.pv.start = some ⟨g'.x, g'.y, g'.heading⟩ := by
  obtain ⟨S, L', Q, c, hE, -, -, hQ0, hst, hsp, hs⟩ := backward_float x y h pv hpv calls target geoms harcs st hadj
  rw [List.head?_eq_getElem?] at hg
  rw [List.getLast?_eq_getElem?] at hg'
  have e2 := rest_get hE hg
  have e3 := rest_get hE hg'
  have hi : 0 < calls.length := by
    have := (List.getElem?_eq_some_iff.mp e2).1; simpa using this
  have hlen : st.pv.adjGeoms.length = calls.length := by
    have := congrArg List.length hE; simpa using this
  rw [hlen, List.getElem?_eq_getElem (by simp; omega)] at e3
  rw [List.getElem?_eq_getElem (by simp; omega)] at e2
  simp only [List.getElem_mapIdx, Option.some.injEq, AdjGeom.rest, Prod.mk.injEq] at e2 e3
  obtain ⟨x2, y2, h2, l2, r2⟩ := e2
  obtain ⟨x3, y3, h3, -, -⟩ := e3
  rw [hL] at l2
  simp only [Option.some.injEq] at l2
  obtain ⟨k1, k2, -, ht⟩ := hs 0 hi
  rw [l2, hQ0] at ht
  rw [r2] at k1
  have := ht.near k2 (k1.trans hk)
  refine ⟨_, hsp, rfl, rfl, (back_heading R target.h.val).1, ?_, ?_, ?_, ?_⟩
  · simp only [written]; rw [← x2, ← y2, ← h2]; exact this.1
  · simp only [written]; rw [← x2, ← y2, ← h2]; exact this.2.1
  · simp only [written]; rw [← x2, ← y2, ← h2]; exact this.2.2
  · rw [hst, ← x3, ← y3, ← h3, Nat.sub_add_cancel hi]

/-- C70: the length of the road is the sum of the emitted lengths up to a relative error of `(1 + 6u)^n - 1`. -/
theorem C70_total (x y h : Option (Fl R)) (pv : PlanView (Fl R)) (hpv : PlanView.new x y h = .ok pv)
    (calls : List (Nat × Option (Fl R))) (target : Pose (Fl R)) (geoms : Store (Geom (Fl R))) (harcs : ArcsCurved geoms)
    (st : PVState (Fl R))
    (hadj : PlanView.adjustGeometries true ⟨(addEach pv calls).setStartPoint target, geoms⟩ = .ok () st)
    (lens : List (Fl R)) (hl : st.pv.adjGeoms.map (·.length) = lens.map some) :
    |st.pv.getTotalLength.val - (lens.map (·.val)).sum| ≤
      ((1 + 6 * R.u) ^ calls.length - 1) * (lens.map (fun l => |l.val|)).sum := by
  obtain ⟨S, L, Q, c, hE, hS0, hSn, -, -, -, hs⟩ := backward_float x y h pv hpv calls target geoms harcs st hadj
  have e : lens = (List.range calls.length).map L := by
    have := congrArg (List.map (fun t : Fl R × Fl R × Fl R × Option (Fl R) × Nat => t.2.2.2.1)) hE
    rw [List.map_map] at this
    have e2 : st.pv.adjGeoms.map (·.length) = ((List.range calls.length).map L).map some := by
      refine Eq.trans this ?_
      apply List.ext_getElem
      · simp
      · intro j h1 h2
        simp only [List.getElem_map, List.getElem_mapIdx, List.getElem_range]
    rw [hl] at e2
    exact List.map_injective_iff.mpr (Option.some_injective _) e2
  rw [PlanView.getTotalLength, ← hSn, e, List.map_map, List.map_map]
  refine sum_rounded R.u R.u_nonneg (fun i => (S i).val) (fun i => (L i).val) (by simp only [hS0]; exact R.ofInt_zero) _ ?_
  intro i hi
  obtain ⟨-, -, hS, -⟩ := hs i hi
  rw [hS, fl_add]
  refine (R.err _).trans (mul_le_mul_of_nonneg_left ?_ R.u_nonneg)
  exact (abs_add_le _ _).trans (by linarith [abs_nonneg (L i).val])

/-- The hypotheses: doubles, a road through line, arc, line that ends at (5, 0) looking to the west. -/
example : ∃ (geoms : Store (Geom (Fl double))) (pv : PlanView (Fl double)) (st : PVState (Fl double)),
    PlanView.new none none none = .ok pv ∧ ArcsCurved geoms ∧
    PlanView.adjustGeometries true ⟨(addEach pv [(0, none), (1, none), (0, none)]).setStartPoint
      ⟨ofInt 5, ofInt 0, ofInt 0⟩, geoms⟩ = .ok () st ∧
    curvature (geoms.cell 0) = some 0 ∧ curvature (geoms.cell 1) = some 1 := by
  let geoms : Store (Geom (Fl double)) := ⟨fun r => if r = 0 then .line ⟨ofInt 2⟩ else .arc ⟨ofInt 1, some (ofInt 2), none⟩, 2⟩
  have h1 : (ofInt 1 : Fl double).val = 1 := Rounding.ofInt_one _
  have h2 : (ofInt 2 : Fl double).val = 2 := by
    have := double.two
    simpa using this
  obtain ⟨pv, hpv⟩ := (C10_succeeds_iff (F := Fl double) none none none).mpr (by simp)
  obtain ⟨st, hst⟩ := C70_succeeds none none none pv hpv [(0, none), (1, none), (0, none)]
    ⟨ofInt 5, ofInt 0, ofInt 0⟩ geoms (by
    rintro ⟨r, -⟩ -
    by_cases h0 : r = 0
    · simp [geoms, h0, Usable]
    · simp [geoms, h0, Usable, h1, h2])
  refine ⟨geoms, pv, st, hpv, ?_, hst, by simp [geoms, curvature], by simp [geoms, curvature, h1]⟩
  intro r a hr
  by_cases h0 : r = 0
  · simp [geoms, h0] at hr
  · simp only [geoms, h0, if_false, Geom.arc.injEq] at hr
    rw [← hr, h1]; norm_num

end Pyodrx.Props
