import Verif.Proofs.FloatPlanView
import Verif.Props.PlanView

/-! # Properties C67-C68: planviews in floating point arithmetic -/

namespace Pyodrx.Props
open Pyodrx Pyodrx.Spec PyFloat

variable {R : Rounding}

theorem addEach_eq (calls : List (Nat × Option (Fl R))) : ∀ pv : PlanView (Fl R),
    addEach pv calls = { pv with
      raw := pv.raw ++ calls.map (·.1)
      overridden := pv.overridden ++ calls.filterMap (·.2) } := by
  induction calls with
  | nil => intro pv; simp [addEach]
  | cons c calls ih =>
    intro pv
    have : addEach pv (c :: calls) = addEach (pv.addGeometry c.1 c.2) calls := rfl
    rw [this, ih]
    cases h : c.2 <;> simp [PlanView.addGeometry, h]

theorem newFl_eq (x y h : Option (Fl R)) (pv : PlanView (Fl R)) (hpv : PlanView.new x y h = .ok pv) :
    pv.raw = [] ∧ pv.overridden = [] ∧ pv.adjGeoms = [] ∧ pv.presentS = ofInt 0 ∧
      pv.present = ⟨x.getD (ofInt 0), y.getD (ofInt 0), h.getD (ofInt 0)⟩ := by
  cases x <;> cases y <;> cases h <;> simp [PlanView.new] at hpv <;> subst hpv <;>
    simp [PlanView.setStartPoint]

/-- Evaluation keeps curvatures. -/
theorem kept_curvature (geoms : Store (Geom (Fl R))) : Kept (F := Fl R) (fun r c =>
    curvature c = curvature (geoms.cell r) ∧ ∀ a, c = .arc a → a.curvature.val ≠ 0) := by
  intro r c p v c' ⟨h1, h2⟩ h
  have := getEndData_kind h
  cases c with
  | line l => simp only at this; subst this; exact ⟨h1, h2⟩
  | spiral l => simp only at this; subst this; exact ⟨h1, h2⟩
  | arc a =>
    simp only at this
    obtain ⟨a', rfl, hc⟩ := this
    refine ⟨?_, ?_⟩
    · rw [← h1]; simp [curvature, hc]
    · intro b hb; cases hb; rw [hc]; exact h2 a rfl
  | poly g =>
    simp only at this
    obtain ⟨len, rfl⟩ := this
    exact ⟨by rw [← h1]; rfl, by intro a ha; cases ha⟩

/-- Everything about a forward adjustment that the theorems below use. -/
theorem forward_float (x y h : Option (Fl R)) (pv : PlanView (Fl R)) (hpv : PlanView.new x y h = .ok pv)
    (calls : List (Nat × Option (Fl R))) (geoms : Store (Geom (Fl R))) (harcs : ArcsCurved geoms) (st : PVState (Fl R))
    (hadj : PlanView.adjustGeometries false ⟨addEach pv calls, geoms⟩ = .ok () st) :
    ∃ (S L l : Nat → Fl R) (P Q : Nat → Pose (Fl R)) (c : Nat → Geom (Fl R)),
      st.pv.adjGeoms = (calls.map (·.1)).mapIdx
        (fun j r => (⟨some (S j), (P j).x, (P j).y, (P j).h, some (L j), r⟩ : AdjGeom (Fl R))) ∧
      S 0 = ofInt 0 ∧ S calls.length = st.pv.presentS ∧ st.pv.stop = some (Q calls.length) ∧
      ∀ j (hj : j < calls.length), curvature (c j) = curvature (st.geoms.cell calls[j].1) ∧
        (∀ a, c j = .arc a → a.curvature.val ≠ 0) ∧ (P j).x = (Q j).x ∧ (P j).y = (Q j).y ∧
        ((∀ c ∈ calls, c.2 = none) → P j = Q j) ∧ S (j + 1) = S j +. l j ∧
        Twice (P j) (c j) (some (L j)) (Q (j + 1)) (l j) := by
  obtain ⟨n1, n2, n3, n4, n5⟩ := newFl_eq x y h pv hpv
  rw [addEach_eq] at hadj
  simp only [n1, n2, List.nil_append] at hadj
  obtain ⟨S, P, Q, len, l, c, hE, hS0, hSn, hQ0, -, hst, hs, hK⟩ :=
    adjust_forward_calls (kept_curvature geoms) hadj (fun j => ⟨rfl, fun a ha => harcs j a ha⟩)
  simp only [n3, n4, List.nil_append, List.length_map] at hE hS0 hSn hst hs
  have hlen : ∀ j, j < calls.length → ∃ L, len j = some L := by
    intro j hj
    obtain ⟨⟨-, k2⟩, -, -, -, -, ht⟩ := hs j hj
    obtain ⟨L, hL, -⟩ := ht.length k2
    exact ⟨L, hL⟩
  refine ⟨S, fun j => (len j).getD (ofInt 0), l, P, Q, c, ?_, hS0, hSn, hst, ?_⟩
  · rw [hE]
    apply List.ext_getElem
    · simp
    · intro j h1 h2
      simp only [List.length_mapIdx, List.length_map] at h1
      obtain ⟨L, hL⟩ := hlen j h1
      simp [hL]
  · intro j hj
    obtain ⟨⟨k1, k2⟩, hx, hy, hp, hS, ht⟩ := hs j hj
    obtain ⟨L, hL⟩ := hlen j hj
    refine ⟨?_, k2, hx, hy, ?_, hS, ?_⟩
    · rw [k1]; simpa using ((hK _).1).symm
    · intro hno
      apply hp
      rw [List.filterMap_eq_nil_iff]
      exact hno
    · rw [hL] at ht
      show Twice (P j) (c j) (some ((len j).getD (ofInt 0))) (Q (j + 1)) (l j)
      rw [hL]; exact ht

/-- C67: geometries with a usable length can be adjusted (if headings are given for all of them or for none): rounding
never leads to an error. -/
theorem C67_succeeds (x y h : Option (Fl R)) (pv : PlanView (Fl R)) (hpv : PlanView.new x y h = .ok pv)
    (calls : List (Nat × Option (Fl R))) (hh : (∀ c ∈ calls, c.2 = none) ∨ (∀ c ∈ calls, c.2.isSome))
    (geoms : Store (Geom (Fl R))) (hu : ∀ c ∈ calls, Usable (geoms.cell c.1)) :
    ∃ st, PlanView.adjustGeometries false ⟨addEach pv calls, geoms⟩ = .ok () st := by
  obtain ⟨n1, n2, n3, n4, n5⟩ := newFl_eq x y h pv hpv
  suffices h : ∃ st, PlanView.adjustGeometries false ⟨addEach pv calls, geoms⟩ = .ok () st ∧
      ∀ j, j ∈ calls.map (·.1) → Usable (st.geoms.cell j) by
    obtain ⟨st, hst, -⟩ := h
    exact ⟨st, hst⟩
  refine adjust_forward_succeeds (K := fun r c => r ∈ calls.map (·.1) → Usable c)
    ⟨addEach pv calls, geoms⟩ ?_ ?_ (fun j hj => by
      obtain ⟨c, hc, rfl⟩ := List.mem_map.mp hj
      exact hu c hc)
  · intro r hr c p hc
    have hr' : r ∈ calls.map (·.1) := by
      rw [addEach_eq] at hr
      simpa [n1] using hr
    obtain ⟨q, l, c', h1, h2⟩ := usable_end (hc hr') p
    exact ⟨q, l, c', h1, fun _ => h2⟩
  · rw [addEach_eq]
    simp only [n1, n2, List.nil_append, List.length_map]
    rcases hh with hh | hh
    · exact .inl (List.filterMap_eq_nil_iff.mpr hh)
    · refine .inr (le_of_eq ?_)
      clear hu
      induction calls with
      | nil => rfl
      | cons c calls ih =>
        obtain ⟨v, hv⟩ := Option.isSome_iff_exists.mp (hh c (by simp))
        simp [List.filterMap_cons, hv, ih (fun c' hc' => hh c' (by simp [hc']))]

/-- The hypotheses of the C67 and C68 theorems: doubles, a line of length 2 and an arc of curvature 1 and length 2, a
road through line, arc, line. -/
example : ∃ (geoms : Store (Geom (Fl double))) (pv : PlanView (Fl double)) (st : PVState (Fl double)),
    PlanView.new none none none = .ok pv ∧ ArcsCurved geoms ∧
    PlanView.adjustGeometries false ⟨addEach pv [(0, none), (1, none), (0, none)], geoms⟩ = .ok () st ∧
    curvature (geoms.cell 0) = some 0 ∧ curvature (geoms.cell 1) = some 1 := by
  let geoms : Store (Geom (Fl double)) := ⟨fun r => if r = 0 then .line ⟨ofInt 2⟩ else .arc ⟨ofInt 1, some (ofInt 2), none⟩, 2⟩
  have h1 : (ofInt 1 : Fl double).val = 1 := Rounding.ofInt_one _
  have h2 : (ofInt 2 : Fl double).val = 2 := by
    have := double.two
    simpa using this
  obtain ⟨pv, hpv⟩ := (C10_succeeds_iff (F := Fl double) none none none).mpr (by simp)
  obtain ⟨st, hst⟩ := C67_succeeds none none none pv hpv [(0, none), (1, none), (0, none)] (.inl (by simp)) geoms (by
    rintro ⟨r, -⟩ -
    by_cases h0 : r = 0
    · simp [geoms, h0, Usable]
    · simp [geoms, h0, Usable, h1, h2])
  refine ⟨geoms, pv, st, hpv, ?_, hst, by simp [geoms, curvature], by simp [geoms, curvature, h1]⟩
  intro r a hr
  by_cases h0 : r = 0
  · simp [geoms, h0] at hr
  · simp only [geoms, h0, if_false, Geom.arc.injEq] at hr
    rw [← hr, h1]; norm_num

/-- C67: the emitted distances and lengths. Distances start at 0; the next one (for the last geometry: the length of the
road) is the distance plus the length, up to rounding errors; distances never decrease as long as lengths are not
negative. -/
theorem C67_stations (x y h : Option (Fl R)) (pv : PlanView (Fl R)) (hpv : PlanView.new x y h = .ok pv)
    (calls : List (Nat × Option (Fl R))) (geoms : Store (Geom (Fl R))) (harcs : ArcsCurved geoms) (st : PVState (Fl R))
    (hadj : PlanView.adjustGeometries false ⟨addEach pv calls, geoms⟩ = .ok () st) :
    ∃ (S L : Nat → Fl R), st.pv.adjGeoms.map (fun g => (g.s, g.length, g.geom)) =
        calls.mapIdx (fun i c => (some (S i), some (L i), c.1)) ∧
      (S 0).val = 0 ∧ S calls.length = st.pv.getTotalLength ∧
      ∀ i < calls.length,
        |(S (i + 1)).val - ((S i).val + (L i).val)| ≤ R.u * (|(S i).val| + 6 * |(L i).val|) ∧
        (0 ≤ (L i).val → (S i).val ≤ (S (i + 1)).val) := by
  obtain ⟨S, L, l, P, Q, c, hE, hS0, hSn, -, hs⟩ := forward_float x y h pv hpv calls geoms harcs st hadj
  refine ⟨S, L, ?_, by rw [hS0, R.ofInt_zero], hSn, ?_⟩
  · rw [hE]
    apply List.ext_getElem
    · simp
    · intro j h1 h2; simp
  · intro i hi
    obtain ⟨-, k2, -, -, -, hS, ht⟩ := hs i hi
    obtain ⟨L', hL', p1, p2⟩ := ht.length k2
    cases hL'
    rw [hS, fl_add]
    have h0 := R.u_nonneg
    have a : |(S i).val + (l i).val - ((S i).val + (L i).val)| ≤ R.u * (4 * |(L i).val|) := by
      rw [add_sub_add_left_eq_sub]; linarith
    refine ⟨(R.near a (by positivity) (abs_add_le _ _)).trans (mul_le_mul_of_nonneg_left ?_ h0), ?_⟩
    · linarith [abs_nonneg (L i).val]
    · intro hL
      have := R.mono (show (S i).val ≤ (S i).val + (l i).val by linarith [p1 hL])
      rwa [(S i).rep] at this

theorem abs_sum_map_le (L : Nat → ℝ) (n : Nat) :
    |((List.range n).map L).sum| ≤ ((List.range n).map (fun i => |L i|)).sum := by
  induction n with
  | zero => simp
  | succ n ih =>
    simp only [List.range_succ, List.map_append, List.sum_append, List.map_cons, List.map_nil, List.sum_cons,
      List.sum_nil, add_zero]
    exact (abs_add_le _ _).trans (by linarith)

/-- Summing up with rounding errors. -/
theorem sum_rounded (u : ℝ) (hu : 0 ≤ u) (S L : Nat → ℝ) (h0 : S 0 = 0) (n : Nat)
    (h : ∀ i < n, |S (i + 1) - (S i + L i)| ≤ u * (|S i| + 6 * |L i|)) :
    |S n - ((List.range n).map L).sum| ≤ ((1 + 6 * u) ^ n - 1) * ((List.range n).map (fun i => |L i|)).sum := by
  induction n with
  | zero => simp [h0]
  | succ n ih =>
    have ih := ih (fun i hi => h i (by omega))
    have hn := h n (by omega)
    rw [List.range_succ, List.map_append, List.map_append, List.sum_append, List.sum_append]
    simp only [List.map_cons, List.map_nil, List.sum_cons, List.sum_nil, add_zero]
    set T := ((List.range n).map L).sum
    set A := ((List.range n).map (fun i => |L i|)).sum with hA
    have hT : |T| ≤ A := abs_sum_map_le L n
    have hA0 : 0 ≤ A := (abs_nonneg _).trans hT
    set e := (1 + 6 * u) ^ n with he
    have he1 : 1 ≤ e := one_le_pow₀ (by linarith)
    have hS : |S n| ≤ e * A := by
      calc |S n| = |(S n - T) + T| := by ring_nf
        _ ≤ |S n - T| + |T| := abs_add_le _ _
        _ ≤ (e - 1) * A + A := add_le_add ih hT
        _ = _ := by ring
    have hL := abs_nonneg (L n)
    calc |S (n + 1) - (T + L n)| = |(S (n + 1) - (S n + L n)) + (S n - T)| := by ring_nf
      _ ≤ |S (n + 1) - (S n + L n)| + |S n - T| := abs_add_le _ _
      _ ≤ u * (e * A + 6 * |L n|) + (e - 1) * A := by
          refine add_le_add (hn.trans (mul_le_mul_of_nonneg_left (by linarith) hu)) ih
      _ ≤ ((1 + 6 * u) ^ (n + 1) - 1) * (A + |L n|) := by
          rw [pow_succ, ← he]
          have h1 : 0 ≤ u * e * A := by positivity
          have h2 : 0 ≤ (e - 1) * |L n| := mul_nonneg (by linarith) hL
          have h3 : 0 ≤ u * ((e - 1) * |L n|) := mul_nonneg hu h2
          nlinarith

/-- C67: the length of the road is the sum of the emitted lengths up to a relative error of `(1 + 6u)^n - 1`, where `n` is
the number of geometries. -/
theorem C67_total (x y h : Option (Fl R)) (pv : PlanView (Fl R)) (hpv : PlanView.new x y h = .ok pv)
    (calls : List (Nat × Option (Fl R))) (geoms : Store (Geom (Fl R))) (harcs : ArcsCurved geoms) (st : PVState (Fl R))
    (hadj : PlanView.adjustGeometries false ⟨addEach pv calls, geoms⟩ = .ok () st) (lens : List (Fl R))
    (hl : st.pv.adjGeoms.map (·.length) = lens.map some) :
    |st.pv.getTotalLength.val - (lens.map (·.val)).sum| ≤
      ((1 + 6 * R.u) ^ calls.length - 1) * (lens.map (fun l => |l.val|)).sum := by
  obtain ⟨S, L, h1, h2, h3, h4⟩ := C67_stations x y h pv hpv calls geoms harcs st hadj
  have e : lens = (List.range calls.length).map L := by
    have := congrArg (List.map (fun t : Option (Fl R) × Option (Fl R) × Nat => t.2.1)) h1
    rw [List.map_map] at this
    have e2 : st.pv.adjGeoms.map (·.length) = ((List.range calls.length).map L).map some := by
      refine Eq.trans this ?_
      apply List.ext_getElem <;> simp
    rw [hl] at e2
    exact List.map_injective_iff.mpr (Option.some_injective _) e2
  rw [← h3, e, List.map_map, List.map_map]
  exact sum_rounded R.u R.u_nonneg (fun i => (S i).val) (fun i => (L i).val) h2 _ (fun i hi => (h4 i hi).1)

/-- C68: consecutive geometries fit: a geometry starts at the exact end of the line or arc before it, up to rounding
errors (and, unless headings were given, with its heading). -/
theorem C68_gap (x y h : Option (Fl R)) (pv : PlanView (Fl R)) (hpv : PlanView.new x y h = .ok pv)
    (calls : List (Nat × Option (Fl R))) (geoms : Store (Geom (Fl R))) (harcs : ArcsCurved geoms) (st : PVState (Fl R))
    (hadj : PlanView.adjustGeometries false ⟨addEach pv calls, geoms⟩ = .ok () st)
    (i : Nat) (g g' : AdjGeom (Fl R)) (hg : st.pv.adjGeoms[i]? = some g) (hg' : st.pv.adjGeoms[i + 1]? = some g')
    (k : ℝ) (hk : curvature (st.geoms.cell g.geom) = some k) (L : Fl R) (hL : g.length = some L) :
    let e := exactEnd k L.val (written g)
    |g'.x.val - e.x| ≤ R.u * (3 * |g.x.val| + 6 * |L.val| + (4 * |g.heading.val| + 26) * radius k) ∧
    |g'.y.val - e.y| ≤ R.u * (3 * |g.y.val| + 6 * |L.val| + (4 * |g.heading.val| + 26) * radius k) ∧
    ((∀ c ∈ calls, c.2 = none) →
      |g'.heading.val - e.h| ≤ R.u * (if k = 0 then 0 else |g.heading.val| + 3 * |k * L.val|)) := by
  obtain ⟨S, L', l, P, Q, c, hE, -, -, -, hs⟩ := forward_float x y h pv hpv calls geoms harcs st hadj
  rw [hE] at hg hg'
  have hi : i + 1 < calls.length := by
    have := (List.getElem?_eq_some_iff.mp hg').1; simpa using this
  rw [List.getElem?_eq_getElem (by simp; omega)] at hg
  rw [List.getElem?_eq_getElem (by simp; omega)] at hg'
  simp only [List.getElem_mapIdx, List.getElem_map, Option.some.injEq] at hg hg'
  subst hg hg'
  cases hL
  obtain ⟨k1, k2, -, -, -, -, ht⟩ := hs i (by omega)
  obtain ⟨-, -, j1, j2, j3, -, -⟩ := hs (i + 1) hi
  have := ht.near k2 (k1.trans hk)
  simp only [j1, j2] at this ⊢
  refine ⟨this.1, this.2.1, ?_⟩
  intro hno
  rw [j3 hno]
  exact this.2.2

/-- C68: the end of the planview is the exact end of its last geometry, up to rounding errors. -/
theorem C68_end (x y h : Option (Fl R)) (pv : PlanView (Fl R)) (hpv : PlanView.new x y h = .ok pv)
    (calls : List (Nat × Option (Fl R))) (geoms : Store (Geom (Fl R))) (harcs : ArcsCurved geoms) (st : PVState (Fl R))
    (hadj : PlanView.adjustGeometries false ⟨addEach pv calls, geoms⟩ = .ok () st)
    (g : AdjGeom (Fl R)) (hg : st.pv.adjGeoms.getLast? = some g)
    (k : ℝ) (hk : curvature (st.geoms.cell g.geom) = some k) (L : Fl R) (hL : g.length = some L) :
    let e := exactEnd k L.val (written g)
    ∃ q, st.pv.stop = some q ∧
    |q.x.val - e.x| ≤ R.u * (3 * |g.x.val| + 6 * |L.val| + (4 * |g.heading.val| + 26) * radius k) ∧
    |q.y.val - e.y| ≤ R.u * (3 * |g.y.val| + 6 * |L.val| + (4 * |g.heading.val| + 26) * radius k) ∧
    |q.h.val - e.h| ≤ R.u * (if k = 0 then 0 else |g.heading.val| + 3 * |k * L.val|) := by
  obtain ⟨S, L', l, P, Q, c, hE, -, -, hq, hs⟩ := forward_float x y h pv hpv calls geoms harcs st hadj
  rw [hE, List.getLast?_eq_getElem?] at hg
  have hi := (List.getElem?_eq_some_iff.mp hg).1
  rw [List.getElem?_eq_getElem hi] at hg
  simp only [List.length_mapIdx, List.length_map] at hi hg
  simp only [List.getElem_mapIdx, List.getElem_map, Option.some.injEq] at hg
  subst hg
  cases hL
  obtain ⟨k1, k2, -, -, -, -, ht⟩ := hs _ hi
  refine ⟨_, hq, ?_⟩
  have := ht.near k2 (k1.trans hk)
  rwa [Nat.sub_add_cancel (by omega)] at this

end Pyodrx.Props
