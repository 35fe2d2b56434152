import Verif.Spec.FloatNetwork
import Verif.Proofs.Network
import Verif.Proofs.FloatBackward

/-! # The geometries of the roads of a network in floating point arithmetic -/

namespace Pyodrx
open PyFloat Spec

section generic
variable {F : Type} [PyFloat F]

/-- Every placed road of a run was adjusted once, with geometry objects that had the properties every evaluation keeps. -/
theorem History.kept {K : Nat → Geom F → Prop} (hKept : Kept K) (hBack : KeptBack K) {roads0 : Dict (Road F)}
    {net0 net : Net F} {m : Nat} (h : History roads0 net0 m net)
    (hK : ∀ j, K j (net0.geoms.cell j)) :
    (∀ j, K j (net.geoms.cell j)) ∧
    ∀ k r, net.roads.get? k = some r → ∃ r0, net0.roads.get? k = some r0 ∧
      (r = r0 ∨ ∃ b p g st, (∀ j, K j (g.cell j)) ∧
        PlanView.adjustGeometries b ⟨r0.planview.setStartPoint p, g⟩ = .ok () st ∧ r = { r0 with planview := st.pv }) := by
  have put : ∀ {net1 net2 : Net F} {k0 : String} {p : Pose F → Pose F} {b : Bool}, Put net1 k0 p b net2 →
      ((∀ j, K j (net1.geoms.cell j)) ∧
      ∀ k r, net1.roads.get? k = some r → ∃ r0, net0.roads.get? k = some r0 ∧
      (r = r0 ∨ ∃ b p g st, (∀ j, K j (g.cell j)) ∧
        PlanView.adjustGeometries b ⟨r0.planview.setStartPoint p, g⟩ = .ok () st ∧ r = { r0 with planview := st.pv })) →
      ((∀ j, K j (net2.geoms.cell j)) ∧
      ∀ k r, net2.roads.get? k = some r → ∃ r0, net0.roads.get? k = some r0 ∧
      (r = r0 ∨ ∃ b p g st, (∀ j, K j (g.cell j)) ∧
        PlanView.adjustGeometries b ⟨r0.planview.setStartPoint p, g⟩ = .ok () st ∧ r = { r0 with planview := st.pv })) := by
    rintro net1 net2 k0 p b hp ⟨i1, i2⟩
    obtain ⟨r1, st, q1, q2, q5, q6⟩ := id hp
    refine ⟨?_, ?_⟩
    · rw [q6]
      cases b with
      | false =>
        obtain ⟨_, _, _, _, _, _, _, _, _, _, _, _, _, hk⟩ := adjust_forward_calls hKept q5 i1
        exact hk
      | true =>
        obtain ⟨_, _, _, _, _, _, _, _, _, _, _, hk⟩ := adjust_backward_calls hKept hBack q5 i1
        exact hk
    · intro k r hr
      by_cases hk : k = k0
      · subst hk
        have q3 : net2.roads.get? k = some { r1 with planview := st.pv } := by rw [q6]; simp [Dict.get?_set]
        rw [q3] at hr; cases hr
        obtain ⟨r0, j1, j2⟩ := i2 _ _ q1
        refine ⟨r0, j1, .inr ?_⟩
        rcases j2 with rfl | ⟨b', p', g', st', -, j3, j4⟩
        · exact ⟨b, _, _, st, i1, q5, rfl⟩
        · subst j4
          rw [(adjustGeometries_gen j3).adjusted] at q2; simp at q2
      · rw [hp.other hk] at hr
        exact i2 k r hr
  induction h with
  | refl => exact ⟨hK, fun k r hr => ⟨r, hr, .inl rfl⟩⟩
  | anchor _ _ hp ih => exact put hp ih
  | place _ _ hp ih =>
    obtain ⟨_, _, _, _, _, _, _, hput⟩ := hp
    exact put hput ih

end generic

variable {R : Rounding}

theorem Spec.EndsNearly.of_forward {k L : ℝ} {p q : Pose ℝ} {u : ℝ} (hu : 0 ≤ u)
    (hx : |q.x - (exactEnd k L p).x| ≤ u * (3 * |p.x| + 6 * |L| + (4 * |p.h| + 26) * radius k))
    (hy : |q.y - (exactEnd k L p).y| ≤ u * (3 * |p.y| + 6 * |L| + (4 * |p.h| + 26) * radius k))
    (hh : |q.h - (exactEnd k L p).h| ≤ u * (if k = 0 then 0 else |p.h| + 3 * |k * L|)) : EndsNearly u k L p q := by
  have r0 : 0 ≤ radius k := by unfold radius; split <;> positivity
  have H : |p.h| ≤ Max.max |p.h| |q.h| := le_max_left _ _
  have H0 : 0 ≤ Max.max |p.h| |q.h| := (abs_nonneg _).trans H
  have hL := abs_nonneg L
  have hkL := abs_nonneg (k * L)
  have common : 6 * |L| + (4 * |p.h| + 26) * radius k ≤
      |L| * (4 * Max.max |p.h| |q.h| + 8 * |k * L| + 23) + (5 * Max.max |p.h| |q.h| + 40) * radius k := by
    refine add_le_add ?_ (mul_le_mul_of_nonneg_right (by linarith) r0)
    rw [mul_comm]
    exact mul_le_mul_of_nonneg_left (by linarith) hL
  refine ⟨?_, ?_, ?_⟩
  · rw [abs_sub_comm]
    refine hx.trans (mul_le_mul_of_nonneg_left ?_ hu)
    have := le_max_left |p.x| |q.x|
    linarith
  · rw [abs_sub_comm]
    refine hy.trans (mul_le_mul_of_nonneg_left ?_ hu)
    have := le_max_left |p.y| |q.y|
    linarith
  · rw [abs_sub_comm]
    refine hh.trans (mul_le_mul_of_nonneg_left ?_ hu)
    split <;> linarith [abs_nonneg p.h]

theorem Spec.EndsNearly.of_backward {k L : ℝ} {p q : Pose ℝ} {u : ℝ} (hu : 0 ≤ u)
    (hx : |(exactEnd k L p).x - q.x| ≤
      u * (3 * |q.x| + |L| * (4 * |q.h| + 8 * |k * L| + 23) + (5 * |q.h| + 40) * radius k))
    (hy : |(exactEnd k L p).y - q.y| ≤
      u * (3 * |q.y| + |L| * (4 * |q.h| + 8 * |k * L| + 23) + (5 * |q.h| + 40) * radius k))
    (hh : |(exactEnd k L p).h - q.h| ≤ u * (4 * |q.h| + 8 * |k * L| + 23)) : EndsNearly u k L p q := by
  have r0 : 0 ≤ radius k := by unfold radius; split <;> positivity
  have H : |q.h| ≤ Max.max |p.h| |q.h| := le_max_right _ _
  have hL := abs_nonneg L
  have common : |L| * (4 * |q.h| + 8 * |k * L| + 23) + (5 * |q.h| + 40) * radius k ≤
      |L| * (4 * Max.max |p.h| |q.h| + 8 * |k * L| + 23) + (5 * Max.max |p.h| |q.h| + 40) * radius k :=
    add_le_add (mul_le_mul_of_nonneg_left (by linarith) hL) (mul_le_mul_of_nonneg_right (by linarith) r0)
  refine ⟨?_, ?_, ?_⟩
  · refine hx.trans (mul_le_mul_of_nonneg_left ?_ hu)
    have := le_max_right |p.x| |q.x|
    linarith
  · refine hy.trans (mul_le_mul_of_nonneg_left ?_ hu)
    have := le_max_right |p.y| |q.y|
    linarith
  · exact hh.trans (mul_le_mul_of_nonneg_left (by linarith) hu)

theorem track_forward {geoms : Store (Geom (Fl R))} (l : List Nat) : ∀ (f : Nat → Nat → AdjGeom (Fl R))
    (Q : Nat → Pose (Fl R)),
    (∀ j (hj : j < l.length), (⟨(f j l[j]).x, (f j l[j]).y, (f j l[j]).heading⟩ : Pose (Fl R)) = Q j ∧
      ∀ k L, curvature (geoms.cell (f j l[j]).geom) = some k → (f j l[j]).length = some L →
        EndsNearly R.u k L.val (written (f j l[j])) (real (Q (j + 1)))) →
    TrackNearly geoms (l.mapIdx f) (Q 0) (Q l.length) := by
  induction l with
  | nil => intro f Q _; rfl
  | cons a l ih =>
    intro f Q h
    rw [List.mapIdx_cons]
    refine ⟨(h 0 (by simp)).1, Q 1, (h 0 (by simp)).2, ?_⟩
    refine ih (fun j => f (j + 1)) (fun j => Q (j + 1)) (fun j hj => ?_)
    have := h (j + 1) (by simpa using hj)
    simpa using this

theorem Spec.TrackNearly.congr {geoms geoms' : Store (Geom (Fl R))} (hc : ∀ j, curvature (geoms.cell j) = curvature (geoms'.cell j)) :
    ∀ {gs : List (AdjGeom (Fl R))} {p q : Pose (Fl R)}, TrackNearly geoms gs p q → TrackNearly geoms' gs p q
  | [], _, _, h => h
  | _ :: _, _, _, ⟨h1, m, h2, h3⟩ => ⟨h1, m, fun k L hk => h2 k L ((hc _).trans hk), h3.congr hc⟩

theorem Spec.TrackNearly.snoc {geoms : Store (Geom (Fl R))} {gs : List (AdjGeom (Fl R))} {g : AdjGeom (Fl R)} :
    ∀ {p m q : Pose (Fl R)}, TrackNearly geoms gs p m → TrackNearly geoms [g] m q → TrackNearly geoms (gs ++ [g]) p q := by
  induction gs with
  | nil => intro p m q h h'; cases h; exact h'
  | cons a gs ih =>
    rintro p m q ⟨h1, m', h2, h3⟩ h'
    exact ⟨h1, m', h2, ih h3 h'⟩

theorem track_backward {geoms : Store (Geom (Fl R))} (gs : List (AdjGeom (Fl R))) : ∀ (B : Nat → Pose (Fl R)),
    (∀ j (hj : j < gs.length), (⟨gs[j].x, gs[j].y, gs[j].heading⟩ : Pose (Fl R)) = B (j + 1) ∧
      ∀ k L, curvature (geoms.cell gs[j].geom) = some k → gs[j].length = some L →
        EndsNearly R.u k L.val (written gs[j]) (real (B j))) →
    TrackNearly geoms gs.reverse (B gs.length) (B 0) := by
  induction gs with
  | nil => intro B _; rfl
  | cons a gs ih =>
    intro B h
    rw [List.reverse_cons]
    refine TrackNearly.snoc (m := B 1) (ih (fun j => B (j + 1)) fun j hj => ?_) ?_
    · have := h (j + 1) (by simpa using hj)
      simpa using this
    · have := h 0 (by simp)
      exact ⟨this.1, _, this.2, rfl⟩

/-- Evaluation keeps curvatures, and arcs keep having one. -/
def SameCurvature (geoms : Store (Geom (Fl R))) (r : Nat) (c : Geom (Fl R)) : Prop :=
  curvature c = curvature (geoms.cell r) ∧ ∀ a, c = .arc a → a.curvature.val ≠ 0

/-- The geometries of an adjusted planview, in the order of driving, lead from its start to its end. -/
theorem adjust_track {geoms0 : Store (Geom (Fl R))} (hKept : Kept (SameCurvature geoms0))
    (hBack : KeptBack (SameCurvature geoms0)) {b : Bool} {st st' : PVState (Fl R)} {u : Unit}
    (h : PlanView.adjustGeometries b st = .ok u st') (hK : ∀ j, SameCurvature geoms0 j (st.geoms.cell j))
    (he : st.pv.adjGeoms = []) (ho : st.pv.overridden = []) :
    ∃ p q, st'.pv.start = some p ∧ st'.pv.stop = some q ∧
      TrackNearly geoms0 (if b then st'.pv.adjGeoms.reverse else st'.pv.adjGeoms) p q := by
  cases b with
  | false =>
    obtain ⟨S, P, Q, len, l, c, hE, hS0, hSn, hQ0, hst, hsp, hs, -⟩ := adjust_forward_calls hKept h hK
    refine ⟨_, _, hst, hsp, ?_⟩
    simp only [Bool.false_eq_true, if_false]
    rw [hE, he, List.nil_append, ← hQ0]
    refine track_forward _ _ _ ?_
    intro j hj
    obtain ⟨⟨k1, k2⟩, -, -, h3, -, ht⟩ := hs j hj
    rw [← h3 ho]
    refine ⟨rfl, ?_⟩
    intro k L hk hL
    simp only at hk hL
    rw [hL] at ht
    have := ht.near k2 (k1.trans hk)
    exact EndsNearly.of_forward R.u_nonneg this.1 this.2.1 this.2.2
  | true =>
    obtain ⟨S, Q, L, c, hE, hS0, hSn, hQ0, hst, hsp, hs, -⟩ := adjust_backward_calls hKept hBack h hK
    refine ⟨_, _, hst, hsp, ?_⟩
    simp only [if_true]
    rw [he, List.map_nil, List.nil_append] at hE
    have hlen : st'.pv.adjGeoms.length = st.pv.raw.length := by
      have := congrArg List.length hE; simpa using this
    have := track_backward (geoms := geoms0) st'.pv.adjGeoms (fun j => { Q j with h := (Q j).h +. pi }) ?_
    · rw [hlen, hQ0] at this; exact this
    intro j hj
    rw [hlen] at hj
    have e : (st'.pv.adjGeoms.map AdjGeom.rest)[j]'(by simpa [hlen] using hj) =
        ((Q (j + 1)).x, (Q (j + 1)).y, (Q (j + 1)).h +. pi, some (L j), st.pv.raw.reverse[j]'(by simpa using hj)) := by
      simp only [hE, List.getElem_mapIdx]
    rw [List.getElem_map] at e
    simp only [AdjGeom.rest, Prod.mk.injEq] at e
    obtain ⟨e1, e2, e3, e4, e5⟩ := e
    refine ⟨by rw [e1, e2, e3], ?_⟩
    intro k L' hk hL
    obtain ⟨⟨k1, k2⟩, -, ht⟩ := hs j hj
    rw [e5] at hk
    rw [e4] at hL; cases hL
    have := ht.near k2 (k1.trans hk)
    have hw : written (st'.pv.adjGeoms[j]'(by omega)) =
        ⟨(Q (j + 1)).x.val, (Q (j + 1)).y.val, ((Q (j + 1)).h +. pi).val⟩ := by simp only [written, e1, e2, e3]
    rw [hw]
    exact EndsNearly.of_backward R.u_nonneg this.1 this.2.1 this.2.2

end Pyodrx
