import Verif.Props.JunctionProgram
import Verif.Props.Generators
import Verif.Proofs.TurnBound

/-! # C62: do the connecting roads of a junction end where the roads they lead to begin? -/

namespace Pyodrx.Props
open Pyodrx Spec

section
variable {st st' : GenState ℝ} {nl nr : Nat} {arm : Nat → List Piece} {startnum : Int}
  {roads roads' jrs : List (Road ℝ)} {angles : List ℝ} {r sp ap : ℝ} {junction : Int}

theorem pairs_first {n j : Nat} (h0 : 0 < j) (hj : j < n) : (pairs n)[j - 1]? = some (0, j) := by
  obtain ⟨rest, hp, -⟩ := pairs_split n (by omega)
  rw [hp, List.getElem?_append_left (by simp; omega), List.getElem?_map,
    List.getElem?_range (by omega)]
  simp; omega

theorem Stands.unique {net : Net ℝ} {id : String} {p q p' q' : Pose ℝ} (h : Stands net id p q)
    (h' : Stands net id p' q') : p = p' ∧ q = q' := by
  obtain ⟨ro, s1, -, s2, s3⟩ := h
  obtain ⟨ro', t1, -, t2, t3⟩ := h'
  rw [s1] at t1; cases t1
  rw [s2] at t2; cases t2
  rw [s3] at t3; cases t3
  exact ⟨rfl, rfl⟩

/-- The gap between the end of a connecting road and the start of the road it leads to, from the
lengths of the tangents of the three connecting roads. -/
theorem Placed.gap {net : Net ℝ} {start : Nat → Pose ℝ}
    (hP : Placed roads arm angles r sp ap startnum net start) {idx i j : Nat}
    (hp : (pairs roads.length)[idx]? = some (i, j)) (hi : i ≠ 0) {p q : Pose ℝ}
    (hs : Stands net (strInt (startnum + idx)) p q)
    (hne : ∀ k l, (k, l) ∈ [(0, i), (0, j), (i, j)] →
      1 + Real.cos (nominal angles k l * turnFactor r sp ap) ≠ 0) :
    Near (|tangentOf angles r sp ap 0 i - tangentOf angles r sp ap 0 j| +
        |tangentOf angles r sp ap 0 i - tangentOf angles r sp ap i j| +
        |tangentOf angles r sp ap i j - tangentOf angles r sp ap 0 j| +
        |tangentOf angles r sp ap i j| * (Real.pi * |1 - turnFactor r sp ap|))
      (Real.pi * |1 - turnFactor r sp ap|) q (start j) := by
  have hlt := pairs_lt hp
  obtain ⟨p', q', c1, c2, -, c3, c4⟩ := hP.connecting idx i j hp
  obtain ⟨rfl, rfl⟩ := Stands.unique hs c1
  have first : ∀ k, 0 < k → k < roads.length →
      1 + Real.cos (nominal angles 0 k * turnFactor r sp ap) ≠ 0 →
      start k = corner (tangent r sp ap |nominal angles 0 k|) (nominal angles 0 k * turnFactor r sp ap)
        (finish (start 0) (arm 0)) := by
    intro k k0 hk hc
    obtain ⟨p0, q0, -, e1, e2, -, e3⟩ := hP.connecting _ _ _ (pairs_first k0 hk)
    rw [← e2 rfl, e3 hc, e1, if_pos rfl]
  have hsi := first i (by omega) (by omega) (hne 0 i (by simp))
  have hsj := first j (by omega) hlt.2 (hne 0 j (by simp))
  have hq := c4 (hne i j (by simp))
  rw [if_neg hi] at c2
  generalize finish (start 0) (arm 0) = e at hsi hsj
  change start i = corner (tangentOf angles r sp ap 0 i) _ _ at hsi
  change start j = corner (tangentOf angles r sp ap 0 j) _ _ at hsj
  change q = corner (tangentOf angles r sp ap i j) _ _ at hq
  generalize tangentOf angles r sp ap 0 i = ti at hsi ⊢
  generalize tangentOf angles r sp ap 0 j = tj at hsj ⊢
  generalize tangentOf angles r sp ap i j = T at hq ⊢
  have hh : q.h - (start j).h = Real.pi * (1 - turnFactor r sp ap) := by
    rw [c3, c2, turned, hsi, hsj]
    simp only [corner, nominal]
    ring
  have hhi : (start i).h = e.h + nominal angles 0 i * turnFactor r sp ap := by rw [hsi]; rfl
  have hhj : (start j).h = e.h + nominal angles 0 j * turnFactor r sp ap := by rw [hsj]; rfl
  have hqh : p.h + nominal angles i j * turnFactor r sp ap = q.h := c3.symm
  have hpi : Real.pi * |1 - turnFactor r sp ap| = |Real.pi * (1 - turnFactor r sp ap)| := by
    rw [abs_mul, abs_of_pos Real.pi_pos]
  have hx : q.x - (start j).x = (ti - tj) * Real.cos e.h + (ti - T) * Real.cos (start i).h +
      (T - tj) * Real.cos (start j).h + T * (Real.cos q.h - Real.cos (start j).h) := by
    have h1 : q.x = p.x + T * Real.cos p.h + T * Real.cos q.h := by
      conv_lhs => rw [hq]
      simp only [corner, hqh]
    have h2 : (start i).x = e.x + ti * Real.cos e.h + ti * Real.cos (start i).h := by
      conv_lhs => rw [hsi]
      simp only [corner, hhi]
    have h3 : (start j).x = e.x + tj * Real.cos e.h + tj * Real.cos (start j).h := by
      conv_lhs => rw [hsj]
      simp only [corner, hhj]
    rw [h1, c2, h3]
    simp only [turned, Real.cos_add_pi]
    rw [h2]
    ring
  have hy : q.y - (start j).y = (ti - tj) * Real.sin e.h + (ti - T) * Real.sin (start i).h +
      (T - tj) * Real.sin (start j).h + T * (Real.sin q.h - Real.sin (start j).h) := by
    have h1 : q.y = p.y + T * Real.sin p.h + T * Real.sin q.h := by
      conv_lhs => rw [hq]
      simp only [corner, hqh]
    have h2 : (start i).y = e.y + ti * Real.sin e.h + ti * Real.sin (start i).h := by
      conv_lhs => rw [hsi]
      simp only [corner, hhi]
    have h3 : (start j).y = e.y + tj * Real.sin e.h + tj * Real.sin (start j).h := by
      conv_lhs => rw [hsj]
      simp only [corner, hhj]
    rw [h1, c2, h3]
    simp only [turned, Real.sin_add_pi]
    rw [h2]
    ring
  have tri : ∀ a b c d ca cb cc cd D : ℝ, |ca| ≤ 1 → |cb| ≤ 1 → |cc| ≤ 1 → |cd| ≤ D →
      |a * ca + b * cb + c * cc + d * cd| ≤ |a| + |b| + |c| + |d| * D := by
    intro a b c d ca cb cc cd D h1 h2 h3 h4
    have m : ∀ x cx : ℝ, |cx| ≤ 1 → |x * cx| ≤ |x| := fun x cx h => by
      rw [abs_mul]; exact mul_le_of_le_one_right (abs_nonneg x) h
    calc _ ≤ |a * ca + b * cb + c * cc| + |d * cd| := abs_add_le _ _
      _ ≤ |a * ca + b * cb| + |c * cc| + |d * cd| := by gcongr; exact abs_add_le _ _
      _ ≤ |a * ca| + |b * cb| + |c * cc| + |d * cd| := by gcongr; exact abs_add_le _ _
      _ ≤ _ := by
        rw [abs_mul d]
        exact add_le_add (add_le_add (add_le_add (m _ _ h1) (m _ _ h2)) (m _ _ h3))
          (mul_le_mul_of_nonneg_left h4 (abs_nonneg d))
  refine ⟨?_, ?_, ?_⟩
  · rw [hx]
    refine tri _ _ _ _ _ _ _ _ _ (Real.abs_cos_le_one _) (Real.abs_cos_le_one _)
      (Real.abs_cos_le_one _) ?_
    rw [hpi, ← hh]
    exact Real.abs_cos_sub_cos_le _ _
  · rw [hy]
    refine tri _ _ _ _ _ _ _ _ _ (Real.abs_sin_le_one _) (Real.abs_sin_le_one _)
      (Real.abs_sin_le_one _) ?_
    rw [hpi, ← hh]
    exact Real.abs_sin_sub_sin_le _ _
  · rw [hh, hpi]

/-- C62: the gap between the end of a connecting road and the start of the road it leads to. There is
none behind the connecting roads from the first road, which place the other roads; for the others it
is bounded by the differences between the tangents of three connecting roads, and what is missing from
a full turn. -/
theorem C62_gap (hA : Arms st nl nr arm startnum roads) (hnl : 1 ≤ nl) (hnn : nl ≤ nr)
    (hang : roads.length ≤ angles.length) (hr : 0 < r) (hsmall : r ≤ 1000000000) (hsp : 0 < sp)
    (hap : 0 < ap) (hj : junction ≠ -1) (hid : strInt junction ∈ allIds roads startnum)
    (hne : ∀ i j, i < j → j < roads.length →
      1 + Real.cos (nominal angles i j * turnFactor r sp ap) ≠ 0) :
    ∃ res, junctionProgram roads angles r junction sp ap startnum st = .ok res ∧
      ∀ (idx i j : Nat) (b : Road ℝ), (pairs roads.length)[idx]? = some (i, j) → roads[j]? = some b →
        ∃ p q p' q', Stands res.world.net (strInt (startnum + idx)) p q ∧
          Stands res.world.net b.id.toStr p' q' ∧ (i = 0 → q = p') ∧
          Near (|tangentOf angles r sp ap 0 i - tangentOf angles r sp ap 0 j| +
              |tangentOf angles r sp ap 0 i - tangentOf angles r sp ap i j| +
              |tangentOf angles r sp ap i j - tangentOf angles r sp ap 0 j| +
              |tangentOf angles r sp ap i j| * (Real.pi * |1 - turnFactor r sp ap|))
            (Real.pi * |1 - turnFactor r sp ap|) q p' := by
  obtain ⟨res, start, h1, -, -, -, -, -, -, hP, -⟩ := C61_junction_program hA hnl hnn hang hr hsmall hsp
    hap hj hid
  refine ⟨res, h1, ?_⟩
  intro idx i j b hp hb
  obtain ⟨p, q, c1, c2, c3, -⟩ := hP.connecting idx i j hp
  have hlt := pairs_lt hp
  refine ⟨p, q, _, _, c1, hP.arms j b hb, c3, ?_⟩
  by_cases hi : i = 0
  · rw [c3 hi]
    refine ⟨?_, ?_, ?_⟩ <;> rw [sub_self, abs_zero] <;>
      have := Real.pi_pos <;> positivity
  · refine Placed.gap hP hp hi c1 ?_
    intro k l hkl
    simp only [List.mem_cons, Prod.mk.injEq, List.not_mem_nil, or_false] at hkl
    rcases hkl with ⟨rfl, rfl⟩ | ⟨rfl, rfl⟩ | ⟨rfl, rfl⟩
    · exact hne _ _ (by omega) (by omega)
    · exact hne _ _ (by omega) (by omega)
    · exact hne _ _ hlt.1 hlt.2

/-- C62: if the roads meet at right angles or are opposite to each other, and the parts add up to a
whole turn, every connecting road ends where the road it leads to begins, with the same heading, up to
70·r²/10⁹ in x and y and 4·r/10⁹ in the heading. -/
theorem C62_right_angles (hA : Arms st nl nr arm startnum roads) (hnl : 1 ≤ nl) (hnn : nl ≤ nr)
    (hang : roads.length ≤ angles.length) (hr : 0 < r) (hsmall : r ≤ 100000000) (hsp : 0 < sp)
    (hap : 0 < ap) (hsum : ap + 2 * sp = 1) (hj : junction ≠ -1)
    (hid : strInt junction ∈ allIds roads startnum) (hright : RightAngled roads.length angles) :
    ∃ res, junctionProgram roads angles r junction sp ap startnum st = .ok res ∧
      ∀ (idx i j : Nat) (b : Road ℝ), (pairs roads.length)[idx]? = some (i, j) → roads[j]? = some b →
        ∃ p q p' q', Stands res.world.net (strInt (startnum + idx)) p q ∧
          Stands res.world.net b.id.toStr p' q' ∧ (i = 0 → q = p') ∧
          Near (70 * r ^ 2 / 1000000000) (4 * r / 1000000000) q p' := by
  obtain ⟨q1, q2, q3⟩ := tangent_quarter hr hsmall hsp hap hsum
  have hpi := Real.pi_pos
  have hpi4 := Real.pi_lt_d2
  have hne : ∀ i j, i < j → j < roads.length →
      1 + Real.cos (nominal angles i j * turnFactor r sp ap) ≠ 0 := by
    intro i j h1 h2
    rcases hright i j h1 h2 with h | h
    · rcases (abs_eq (by positivity)).mp h with h | h
      · rw [h]; exact q1
      · rw [h, neg_mul, Real.cos_neg]; exact q1
    · rw [h]; simp
  have ht : ∀ i j, i < j → j < roads.length →
      tangentOf angles r sp ap i j = tangent r sp ap (Real.pi / 2) ∨
      tangentOf angles r sp ap i j = straightLength r sp / 2 := by
    intro i j h1 h2
    rcases hright i j h1 h2 with h | h
    · left; rw [tangentOf, h]
    · right; rw [tangentOf, h, abs_zero, tangent, if_pos rfl]
  obtain ⟨res, h1, h2⟩ := C62_gap hA hnl hnn hang hr (by linarith) hsp hap hj hid hne
  refine ⟨res, h1, ?_⟩
  intro idx i j b hp hb
  obtain ⟨p, q, p', q', c1, c2, c3, n1, n2, n3⟩ := h2 idx i j b hp hb
  have hlt := pairs_lt hp
  have hE : Real.pi * |1 - turnFactor r sp ap| ≤ 3.15 * r / 1000000000 := by
    have e : 1 - turnFactor r sp ap = -(2 * sp * r / 1000000000) := by
      simp only [turnFactor]
      rw [show ap = 1 - 2 * sp by linarith]; ring
    rw [e, abs_neg, abs_of_pos (by positivity)]
    have h1 : 2 * sp * r / 1000000000 ≤ r / 1000000000 := by
      gcongr
      nlinarith
    calc _ ≤ 3.15 * (r / 1000000000) := mul_le_mul hpi4.le h1 (by positivity) (by norm_num)
      _ = _ := by ring
  have hE0 : 0 ≤ Real.pi * |1 - turnFactor r sp ap| := by positivity
  have hS : |straightLength r sp / 2| ≤ 12 * r := by
    have := abs_sub_abs_le_abs_sub (straightLength r sp / 2) (tangent r sp ap (Real.pi / 2))
    rw [abs_sub_comm] at this
    have h3 : 16 * r ^ 2 / 1000000000 ≤ 2 * r := by
      rw [div_le_iff₀ (by norm_num)]; nlinarith
    linarith
  generalize hA' : tangent r sp ap (Real.pi / 2) = A at ht q2 q3 hS
  generalize hB' : straightLength r sp / 2 = B at ht q2 hS
  have hr2 : r * (3.15 * r / 1000000000) = 3.15 * (r ^ 2 / 1000000000) := by ring
  have hr3 : 16 * r ^ 2 / 1000000000 = 16 * (r ^ 2 / 1000000000) := by ring
  have hr4 : 70 * r ^ 2 / 1000000000 = 70 * (r ^ 2 / 1000000000) := by ring
  have hr5 : 0 ≤ r ^ 2 / 1000000000 := by positivity
  by_cases hi : i = 0
  · refine ⟨p, q, p', q', c1, c2, c3, ?_⟩
    rw [c3 hi]
    refine ⟨?_, ?_, ?_⟩ <;> rw [sub_self, abs_zero] <;> positivity
  have key : |tangentOf angles r sp ap 0 i - tangentOf angles r sp ap 0 j| +
      |tangentOf angles r sp ap 0 i - tangentOf angles r sp ap i j| +
      |tangentOf angles r sp ap i j - tangentOf angles r sp ap 0 j| +
      |tangentOf angles r sp ap i j| * (Real.pi * |1 - turnFactor r sp ap|) ≤
      70 * r ^ 2 / 1000000000 := by
    have hT : |tangentOf angles r sp ap i j| ≤ 12 * r := by
      rcases ht i j hlt.1 hlt.2 with h | h <;> rw [h] <;> linarith
    have hm : |tangentOf angles r sp ap i j| * (Real.pi * |1 - turnFactor r sp ap|) ≤
        12 * r * (3.15 * r / 1000000000) := mul_le_mul hT hE hE0 (by positivity)
    have hAB : |B - A| ≤ 16 * r ^ 2 / 1000000000 := by rw [abs_sub_comm]; exact q2
    have hd : |tangentOf angles r sp ap 0 i - tangentOf angles r sp ap 0 j| +
        |tangentOf angles r sp ap 0 i - tangentOf angles r sp ap i j| +
        |tangentOf angles r sp ap i j - tangentOf angles r sp ap 0 j| ≤
        2 * (16 * r ^ 2 / 1000000000) := by
      have h0 : 0 ≤ 16 * r ^ 2 / 1000000000 := by positivity
      rcases ht 0 i (by omega) (by omega) with h | h <;> rcases ht 0 j (by omega) hlt.2 with h' | h' <;>
        rcases ht i j hlt.1 hlt.2 with h'' | h'' <;> rw [h, h', h''] <;>
        simp only [sub_self, abs_zero] <;> linarith
    linarith
  have hE4 : Real.pi * |1 - turnFactor r sp ap| ≤ 4 * r / 1000000000 := by
    refine hE.trans ?_
    gcongr
    linarith
  exact ⟨p, q, p', q', c1, c2, c3, n1.trans key, n2.trans key, n3.trans hE4⟩

/-- C62: the same if all connecting roads turn by the same angle, to whichever side, as in a regular
crossing of three roads (`three_way`). -/
theorem C62_equal_turns (hA : Arms st nl nr arm startnum roads) (hnl : 1 ≤ nl) (hnn : nl ≤ nr)
    (hang : roads.length ≤ angles.length) (hr : 0 < r) (hsmall : r ≤ 1000000000) (hsp : 0 < sp)
    (hap : 0 < ap) (hsum : ap + 2 * sp = 1) (hj : junction ≠ -1)
    (hid : strInt junction ∈ allIds roads startnum) (a : ℝ)
    (hne : 1 + Real.cos (a * turnFactor r sp ap) ≠ 0)
    (heq : ∀ i j, i < j → j < roads.length → |nominal angles i j| = a) :
    ∃ res, junctionProgram roads angles r junction sp ap startnum st = .ok res ∧
      ∀ (idx i j : Nat) (b : Road ℝ), (pairs roads.length)[idx]? = some (i, j) → roads[j]? = some b →
        ∃ p q p' q', Stands res.world.net (strInt (startnum + idx)) p q ∧
          Stands res.world.net b.id.toStr p' q' ∧ (i = 0 → q = p') ∧
          Near (|tangent r sp ap a| * (4 * r / 1000000000)) (4 * r / 1000000000) q p' := by
  have hpi := Real.pi_pos
  have hpi4 := Real.pi_lt_d2
  have ha : 0 ≤ a := by
    rw [← heq 0 1 (by norm_num) (by have := hA.two; omega)]; exact abs_nonneg _
  obtain ⟨res, h1, h2⟩ := C62_gap hA hnl hnn hang hr hsmall hsp hap hj hid (by
    intro i j h1 h2
    rcases (abs_eq ha).mp (heq i j h1 h2) with h | h
    · rw [h]; exact hne
    · rw [h, neg_mul, Real.cos_neg]; exact hne)
  have hE : Real.pi * |1 - turnFactor r sp ap| ≤ 4 * r / 1000000000 := by
    have e : 1 - turnFactor r sp ap = -(2 * sp * r / 1000000000) := by
      simp only [turnFactor]
      rw [show ap = 1 - 2 * sp by linarith]; ring
    rw [e, abs_neg, abs_of_pos (by positivity)]
    have h1 : 2 * sp * r / 1000000000 ≤ r / 1000000000 := by
      gcongr
      nlinarith
    calc _ ≤ 4 * (r / 1000000000) := mul_le_mul (by linarith) h1 (by positivity) (by norm_num)
      _ = _ := by ring
  refine ⟨res, h1, ?_⟩
  intro idx i j b hp hb
  obtain ⟨p, q, p', q', c1, c2, c3, n1, n2, n3⟩ := h2 idx i j b hp hb
  have hlt := pairs_lt hp
  refine ⟨p, q, p', q', c1, c2, c3, ?_⟩
  by_cases hi : i = 0
  · rw [c3 hi]
    refine ⟨?_, ?_, ?_⟩ <;> rw [sub_self, abs_zero] <;> positivity
  · have t1 : tangentOf angles r sp ap 0 i = tangent r sp ap a := by
      rw [tangentOf, heq 0 i (by omega) (by omega)]
    have t2 : tangentOf angles r sp ap 0 j = tangent r sp ap a := by
      rw [tangentOf, heq 0 j (by omega) hlt.2]
    have t3 : tangentOf angles r sp ap i j = tangent r sp ap a := by
      rw [tangentOf, heq i j hlt.1 hlt.2]
    rw [t1, t2, t3, sub_self, abs_zero, zero_add, zero_add, zero_add] at n1 n2
    have := mul_le_mul_of_nonneg_left hE (abs_nonneg (tangent r sp ap a))
    exact ⟨n1.trans this, n2.trans this, n3.trans hE⟩

/-- The angles of the example with three roads meet the condition of `C62_equal_turns`. -/
theorem three_way : ∀ i j, i < j → j < 3 →
    |nominal [0, 1 * 2 * Real.pi / 3, 2 * 2 * Real.pi / 3] i j| = Real.pi / 3 := by
  have hp := Real.pi_pos
  intro i j hij hj
  rw [abs_eq (by positivity)]
  interval_cases j <;> interval_cases i <;> simp [nominal] <;>
    first | (left; ring1) | (right; ring1)

/-! ## The roads of the example -/

/-- The loop of the example makes roads that can be joined. -/
theorem straightRoads_arms (length : ℝ) (n : Nat) (w : ℝ) (startnum : Int) :
    ∀ (m i : Nat) (st : GenState ℝ), ∃ roads st', straightRoads length n w i m st = .ok roads st' ∧
      roads.length = m ∧ OnlyNew st st' ∧
      (∀ (k : Nat) (a : Road ℝ), roads[k]? = some a → a.id = .int (i + k) ∧ ∃ g,
        Arm st' n n [⟨g, .ofHeading (fun _ => 0) length, none⟩] a ∧ st.geoms.next ≤ g ∧
        ∀ x ∈ lanesOf a, st.lanes.next ≤ x ∧ x < st'.lanes.next) ∧
      roads.Pairwise (fun p q => ∀ x ∈ lanesOf p, x ∉ lanesOf q) := by
  intro m
  induction m with
  | zero => intro i st; exact ⟨[], st, rfl, rfl, ⟨le_rfl, le_rfl, fun _ _ => rfl, fun _ _ => rfl⟩, by simp, by simp⟩
  | succ m ih =>
    intro i st
    obtain ⟨ro, st1, sec, g, h1, h2, h3, h4, h5, h6, h7, h8, h9, h10⟩ :=
      C46_create_straight_road (.int i) length (-1) n w st
    obtain ⟨ros, st2, k1, k2, k3, k4, k5⟩ := ih (i + 1) st1
    have hg : g < st1.geoms.next := by
      rw [createStraightRoad_eq] at h1
      cases h1
      have := h5.raw
      change [st.geoms.next] = [g] at this
      rw [List.singleton_inj] at this
      rw [← this]
      simp [Store.alloc]
    have hlanes : ∀ x ∈ lanesOf ro, st.lanes.next ≤ x ∧ x < st1.lanes.next := by
      intro x hx
      simp only [lanesOf, h6, List.flatMap_cons, List.flatMap_nil, List.append_nil] at hx
      exact h7.new x hx
    refine ⟨ro :: ros, st2, ?_, by simp [k2],
      ⟨h10.geoms.trans k3.geoms, h10.lanes.trans k3.lanes, ?_, ?_⟩, ?_, ?_⟩
    · unfold straightRoads
      rw [bind_of_ok h1, bind_of_ok k1]
      rfl
    · intro x hx
      rw [k3.oldGeoms x (lt_of_lt_of_le hx h10.geoms), h10.oldGeoms x hx]
    · intro x hx
      rw [k3.oldLanes x (lt_of_lt_of_le hx h10.lanes), h10.oldLanes x hx]
    · intro k a hk
      cases k with
      | zero =>
        simp only [List.getElem?_cons_zero, Option.some.injEq] at hk
        subst hk
        refine ⟨by simpa using h2, g, ?_, h9, ?_⟩
        · refine ⟨h3, ⟨h4.pred, h4.succ⟩, h4.offsets, by simpa using h5, ?_, by simp, ?_, ?_⟩
          · intro pc hpc
            simp only [List.mem_singleton] at hpc
            subst hpc
            dsimp only
            rw [k3.oldGeoms g hg, h8]
            simp [shapeOf]
          · intro pc hpc
            simp only [List.mem_singleton] at hpc
            subst hpc
            exact lt_of_lt_of_le hg k3.geoms
          · refine ⟨sec, h6, h7.countL, h7.countR, ?_, ?_⟩
            · refine OnlyNew.numbered' k3 ⟨?_, ?_⟩ ?_
              · intro i x hx; exact (h7.left i x hx).number
              · intro i x hx; exact (h7.right i x hx).number
              · intro x hx; exact (h7.new x (by simp only [List.mem_cons]; exact .inr hx)).2
            · intro x hx
              exact lt_of_lt_of_le (h7.new x (by simp only [List.mem_cons]; exact .inr hx)).2 k3.lanes
        · intro x hx
          exact ⟨(hlanes x hx).1, lt_of_lt_of_le (hlanes x hx).2 k3.lanes⟩
      | succ k =>
        obtain ⟨e1, g', e2, e3, e4⟩ := k4 k a (by simpa using hk)
        refine ⟨by rw [e1]; congr 1; push_cast; ring, g', e2, h10.geoms.trans e3, ?_⟩
        intro x hx
        exact ⟨h10.lanes.trans (e4 x hx).1, (e4 x hx).2⟩
    · refine List.pairwise_cons.mpr ⟨?_, k5⟩
      intro b hb x hx hx'
      obtain ⟨k, hk⟩ := List.mem_iff_getElem?.mp hb
      obtain ⟨-, -, -, -, e4⟩ := k4 k b hk
      have := (e4 x hx').1
      have := (hlanes x hx).2
      omega

end

/-- C61, C62: `examples/full_junction.py`: `m ≥ 2` straight roads with `n` lanes on
each side, numbered from 0; connecting roads numbered from `startnum ≥ m`; the junction has the id of
one of the roads. For whatever angles the program runs through and places all roads. -/
theorem C61_example (m n : Nat) (hm : 2 ≤ m) (hn : 1 ≤ n) (length w : ℝ) (st : GenState ℝ)
    (angles : List ℝ) (hang : m ≤ angles.length) (r sp ap : ℝ) (hr : 0 < r) (hsmall : r ≤ 1000000000)
    (hsp : 0 < sp) (hap : 0 < ap) (junction : Nat) (hj : junction < m) (startnum : Int)
    (hs : m ≤ startnum) :
    ∃ roads st' arm, straightRoads length n w 0 m st = .ok roads st' ∧ roads.length = m ∧
      Arms st' n n arm startnum roads ∧
      (∀ i, i < m → ∃ g, arm i = [⟨g, .ofHeading (fun _ => 0) length, none⟩]) ∧
      roads.Pairwise (fun p q => ∀ x ∈ lanesOf p, x ∉ lanesOf q) ∧
      strInt junction ∈ allIds roads startnum ∧
      ∃ res, junctionProgram roads angles r junction sp ap startnum st' = .ok res := by
  obtain ⟨roads, st', h1, h2, -, h3, h4⟩ := straightRoads_arms length n w startnum m 0 st
  have hg : ∀ k : Nat, ∃ g, ∀ a, roads[k]? = some a → Arm st' n n [⟨g, .ofHeading (fun _ => 0) length, none⟩] a := by
    intro k
    cases hk : roads[k]? with
    | none => exact ⟨0, by simp⟩
    | some a =>
      obtain ⟨-, g, h, -⟩ := h3 k a hk
      exact ⟨g, by rintro _ ⟨⟩; exact h⟩
  choose g hg using hg
  have hid : ∀ (k : Nat) (a : Road ℝ), roads[k]? = some a → a.id.toStr = strInt k := by
    intro k a hk
    rw [(h3 k a hk).1]; simp [PyId.toStr]
  have hmap : roads.map (fun a => a.id.toStr) = (List.range m).map fun k : Nat => strInt k := by
    apply List.ext_getElem?
    intro k
    simp only [List.getElem?_map]
    by_cases hk : k < m
    · rw [List.getElem?_range hk, List.getElem?_eq_getElem (by omega)]
      simp [hid k _ (List.getElem?_eq_getElem (by omega))]
    · rw [List.getElem?_eq_none (by omega), List.getElem?_eq_none (by simp; omega)]
      simp
  have hA : Arms st' n n (fun k => [⟨g k, .ofHeading (fun _ => 0) length, none⟩]) startnum roads := by
    refine ⟨by omega, fun k a hk => hg k a hk, ?_, ?_⟩
    · rw [hmap]
      refine List.Nodup.map ?_ List.nodup_range
      intro a b h
      have := strInt_injective h
      simpa using this
    · intro k idx a hk _ h
      rw [hid k a hk] at h
      have := strInt_injective h
      have := (List.getElem?_eq_some_iff.mp hk).1
      omega
  have hmem : strInt junction ∈ allIds roads startnum := by
    rw [allIds, hmap]
    exact List.mem_append_left _ (List.mem_map.mpr ⟨junction, List.mem_range.mpr hj, rfl⟩)
  obtain ⟨res, start, hres, -⟩ := C61_junction_program (ap := ap) (angles := angles)
    (junction := junction) hA hn le_rfl (by omega) hr hsmall hsp hap (by omega) hmem
  exact ⟨roads, st', _, h1, h2, hA, fun i _ => ⟨g i, rfl⟩, h4, hmem, res, hres⟩

/-- The angles of the example with four roads. -/
theorem four_way : RightAngled 4 [0, 1 * 2 * Real.pi / 4, 2 * 2 * Real.pi / 4, 3 * 2 * Real.pi / 4] := by
  have hp := Real.pi_pos
  intro i j hij hj
  interval_cases j <;> interval_cases i <;> simp [nominal] <;>
    first
    | (right; ring1)
    | (left; rw [abs_eq (by positivity)]; first | (left; ring1) | (right; ring1))

/-- The angles of the T-crossing in the example. -/
theorem t_crossing : RightAngled 3 [0, Real.pi / 2, 3 * Real.pi / 2] := by
  have hp := Real.pi_pos
  intro i j hij hj
  interval_cases j <;> interval_cases i <;> simp [nominal] <;>
    first
    | (right; ring1)
    | (left; rw [abs_eq (by positivity)]; first | (left; ring1) | (right; ring1))

/-- C62: the example as it is, with four roads 100 m long, radius 8 and the default parts: every
connecting road ends within 5 micrometres of the road it leads to. -/
theorem C62_example (st : GenState ℝ) : ∃ roads st' res,
    straightRoads 100 1 3 0 4 st = .ok roads st' ∧ roads.length = 4 ∧
    junctionProgram roads [0, 1 * 2 * Real.pi / 4, 2 * 2 * Real.pi / 4, 3 * 2 * Real.pi / 4] 8 1
      (1 / 3) (1 / 3) 100 st' = .ok res ∧
    ∀ (idx i j : Nat) (b : Road ℝ), (pairs 4)[idx]? = some (i, j) → roads[j]? = some b →
      ∃ p q p' q', Stands res.world.net (strInt (100 + idx)) p q ∧
        Stands res.world.net b.id.toStr p' q' ∧ Near 0.000005 0.0000001 q p' := by
  obtain ⟨roads, st', arm, h1, h2, h3, -, -, h4, -⟩ := C61_example 4 1 (by norm_num) le_rfl 100 3 st
    [0, 1 * 2 * Real.pi / 4, 2 * 2 * Real.pi / 4, 3 * 2 * Real.pi / 4] (by simp) 8 (1 / 3) (1 / 3)
    (by norm_num) (by norm_num) (by norm_num) (by norm_num) 1 (by norm_num) 100 (by norm_num)
  obtain ⟨res, k1, k2⟩ := C62_right_angles (r := 8) (sp := 1 / 3) (ap := 1 / 3) (junction := 1)
    (angles := [0, 1 * 2 * Real.pi / 4, 2 * 2 * Real.pi / 4, 3 * 2 * Real.pi / 4])
    h3 le_rfl le_rfl (by simp [h2]) (by norm_num) (by norm_num) (by norm_num) (by norm_num)
    (by norm_num) (by norm_num) h4 (by rw [h2]; exact four_way)
  refine ⟨roads, st', res, h1, h2, k1, ?_⟩
  intro idx i j b hp hb
  obtain ⟨p, q, p', q', c1, c2, -, n1, n2, n3⟩ := k2 idx i j b (by rw [h2]; exact hp) hb
  refine ⟨p, q, p', q', c1, c2, n1.trans (by norm_num), n2.trans (by norm_num), n3.trans (by norm_num)⟩

end Pyodrx.Props
