import Verif.Props.SessionTouchExample

/-! # C98: lane offsets and lanes that are not 3 wide -/

namespace Pyodrx.Spec
open Pyodrx

/-- The edges of the lane `i` of the section `S`, where the reference line is at `P`, are `g` to the left (for the direction of `P`) of the
edges of the lane `j` of the section `T`, where the reference line is at `Q`, but for the errors of `NearlyTouch`. -/
structure NearlyGap (g c r : ℝ) (P : Pose ℝ) (S : RSection ℝ) (u : ℝ) (i : Int) (Q : Pose ℝ) (T : RSection ℝ) (u' : ℝ) (j : Int) : Prop where
  outer : |(beside P (S.outer u i)).1 - (beside Q (T.outer u' j)).1 + g * Real.sin P.h| ≤ c + |T.outer u' j| * r ∧
    |(beside P (S.outer u i)).2 - (beside Q (T.outer u' j)).2 - g * Real.cos P.h| ≤ c + |T.outer u' j| * r
  inner : |(beside P (S.outer u (inwards i))).1 - (beside Q (T.outer u' (inwards j))).1 + g * Real.sin P.h| ≤ c + |T.outer u' (inwards j)| * r ∧
    |(beside P (S.outer u (inwards i))).2 - (beside Q (T.outer u' (inwards j))).2 - g * Real.cos P.h| ≤ c + |T.outer u' (inwards j)| * r

end Pyodrx.Spec

namespace Pyodrx.Props
open Pyodrx Pyodrx.Spec PyFloat

variable {R : Rounding}

/-- Without a gap the lanes touch. -/
theorem gap_zero {c r : ℝ} {P : Pose ℝ} {S : RSection ℝ} {u : ℝ} {i : Int} {Q : Pose ℝ} {T : RSection ℝ} {u' : ℝ} {j : Int} :
    NearlyGap 0 c r P S u i Q T u' j ↔ NearlyTouch c r P S u i Q T u' j :=
  ⟨fun h => ⟨by simpa using h.outer, by simpa using h.inner⟩, fun h => ⟨by simpa using h.outer, by simpa using h.inner⟩⟩

theorem vector_long (g h dx dy : ℝ) : |g| ≤ |dx| + |dy| + |dx + g * Real.sin h| + |dy - g * Real.cos h| := by
  have e : g = -(Real.sin h * dx) + Real.cos h * dy + (Real.sin h * (dx + g * Real.sin h) - Real.cos h * (dy - g * Real.cos h)) := by
    have := Real.sin_sq_add_cos_sq h
    linear_combination -g * this
  have b : ∀ x : ℝ, |Real.sin h * x| ≤ |x| := fun x => by
    rw [abs_mul]; exact mul_le_of_le_one_left (abs_nonneg x) (Real.abs_sin_le_one h)
  have c : ∀ x : ℝ, |Real.cos h * x| ≤ |x| := fun x => by
    rw [abs_mul]; exact mul_le_of_le_one_left (abs_nonneg x) (Real.abs_cos_le_one h)
  calc |g| = _ := congrArg _root_.abs e
    _ ≤ |-(Real.sin h * dx) + Real.cos h * dy| + |Real.sin h * (dx + g * Real.sin h) - Real.cos h * (dy - g * Real.cos h)| := abs_add_le _ _
    _ ≤ (|Real.sin h * dx| + |Real.cos h * dy|) + (|Real.sin h * (dx + g * Real.sin h)| + |Real.cos h * (dy - g * Real.cos h)|) := by
        refine add_le_add ((abs_add_le _ _).trans_eq ?_) (abs_sub _ _)
        rw [abs_neg]
    _ ≤ (|dx| + |dy|) + (|dx + g * Real.sin h| + |dy - g * Real.cos h|) := by
        have := b dx; have := c dy; have := b (dx + g * Real.sin h); have := c (dy - g * Real.cos h)
        linarith
    _ = _ := by ring

theorem meets_offset_wide {δ : ℝ} (hδ : 0 ≤ δ) {n : Int} {e e' : ContactPoint} (hne : e ≠ e') {P Q : Pose ℝ} (h : MeetsNearly δ n e P e' Q) (w : ℝ)
    (i : Int) :
    |(beside P (w * i)).1 - (beside Q (w * (i + n : Int))).1 + (3 - w) * n * Real.sin P.h| ≤
        δ * (|(n : ℝ)| * (|Q.x| + |Q.y| + 4 * |Q.h| + 50)) + |(w * (i + n : Int) : ℝ)| * (δ * (2.1 * |Q.h| + 16)) ∧
    |(beside P (w * i)).2 - (beside Q (w * (i + n : Int))).2 - (3 - w) * n * Real.cos P.h| ≤
        δ * (|(n : ℝ)| * (|Q.x| + |Q.y| + 4 * |Q.h| + 50)) + |(w * (i + n : Int) : ℝ)| * (δ * (2.1 * |Q.h| + 16)) := by
  obtain ⟨k1, k2⟩ := meets_direction h
  obtain ⟨h1, h2, -⟩ := h
  rw [sideSign, if_neg hne, one_mul] at k1 k2
  have m1 : δ * (|(n : ℝ)| * (|Q.x| + 4 * |Q.h| + 50)) ≤ δ * (|(n : ℝ)| * (|Q.x| + |Q.y| + 4 * |Q.h| + 50)) :=
    mul_le_mul_of_nonneg_left (mul_le_mul_of_nonneg_left (by linarith [abs_nonneg Q.y]) (abs_nonneg _)) hδ
  have m2 : δ * (|(n : ℝ)| * (|Q.y| + 4 * |Q.h| + 50)) ≤ δ * (|(n : ℝ)| * (|Q.x| + |Q.y| + 4 * |Q.h| + 50)) :=
    mul_le_mul_of_nonneg_left (mul_le_mul_of_nonneg_left (by linarith [abs_nonneg Q.x]) (abs_nonneg _)) hδ
  constructor
  · have : (beside P (w * i)).1 - (beside Q (w * (i + n : Int))).1 + (3 - w) * n * Real.sin P.h =
        (P.x - (Q.x - 3 * n * Real.sin P.h)) + -((w * (i + n : Int) : ℝ) * (Real.sin P.h - Real.sin Q.h)) := by
      simp only [beside]; push_cast; ring
    rw [this]
    refine (abs_add_le _ _).trans (add_le_add (h1.trans m1) ?_)
    rw [abs_neg, abs_mul]
    exact mul_le_mul_of_nonneg_left k1 (abs_nonneg _)
  · have : (beside P (w * i)).2 - (beside Q (w * (i + n : Int))).2 - (3 - w) * n * Real.cos P.h =
        (P.y - (Q.y + 3 * n * Real.cos P.h)) + (w * (i + n : Int) : ℝ) * (Real.cos P.h - Real.cos Q.h) := by
      simp only [beside]; push_cast; ring
    rw [this]
    refine (abs_add_le _ _).trans (add_le_add (h2.trans m2) ?_)
    rw [abs_mul]
    exact mul_le_mul_of_nonneg_left k2 (abs_nonneg _)

/-- **C98** (finding): a lane offset `n` moves the road by 3 for each lane, however wide the lanes are. If they are `d` wide, the link of a
lane leads to a lane whose two edges are `(3 - d) * n` beside those of the lane: the lanes that are linked do not touch, unless `n = 0` or
`d = 3`. -/
theorem C98_offset_width (f a : ℝ) (hf : FresnelAccurate R f) (ha : ArctanAccurate R a) (p : List (Call (Fl R))) (s : Session (Fl R)) (hs : Blank s)
    (o : Nat) (h : LaidOut p o) (hpl : PlainLanes p) (hn : NoLoopsProgram p o) (hg : DrawnGeometry p o)
    (date : String) (element : Xml (Fl R)) (he : (runCalls (p ++ [.adjust o]) s).2.getElement o date = .ok element)
    (doc : RDocument (Fl R)) (hdoc : readDocument element = some doc)
    (v w : Nat) (e e' : ContactPoint) (hne : e ≠ e') (hl : LanesLinked p o v e w e') (i j : PyId) (l m : Nat) (t u : Int)
    (hv : AddsLanes p o v i l t) (ht : t ≠ -1) (hw : AddsLanes p o w j m u)
    (sec sec' : Nat) (hsec : sectionCall l p e = some sec) (hsec' : sectionCall m p e' = some sec') (n : Int) (hoff : offsetCall v p e = n) :
    ∃ rd ∈ doc.roads, ∃ rd' ∈ doc.roads, rd.id = i.toStr ∧ rd'.id = j.toStr ∧
      ∃ S S', rd.endSection e = some S ∧ rd'.endSection e' = some S' ∧ ∃ P Q, rd.NearlyAt f a e P ∧ rd'.NearlyAt f a e' Q ∧
        (MeetsNearly R.u n e P e' Q ∨ MeetsNearly R.u (offsetCall w p e') e' Q e P) ∧
        ∀ L ∈ S.left ++ S.right, L.linksTo (linkTag e) = [readLaneLinkTo (linkTag e) (L.id + n)] ∧
          (∀ d x x', (∀ y ∈ leftCalls sec p ++ rightCalls sec p, MadeWide p y x d) → (∀ y ∈ leftCalls sec' p ++ rightCalls sec' p, MadeWide p y x' d) →
            MeetsNearly R.u n e P e' Q → (0 < L.id ↔ 0 < L.id + n) → ∀ L' ∈ S'.left ++ S'.right, L'.id = L.id + n →
            NearlyGap ((3 - d) * n) (R.u * (|(n : ℝ)| * (|Q.x| + |Q.y| + 4 * |Q.h| + 50))) (R.u * (2.1 * |Q.h| + 16))
              P S.real x L.id Q S'.real x' L'.id ∧
            |(3 - d) * n| ≤ |(beside P (S.real.outer x L.id)).1 - (beside Q (S'.real.outer x' L'.id)).1| +
              |(beside P (S.real.outer x L.id)).2 - (beside Q (S'.real.outer x' L'.id)).2| +
              2 * (R.u * (|(n : ℝ)| * (|Q.x| + |Q.y| + 4 * |Q.h| + 50)) + |S'.real.outer x' L'.id| * (R.u * (2.1 * |Q.h| + 16)))) := by
  have adds : ∀ {v i l t}, AddsLanes p o v i l t → AddsRoad p o v i t := fun ⟨a, pv, n, ru, b⟩ => ⟨a, _, _, _, _, b⟩
  obtain ⟨rd, h1, rd', h2, h3, h4, P, Q, h5, h6, h7⟩ :=
    linked_joint f a hf ha p s hs o h hn hg date element he doc hdoc hl (adds hv) (adds hw)
  obtain ⟨element', he', hshown⟩ := C97_adjusted p s hs o h date
  have : element' = element := by rw [he] at he'; cases he'; rfl
  subst this
  have hsh := hshown doc hdoc
  obtain ⟨S, s1, s2⟩ := shown_end p o h hsh h1 hv h3 hsec
  obtain ⟨S', s1', s2'⟩ := shown_end p o h hsh h2 hw h4 hsec'
  rw [hoff] at h7
  refine ⟨rd, h1, rd', h2, h3, h4, S, S', s1, s1', P, Q, h5, h6, h7, fun L hL => ?_⟩
  obtain ⟨S0, k1, k2⟩ := linked_target p s hs o h hpl date element' he doc hdoc hl hv hw h1 h2 h3 h4
  rw [s1] at k1; cases k1
  have hσ : turnSign e e' = 1 := by rw [turnSign, if_neg hne]
  refine ⟨by rw [k2 L hL, hσ, one_mul, if_neg ht, hoff], fun d x x' hx hx' hm hsgn L' hL' hid => ?_⟩
  obtain ⟨q0, q1, q2⟩ := wide_outer h.drawing.proper hx s2 hL
  obtain ⟨r0, r1, r2⟩ := wide_outer h.drawing.proper hx' s2' hL'
  have hin : inwards L'.id = inwards L.id + n := by
    rw [hid] at r0 ⊢
    unfold inwards
    split <;> split <;> omega
  have hgap : NearlyGap ((3 - d) * n) (R.u * (|(n : ℝ)| * (|Q.x| + |Q.y| + 4 * |Q.h| + 50))) (R.u * (2.1 * |Q.h| + 16))
      P S.real x L.id Q S'.real x' L'.id := by
    refine ⟨?_, ?_⟩
    · rw [q1, r1, hid]
      exact meets_offset_wide R.u_nonneg hne hm d L.id
    · rw [q2, r2, hin]
      exact meets_offset_wide R.u_nonneg hne hm d (inwards L.id)
  refine ⟨hgap, ?_⟩
  have hv := vector_long ((3 - d) * n) P.h ((beside P (S.real.outer x L.id)).1 - (beside Q (S'.real.outer x' L'.id)).1)
    ((beside P (S.real.outer x L.id)).2 - (beside Q (S'.real.outer x' L'.id)).2)
  obtain ⟨g1, g2⟩ := hgap.outer
  linarith

/-- `C98_offset_width` applied: lanes 4 wide, a connecting road with the lane offset -1. Its lane -1 is linked to the lane -2 of the first road,
and the edges of the two are 1 apart, up to rounding. -/
theorem connProg_apart (f a : ℝ) (hf : FresnelAccurate double f) (ha : ArctanAccurate double a) (date : String)
    (element : Xml (Fl double)) (he : (runCalls (connProg false (-1) 4 ++ [.adjust 0]) flStart).2.getElement 0 date = .ok element)
    (doc : RDocument (Fl double)) (hdoc : readDocument element = some doc) :
    ∃ rd ∈ doc.roads, ∃ rd' ∈ doc.roads, ∃ S S', rd.endSection .start = some S ∧ rd'.endSection .end = some S' ∧ ∃ P Q,
      rd.NearlyAt f a .start P ∧ rd'.NearlyAt f a .end Q ∧ ∀ L ∈ S.right, L.linksTo "predecessor" = [readLaneLinkTo "predecessor" (L.id - 1)] ∧
        (MeetsNearly double.u (-1) .start P .end Q → L.id < 0 → ∀ L' ∈ S'.right, L'.id = L.id - 1 → ∀ x x',
          1 ≤ |(beside P (S.real.outer x L.id)).1 - (beside Q (S'.real.outer x' L'.id)).1| +
            |(beside P (S.real.outer x L.id)).2 - (beside Q (S'.real.outer x' L'.id)).2| +
            2 * (double.u * (1 * (|Q.x| + |Q.y| + 4 * |Q.h| + 50)) + |S'.real.outer x' L'.id| * (double.u * (2.1 * |Q.h| + 16)))) := by
  obtain ⟨d1, d2, d3⟩ := connProg_start (-1) 4
  obtain ⟨c1, c2, -, -, c5, c6⟩ := connProg_sections (-1) 4
  obtain ⟨rd, h1, rd', h2, -, -, S, S', h5, h6, P, Q, h7, h8, -, h9⟩ := C98_offset_width f a hf ha (connProg false (-1) 4) flStart flStart_blank 0
    (connProg_laidOut (-1) 4) (connProg_plain (-1) 4) (connProg_noLoops (-1) 4) (connProg_geometry (-1) 4) date element he doc hdoc 2 0 .start .end
    (by decide) d1 _ _ 2 0 7 (-1) d2 (by decide) d3 2 0 (connProg_section _ (by simp) _) (connProg_section _ (by simp) _) (-1)
    (by simp [offsetCall, connProg_preds])
  refine ⟨rd, h1, rd', h2, S, S', h5, h6, P, Q, h7, h8, fun L hL => ?_⟩
  obtain ⟨k1, k2⟩ := h9 L (List.mem_append_right _ hL)
  refine ⟨k1, fun hm hneg L' hL' hid x x' => ?_⟩
  obtain ⟨-, k3⟩ := k2 (4 : Int) x x' (fun y hy => connProg_made (-1) 4 (by norm_num) (by rw [c5, c6] at hy; simp at hy; simp [hy]) x)
    (fun y hy => connProg_made (-1) 4 (by norm_num) (by rw [c1, c2] at hy; simp at hy; rcases hy with rfl | rfl | rfl <;> simp) x') hm (by omega) L'
    (List.mem_append_right _ hL') hid
  have one : |((3 : ℝ) - ((4 : Int) : ℝ)) * ((-1 : Int) : ℝ)| = 1 := by norm_num
  have one' : |((-1 : Int) : ℝ)| = 1 := by norm_num
  rw [one, one'] at k3
  exact k3

end Pyodrx.Props
