import Verif.Proofs.GeomReal

/-! # Properties C01-C09: the geometry classes (exact real arithmetic) -/

namespace Pyodrx.Props
open Pyodrx Spec

/-! ## C01 -/

/-- C01: a line ends `length` along its (constant) heading. -/
theorem C01_line_end (l : Line ℝ) (p : Pose ℝ) :
    l.getEndData p = (drive (fun _ => p.h) l.length p, l.length) ∧
    l.getEndData p = (⟨p.x + l.length * Real.cos p.h, p.y + l.length * Real.sin p.h, p.h⟩,
      l.length) := by
  rw [drive_const]
  have : l.getEndData p = (⟨p.x + l.length * Real.cos p.h, p.y + l.length * Real.sin p.h, p.h⟩,
      l.length) := by
    simp [Line.getEndData, add_comm]
  exact ⟨this, this⟩

/-- C01: `get_start_data` at the end, turned around, is the start, turned around. -/
theorem C01_line_inverse (l : Line ℝ) (p : Pose ℝ) :
    l.getStartData (turned (l.getEndData p).1) = (turned p, l.length) := by
  simp only [Line.getStartData, Line.getEndData, turned, real_add, real_mul, real_cos, real_sin,
    Real.cos_add_pi, Real.sin_add_pi, Prod.mk.injEq, Pose.mk.injEq, and_true]
  constructor <;> ring

/-- A line of length 2 heading north from (1,1) ends at (1,3). -/
example : (Line.getEndData (⟨2⟩ : Line ℝ) ⟨1, 1, Real.pi / 2⟩).1 = ⟨1, 3, Real.pi / 2⟩ := by
  simp [Line.getEndData]; norm_num

/-! ## C02 -/

/-- C02: an arc built from a positive length is the circular arc of that length. -/
theorem C02_arc_length (k L : ℝ) (hL : 0 < L) (a : Arc ℝ) (ha : Arc.new k (some L) none = .ok a)
    (p : Pose ℝ) :
    ∃ a', Arc.getEndData p a = .ok (drive (fun s => p.h + k * s) L p, some L) a' := by
  simp only [Arc.new, Option.isNone_some, Bool.false_and, Bool.false_eq_true, if_false,
    Option.isSome_some, Option.isSome_none, Bool.and_false] at ha
  split at ha
  · exact absurd ha (by simp)
  · rename_i hk
    simp only [real_isZero] at hk
    obtain rfl : Arc.mk k (some L) none = a := by simpa using ha
    have h := Arc.eval_of_length k L hk hL.ne' p ⟨k, some L, none⟩ rfl
    rw [abs_of_pos hL] at h
    exact ⟨_, h⟩

/-- C02: an arc built from an angle with the sign of the curvature is the circular arc of length
`|angle| / |curvature|`; its heading changes by `angle`. -/
theorem C02_arc_angle (k ang : ℝ) (hs : 0 < k * ang) (a : Arc ℝ)
    (ha : Arc.new k none (some ang) = .ok a) (p : Pose ℝ) :
    ∃ a' q, Arc.getEndData p a = .ok (q, some (|ang| / |k|)) a' ∧
      q = drive (fun s => p.h + k * s) (|ang| / |k|) p ∧ q.h = p.h + ang := by
  have hk : k ≠ 0 := fun h => by simp [h] at hs
  have hA : ang ≠ 0 := fun h => by simp [h] at hs
  have hz : (PyFloat.isZero k : Bool) = false := by simp [hk]
  simp only [Arc.new, Option.isNone_some, Bool.and_false, Bool.false_eq_true, if_false,
    Option.isSome_some, Option.isSome_none, Bool.false_and, hz] at ha
  obtain rfl : Arc.mk k none (some ang) = a := by simpa using ha
  have e : ang / k = |ang| / |k| := by
    rw [← abs_div, abs_of_pos]
    rcases mul_pos_iff.mp hs with ⟨h1, h2⟩ | ⟨h1, h2⟩
    · exact div_pos h2 h1
    · exact div_pos_of_neg_of_neg h2 h1
  have h := Arc.eval_of_angle k ang hk hA p ⟨k, none, some ang⟩ rfl rfl
  refine ⟨_, _, h, by rw [e], ?_⟩
  simp only [drive, mul_div_cancel₀ ang hk]

example : ∃ a, Arc.new (-2 : ℝ) (some 3) none = .ok a := by simp [Arc.new, real_isZero_eq]
example : (0:ℝ) < (-2) * (-1) ∧ ∃ a, Arc.new (-2 : ℝ) none (some (-1)) = .ok a := by
  constructor
  · norm_num
  · simp [Arc.new, real_isZero_eq]

/-! ## C03 -/

/-- A call made on an Arc object. -/
inductive ArcCall where
  | endData (p : Pose ℝ)
  | startData (p : Pose ℝ)

/-- The object after one call; `none` if the call raised. -/
noncomputable def ArcCall.run : ArcCall → Arc ℝ → Option (Arc ℝ)
  | .endData p, a => match Arc.getEndData p a with | .ok _ a' => some a' | .error _ _ => none
  | .startData p, a => match Arc.getStartData p a with | .ok _ a' => some a' | .error _ _ => none

/-- The object after a history of calls. -/
noncomputable def runArcCalls : List ArcCall → Arc ℝ → Option (Arc ℝ)
  | [], a => some a
  | c :: cs, a => (c.run a).bind (runArcCalls cs)

/-- what `get_end_data` returns on this object -/
noncomputable def arcEndResult (a : Arc ℝ) (p : Pose ℝ) : Except PyErr (Pose ℝ × Option ℝ) :=
  match Arc.getEndData p a with | .ok r _ => .ok r | .error e _ => .error e
/-- what `get_start_data` returns on this object -/
noncomputable def arcStartResult (a : Arc ℝ) (p : Pose ℝ) : Except PyErr (Pose ℝ × Option ℝ) :=
  match Arc.getStartData p a with | .ok r _ => .ok r | .error e _ => .error e

/-- Once a positive length is stored, no history of calls raises or changes any later result. -/
theorem arc_history_of_length (L : ℝ) (hL : 0 < L) (hist : List ArcCall) (a : Arc ℝ)
    (hk : a.curvature ≠ 0) (ha : a.length = some L) :
    ∃ a', runArcCalls hist a = some a' ∧
      ∀ p, arcEndResult a' p = arcEndResult a p ∧ arcStartResult a' p = arcStartResult a p := by
  induction hist generalizing a with
  | nil => exact ⟨a, rfl, fun p => ⟨rfl, rfl⟩⟩
  | cons c cs ih =>
    have key : ∀ b : Arc ℝ, b.curvature = a.curvature → b.length = some L →
        ∀ p, arcEndResult b p = arcEndResult a p ∧ arcStartResult b p = arcStartResult a p := by
      intro b hb hbl p
      have hk' : b.curvature ≠ 0 := hb ▸ hk
      constructor
      · simp only [arcEndResult, Arc.getEndData, hb, Arc.eval_of_length _ L hk hL.ne' p b hbl,
          Arc.eval_of_length _ L hk hL.ne' p a ha]
      · simp only [arcStartResult, Arc.getStartData, real_neg, hb,
          Arc.eval_of_length _ L (neg_ne_zero.mpr hk) hL.ne' p b hbl,
          Arc.eval_of_length _ L (neg_ne_zero.mpr hk) hL.ne' p a ha]
    have step : ∃ b, c.run a = some b ∧ b.curvature = a.curvature ∧ b.length = some L := by
      cases c with
      | endData p =>
        refine ⟨{ a with angle := some (L * a.curvature), length := some L }, ?_, rfl, rfl⟩
        simp only [ArcCall.run, Arc.getEndData, Arc.eval_of_length _ L hk hL.ne' p a ha,
          abs_of_pos hL]
      | startData p =>
        refine ⟨{ a with angle := some (L * -a.curvature), length := some L }, ?_, rfl, rfl⟩
        simp only [ArcCall.run, Arc.getStartData, real_neg,
          Arc.eval_of_length _ L (neg_ne_zero.mpr hk) hL.ne' p a ha, abs_of_pos hL]
    obtain ⟨b, hb, hbc, hbl⟩ := step
    obtain ⟨a', ha', hr⟩ := ih b (hbc ▸ hk) hbl
    refine ⟨a', by simp [runArcCalls, hb, ha'], fun p => ?_⟩
    have h1 := hr p
    have h2 := key b hbc hbl p
    exact ⟨h1.1.trans h2.1, h1.2.trans h2.2⟩

theorem arc_new_length {k L : ℝ} {a : Arc ℝ} (ha : Arc.new k (some L) none = .ok a) :
    k ≠ 0 ∧ a = ⟨k, some L, none⟩ := by
  simp only [Arc.new, Option.isNone_some, Bool.false_and, Bool.false_eq_true, if_false,
    Option.isSome_some, Option.isSome_none, Bool.and_false] at ha
  split at ha
  · exact absurd ha (by simp)
  · rename_i hk
    simp only [real_isZero] at hk
    exact ⟨hk, by simpa using ha.symm⟩

theorem arc_new_angle {k ang : ℝ} {a : Arc ℝ} (ha : Arc.new k none (some ang) = .ok a) :
    k ≠ 0 ∧ a = ⟨k, none, some ang⟩ := by
  simp only [Arc.new, Option.isNone_some, Bool.and_false, Bool.false_eq_true, if_false,
    Option.isSome_some, Option.isSome_none, Bool.false_and] at ha
  split at ha
  · exact absurd ha (by simp)
  · rename_i hk
    simp only [real_isZero] at hk
    exact ⟨hk, by simpa using ha.symm⟩

/-- C03: an Arc built from a positive length answers every call as if it had never been called. -/
theorem C03_arc_history_length (k L : ℝ) (hL : 0 < L) (a : Arc ℝ)
    (ha : Arc.new k (some L) none = .ok a) (hist : List ArcCall) :
    ∃ a', runArcCalls hist a = some a' ∧
      ∀ p, arcEndResult a' p = arcEndResult a p ∧ arcStartResult a' p = arcStartResult a p := by
  obtain ⟨hk, rfl⟩ := arc_new_length ha
  exact arc_history_of_length L hL hist _ hk rfl

/-- C03: an Arc built from an angle with the sign of its curvature, once evaluated forward
(at any pose `p₀`): any later history changes nothing, and its end data is that of the fresh object. -/
theorem C03_arc_history_angle (k ang : ℝ) (hs : 0 < k * ang) (a : Arc ℝ)
    (ha : Arc.new k none (some ang) = .ok a) (p₀ : Pose ℝ) (hist : List ArcCall) :
    ∃ a₁ a', ArcCall.run (.endData p₀) a = some a₁ ∧ runArcCalls hist a₁ = some a' ∧
      ∀ p, arcEndResult a' p = arcEndResult a p ∧ arcStartResult a' p = arcStartResult a₁ p := by
  obtain ⟨hk, rfl⟩ := arc_new_angle ha
  have hA : ang ≠ 0 := fun h => by simp [h] at hs
  have e : ang / k = |ang| / |k| := by
    rw [← abs_div, abs_of_pos]
    rcases mul_pos_iff.mp hs with ⟨h1, h2⟩ | ⟨h1, h2⟩
    · exact div_pos h2 h1
    · exact div_pos_of_neg_of_neg h2 h1
  have hLpos : 0 < |ang| / |k| := div_pos (abs_pos.mpr hA) (abs_pos.mpr hk)
  have hrun : ArcCall.run (.endData p₀) ⟨k, none, some ang⟩ =
      some ⟨k, some (|ang| / |k|), some ang⟩ := by
    simp only [ArcCall.run, Arc.getEndData, Arc.eval_of_angle k ang hk hA p₀ ⟨k, none, some ang⟩ rfl rfl]
  obtain ⟨a', h1, h2⟩ := arc_history_of_length (|ang| / |k|) hLpos hist
    ⟨k, some (|ang| / |k|), some ang⟩ hk rfl
  refine ⟨_, a', hrun, h1, fun p => ⟨(h2 p).1.trans ?_, (h2 p).2⟩⟩
  simp only [arcEndResult, Arc.getEndData,
    Arc.eval_of_angle k ang hk hA p ⟨k, none, some ang⟩ rfl rfl,
    Arc.eval_of_length k (|ang| / |k|) hk hLpos.ne' p ⟨k, some (|ang| / |k|), some ang⟩ rfl, e,
    abs_of_pos hLpos]

/-- C03, violation: with an angle whose sign differs from the curvature, two successive
`get_end_data` calls at the same pose return headings that differ by twice the angle. -/
theorem C03_arc_history_wrong_sign (k ang : ℝ) (hs : k * ang < 0) (a : Arc ℝ)
    (ha : Arc.new k none (some ang) = .ok a) (p : Pose ℝ) :
    ∃ a₁ a₂ q₁ q₂ l₁ l₂, Arc.getEndData p a = .ok (q₁, l₁) a₁ ∧
      Arc.getEndData p a₁ = .ok (q₂, l₂) a₂ ∧ q₁.h = p.h + ang ∧ q₂.h = p.h - ang ∧
      q₁.h ≠ q₂.h := by
  obtain ⟨hk, rfl⟩ := arc_new_angle ha
  have hA : ang ≠ 0 := fun h => by simp [h] at hs
  have e : ang / k = -(|ang| / |k|) := by
    rw [← abs_div, abs_of_neg]
    · ring
    rcases mul_neg_iff.mp hs with ⟨h1, h2⟩ | ⟨h1, h2⟩
    · exact div_neg_of_neg_of_pos h2 h1
    · exact div_neg_of_pos_of_neg h2 h1
  have hLpos : 0 < |ang| / |k| := div_pos (abs_pos.mpr hA) (abs_pos.mpr hk)
  refine ⟨_, _, _, _, _, _, Arc.eval_of_angle k ang hk hA p _ rfl rfl,
    Arc.eval_of_length k (|ang| / |k|) hk hLpos.ne' p _ rfl, ?_, ?_, ?_⟩
  · simp only [drive, mul_div_cancel₀ ang hk]
  · have : |ang| / |k| = -(ang / k) := by rw [e]; ring
    simp only [drive, this]; field_simp; ring
  · have : |ang| / |k| = -(ang / k) := by rw [e]; ring
    simp only [drive, this, mul_div_cancel₀ ang hk]
    intro h
    have : k * -(ang / k) = -ang := by field_simp
    rw [this] at h
    exact hA (by linarith)

/-! ## C04 -/

/-- C04: for an Arc whose length is known, `get_start_data` at the end, turned around, is the
start, turned around. -/
theorem C04_arc_inverse (L : ℝ) (hL : 0 < L) (a : Arc ℝ) (hk : a.curvature ≠ 0)
    (ha : a.length = some L) (p : Pose ℝ) :
    ∃ q a₁ a₂, Arc.getEndData p a = .ok (q, some L) a₁ ∧
      Arc.getStartData (turned q) a₁ = .ok (turned p, some L) a₂ := by
  have h1 := Arc.eval_of_length a.curvature L hk hL.ne' p a ha
  rw [abs_of_pos hL] at h1
  have h2 := Arc.eval_of_length (-a.curvature) L (neg_ne_zero.mpr hk) hL.ne'
    (turned (drive (fun s => p.h + a.curvature * s) L p))
    { a with angle := some (L * a.curvature), length := some L } rfl
  rw [abs_of_pos hL, drive_reverse _ _ L p (by simp) (by intro s; simp [turned, drive]; ring)] at h2
  exact ⟨_, _, _, h1, h2⟩

/-- The hypotheses of `C04_arc_inverse` hold after any first successful `get_end_data` on an Arc
built by its constructor from a non-zero length or a non-zero angle. -/
theorem C04_length_known (k : ℝ) (length angle : Option ℝ) (a : Arc ℝ)
    (hnz : length ≠ some 0 ∧ angle ≠ some 0)
    (ha : Arc.new k length angle = .ok a) (p : Pose ℝ) :
    ∃ q L a', Arc.getEndData p a = .ok (q, some L) a' ∧ 0 < L ∧ a'.length = some L ∧
      a'.curvature = k ∧ k ≠ 0 := by
  cases length with
  | none =>
    cases angle with
    | none => simp [Arc.new] at ha
    | some ang =>
      obtain ⟨hk, rfl⟩ := arc_new_angle ha
      have hA : ang ≠ 0 := fun h => hnz.2 (by rw [h])
      exact ⟨_, _, _, Arc.eval_of_angle k ang hk hA p _ rfl rfl,
        div_pos (abs_pos.mpr hA) (abs_pos.mpr hk), rfl, rfl, hk⟩
  | some L =>
    cases angle with
    | none =>
      obtain ⟨hk, rfl⟩ := arc_new_length ha
      have hL : L ≠ 0 := fun h => hnz.1 (by rw [h])
      exact ⟨_, _, _, Arc.eval_of_length k L hk hL p _ rfl, abs_pos.mpr hL, rfl, rfl, hk⟩
    | some ang => simp [Arc.new] at ha

/-- C04, violation: on a never-evaluated Arc built from an angle, `get_start_data` at the end,
turned around, returns the heading `p.h + π + 2*angle` instead of `p.h + π`. -/
theorem C04_arc_inverse_fresh_angle (k ang : ℝ) (hs : 0 < k * ang) (a : Arc ℝ)
    (ha : Arc.new k none (some ang) = .ok a) (p : Pose ℝ) :
    ∃ q l₁ a₁ r l₂ a₂, Arc.getEndData p a = .ok (q, l₁) a₁ ∧
      Arc.getStartData (turned q) a = .ok (r, l₂) a₂ ∧ r.h = p.h + Real.pi + 2 * ang := by
  obtain ⟨hk, rfl⟩ := arc_new_angle ha
  have hA : ang ≠ 0 := fun h => by simp [h] at hs
  refine ⟨_, _, _, _, _, _, Arc.eval_of_angle k ang hk hA p _ rfl rfl,
    Arc.eval_of_angle _ ang (by simpa using hk) hA _ _ rfl rfl, ?_⟩
  simp [turned, drive, mul_div_cancel₀ ang hk]
  field_simp; ring

/-- A quarter circle: the fresh object answers with the opposite heading. -/
example : ¬ SameHeading (0 + Real.pi + 2 * (Real.pi / 2)) (0 + Real.pi) := by
  rintro ⟨n, hn⟩
  have hp := Real.pi_pos
  have h1 : Real.pi * (2 * (n : ℝ) - 1) = 0 := by linarith
  rcases mul_eq_zero.mp h1 with h | h
  · exact hp.ne' h
  · have : (2 * n - 1 : ℤ) = 0 := by exact_mod_cast h
    omega

/-! ## C05, C06 -/

/-- The heading of a clothoid of length `L` that goes from curvature `k₀` to `k₁`, after `s`. -/
noncomputable def clothoidHeading (h k₀ k₁ L s : ℝ) : ℝ := h + k₀ * s + (k₁ - k₀) / L * (s ^ 2 / 2)

/-- C05: a spiral of non-zero length is the clothoid, whatever the branch taken. -/
theorem C05_spiral_end (k₀ k₁ L : ℝ) (hL : L ≠ 0) (sp : Spiral ℝ)
    (hsp : Spiral.new k₀ k₁ (some L) none none = .ok sp) (p : Pose ℝ) :
    ∃ q, sp.getEndData p = .ok (q, L) ∧ q = drive (clothoidHeading p.h k₀ k₁ L) L p ∧
      q.h = p.h + (k₀ + k₁) / 2 * L := by
  have : sp = ⟨k₀, k₁, some L⟩ := by simpa [Spiral.new, countGiven] using hsp.symm
  subst this
  refine ⟨_, Spiral.getEndData_eq _ L rfl hL p, ?_, ?_⟩
  · congr 1
    funext s
    simp [clothHeading, clothoidHeading]; ring
  · simp [drive, clothHeading]; field_simp; ring

/-- The curvature (rate of change of heading) really goes linearly from `k₀` to `k₁`. -/
theorem C05_curvature (h k₀ k₁ L s : ℝ) :
    HasDerivAt (clothoidHeading h k₀ k₁ L) (k₀ + (k₁ - k₀) / L * s) s := by
  unfold clothoidHeading
  have h1 : HasDerivAt (fun s : ℝ => h + k₀ * s) k₀ s := by
    simpa using (((hasDerivAt_id s).const_mul k₀).const_add h)
  have h2 : HasDerivAt (fun s : ℝ => (k₁ - k₀) / L * (s ^ 2 / 2)) ((k₁ - k₀) / L * s) s := by
    have := (((hasDerivAt_id s).pow 2).div_const 2).const_mul ((k₁ - k₀) / L)
    simpa using this
  exact h1.add h2

/-- C06: `get_start_data` at the end, turned around, is the start, turned around. -/
theorem C06_spiral_inverse (sp : Spiral ℝ) (L : ℝ) (hL : L ≠ 0) (hl : sp.length = some L)
    (p : Pose ℝ) :
    ∃ q, sp.getEndData p = .ok (q, L) ∧ sp.getStartData (turned q) = .ok (turned p, L) := by
  refine ⟨_, Spiral.getEndData_eq sp L hl hL p, ?_⟩
  rw [Spiral.getStartData_eq sp L hl hL, drive_reverse _ _ L p (by simp [clothHeading])]
  intro s
  simp [turned, drive, clothHeading]; field_simp; ring

example : ∃ sp, Spiral.new (0:ℝ) (-0.1) (some 10) none none = .ok sp ∧ sp.length = some 10 := by
  simp [Spiral.new, countGiven]

/-! ## C07 -/

/-- C07: exactly one of the three inputs must be given. -/
theorem C07_spiral_args (k₀ k₁ : ℝ) (length angle cdot : Option ℝ) :
    (Spiral.new k₀ k₁ length angle cdot = .error .notEnoughInputArguments ↔
      length = none ∧ angle = none ∧ cdot = none) ∧
    (Spiral.new k₀ k₁ length angle cdot = .error .toManyOptionalArguments ↔
      (length.isSome ∧ angle.isSome) ∨ (length.isSome ∧ cdot.isSome) ∨
      (angle.isSome ∧ cdot.isSome)) := by
  cases length <;> cases angle <;> cases cdot <;> simp [Spiral.new, countGiven] <;>
    (repeat' split) <;> simp

/-- C07: a given length is kept. -/
theorem C07_spiral_length (k₀ k₁ L : ℝ) :
    Spiral.new k₀ k₁ (some L) none none = .ok ⟨k₀, k₁, some L⟩ := by
  simp [Spiral.new, countGiven]

/-- C07: with a non-zero `cdot` the curvature rate `(k₁-k₀)/length` is `cdot`
(unless the curvatures are equal, in which case no rate but 0 is possible). -/
theorem C07_spiral_cdot (k₀ k₁ c : ℝ) (hc : c ≠ 0) (hne : k₀ ≠ k₁) :
    ∃ L, Spiral.new k₀ k₁ none none (some c) = .ok ⟨k₀, k₁, some L⟩ ∧ (k₁ - k₀) / L = c := by
  refine ⟨(k₁ - k₀) / c, ?_, ?_⟩
  · simp [Spiral.new, countGiven, hc]
  · have : k₁ - k₀ ≠ 0 := sub_ne_zero.mpr hne.symm
    field_simp

/-- C07: with a non-zero `angle` the total heading change is
`(k₀+k₁)/max(|k₀|,|k₁|) * |angle|`. -/
theorem C07_spiral_angle (k₀ k₁ ang : ℝ) (ha : ang ≠ 0) (hk : k₀ ≠ 0 ∨ k₁ ≠ 0) (p : Pose ℝ) :
    ∃ sp L q, Spiral.new k₀ k₁ none (some ang) none = .ok sp ∧ sp.length = some L ∧ 0 < L ∧
      sp.getEndData p = .ok (q, L) ∧
      q.h - p.h = (k₀ + k₁) / max |k₀| |k₁| * |ang| := by
  have hm : 0 < max |k₁| |k₀| := by
    rcases hk with h | h
    · exact lt_max_of_lt_right (abs_pos.mpr h)
    · exact lt_max_of_lt_left (abs_pos.mpr h)
  have hA := abs_pos.mpr ha
  have hnew : Spiral.new k₀ k₁ none (some ang) none =
      .ok ⟨k₀, k₁, some (2 * |ang| / max |k₁| |k₀|)⟩ := by
    have hz : (PyFloat.isZero ang : Bool) = false := by simp [ha]
    have hz2 : (PyFloat.isZero (max |k₁| |k₀|) : Bool) = false := by simp only [real_isZero_false]; exact hm.ne'
    simp [Spiral.new, countGiven, hz, hz2]
  have hLpos : 0 < 2 * |ang| / max |k₁| |k₀| := by positivity
  refine ⟨_, _, _, hnew, rfl, hLpos, Spiral.getEndData_eq _ _ rfl hLpos.ne' p, ?_⟩
  rw [max_comm |k₀|]
  simp only [drive, clothHeading]
  field_simp; ring

/-- C07: hence the heading change is `|angle|` in magnitude exactly when one curvature is zero. -/
theorem C07_spiral_angle_exact (k₀ k₁ ang : ℝ) (ha : ang ≠ 0) (hk : k₀ ≠ 0 ∨ k₁ ≠ 0) :
    abs ((k₀ + k₁) / max |k₀| |k₁| * |ang|) = |ang| ↔ k₀ = 0 ∨ k₁ = 0 := by
  have hm : 0 < max |k₀| |k₁| := by
    rcases hk with h | h
    · exact lt_max_of_lt_left (abs_pos.mpr h)
    · exact lt_max_of_lt_right (abs_pos.mpr h)
  have hA := abs_pos.mpr ha
  have e : abs ((k₀ + k₁) / max |k₀| |k₁| * |ang|) = |ang| ↔ |k₀ + k₁| = max |k₀| |k₁| := by
    rw [abs_mul, abs_div, abs_abs, abs_of_pos hm]
    constructor
    · intro h
      have := mul_right_cancel₀ hA.ne' (h.trans (one_mul |ang|).symm)
      exact (div_eq_one_iff_eq hm.ne').mp this
    · intro h; rw [h, div_self hm.ne', one_mul]
  rw [e]
  constructor
  · intro h
    rcases max_cases |k₀| |k₁| with ⟨hm, _⟩ | ⟨hm, _⟩ <;> rw [hm] at h
    · rcases abs_eq_abs.mp h with h | h
      · right; linarith
      · have h2 : k₁ = -2 * k₀ := by linarith
        rw [h2] at hm
        rw [abs_mul] at hm
        have : |k₀| = 0 := by
          have h3 : |(-2 : ℝ)| * |k₀| ≤ |k₀| := by
            have := le_max_right |k₀| (|(-2:ℝ)| * |k₀|)
            rwa [hm] at this
          have h4 := abs_nonneg k₀
          norm_num at h3
          linarith
        left; exact abs_eq_zero.mp this
    · rcases abs_eq_abs.mp h with h | h
      · left; linarith
      · have h2 : k₀ = -2 * k₁ := by linarith
        rw [h2] at hm
        rw [abs_mul] at hm
        have : |k₁| = 0 := by
          have h3 : |(-2 : ℝ)| * |k₁| ≤ |k₁| := by
            have := le_max_left (|(-2:ℝ)| * |k₁|) |k₁|
            rwa [hm] at this
          have h4 := abs_nonneg k₁
          norm_num at h3
          linarith
        right; exact abs_eq_zero.mp this
  · rintro (h | h) <;> simp [h]

example : ∃ k₀ k₁ ang : ℝ, ang ≠ 0 ∧ (k₀ ≠ 0 ∨ k₁ ≠ 0) ∧ k₀ ≠ k₁ := ⟨0, 1, 1, by norm_num⟩

/-! ## C08, C09 -/

theorem deriv_cubic (a b c d t : ℝ) :
    deriv (cubic a b c d) t = b + 2 * c * t + 3 * d * t ^ 2 := by
  have h : HasDerivAt (cubic a b c d) (b + 2 * c * t + 3 * d * t ^ 2) t := by
    unfold cubic
    have h1 : HasDerivAt (fun t : ℝ => a + b * t) b t := by
      simpa using (((hasDerivAt_id t).const_mul b).const_add a)
    have h2 : HasDerivAt (fun t : ℝ => c * t ^ 2) (2 * c * t) t := by
      have := ((hasDerivAt_id t).pow 2).const_mul c
      refine this.congr_deriv ?_
      simp; ring
    have h3 : HasDerivAt (fun t : ℝ => d * t ^ 3) (3 * d * t ^ 2) t := by
      have := ((hasDerivAt_id t).pow 3).const_mul d
      refine this.congr_deriv ?_
      simp; ring
    exact (h1.add h2).add h3
  exact h.deriv

/-- The final parameter of a ParamPoly3: 1 for the normalized range, its length otherwise. -/
noncomputable def polyParam (g : ParamPoly3 ℝ) : Option ℝ :=
  if g.prange = "normalized" then some 1 else g.length

/-- C08: `get_end_data` of a ParamPoly3 with final parameter `t`: the local end `(u t, v t)` rotated
by the heading and moved to the start (as complex numbers), the heading turned by the angle of the
tangent `(u' t, v' t)`, and for the normalized range the arc length of the curve. -/
theorem C08_poly_end (g : ParamPoly3 ℝ) (t : ℝ) (ht : polyParam g = some t) (p : Pose ℝ) :
    let u := cubic g.au g.bu g.cu g.du
    let v := cubic g.av g.bv g.cv g.dv
    ∃ q len g', ParamPoly3.getEndData p g = .ok (q, some len) g' ∧
      (⟨q.x, q.y⟩ : ℂ) = ⟨p.x, p.y⟩ + Complex.exp (p.h * Complex.I) * ⟨u t, v t⟩ ∧
      q.h = p.h + Complex.arg ⟨deriv u t, deriv v t⟩ ∧
      (g.prange ≠ "normalized" → len = t) ∧
      (g.prange = "normalized" → len = ∫ s in (0:ℝ)..1, Real.sqrt (deriv u s ^ 2 + deriv v s ^ 2)) := by
  intro u v
  have hpar : ∃ len, g.param = .ok (t, some len) ∧ (g.prange ≠ "normalized" → len = t) ∧
      (g.prange = "normalized" →
        len = ∫ s in (0:ℝ)..1, Real.sqrt (deriv u s ^ 2 + deriv v s ^ 2)) := by
    unfold polyParam at ht
    unfold ParamPoly3.param
    by_cases hn : g.prange = "normalized"
    · simp only [hn, if_true, Option.some.injEq] at ht
      subst ht
      refine ⟨_, by simp only [hn, if_true, real_ofInt, Int.cast_one]; rfl, fun h => absurd hn h,
        fun _ => ?_⟩
      simp only [real_quad, Int.cast_zero]
      congr 1
      funext s
      simp only [ParamPoly3.integrand, real_sqrt, real_add, real_sq, real_abs, sq_abs, real_mul,
        real_ofInt, u, v, deriv_cubic]
      congr 1
      push_cast
      ring
    · simp only [hn, if_false] at ht
      exact ⟨t, by simp only [hn, if_false, ht], fun _ => rfl, fun h => absurd h hn⟩
  obtain ⟨len, hp, h1, h2⟩ := hpar
  have hend : ParamPoly3.getEndData p g = .ok
      (⟨p.x + g.u t * Real.cos p.h - Real.sin p.h * g.v t,
        p.y + g.u t * Real.sin p.h + Real.cos p.h * g.v t, p.h + g.tangent t⟩, some len)
      { g with length := some len } := by
    simp only [ParamPoly3.getEndData, hp]; rfl
  refine ⟨_, len, _, hend, ?_, ?_, h1, h2⟩
  · apply Complex.ext
    · simp [Complex.exp_ofReal_mul_I_re, Complex.exp_ofReal_mul_I_im, ParamPoly3.u, ParamPoly3.v,
        u, v, cubic]; ring
    · simp [Complex.exp_ofReal_mul_I_re, Complex.exp_ofReal_mul_I_im, ParamPoly3.u, ParamPoly3.v,
        u, v, cubic]; ring
  · simp only [ParamPoly3.tangent, u, v, deriv_cubic, real_add, real_mul, real_ofInt, real_sq,
      real_arctan2]
    push_cast
    rfl

/-- C08: the returned heading is the direction of the (rotated) tangent. -/
theorem C08_heading_is_tangent (h : ℝ) (z : ℂ) :
    ((‖z‖ : ℝ) : ℂ) * Complex.exp ((h + z.arg : ℝ) * Complex.I) =
      Complex.exp (h * Complex.I) * z := by
  conv_rhs => rw [← Complex.norm_mul_exp_arg_mul_I z]
  push_cast
  rw [add_mul, Complex.exp_add]; ring

/-- A normalized quarter-turn-like curve satisfies the hypothesis. -/
example : polyParam ⟨0, 1, 0, 0, 0, 0, 1, 0, "normalized", none⟩ = some 1 := by simp [polyParam]

/-- Rotation by `τ` is minus the identity on a non-zero vector iff `τ = π` (for `-π < τ ≤ π`). -/
theorem rot_neg_iff {u v τ : ℝ} (hτ : -Real.pi < τ ∧ τ ≤ Real.pi) (h : ℝ) :
    (u * Real.cos h - Real.sin h * v + (u * Real.cos (h + τ) - Real.sin (h + τ) * v) = 0 ∧
     u * Real.sin h + Real.cos h * v + (u * Real.sin (h + τ) + Real.cos (h + τ) * v) = 0) ↔
    ((u = 0 ∧ v = 0) ∨ τ = Real.pi) := by
  constructor
  · rintro ⟨h1, h2⟩
    rw [Real.cos_add, Real.sin_add] at h1 h2
    have hcs := Real.sin_sq_add_cos_sq h
    have ht := Real.sin_sq_add_cos_sq τ
    -- rotate back by `h`
    have e1 : u * (1 + Real.cos τ) - v * Real.sin τ = 0 := by
      linear_combination Real.cos h * h1 + Real.sin h * h2 +
        (-u * (1 + Real.cos τ) + v * Real.sin τ) * hcs
    have e2 : v * (1 + Real.cos τ) + u * Real.sin τ = 0 := by
      linear_combination (-Real.sin h) * h1 + Real.cos h * h2 +
        (-v * (1 + Real.cos τ) - u * Real.sin τ) * hcs
    by_cases hc : Real.cos τ = -1
    · right
      by_contra hne
      have hlt : τ < Real.pi := lt_of_le_of_ne hτ.2 hne
      have h3 : Real.cos τ > -1 := by
        have habs : |τ| < Real.pi := abs_lt.mpr ⟨hτ.1, hlt⟩
        have := Real.cos_lt_cos_of_nonneg_of_le_pi (abs_nonneg τ) le_rfl habs
        rw [Real.cos_pi, Real.cos_abs] at this
        exact this
      linarith
    · left
      have hpos : 0 < (1 + Real.cos τ) := by
        have := Real.neg_one_le_cos τ
        rcases lt_or_eq_of_le this with h | h
        · linarith
        · exact absurd h.symm hc
      have e3 : (u ^ 2 + v ^ 2) * (1 + Real.cos τ) = 0 := by
        linear_combination u * e1 + v * e2
      have e4 : u ^ 2 + v ^ 2 = 0 := by
        rcases mul_eq_zero.mp e3 with h | h
        · exact h
        · linarith
      constructor <;> nlinarith [sq_nonneg u, sq_nonneg v]
  · rintro (⟨rfl, rfl⟩ | rfl)
    · simp
    · rw [Real.cos_add_pi, Real.sin_add_pi]; constructor <;> ring

/-- C09 (as violated by the code): `get_start_data` at the end, turned around, recovers the start
heading (turned around) and the length, but the start position iff the local end point is `(0,0)` or the tangent
angle is `π`. -/
theorem C09_poly_start (g : ParamPoly3 ℝ) (t : ℝ) (ht : polyParam g = some t) (p : Pose ℝ) :
    ∃ q l₁ g₁ r l₂ g₂, ParamPoly3.getEndData p g = .ok (q, l₁) g₁ ∧
      ParamPoly3.getStartData (turned q) g₁ = .ok (r, l₂) g₂ ∧ r.h = p.h + Real.pi ∧ l₂ = l₁ ∧
      ((r.x = p.x ∧ r.y = p.y) ↔
        ((cubic g.au g.bu g.cu g.du t = 0 ∧ cubic g.av g.bv g.cv g.dv t = 0) ∨
         Complex.arg ⟨deriv (cubic g.au g.bu g.cu g.du) t, deriv (cubic g.av g.bv g.cv g.dv) t⟩
          = Real.pi)) := by
  have hpar : ∃ len, g.param = .ok (t, len) ∧ ({ g with length := len } : ParamPoly3 ℝ).param = .ok (t, len) := by
    unfold polyParam at ht
    unfold ParamPoly3.param
    by_cases hn : g.prange = "normalized"
    · simp only [hn, if_true, Option.some.injEq] at ht
      subst ht
      exact ⟨_, by simp only [hn, if_true, real_ofInt, Int.cast_one]; rfl,
        by simp only [hn, if_true, real_ofInt, Int.cast_one]; rfl⟩
    · simp only [hn, if_false] at ht
      exact ⟨some t, by simp only [hn, if_false, ht], by simp only [hn, if_false]⟩
  obtain ⟨len, hp1, hp2⟩ := hpar
  refine ⟨_, _, _, _, _, _, by simp only [ParamPoly3.getEndData, hp1]; rfl,
    by simp only [ParamPoly3.getStartData, hp2]; rfl, ?_, rfl, ?_⟩
  · have e : ({ g with length := len } : ParamPoly3 ℝ).tangent t = g.tangent t := rfl
    simp only [turned, e, real_add, real_sub]
    ring
  have eτ : g.tangent t = Complex.arg ⟨deriv (cubic g.au g.bu g.cu g.du) t,
      deriv (cubic g.av g.bv g.cv g.dv) t⟩ := by
    simp only [ParamPoly3.tangent, deriv_cubic, real_add, real_mul, real_ofInt, real_sq,
      real_arctan2]
    push_cast
    rfl
  have eu : g.u t = cubic g.au g.bu g.cu g.du t := by simp [ParamPoly3.u, cubic]
  have ev : g.v t = cubic g.av g.bv g.cv g.dv t := by simp [ParamPoly3.v, cubic]
  have eu' : ({ g with length := len } : ParamPoly3 ℝ).u t = cubic g.au g.bu g.cu g.du t := eu
  have ev' : ({ g with length := len } : ParamPoly3 ℝ).v t = cubic g.av g.bv g.cv g.dv t := ev
  rw [← rot_neg_iff ⟨Complex.neg_pi_lt_arg _, Complex.arg_le_pi _⟩ p.h, ← eτ]
  simp only [eu, ev, eu', ev', turned, real_add, real_mul, real_sub, real_cos, real_sin,
    Real.cos_add_pi, Real.sin_add_pi]
  constructor
  · rintro ⟨h1, h2⟩
    constructor <;> linarith
  · rintro ⟨h1, h2⟩
    constructor <;> linarith

/-- C09: a concrete curve (a straight one!) for which the start is not recovered. -/
theorem C09_witness : ∃ (g : ParamPoly3 ℝ) (q r : Pose ℝ) (l₁ l₂ : Option ℝ) (g₁ g₂ : ParamPoly3 ℝ),
    ParamPoly3.getEndData ⟨0, 0, 0⟩ g = .ok (q, l₁) g₁ ∧
    ParamPoly3.getStartData (turned q) g₁ = .ok (r, l₂) g₂ ∧ ¬ (r.x = 0 ∧ r.y = 0) := by
  obtain ⟨q, l₁, g₁, r, l₂, g₂, h1, h2, -, -, h3⟩ :=
    C09_poly_start ⟨0, 1, 0, 0, 0, 0, 0, 0, "normalized", none⟩ 1 (by simp [polyParam]) ⟨0, 0, 0⟩
  refine ⟨_, q, r, l₁, l₂, g₁, g₂, h1, h2, ?_⟩
  intro h
  have := h3.mp h
  simp only [deriv_cubic, cubic] at this
  norm_num at this
  have e : (⟨1, 0⟩ : ℂ) = 1 := by apply Complex.ext <;> simp
  rw [e, Complex.arg_one] at this
  exact Real.pi_pos.ne this

end Pyodrx.Props
