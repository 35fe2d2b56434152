import Verif.Proofs.XmlText

/-! # Escaped characters are read back -/

namespace Pyodrx
open XmlParser Spec

/-- `_escape_attrib`, character by character -/
def escA (c : Char) : List Char :=
  if c = '&' then "&amp;".toList else if c = '<' then "&lt;".toList
  else if c = '>' then "&gt;".toList else if c = '"' then "&quot;".toList
  else if c = '\r' then "&#13;".toList else if c = '\n' then "&#10;".toList
  else if c = '\t' then "&#09;".toList else [c]

/-- `_write_data`, character by character -/
def escD (c : Char) : List Char :=
  if c = '&' then "&amp;".toList else if c = '<' then "&lt;".toList
  else if c = '"' then "&quot;".toList else if c = '>' then "&gt;".toList else [c]

theorem replaceChar_flatMap (c : Char) (s : String) (f : Char → List Char) (l : List Char) :
    replaceChar c s (l.flatMap f) = l.flatMap fun x => replaceChar c s (f x) := by
  simp [replaceChar, List.flatMap_assoc]

theorem escapeAttrib_eq (v : List Char) : escapeAttrib v = v.flatMap escA := by
  unfold escapeAttrib
  rw [show replaceChar '&' "&amp;" v = v.flatMap (fun x => if x = '&' then "&amp;".toList else [x])
    from rfl]
  simp only [replaceChar_flatMap]
  congr 1
  funext c
  unfold escA
  by_cases h1 : c = '&'
  · subst h1; decide
  by_cases h2 : c = '<'
  · subst h2; decide
  by_cases h3 : c = '>'
  · subst h3; decide
  by_cases h4 : c = '"'
  · subst h4; decide
  by_cases h5 : c = '\r'
  · subst h5; decide
  by_cases h6 : c = '\n'
  · subst h6; decide
  by_cases h7 : c = '\t'
  · subst h7; decide
  simp [replaceChar, h1, h2, h3, h4, h5, h6, h7]

theorem escapeData_eq (v : List Char) : escapeData v = v.flatMap escD := by
  unfold escapeData
  rw [show replaceChar '&' "&amp;" v = v.flatMap (fun x => if x = '&' then "&amp;".toList else [x])
    from rfl]
  simp only [replaceChar_flatMap]
  congr 1
  funext c
  unfold escD
  by_cases h1 : c = '&'
  · subst h1; decide
  by_cases h2 : c = '<'
  · subst h2; decide
  by_cases h3 : c = '"'
  · subst h3; decide
  by_cases h4 : c = '>'
  · subst h4; decide
  simp [replaceChar, h1, h2, h3, h4]

/-- A reference in a value. -/
theorem run_ref (l : List Char) (hl : ∀ c ∈ l, isXmlChar c = true ∧ c ≠ ';') (t as n st d v) : ∀ r,
    run ⟨.ref t as n '"' v r, st, d⟩ l = some ⟨.ref t as n '"' v (l.reverse ++ r), st, d⟩ := by
  induction l with
  | nil => intro r; rfl
  | cons c l ih =>
    intro r
    obtain ⟨h1, h2⟩ := hl c (by simp)
    rw [run_cons_of (s' := ⟨.ref t as n '"' v (c :: r), st, d⟩) (by simp [step, h1, h2]),
      ih (fun x hx => hl x (by simp [hx]))]
    simp

theorem run_reference (l : List Char) (hl : ∀ c ∈ l, isXmlChar c = true ∧ c ≠ ';') (x : Char)
    (hx : reference l = some x) (t as n st d v) :
    run ⟨.value t as n '"' v, st, d⟩ ('&' :: l ++ [';']) = some ⟨.value t as n '"' (x :: v), st, d⟩ := by
  have e1 : isXmlChar '&' = true := by decide
  have e2 : isXmlChar ';' = true := by decide
  rw [List.cons_append, run_cons_of (s' := ⟨.ref t as n '"' v [], st, d⟩) (by simp [step, e1]),
    run_append_of (run_ref l hl t as n st d v []),
    run_cons_of (s' := ⟨.value t as n '"' (x :: v), st, d⟩) (by simp [step, e2, hx])]
  rfl

theorem run_literal (c : Char) (hc : isXmlChar c = true) (h1 : c ≠ '"') (h2 : c ≠ '<') (h3 : c ≠ '&')
    (t as n st d v) : run ⟨.value t as n '"' v, st, d⟩ [c] =
      some ⟨.value t as n '"' ((if isSpace c then ' ' else c) :: v), st, d⟩ := by
  rw [run_cons_of (s' := ⟨.value t as n '"' ((if isSpace c then ' ' else c) :: v), st, d⟩)
    (by simp [step, hc, h1, h2, h3])]
  rfl

theorem reads_escA : ReadsAs escA id := by
  intro c hc t as n st d v
  unfold escA
  by_cases h1 : c = '&'
  · subst h1; exact run_reference ['a', 'm', 'p'] (by decide) _ (by decide) t as n st d v
  by_cases h2 : c = '<'
  · subst h2; exact run_reference ['l', 't'] (by decide) _ (by decide) t as n st d v
  by_cases h3 : c = '>'
  · subst h3; exact run_reference ['g', 't'] (by decide) _ (by decide) t as n st d v
  by_cases h4 : c = '"'
  · subst h4; exact run_reference ['q', 'u', 'o', 't'] (by decide) _ (by decide) t as n st d v
  by_cases h5 : c = '\r'
  · subst h5; exact run_reference ['#', '1', '3'] (by decide) _ (by decide) t as n st d v
  by_cases h6 : c = '\n'
  · subst h6; exact run_reference ['#', '1', '0'] (by decide) _ (by decide) t as n st d v
  by_cases h7 : c = '\t'
  · subst h7; exact run_reference ['#', '0', '9'] (by decide) _ (by decide) t as n st d v
  simp only [h1, h2, h3, h4, h5, h6, h7, if_false]
  rw [run_literal c hc h4 h2 h1]
  by_cases h8 : c = ' '
  · subst h8; rfl
  · simp [isSpace, h5, h6, h7, h8]

/-- What is read of a character that was not escaped. -/
def spaceOr (c : Char) : Char := if isSpace c then ' ' else c

theorem reads_escD : ReadsAs escD spaceOr := by
  intro c hc t as n st d v
  unfold escD
  by_cases h1 : c = '&'
  · subst h1; exact run_reference ['a', 'm', 'p'] (by decide) _ (by decide) t as n st d v
  by_cases h2 : c = '<'
  · subst h2; exact run_reference ['l', 't'] (by decide) _ (by decide) t as n st d v
  by_cases h3 : c = '"'
  · subst h3; exact run_reference ['q', 'u', 'o', 't'] (by decide) _ (by decide) t as n st d v
  by_cases h4 : c = '>'
  · subst h4; exact run_reference ['g', 't'] (by decide) _ (by decide) t as n st d v
  simp only [h1, h2, h3, h4, if_false]
  exact run_literal c hc h3 h2 h1 t as n st d v

/-! ## Character references by number -/

theorem digitValue_digit {c : Char} (h : c.isDigit = true) :
    digitValue 10 c = some (c.toNat - '0'.toNat) := by
  simp only [digitValue, h, if_true, Option.bind_some]
  simp only [Char.isDigit, Bool.and_eq_true, decide_eq_true_eq, ge_iff_le, UInt32.le_iff_toNat_le] at h
  have h1 : 48 ≤ c.val.toNat := h.1
  have h2 : c.val.toNat ≤ 57 := h.2
  rw [if_pos]
  show c.val.toNat - 48 < 10
  omega

theorem number_digits (l : List Char) (hl : ∀ c ∈ l, c.isDigit = true) (hne : l ≠ []) :
    number 10 l = some (Nat.ofDigitChars 10 l 0) := by
  have key : ∀ (l : List Char), (∀ c ∈ l, c.isDigit = true) → ∀ n : Nat,
      l.foldl (fun acc c => acc.bind fun n => (digitValue 10 c).map fun v => 10 * n + v) (some n) =
        some (Nat.ofDigitChars 10 l n) := by
    intro l
    induction l with
    | nil => intro _ n; rfl
    | cons c l ih =>
      intro h n
      rw [List.foldl_cons, Nat.ofDigitChars_cons]
      simp only [Option.bind_some, digitValue_digit (h c (by simp)), Option.map_some]
      exact ih (fun x hx => h x (by simp [hx])) _
  cases l with
  | nil => exact absurd rfl hne
  | cons c l => exact key (c :: l) hl 0

theorem charOf_toNat {c : Char} (hc : isXmlChar c = true) : charOf c.toNat = some c := by
  have hv : c.toNat.isValidChar := c.valid
  have he : Char.ofNatAux c.toNat hv = c := by
    apply Char.ext
    exact UInt32.toNat_inj.mp rfl
  simp only [charOf, hv, dif_pos, he, hc, if_true]

/-- `charRefs` of one character -/
def encR (c : Char) : List Char :=
  if c.toNat < 128 then [c] else "&#".toList ++ Nat.toDigits 10 c.toNat ++ ";".toList

theorem toDigits_digit {n : Nat} {c : Char} (h : c ∈ Nat.toDigits 10 n) : c.isDigit = true :=
  Nat.isDigit_of_mem_toDigits (by decide) (by decide) h

theorem digit_plain {c : Char} (h : c.isDigit = true) : isXmlChar c = true ∧ c ≠ ';' := by
  refine ⟨nameChar_xml (by simp [isNameChar, h]), ?_⟩
  rintro rfl
  revert h; decide

theorem reference_number {l : List Char} (hl : ∀ c ∈ l, c.isDigit = true) (hne : l ≠ []) :
    reference ('#' :: l) = (number 10 l).bind charOf := by
  cases l with
  | nil => exact absurd rfl hne
  | cons c l =>
    have : c ≠ 'x' := by rintro rfl; have := hl 'x' (by simp); revert this; decide
    simp only [reference, List.cons.injEq, Char.reduceEq, false_and, if_false]
    split
    · next h => simp only [List.cons.injEq] at h; exact absurd h.2.1 this
    · next h => simp only [List.cons.injEq, true_and] at h; rw [← h]
    · next h1 h2 => exact absurd rfl (h2 _)

theorem run_encR {c : Char} (hc : isXmlChar c = true) (h : ¬ c.toNat < 128) (t as n st d v) :
    run ⟨.value t as n '"' v, st, d⟩ (encR c) = some ⟨.value t as n '"' (c :: v), st, d⟩ := by
  have hd : ∀ x ∈ Nat.toDigits 10 c.toNat, x.isDigit = true := fun x hx => toDigits_digit hx
  have hne : Nat.toDigits 10 c.toNat ≠ [] := Nat.toDigits_ne_nil
  simp only [encR, h, if_false]
  have := run_reference ('#' :: Nat.toDigits 10 c.toNat)
    (by
      intro x hx
      rcases List.mem_cons.mp hx with rfl | hx
      · decide
      · exact digit_plain (hd x hx)) c
    (by rw [reference_number hd hne, number_digits _ hd hne,
          Nat.ofDigitChars_toDigits (by decide) (by decide), Option.bind_some, charOf_toNat hc])
    t as n st d v
  rw [← this]
  congr 1

theorem charRefs_flatMap {α : Type} (f : α → List Char) (l : List α) :
    charRefs (l.flatMap f) = l.flatMap fun c => charRefs (f c) := by
  simp [charRefs, List.flatMap_assoc]

theorem charRefs_append (a b : List Char) : charRefs (a ++ b) = charRefs a ++ charRefs b := by
  simp [charRefs]

theorem charRefs_ascii {l : List Char} (h : ∀ c ∈ l, c.toNat < 128) : charRefs l = l := by
  induction l with
  | nil => rfl
  | cons c l ih =>
    have e : charRefs (c :: l) = encR c ++ charRefs l := rfl
    rw [e, ih (fun x hx => h x (by simp [hx])), encR, if_pos (h c (by simp))]
    rfl

/-- Escaping and then replacing what is not ASCII. -/
def escR (c : Char) : List Char := charRefs (escA c)

theorem reads_escR : ReadsAs escR id := by
  intro c hc t as n st d v
  by_cases h : c.toNat < 128
  · have : escR c = escA c := by
      apply charRefs_ascii
      intro x hx
      unfold escA at hx
      split at hx
      · revert x; decide
      split at hx
      · revert x; decide
      split at hx
      · revert x; decide
      split at hx
      · revert x; decide
      split at hx
      · revert x; decide
      split at hx
      · revert x; decide
      split at hx
      · revert x; decide
      simp only [List.mem_singleton] at hx
      rw [hx]; exact h
    rw [this]
    exact reads_escA c hc t as n st d v
  · have ne : ∀ x : Char, x.toNat < 128 → c ≠ x := by rintro x hx rfl; exact h hx
    have : escR c = encR c := by
      simp only [escR, escA, ne '&' (by decide), ne '<' (by decide), ne '>' (by decide), ne '"' (by decide),
        ne '\r' (by decide), ne '\n' (by decide), ne '\t' (by decide), if_false]
      simp [charRefs, encR]
    rw [this]
    exact run_encR hc h t as n st d v

end Pyodrx
