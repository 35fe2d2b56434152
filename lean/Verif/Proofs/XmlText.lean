import Verif.Model.Write
import Verif.Spec.XmlText

/-! # Reading what was written -/

namespace Pyodrx
open XmlParser Spec

theorem Node.induct {P : Node → Prop}
    (h : ∀ t as cs, (∀ c ∈ cs, P c) → P (.elem t as cs)) : ∀ n, P n
  | .elem t as cs => h t as cs fun c _ => Node.induct h c

theorem run_append (a b : List Char) : ∀ s, run s (a ++ b) = (run s a).bind fun s' => run s' b := by
  induction a with
  | nil => intro s; rfl
  | cons c a ih =>
    intro s
    simp only [List.cons_append, run]
    cases step s c with
    | none => rfl
    | some s' => exact ih s'

theorem run_append_of {s s' : State} {a : List Char} (h : run s a = some s') (b : List Char) :
    run s (a ++ b) = run s' b := by rw [run_append, h]; rfl

theorem run_cons_of {s s' : State} {c : Char} (h : step s c = some s') (b : List Char) :
    run s (c :: b) = run s' b := by simp [run, h]

theorem le_space {c : Char} (h : ' ' ≤ c) (h' : c.toNat < 128) : isXmlChar c = true := by
  have h1 : c ≠ '\uFFFE' := by rintro rfl; simp at h'
  have h2 : c ≠ '\uFFFF' := by rintro rfl; simp at h'
  simp [isXmlChar, h, h1, h2]

theorem nameChar_ascii {c : Char} (h : isNameChar c = true) : ' ' ≤ c ∧ c.toNat < 128 := by
  simp only [isNameChar, isNameStart, Char.isAlpha, Char.isUpper, Char.isLower, Char.isDigit,
    Bool.or_eq_true, Bool.and_eq_true, decide_eq_true_eq] at h
  simp only [Char.le_def, UInt32.le_iff_toNat_le, ge_iff_le] at *
  rcases h with (((((⟨h1, h2⟩ | ⟨h1, h2⟩) | rfl) | rfl) | ⟨h1, h2⟩) | rfl) | rfl
  · have h1 : 65 ≤ c.val.toNat := h1
    have h2 : c.val.toNat ≤ 90 := h2
    exact ⟨show 32 ≤ c.val.toNat by omega, show c.val.toNat < 128 by omega⟩
  · have h1 : 97 ≤ c.val.toNat := h1
    have h2 : c.val.toNat ≤ 122 := h2
    exact ⟨show 32 ≤ c.val.toNat by omega, show c.val.toNat < 128 by omega⟩
  · decide
  · decide
  · have h1 : 48 ≤ c.val.toNat := h1
    have h2 : c.val.toNat ≤ 57 := h2
    exact ⟨show 32 ≤ c.val.toNat by omega, show c.val.toNat < 128 by omega⟩
  · decide
  · decide

theorem nameStart_nameChar {c : Char} (h : isNameStart c = true) : isNameChar c = true := by
  simp [isNameChar, h]

theorem nameChar_xml {c : Char} (h : isNameChar c = true) : isXmlChar c = true :=
  le_space (nameChar_ascii h).1 (nameChar_ascii h).2
theorem space_not_name {c : Char} (h : isSpace c = true) : isNameChar c = false := by
  simp only [isSpace, Bool.or_eq_true, decide_eq_true_eq] at h
  rcases h with ((rfl | rfl) | rfl) | rfl <;> decide

/-! ## Tags -/

theorem run_tag (l : List Char) (hl : ∀ c ∈ l, isNameChar c = true) (st d) : ∀ n,
    run ⟨.tag n, st, d⟩ l = some ⟨.tag (l.reverse ++ n), st, d⟩ := by
  induction l with
  | nil => intro n; rfl
  | cons c l ih =>
    intro n
    have hc := hl c (by simp)
    rw [run_cons_of (s' := ⟨.tag (c :: n), st, d⟩) (by simp [step, nameChar_xml hc, hc]),
      ih (fun x hx => hl x (by simp [hx]))]
    simp

theorem run_attrName (l : List Char) (hl : ∀ c ∈ l, isNameChar c = true) (t as st d) : ∀ n,
    run ⟨.attrName t as n, st, d⟩ l = some ⟨.attrName t as (l.reverse ++ n), st, d⟩ := by
  induction l with
  | nil => intro n; rfl
  | cons c l ih =>
    intro n
    have hc := hl c (by simp)
    rw [run_cons_of (s' := ⟨.attrName t as (c :: n), st, d⟩) (by simp [step, nameChar_xml hc, hc]),
      ih (fun x hx => hl x (by simp [hx]))]
    simp

theorem run_close (l : List Char) (hl : ∀ c ∈ l, isNameChar c = true) (st d) : ∀ n, n ≠ [] →
    run ⟨.close n false, st, d⟩ l = some ⟨.close (l.reverse ++ n) false, st, d⟩ := by
  induction l with
  | nil => intro n _; rfl
  | cons c l ih =>
    intro n hn
    have hc := hl c (by simp)
    have h1 : c ≠ '>' := by rintro rfl; revert hc; decide
    have h2 : isSpace c = false := by
      cases h : isSpace c with
      | false => rfl
      | true => rw [space_not_name h] at hc; cases hc
    rw [run_cons_of (s' := ⟨.close (c :: n) false, st, d⟩)
      (by simp [step, nameChar_xml hc, hc, h1, h2, hn]), ih (fun x hx => hl x (by simp [hx])) _ (by simp)]
    simp

theorem isName_split {s : String} (h : isName s = true) : ∃ c l, s.toList = c :: l ∧
    isNameStart c = true ∧ ∀ x ∈ l, isNameChar x = true := by
  unfold isName at h
  cases hs : s.toList with
  | nil => rw [hs] at h; cases h
  | cons c l =>
    rw [hs] at h
    simp only [Bool.and_eq_true, List.all_eq_true] at h
    exact ⟨c, l, rfl, h.1, h.2⟩

theorem isName_chars {s : String} (h : isName s = true) : ∀ c ∈ s.toList, isNameChar c = true := by
  obtain ⟨c, l, h1, h2, h3⟩ := isName_split h
  rw [h1]
  intro x hx
  rcases List.mem_cons.mp hx with rfl | hx
  · exact nameStart_nameChar h2
  · exact h3 x hx

theorem ofList_toList (s : String) : String.ofList s.toList = s := by simp

/-- Behind the name of a start tag or behind an attribute. -/
def InTag (t : String) (as : List (String × String)) (m : Mode) : Prop :=
  m = .attrs t as false ∨ (as = [] ∧ m = .tag t.toList.reverse)

theorem run_open {t : String} (ht : isName t = true) (st d) :
    run ⟨.content, st, d⟩ ("<".toList ++ t.toList) = some ⟨.tag t.toList.reverse, st, d⟩ := by
  obtain ⟨c, l, h1, h2, h3⟩ := isName_split ht
  have hx := nameChar_xml (nameStart_nameChar h2)
  have e1 : c ≠ '/' := by rintro rfl; revert h2; decide
  have e2 : c ≠ '?' := by rintro rfl; revert h2; decide
  have e0 : "<".toList = ['<'] := rfl
  have e3 : isXmlChar '<' = true := by decide
  rw [h1, e0, List.singleton_append, run_cons_of (s' := ⟨.open, st, d⟩) (by simp [step, e3]),
    run_cons_of (s' := ⟨.tag [c], st, d⟩) (by simp [step, hx, h2, e1, e2]), run_tag l h3]
  simp

/-- The closing of a start tag. -/
theorem run_gt {t : String} {as m} (hm : InTag t as m) (st d) :
    run ⟨m, st, d⟩ ">".toList = some ⟨.content, (t, as, d) :: st, []⟩ := by
  have e0 : ">".toList = ['>'] := rfl
  have e1 : isXmlChar '>' = true := by decide
  have e2 : isNameChar '>' = false := by decide
  have e3 : isSpace '>' = false := by decide
  rcases hm with rfl | ⟨rfl, rfl⟩ <;> simp [e0, run, step, e1, e2, e3, State.start]

theorem run_slash {t : String} {as m} (hm : InTag t as m) (st d) :
    run ⟨m, st, d⟩ "/>".toList = some ⟨.content, st, .elem t as [] :: d⟩ := by
  have e0 : "/>".toList = ['/', '>'] := rfl
  have e1 : isXmlChar '>' = true := by decide
  have e2 : isNameChar '/' = false := by decide
  have e3 : isSpace '/' = false := by decide
  have e4 : isXmlChar '/' = true := by decide
  rcases hm with rfl | ⟨rfl, rfl⟩ <;> simp [e0, run, step, e1, e2, e3, e4, State.empty]

theorem run_space_slash {t : String} {as m} (hm : InTag t as m) (st d) :
    run ⟨m, st, d⟩ " />".toList = some ⟨.content, st, .elem t as [] :: d⟩ := by
  have e0 : " />".toList = [' ', '/', '>'] := rfl
  have e1 : isXmlChar '>' = true := by decide
  have e2 : isNameChar ' ' = false := by decide
  have e3 : isSpace '/' = false := by decide
  have e4 : isXmlChar '/' = true := by decide
  have e5 : isSpace ' ' = true := by decide
  have e6 : isXmlChar ' ' = true := by decide
  rcases hm with rfl | ⟨rfl, rfl⟩ <;> simp [e0, run, step, e1, e2, e3, e4, e5, e6, State.empty]

theorem run_end {t : String} (ht : isName t = true) (as prev st d) :
    run ⟨.content, (t, as, prev) :: st, d⟩ ("</".toList ++ t.toList ++ ">".toList) =
      some ⟨.content, st, .elem t as d.reverse :: prev⟩ := by
  obtain ⟨c, l, h1, h2, h3⟩ := isName_split ht
  have hx := nameChar_xml (nameStart_nameChar h2)
  have e0 : "</".toList = ['<', '/'] := rfl
  have e1 : isXmlChar '<' = true := by decide
  have e2 : isXmlChar '/' = true := by decide
  have e3 : c ≠ '>' := by rintro rfl; revert h2; decide
  have e4 : isSpace c = false := by
    cases h : isSpace c with
    | false => rfl
    | true => have := nameStart_nameChar h2; rw [space_not_name h] at this; cases this
  have e5 : ">".toList = ['>'] := rfl
  have e6 : isXmlChar '>' = true := by decide
  rw [h1, e0, List.append_assoc]
  rw [show ['<', '/'] ++ (c :: l ++ ">".toList) = '<' :: '/' :: c :: (l ++ ">".toList) from rfl]
  rw [run_cons_of (s' := ⟨.open, (t, as, prev) :: st, d⟩) (by simp [step, e1]),
    run_cons_of (s' := ⟨.close [] false, (t, as, prev) :: st, d⟩) (by simp [step, e2]),
    run_cons_of (s' := ⟨.close [c] false, (t, as, prev) :: st, d⟩) (by simp [step, hx, h2, e3, e4]),
    run_append_of (run_close l h3 _ _ [c] (by simp)), e5,
    run_cons_of (s' := ⟨.content, st, .elem t as d.reverse :: prev⟩)]
  · rfl
  · have : String.ofList (l.reverse ++ [c]).reverse = t := by
      rw [List.reverse_append, List.reverse_reverse, List.reverse_singleton, List.singleton_append, ← h1,
        ofList_toList]
    simp only [step, e6, State.end, this]
    simp

/-! ## Values -/

/-- Each character, escaped by `enc`, is read as `norm c`. -/
def ReadsAs (enc : Char → List Char) (norm : Char → Char) : Prop :=
  ∀ c, isXmlChar c = true → ∀ t as n st d v,
    run ⟨.value t as n '"' v, st, d⟩ (enc c) = some ⟨.value t as n '"' (norm c :: v), st, d⟩

theorem run_value {enc norm} (h : ReadsAs enc norm) (t as n st d) (l : List Char)
    (hl : ∀ c ∈ l, isXmlChar c = true) : ∀ v,
    run ⟨.value t as n '"' v, st, d⟩ (l.flatMap enc) =
      some ⟨.value t as n '"' ((l.map norm).reverse ++ v), st, d⟩ := by
  induction l with
  | nil => intro v; rfl
  | cons c l ih =>
    intro v
    rw [List.flatMap_cons, run_append_of (h c (hl c (by simp)) t as n st d v),
      ih (fun x hx => hl x (by simp [hx]))]
    simp

theorem run_attr {enc norm} (h : ReadsAs enc norm) {t : String} {as m} (hm : InTag t as m) (st d)
    (k v : String) (hk : isName k = true) (hn : k ∉ as.map Prod.fst)
    (hv : ∀ c ∈ v.toList, isXmlChar c = true) :
    run ⟨m, st, d⟩ (" ".toList ++ k.toList ++ "=\"".toList ++ v.toList.flatMap enc ++ "\"".toList) =
      some ⟨.attrs t (as ++ [(k, String.ofList (v.toList.map norm))]) false, st, d⟩ := by
  obtain ⟨c, l, h1, h2, h3⟩ := isName_split hk
  have hx := nameChar_xml (nameStart_nameChar h2)
  have e0 : " ".toList = [' '] := rfl
  have e1 : isXmlChar ' ' = true := by decide
  have e2 : isNameChar ' ' = false := by decide
  have e3 : isSpace ' ' = true := by decide
  have e4 : isSpace c = false := by
    cases h : isSpace c with
    | false => rfl
    | true => have := nameStart_nameChar h2; rw [space_not_name h] at this; cases this
  have e5 : c ≠ '>' := by rintro rfl; revert h2; decide
  have e6 : c ≠ '/' := by rintro rfl; revert h2; decide
  have q0 : "=\"".toList = ['=', '"'] := rfl
  have q1 : isXmlChar '=' = true := by decide
  have q2 : isXmlChar '"' = true := by decide
  have q3 : isNameChar '=' = false := by decide
  have q4 : "\"".toList = ['"'] := rfl
  have s1 : step ⟨m, st, d⟩ ' ' = some ⟨.attrs t as true, st, d⟩ := by
    rcases hm with rfl | ⟨rfl, rfl⟩ <;> simp [step, e1, e2, e3]
  have hname : String.ofList (l.reverse ++ [c]).reverse = k := by
    rw [List.reverse_append, List.reverse_reverse, List.reverse_singleton, List.singleton_append, ← h1,
      ofList_toList]
  rw [h1, e0, q0, q4]
  simp only [List.append_assoc, List.cons_append, List.nil_append]
  rw [run_cons_of s1, run_cons_of (s' := ⟨.attrName t as [c], st, d⟩) (by simp [step, hx, h2, e4, e5, e6]),
    run_append_of (run_attrName l h3 t as st d [c]),
    run_cons_of (s' := ⟨.equals t as k, st, d⟩) (by
      simp only [step, q1, q3, hname]
      simp [hn] at *),
    run_cons_of (s' := ⟨.value t as k '"' [], st, d⟩) (by simp [step, q2]),
    run_append_of (run_value h t as k st d v.toList hv []),
    run_cons_of (s' := ⟨.attrs t (as ++ [(k, String.ofList (v.toList.map norm))]) false, st, d⟩)
      (by simp [step, q2])]
  rfl

/-- The attributes, each value escaped character by character. -/
theorem run_attrs {enc norm} (h : ReadsAs enc norm) {t : String} (st d) :
    ∀ (bs as : List (String × String)) (m : Mode), InTag t as m → (∀ p ∈ bs, isName p.1 = true) →
      ((as ++ bs).map Prod.fst).Nodup → (∀ p ∈ bs, ∀ c ∈ p.2.toList, isXmlChar c = true) →
      ∃ m', InTag t (as ++ bs.map fun p => (p.1, String.ofList (p.2.toList.map norm))) m' ∧
        run ⟨m, st, d⟩ (writeAttrs (fun v => v.flatMap enc) bs) = some ⟨m', st, d⟩ := by
  intro bs
  induction bs with
  | nil => intro as m hm _ _ _; exact ⟨m, by simpa using hm, rfl⟩
  | cons p bs ih =>
    intro as m hm hn hd hv
    have hk : p.1 ∉ as.map Prod.fst := by
      intro hmem
      rw [List.map_append, List.map_cons] at hd
      exact (List.nodup_append.mp hd).2.2 _ hmem _ (by simp) rfl
    have r := run_attr h hm st d p.1 p.2 (hn p (by simp)) hk (hv p (by simp))
    obtain ⟨m', i1, i2⟩ := ih (as ++ [(p.1, String.ofList (p.2.toList.map norm))]) _ (.inl rfl)
      (fun q hq => hn q (by simp [hq])) (by simpa using hd) (fun q hq => hv q (by simp [hq]))
    refine ⟨m', by simpa using i1, ?_⟩
    rw [writeAttrs, List.flatMap_cons, run_append_of r]
    exact i2

end Pyodrx
