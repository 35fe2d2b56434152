import Verif.Spec.File
import Verif.Proofs.XmlPretty
import Mathlib.Tactic.SplitIfs

/-! # Reading incomplete files -/

namespace Pyodrx
open Spec XmlParser

/-- The elements outside of all others that the reader has completed. -/
def rootsOf (s : State) : List Node :=
  match s.stack.getLast? with
  | none => s.done
  | some (_, _, prev) => prev

/-- What one character does to the elements. -/
theorem step_cases {s s' : State} {c : Char} (h : step s c = some s') :
    (s'.stack = s.stack ∧ s'.done = s.done ∧
      (s'.mode = .content → (c = '>' ∧ s.mode = .skip true) ∨ s' = s) ∧
      (s'.mode = .skip true → c = '?')) ∨
    c = '>' ∧ ((∃ t as, s' = s.start t as) ∨ (∃ t as, s' = s.empty t as) ∨ ∃ t, s.end t = some s') := by
  unfold step at h
  split at h
  · cases h
  obtain ⟨m, st, d⟩ := s
  cases m <;> simp only at h
  case content =>
    split_ifs at h <;> cases h <;> left <;> simp
  case «open» =>
    split_ifs at h <;> cases h <;> left <;> simp
  case skip q =>
    split_ifs at h with h1 <;> cases h <;> left
    · simp only [Bool.and_eq_true, decide_eq_true_eq] at h1
      simp [h1.1, h1.2]
    · refine ⟨rfl, rfl, by simp, ?_⟩
      intro e
      simpa using e
  case tag n =>
    split_ifs at h with _ _ hc <;> cases h
    · left; simp
    · left; simp
    · right; exact ⟨hc, .inl ⟨_, _, rfl⟩⟩
    · left; simp
  case attrs t as sep =>
    split_ifs at h with _ hc <;> cases h
    · left; simp
    · right; exact ⟨hc, .inl ⟨_, _, rfl⟩⟩
    · left; simp
    · left; simp
  case attrName t as n =>
    split_ifs at h <;> cases h <;> left <;> simp
  case equals t as n =>
    split_ifs at h <;> cases h <;> left <;> simp
  case value t as n q v =>
    split_ifs at h <;> cases h <;> left <;> simp
  case ref t as n q v r =>
    split_ifs at h
    · rw [Option.map_eq_some_iff] at h
      obtain ⟨x, -, rfl⟩ := h
      left; simp
    · cases h; left; simp
  case slash t as =>
    split_ifs at h with hc
    cases h
    right; exact ⟨hc, .inr (.inl ⟨_, _, rfl⟩)⟩
  case close n dn =>
    split_ifs at h with hc
    all_goals first
      | (right; exact ⟨hc, .inr (.inr ⟨_, h⟩)⟩)
      | (cases h; left; simp)

theorem roots_step {s s' : State} {c : Char} (h : step s c = some s') : rootsOf s <:+ rootsOf s' := by
  rcases step_cases h with ⟨h1, h2, -, -⟩ | ⟨-, ⟨t, as, rfl⟩ | ⟨t, as, rfl⟩ | ⟨t, h⟩⟩
  · unfold rootsOf; rw [h1, h2]; exact List.suffix_rfl
  · unfold rootsOf State.start
    simp only [List.getLast?_cons]
    cases hs : s.stack.getLast? <;> simp
  · unfold rootsOf State.empty
    simp only
    cases hs : s.stack.getLast? <;> simp
  · unfold State.end at h
    obtain ⟨m, st, d⟩ := s
    cases st with
    | nil => cases h
    | cons f st =>
      obtain ⟨t', as, prev⟩ := f
      simp only at h
      split_ifs at h
      cases h
      unfold rootsOf
      simp only [List.getLast?_cons]
      cases hs : st.getLast? <;> simp

theorem roots_run {l : List Char} : ∀ {s s' : State}, run s l = some s' → rootsOf s <:+ rootsOf s' := by
  induction l with
  | nil => intro s s' h; cases h; exact List.suffix_rfl
  | cons c l ih =>
    intro s s' h
    unfold run at h
    rw [Option.bind_eq_some_iff] at h
    obtain ⟨s1, h1, h2⟩ := h
    exact (roots_step h1).trans (ih h2)

/-- An element that is closed by the last character was not complete before. -/
theorem complete_last {s : State} {m : List Char} {x : Char} {a : List Char} {n n' : Node}
    (ha : a = m ++ [x]) (hx : x ≠ '?') (p r : List Char) (hp : a = p ++ r)
    (h1 : run s p = some ⟨.content, [], [n]⟩) (h2 : run s (a ++ ['>']) = some ⟨.content, [], [n']⟩) : False := by
  rw [run_append] at h2
  rw [Option.bind_eq_some_iff] at h2
  obtain ⟨s1, h3, h4⟩ := h2
  have hr : [n] <:+ rootsOf s1 := by
    rw [hp, run_append, h1, Option.bind_some] at h3
    exact roots_run h3
  have h5 : step s1 '>' = some ⟨.content, [], [n']⟩ := by
    unfold run at h4
    rw [Option.bind_eq_some_iff] at h4
    obtain ⟨s2, h5, h6⟩ := h4
    cases h6
    exact h5
  rcases step_cases h5 with ⟨e1, e2, e3, -⟩ | ⟨-, ⟨t, as, e⟩ | ⟨t, as, e⟩ | ⟨t, e⟩⟩
  · rcases e3 rfl with ⟨-, e⟩ | e
    · -- `?>`
      rw [ha, run_append, Option.bind_eq_some_iff] at h3
      obtain ⟨s0, -, h7⟩ := h3
      unfold run at h7
      rw [Option.bind_eq_some_iff] at h7
      obtain ⟨s2, h8, h9⟩ := h7
      cases h9
      rcases step_cases h8 with ⟨-, -, -, e4⟩ | ⟨-, ⟨t, as, e'⟩ | ⟨t, as, e'⟩ | ⟨t, e'⟩⟩
      · exact hx (e4 e)
      · rw [e'] at e; cases e
      · rw [e'] at e; cases e
      · unfold State.end at e'
        split at e'
        · split_ifs at e'
          cases e'
          cases e
        · cases e'
    · subst e
      unfold step at h5
      simp [isXmlChar, isSpace] at h5
  · unfold State.start at e
    cases e
  · unfold State.empty at e
    obtain ⟨m1, st, d⟩ := s1
    simp only [State.mk.injEq, List.cons.injEq] at e
    obtain ⟨-, e1, -, e2⟩ := e
    subst e1 e2
    simp [rootsOf] at hr
  · unfold State.end at e
    obtain ⟨m1, st, d⟩ := s1
    cases st with
    | nil => cases e
    | cons f st =>
      obtain ⟨t', as, prev⟩ := f
      simp only at e
      split_ifs at e
      simp only [Option.some.injEq, State.mk.injEq, List.cons.injEq] at e
      obtain ⟨-, e1, -, e2⟩ := e
      subst e1 e2
      simp [rootsOf] at hr

/-! ## Line breaks -/

theorem eol_append_one {x : Char} (h1 : x ≠ '\r') (h2 : x ≠ '\n') (l : List Char) :
    ∀ n, l.length ≤ n → eol (l ++ [x]) = eol l ++ [x] := by
  have h0 : eol [x] = [x] := eol_cons h1 []
  have h0' : eol ['\r', x] = ['\n', x] := by rw [eol_cr_cons h2, h0]
  intro n
  induction n generalizing l with
  | zero => intro h; have : l = [] := List.length_eq_zero_iff.mp (by omega); subst this; exact h0
  | succ n ih =>
    intro h
    match l with
    | [] => exact h0
    | c :: l =>
      by_cases hc : c = '\r'
      · subst hc
        cases l with
        | nil => exact h0'
        | cons y l =>
          by_cases hy : y = '\n'
          · subst hy
            simp only [List.cons_append]
            rw [eol_crlf, eol_crlf, ih l (by simp at h; omega)]; rfl
          · have := ih (y :: l) (by simp at h ⊢; omega)
            simp only [List.cons_append] at this ⊢
            rw [eol_cr_cons hy, eol_cr_cons hy, this]; rfl
      · simp only [List.cons_append]
        rw [eol_cons hc, eol_cons hc, ih l (by simp at h; omega)]; rfl

/-- What is read of a beginning of a text is a beginning of what is read of it. -/
theorem eol_isPrefix (p : List Char) : ∀ n, p.length ≤ n → ∀ q, eol p <+: eol (p ++ q) := by
  intro n
  induction n generalizing p with
  | zero => intro h q; have : p = [] := List.length_eq_zero_iff.mp (by omega); subst this; exact List.nil_prefix
  | succ n ih =>
    intro h q
    match p with
    | [] => exact List.nil_prefix
    | c :: l =>
      by_cases hc : c = '\r'
      · subst hc
        cases l with
        | nil =>
          cases q with
          | nil => exact List.prefix_rfl
          | cons y q =>
            by_cases hy : y = '\n'
            · subst hy
              simp only [List.cons_append, List.nil_append]
              rw [eol_crlf]
              exact ⟨eol q, rfl⟩
            · simp only [List.cons_append, List.nil_append]
              rw [eol_cr_cons hy]
              exact ⟨eol (y :: q), rfl⟩
        | cons y l =>
          by_cases hy : y = '\n'
          · subst hy
            simp only [List.cons_append]
            rw [eol_crlf, eol_crlf]
            exact List.cons_prefix_cons.mpr ⟨rfl, ih l (by simp at h; omega) q⟩
          · simp only [List.cons_append]
            rw [eol_cr_cons hy, eol_cr_cons hy]
            exact List.cons_prefix_cons.mpr ⟨rfl, ih (y :: l) (by simp at h ⊢; omega) q⟩
      · simp only [List.cons_append]
        rw [eol_cons hc, eol_cons hc]
        exact List.cons_prefix_cons.mpr ⟨rfl, ih l (by simp at h; omega) q⟩

/-- No text that ends with an end tag can be read before its last character is there. -/
theorem parse_incomplete {body m : List Char} {x : Char} {n' : Node} (hb : eol body = m ++ [x] ++ ['>']) (hx : x ≠ '?')
    (hrun : run ⟨.content, [], []⟩ (eol body) = some ⟨.content, [], [n']⟩) (p q : List Char)
    (hp : body = p ++ q ++ ['>']) : parse p = none := by
  cases hpp : parse p with
  | none => rfl
  | some n =>
    exfalso
    unfold parse at hpp
    rw [Option.bind_eq_some_iff] at hpp
    obtain ⟨s, h1, h2⟩ := hpp
    have hs : s = ⟨.content, [], [n]⟩ := by
      split at h2
      · cases h2; rfl
      · cases h2
    subst hs
    have e : eol body = eol (p ++ q) ++ ['>'] := by rw [hp]; exact eol_append_one (by decide) (by decide) _ _ (Nat.le_refl _)
    obtain ⟨r, hr⟩ := eol_isPrefix p _ (Nat.le_refl _) q
    have ea : eol (p ++ q) = m ++ [x] := by
      rw [hb] at e
      exact (List.append_inj_left' e rfl).symm
    refine complete_last (n' := n') (a := m ++ [x]) rfl hx (eol p) r (by rw [hr, ea]) h1 ?_
    rw [← hb]; exact hrun

/-- Behind the last tag only white space follows: what is read then was there before. -/
theorem run_space_back {s : State} {n : Node} {c : Char} (hc : c ≠ '>') (h : step s c = some ⟨.content, [], [n]⟩) :
    s = ⟨.content, [], [n]⟩ := by
  rcases step_cases h with ⟨-, -, e3, -⟩ | ⟨e, -⟩
  · rcases e3 rfl with ⟨e, -⟩ | e
    · exact absurd e hc
    · exact e.symm
  · exact absurd e hc

theorem parse_some {t : List Char} {n : Node} : parse t = some n ↔ run ⟨.content, [], []⟩ (eol t) = some ⟨.content, [], [n]⟩ := by
  unfold parse
  rw [Option.bind_eq_some_iff]
  constructor
  · rintro ⟨s, h1, h2⟩
    rw [h1]
    split at h2
    · cases h2; rfl
    · cases h2
  · intro h; exact ⟨_, h, rfl⟩

theorem eol_tail (l : List Char) {x : Char} (h1 : x ≠ '\r') (h2 : x ≠ '\n') (t : List Char) :
    eol (l ++ [x] ++ t) = eol (l ++ [x]) ++ eol t := by
  suffices ∀ n l, l.length ≤ n → eol (l ++ [x] ++ t) = eol l ++ x :: eol t by
    rw [this _ l (Nat.le_refl _), eol_append_one h1 h2 _ _ (Nat.le_refl _)]; simp
  intro n
  induction n with
  | zero =>
    intro l h; have : l = [] := List.length_eq_zero_iff.mp (by omega)
    subst this; simp only [List.nil_append, List.cons_append]; rw [eol_cons h1]; rfl
  | succ n ih =>
    intro l h
    match l with
    | [] => simp only [List.nil_append, List.cons_append]; rw [eol_cons h1]; rfl
    | c :: l =>
      by_cases hc : c = '\r'
      · subst hc
        cases l with
        | nil =>
          simp only [List.cons_append, List.nil_append]
          rw [eol_cr_cons h2, eol_cons h1]; rfl
        | cons y l =>
          by_cases hy : y = '\n'
          · subst hy
            simp only [List.cons_append]
            rw [eol_crlf, eol_crlf]
            have := ih l (by simp at h; omega)
            rw [this]
            rfl
          · have := ih (y :: l) (by simp at h ⊢; omega)
            simp only [List.cons_append] at this ⊢
            rw [eol_cr_cons hy, eol_cr_cons hy, this]
            rfl
      · have := ih l (by simp at h; omega)
        simp only [List.cons_append] at this ⊢
        rw [eol_cons hc, eol_cons hc, this]
        rfl

/-- A text that is closed by an end tag (and perhaps one line break behind it) is read completely or not at all. -/
theorem parse_prefix {l : List Char} {x : Char} {tail : List Char} {n : Node} (h1 : x ≠ '\r') (h2 : x ≠ '\n') (hx : x ≠ '?')
    (ht : tail = [] ∨ tail = ['\n'] ∨ tail = ['\r', '\n']) (hp : parse (l ++ [x] ++ ['>'] ++ tail) = some n)
    (p q : List Char) (h : p ++ q = l ++ [x] ++ ['>'] ++ tail) :
    parse p = none ∨ parse p = some n := by
  have hb : parse (l ++ [x] ++ ['>']) = some n := by
    rw [parse_some, eol_tail _ (by decide) (by decide), run_append, Option.bind_eq_some_iff] at hp
    obtain ⟨s, hs, hr⟩ := hp
    rw [parse_some, hs]
    have : eol tail = [] ∨ eol tail = ['\n'] := by
      rcases ht with rfl | rfl | rfl
      · exact .inl rfl
      · exact .inr rfl
      · exact .inr rfl
    rcases this with e | e
    · rw [e] at hr; exact hr
    · rw [e] at hr
      unfold run at hr
      rw [Option.bind_eq_some_iff] at hr
      obtain ⟨s2, h5, h6⟩ := hr
      cases h6
      exact congrArg some (run_space_back (by decide) h5)
  have hrun := parse_some.mp hb
  by_cases hlen : p.length < (l ++ [x] ++ ['>']).length
  · left
    have hp1 : p <+: l ++ [x] := by
      have a1 : p <+: l ++ [x] ++ ['>'] ++ tail := ⟨q, h⟩
      have a2 : l ++ [x] <+: l ++ [x] ++ ['>'] ++ tail := by
        rw [List.append_assoc (l ++ [x])]; exact List.prefix_append _ _
      refine List.prefix_of_prefix_length_le a1 a2 ?_
      simp only [List.length_append, List.length_cons, List.length_nil] at hlen ⊢
      omega
    obtain ⟨r, hr⟩ := hp1
    refine parse_incomplete (m := eol l) (x := x) (n' := n) ?_ hx hrun p r (by rw [hr])
    rw [eol_append_one (by decide) (by decide) _ _ (Nat.le_refl _), eol_append_one h1 h2 _ _ (Nat.le_refl _)]
  · right
    have a1 : p <+: l ++ [x] ++ ['>'] ++ tail := ⟨q, h⟩
    have a2 : l ++ [x] ++ ['>'] <+: p :=
      List.prefix_of_prefix_length_le (List.prefix_append _ _) a1 (by omega)
    obtain ⟨r, hr⟩ := a2
    subst hr
    rw [List.append_assoc, List.append_assoc] at h
    have h' : r ++ q = tail := by simpa using h
    have hr : eol r = [] ∨ eol r = ['\n'] := by
      rcases ht with rfl | rfl | rfl
      · have : r = [] := (List.append_eq_nil_iff.mp h').1
        subst this; exact .inl rfl
      · cases r with
        | nil => exact .inl rfl
        | cons c r =>
          simp only [List.cons_append, List.cons.injEq, List.append_eq_nil_iff] at h'
          obtain ⟨rfl, rfl, -⟩ := h'
          exact .inr rfl
      · cases r with
        | nil => exact .inl rfl
        | cons c r =>
          simp only [List.cons_append, List.cons.injEq] at h'
          obtain ⟨rfl, h'⟩ := h'
          cases r with
          | nil => exact .inr rfl
          | cons c r =>
            simp only [List.cons_append, List.cons.injEq, List.append_eq_nil_iff] at h'
            obtain ⟨rfl, rfl, -⟩ := h'
            exact .inr rfl
    rw [parse_some, eol_tail _ (by decide) (by decide), run_append, hrun, Option.bind_some]
    rcases hr with e | e
    · rw [e]; rfl
    · rw [e]; exact run_spaces _ (by decide) _ _

/-! ## Bytes -/

theorem bytesOf_utf8 (l : List Char) : bytesOf (l.flatMap String.utf8EncodeChar) = l.utf8Encode := rfl

theorem textOfFile_utf8 (l : List Char) : textOfFile l.utf8Encode = some l := by
  simp [textOfFile]

/-- The text in an incomplete file is the beginning of the text in the complete one. -/
theorem textOfFile_prefix {l : List Char} {a b : List UInt8} (h : a ++ b = l.flatMap String.utf8EncodeChar) :
    textOfFile (bytesOf a) = none ∨ ∃ p q, p ++ q = l ∧ textOfFile (bytesOf a) = some p := by
  cases hd : (bytesOf a).utf8Decode? with
  | none => left; simp [textOfFile, hd]
  | some p =>
    right
    have hs : (bytesOf a).utf8Decode?.isSome := by rw [hd]; rfl
    have he : p.toList.utf8Encode = bytesOf a := by
      have := ByteArray.utf8Encode_get_utf8Decode? (b := bytesOf a) (h := hs)
      simpa [hd] using this
    have : p.toList <+: l := by
      refine List.isPrefix_of_utf8Encode_append_eq_utf8Encode (bytesOf b) ?_
      rw [he, ← bytesOf_utf8, ← h]
      simp [bytesOf]
    obtain ⟨q, hq⟩ := this
    exact ⟨p.toList, q, hq, by simp [textOfFile, hd]⟩

/-- The bytes of a text that has been read. -/
theorem decoded {a : List UInt8} {l : List Char} (h : textOfFile (bytesOf a) = some l) : a = l.flatMap String.utf8EncodeChar := by
  unfold textOfFile at h
  rw [Option.map_eq_some_iff] at h
  obtain ⟨p, hd, rfl⟩ := h
  have hs : (bytesOf a).utf8Decode?.isSome := by rw [hd]; rfl
  have he : p.toList.utf8Encode = bytesOf a := by
    have := ByteArray.utf8Encode_get_utf8Decode? (b := bytesOf a) (h := hs)
    simpa [hd] using this
  rw [← bytesOf_utf8] at he
  have h2 := congrArg (fun b => b.data.toList) he
  simpa [bytesOf] using h2.symm

theorem ascii_bytes {l : List Char} (h : ∀ c ∈ l, c.toNat < 128) :
    l.map (fun c => c.toNat.toUInt8) = l.flatMap String.utf8EncodeChar := by
  induction l with
  | nil => rfl
  | cons c l ih =>
    have hc := h c (by simp)
    rw [List.map_cons, List.flatMap_cons, ih fun x hx => h x (by simp [hx])]
    have : String.utf8EncodeChar c = [c.toNat.toUInt8] := by
      unfold String.utf8EncodeChar
      have : c.val.toNat ≤ 127 := by have : c.toNat = c.val.toNat := rfl; omega
      simp only [this, if_true]
      rfl
    rw [this]
    rfl

/-- The characters that are written: the line breaks as the platform has them. -/
def expand (pl : Platform) (text : List Char) : List Char := text.flatMap fun c => if c = '\n' then pl.linesep else [c]

theorem mapM_some {α β : Type} {f : α → Option β} {g : α → β} {l : List α} (h : ∀ x ∈ l, f x = some (g x)) :
    l.mapM f = some (l.map g) := by
  induction l with
  | nil => rfl
  | cons x l ih =>
    rw [List.mapM_cons, h x (by simp), ih fun y hy => h y (by simp [hy])]
    rfl

theorem encodeText_utf8 {pl : Platform} {text : List Char} (h : WritesUtf8 pl (expand pl text)) :
    encodeText pl text = some ((expand pl text).flatMap String.utf8EncodeChar) := by
  unfold encodeText
  rw [show (text.flatMap fun c => if c = '\n' then pl.linesep else [c]) = expand pl text from rfl, mapM_some h]
  simp [List.flatMap_def]

theorem eol_expand {pl : Platform} (hu : UsualLinesep pl) {text : List Char} (h : pl.linesep = ['\n'] ∨ '\r' ∉ text) :
    eol (expand pl text) = eol text := by
  rcases hu with e | e
  · have : expand pl text = text := by
      unfold expand
      rw [e]
      induction text with
      | nil => rfl
      | cons c l ih =>
        rw [List.flatMap_cons, ih (.inl e)]
        split <;> simp [*]
    rw [this]
  · replace h : '\r' ∉ text := by
      rcases h with h | h
      · rw [e] at h; simp at h
      · exact h
    rw [eol_id h]
    unfold expand
    rw [e]
    induction text with
    | nil => rfl
    | cons c l ih =>
      have hc : c ≠ '\r' := fun e => h (by simp [e])
      have ih := ih fun h' => h (by simp [h'])
      rw [List.flatMap_cons]
      split
      · rename_i hn
        subst hn
        simp only [List.cons_append, List.nil_append]
        rw [eol_crlf, ih]
      · simp only [List.cons_append, List.nil_append]
        rw [eol_cons hc, ih]

theorem parse_expand {pl : Platform} (hu : UsualLinesep pl) {text : List Char} (h : pl.linesep = ['\n'] ∨ '\r' ∉ text) :
    parse (expand pl text) = parse text := by
  unfold parse; rw [eol_expand hu h]

theorem expand_append (pl : Platform) (a b : List Char) : expand pl (a ++ b) = expand pl a ++ expand pl b := by
  simp [expand]

/-! ## The end of the text -/

theorem name_last {t : String} (h : isName t = true) : ∃ l x, '/' :: t.toList = l ++ [x] ∧ x ≠ '\r' ∧ x ≠ '\n' ∧ x ≠ '?' := by
  rcases List.eq_nil_or_concat t.toList with e | ⟨l, x, e⟩
  · exact ⟨[], '/', by rw [e]; rfl, by decide, by decide, by decide⟩
  · refine ⟨'/' :: l, x, by rw [e]; simp, ?_⟩
    have := isName_chars h x (by rw [e]; simp)
    refine ⟨?_, ?_, ?_⟩ <;> rintro rfl <;> revert this <;> decide

theorem serialize_ends {enc : Char → List Char} {n : Node} (hn : WellNamed n) :
    ∃ l x, writeWith enc n = l ++ [x] ++ ['>'] ∧ x ≠ '\r' ∧ x ≠ '\n' ∧ x ≠ '?' := by
  cases hn with
  | elem t as cs h1 h2 h3 h4 =>
    rw [writeWith_elem]
    split
    · exact ⟨"<".toList ++ t.toList ++ writeAttrs (fun v => v.flatMap enc) as ++ [' '], '/', by simp, by decide, by decide, by decide⟩
    · obtain ⟨l, x, e, hx⟩ := name_last h1
      refine ⟨"<".toList ++ t.toList ++ writeAttrs (fun v => v.flatMap enc) as ++ (">".toList ++ cs.flatMap (writeWith enc) ++ ['<'] ++ l), x, ?_, hx⟩
      have : "</".toList ++ t.toList = '<' :: (l ++ [x]) := by rw [← e]; rfl
      rw [List.append_assoc (_ ++ _) "</".toList, this]
      simp

theorem pretty_ends {n : Node} (hn : WellNamed n) :
    ∃ l x, toPrettyXml n = l ++ [x] ++ ['>'] ++ ['\n'] ∧ x ≠ '\r' ∧ x ≠ '\n' ∧ x ≠ '?' := by
  cases hn with
  | elem t as cs h1 h2 h3 h4 =>
    unfold toPrettyXml
    generalize "<?xml version=\"1.0\" ?>".toList ++ "\n".toList = P
    rw [prettyElement_elem]
    split
    · exact ⟨P ++ ([] ++ "<".toList ++ t.toList ++ writeAttrs escapeData as), '/', by simp, by decide, by decide, by decide⟩
    · obtain ⟨l, x, e, hx⟩ := name_last h1
      refine ⟨P ++ ("<".toList ++ t.toList ++ writeAttrs escapeData as ++ (">".toList ++ "\n".toList ++
        cs.flatMap (prettyElement ([] ++ "\t".toList)) ++ ['<'] ++ l)), x, ?_, hx⟩
      have : "</".toList ++ t.toList = '<' :: (l ++ [x]) := by rw [← e]; rfl
      simp only [List.append_assoc, List.nil_append] at this ⊢
      rw [← List.append_assoc "</".toList, this]
      simp

end Pyodrx
