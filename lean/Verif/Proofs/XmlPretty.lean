import Verif.Proofs.XmlWrite

/-! # Trees written with indentation are read back -/

namespace Pyodrx
open XmlParser Spec

theorem run_spaces (l : List Char) (hl : ∀ c ∈ l, isSpace c = true) (st d) :
    run ⟨.content, st, d⟩ l = some ⟨.content, st, d⟩ := by
  induction l with
  | nil => rfl
  | cons c l ih =>
    have hc := hl c (by simp)
    have h1 : isXmlChar c = true := by
      simp only [isSpace, Bool.or_eq_true, decide_eq_true_eq] at hc
      rcases hc with ((rfl | rfl) | rfl) | rfl <;> decide
    have h2 : c ≠ '<' := by rintro rfl; revert hc; decide
    rw [run_cons_of (s' := ⟨.content, st, d⟩) (by simp [step, h1, h2, hc]),
      ih (fun x hx => hl x (by simp [hx]))]

theorem escapeData_fun : escapeData = fun v => v.flatMap escD := funext escapeData_eq

theorem run_pretty (n : Node) (hn : WellNamed n) (hl : LegalValues n) : ∀ ind,
    (∀ c ∈ ind, isSpace c = true) → ∀ st d, run ⟨.content, st, d⟩ (prettyElement ind n) =
      some ⟨.content, st, n.mapValues (mapChars spaceOr) :: d⟩ := by
  induction n using Node.induct with
  | h t as cs ih =>
    intro ind hind st d
    cases hn with
    | elem _ _ _ h1 h2 h3 h4 =>
      cases hl with
      | elem _ _ _ l1 l2 =>
        obtain ⟨m, k1, k2⟩ := run_start reads_escD h1 h2 h3 l1 st d
        have hnl : ∀ st d, run ⟨.content, st, d⟩ "\n".toList = some ⟨.content, st, d⟩ := fun st d =>
          run_spaces _ (by decide) st d
        rw [prettyElement_elem, mapValues_elem, escapeData_fun]
        cases cs with
        | nil =>
          simp only [List.isEmpty_nil, if_true, List.append_assoc, List.map_nil]
          rw [run_append_of (run_spaces ind hind st d), ← List.append_assoc, ← List.append_assoc,
            run_append_of k2, run_append_of (run_slash k1 st d), hnl]
        | cons c cs =>
          simp only [List.isEmpty_cons, Bool.false_eq_true, if_false, List.append_assoc]
          rw [run_append_of (run_spaces ind hind st d), ← List.append_assoc, ← List.append_assoc,
            run_append_of k2, run_append_of (run_gt k1 st d), run_append_of (hnl _ _),
            run_append_of (run_children (c :: cs) (fun x hx => ih x hx (h4 x hx) (l2 x hx)
              (ind ++ "\t".toList) (by
                intro y hy
                rcases List.mem_append.mp hy with hy | hy
                · exact hind y hy
                · have : y = '\t' := by simpa using hy
                  rw [this]; decide)) _ _),
            run_append_of (run_spaces ind hind _ _), ← List.append_assoc, ← List.append_assoc,
            run_append_of (run_end h1 _ _ _ _), hnl]
          simp

/-! ## Line ends in values -/

/-- A value with its line ends normalised. -/
def eolText (v : String) : String := String.ofList (eol v.toList)

theorem eol_prefix {a : List Char} (h : '\r' ∉ a) (b : List Char) : eol (a ++ b) = a ++ eol b := by
  induction a with
  | nil => rfl
  | cons c a ih =>
    have hc : c ≠ '\r' := fun e => h (by simp [e])
    rw [List.cons_append, eol_cons hc, ih (fun h' => h (by simp [h'])), List.cons_append]

theorem noCr_escD {c : Char} (hc : c ≠ '\r') : '\r' ∉ escD c := by
  unfold escD
  split
  · decide
  split
  · decide
  split
  · decide
  split
  · decide
  simp [hc.symm]

theorem escD_cr : escD '\r' = ['\r'] := by decide
theorem escD_nl : escD '\n' = ['\n'] := by decide

theorem escD_head (c : Char) (hc : c ≠ '\n') (l : List Char) : ∃ y l', escD c ++ l = y :: l' ∧ y ≠ '\n' := by
  unfold escD
  split
  · exact ⟨_, _, rfl, by decide⟩
  split
  · exact ⟨_, _, rfl, by decide⟩
  split
  · exact ⟨_, _, rfl, by decide⟩
  split
  · exact ⟨_, _, rfl, by decide⟩
  exact ⟨_, _, rfl, hc⟩

theorem eol_cr_cons {y : Char} (hy : y ≠ '\n') (l : List Char) :
    eol ('\r' :: y :: l) = '\n' :: eol (y :: l) := by
  rw [eol]
  intro l' h
  simp only [List.cons.injEq] at h
  exact hy h.1

theorem eol_crlf (l : List Char) : eol ('\r' :: '\n' :: l) = '\n' :: eol l := by rw [eol]

/-- The end of a value is at a quote. -/
theorem eol_value (b : List Char) : ∀ n (v : List Char), v.length ≤ n →
    eol (v.flatMap escD ++ '"' :: b) = (eol v).flatMap escD ++ '"' :: eol b := by
  intro n
  induction n with
  | zero =>
    intro v hv
    have : v = [] := List.length_eq_zero_iff.mp (by omega)
    subst this
    rw [List.flatMap_nil, List.nil_append, eol_cons (by decide)]
    rfl
  | succ n ih =>
    intro v hv
    cases v with
    | nil =>
      rw [List.flatMap_nil, List.nil_append, eol_cons (by decide)]
      rfl
    | cons c v =>
      by_cases hc : c = '\r'
      · subst hc
        rw [List.flatMap_cons, escD_cr]
        cases v with
        | nil =>
          rw [List.flatMap_nil, List.append_nil, List.singleton_append, eol_cr_cons (by decide),
            eol_cons (by decide)]
          rfl
        | cons e v =>
          by_cases he : e = '\n'
          · subst he
            have := ih v (by simp at hv; omega)
            rw [List.flatMap_cons, escD_nl, eol_crlf, List.flatMap_cons, escD_nl]
            simp only [List.singleton_append, List.cons_append, List.nil_append]
            rw [eol_crlf, this]
          · have := ih (e :: v) (by simp at hv ⊢; omega)
            rw [eol_cr_cons he, List.flatMap_cons (x := '\n'), escD_nl]
            obtain ⟨y, l', q1, q2⟩ := escD_head e he (v.flatMap escD ++ '"' :: b)
            rw [List.flatMap_cons, List.append_assoc] at this ⊢
            simp only [List.append_assoc, List.singleton_append, List.cons_append, List.nil_append] at this ⊢
            rw [q1] at this ⊢
            rw [eol_cr_cons q2, this]
      · rw [List.flatMap_cons, List.append_assoc, eol_prefix (noCr_escD hc),
          ih v (by simp at hv; omega), eol_cons hc, List.flatMap_cons, List.append_assoc]

theorem name_noCr {t : String} (h : isName t = true) : '\r' ∉ t.toList := fun hm => by
  have := isName_chars h _ hm
  revert this; decide

theorem eol_attrs (as : List (String × String)) (h : ∀ p ∈ as, isName p.1 = true) (b : List Char) :
    eol (writeAttrs (fun v => v.flatMap escD) as ++ b) =
      writeAttrs (fun v => v.flatMap escD) (as.map fun p => (p.1, eolText p.2)) ++ eol b := by
  induction as with
  | nil => rfl
  | cons p as ih =>
    have e1 : "\"".toList = ['"'] := rfl
    have ih' := ih (fun q hq => h q (by simp [hq]))
    simp only [writeAttrs, List.append_assoc, e1] at ih'
    simp only [writeAttrs, List.flatMap_cons, List.map_cons, List.append_assoc, e1]
    rw [eol_prefix (by decide), eol_prefix (name_noCr (h p (by simp))), eol_prefix (by decide)]
    simp only [List.cons_append, List.nil_append]
    rw [eol_value _ _ _ (Nat.le_refl _), ih']
    simp [eolText]

theorem eol_children {W W' : Node → List Char} (cs : List Node)
    (h : ∀ c ∈ cs, ∀ b, eol (W c ++ b) = W' c ++ eol b) : ∀ b,
    eol (cs.flatMap W ++ b) = cs.flatMap W' ++ eol b := by
  induction cs with
  | nil => intro b; rfl
  | cons c cs ih =>
    intro b
    simp only [List.flatMap_cons, List.append_assoc]
    rw [h c (by simp), ih (fun x hx => h x (by simp [hx]))]

theorem eol_pretty (n : Node) (hn : WellNamed n) : ∀ ind, '\r' ∉ ind → ∀ b,
    eol (prettyElement ind n ++ b) = prettyElement ind (n.mapValues eolText) ++ eol b := by
  induction n using Node.induct with
  | h t as cs ih =>
    intro ind hind b
    cases hn with
    | elem _ _ _ h1 h2 h3 h4 =>
      rw [prettyElement_elem, mapValues_elem, prettyElement_elem, escapeData_fun]
      have ht := name_noCr h1
      cases cs with
      | nil =>
        simp only [List.isEmpty_nil, if_true, List.append_assoc, List.map_nil]
        rw [eol_prefix hind, eol_prefix (by decide), eol_prefix ht, eol_attrs as h2,
          eol_prefix (by decide), eol_prefix (by decide)]
      | cons c cs =>
        simp only [List.isEmpty_cons, Bool.false_eq_true, if_false, List.append_assoc, List.map_cons]
        rw [eol_prefix hind, eol_prefix (by decide), eol_prefix ht, eol_attrs as h2,
          eol_prefix (by decide), eol_prefix (by decide), eol_children (W' := fun x =>
            prettyElement (ind ++ "\t".toList) (x.mapValues eolText)) (c :: cs)
            (fun x hx b => ih x hx (h4 x hx) _ (by
              intro hm
              rcases List.mem_append.mp hm with hm | hm
              · exact hind hm
              · revert hm; decide) b),
          eol_prefix hind, eol_prefix (by decide), eol_prefix ht, eol_prefix (by decide),
          eol_prefix (by decide)]
        simp [List.flatMap_map]

theorem mem_eol {x : Char} : ∀ n (l : List Char), l.length ≤ n → x ∈ eol l → x ∈ l ∨ x = '\n' := by
  intro n
  induction n with
  | zero =>
    intro l hl h
    have : l = [] := List.length_eq_zero_iff.mp (by omega)
    subst this
    simp [eol] at h
  | succ n ih =>
    intro l hl h
    cases l with
    | nil => simp [eol] at h
    | cons c l =>
      by_cases hc : c = '\r'
      · subst hc
        cases l with
        | nil =>
          have : eol ['\r'] = ['\n'] := by decide
          rw [this] at h
          right; simpa using h
        | cons e l =>
          by_cases he : e = '\n'
          · subst he
            rw [eol_crlf] at h
            rcases List.mem_cons.mp h with h | h
            · exact .inr h
            · rcases ih l (by simp at hl; omega) h with h | h
              · exact .inl (by simp [h])
              · exact .inr h
          · rw [eol_cr_cons he] at h
            rcases List.mem_cons.mp h with h | h
            · exact .inr h
            · rcases ih (e :: l) (by simp at hl ⊢; omega) h with h | h
              · exact .inl (List.mem_cons_of_mem _ h)
              · exact .inr h
      · rw [eol_cons hc] at h
        rcases List.mem_cons.mp h with h | h
        · exact .inl (by simp [h])
        · rcases ih l (by simp at hl; omega) h with h | h
          · exact .inl (by simp [h])
          · exact .inr h

theorem WellNamed.mapValues {n : Node} (hn : WellNamed n) (f : String → String) :
    WellNamed (n.mapValues f) := by
  induction n using Node.induct with
  | h t as cs ih =>
    cases hn with
    | elem _ _ _ h1 h2 h3 h4 =>
      rw [mapValues_elem]
      refine .elem _ _ _ h1 ?_ ?_ ?_
      · intro p hp
        obtain ⟨q, hq, rfl⟩ := List.mem_map.mp hp
        exact h2 q hq
      · simpa [List.map_map, Function.comp_def] using h3
      · intro c hc
        obtain ⟨c', hc', rfl⟩ := List.mem_map.mp hc
        exact ih c' hc' (h4 c' hc')

theorem LegalValues.mapValues {n : Node} (hn : LegalValues n) (f : String → String)
    (hf : ∀ v, (∀ c ∈ v.toList, isXmlChar c = true) → ∀ c ∈ (f v).toList, isXmlChar c = true) :
    LegalValues (n.mapValues f) := by
  induction n using Node.induct with
  | h t as cs ih =>
    cases hn with
    | elem _ _ _ h1 h2 =>
      rw [mapValues_elem]
      refine .elem _ _ _ ?_ ?_
      · intro p hp
        obtain ⟨q, hq, rfl⟩ := List.mem_map.mp hp
        exact hf _ (h1 q hq)
      · intro c hc
        obtain ⟨c', hc', rfl⟩ := List.mem_map.mp hc
        exact ih c' hc' (h2 c' hc')

theorem mapValues_mapValues (f g : String → String) (n : Node) :
    (n.mapValues f).mapValues g = n.mapValues fun v => g (f v) := by
  induction n using Node.induct with
  | h t as cs ih =>
    rw [mapValues_elem, mapValues_elem, mapValues_elem]
    simp only [List.map_map]
    congr 1
    exact List.map_congr_left fun c hc => ih c hc

theorem run_skip (l : List Char) (hl : ∀ c ∈ l, isXmlChar c = true ∧ c ≠ '?') (st d) :
    run ⟨.skip false, st, d⟩ l = some ⟨.skip false, st, d⟩ := by
  induction l with
  | nil => rfl
  | cons c l ih =>
    obtain ⟨h1, h2⟩ := hl c (by simp)
    rw [run_cons_of (s' := ⟨.skip false, st, d⟩) (by simp [step, h1, h2]),
      ih (fun x hx => hl x (by simp [hx]))]

theorem prolog_noCr : '\r' ∉ "<?xml version=\"1.0\" ?>".toList := by decide

theorem run_prolog : run ⟨.content, [], []⟩ ("<?xml version=\"1.0\" ?>".toList ++ "\n".toList) =
    some ⟨.content, [], []⟩ := by
  have e : "<?xml version=\"1.0\" ?>".toList = '<' :: '?' :: ("xml version=\"1.0\" ".toList ++ ['?', '>']) := by
    decide
  rw [e, List.cons_append, List.cons_append, List.append_assoc]
  rw [run_cons_of (s' := ⟨.open, [], []⟩) (by rfl), run_cons_of (s' := ⟨.skip false, [], []⟩) (by rfl),
    run_append_of (run_skip _ (by decide) [] [])]
  simp only [List.cons_append, List.nil_append]
  rw [run_cons_of (s' := ⟨.skip true, [], []⟩) (by rfl), run_cons_of (s' := ⟨.content, [], []⟩) (by rfl),
    run_spaces _ (by decide)]

theorem parse_pretty (n : Node) (hn : WellNamed n) (hl : LegalValues n) :
    parse (toPrettyXml n) = some (n.mapValues spaced) := by
  have hl' : LegalValues (n.mapValues eolText) := by
    refine LegalValues.mapValues hl _ ?_
    intro v hv c hc
    simp only [eolText, String.toList_ofList] at hc
    rcases mem_eol _ _ (Nat.le_refl _) hc with h | h
    · exact hv c h
    · rw [h]; decide
  have he := eol_pretty n hn [] (by simp) []
  rw [List.append_nil, show eol [] = [] from rfl, List.append_nil] at he
  have ht : eol (toPrettyXml n) = ("<?xml version=\"1.0\" ?>".toList ++ "\n".toList) ++
      prettyElement [] (n.mapValues eolText) := by
    have hP := prolog_noCr
    have hN : '\r' ∉ "\n".toList := by decide
    unfold toPrettyXml
    generalize "<?xml version=\"1.0\" ?>".toList = P at hP ⊢
    generalize "\n".toList = N at hN ⊢
    rw [List.append_assoc, eol_prefix hP, eol_prefix hN, he, List.append_assoc]
  have hr := (run_append_of run_prolog (prettyElement [] (n.mapValues eolText))).trans
    (run_pretty _ (WellNamed.mapValues hn _) hl' [] (by simp) [] [])
  rw [← ht, mapValues_mapValues] at hr
  unfold parse
  rw [hr]
  have : n.mapValues (fun v => mapChars spaceOr (eolText v)) = n.mapValues spaced :=
    mapValues_congr n fun v => by simp [mapChars, eolText, spaced]; rfl
  rw [this]
  simp only [Option.bind_some]

end Pyodrx
