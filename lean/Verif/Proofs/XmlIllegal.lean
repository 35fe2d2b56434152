import Verif.Proofs.XmlPretty

/-! # Characters that XML does not allow make the text unreadable -/

namespace Pyodrx
open XmlParser Spec

theorem run_append_none {s : State} {a : List Char} (h : run s a = none) (b : List Char) :
    run s (a ++ b) = none := by
  induction a generalizing s with
  | nil => cases h
  | cons c a ih =>
    rw [List.cons_append]
    unfold run at h ⊢
    cases hs : step s c with
    | none => rfl
    | some s' => rw [hs] at h; exact ih h

/-- Each illegal character, escaped by `enc`, is rejected. -/
def Rejects (enc : Char → List Char) : Prop :=
  ∀ c, isXmlChar c = false → ∀ t as n st d v, run ⟨.value t as n '"' v, st, d⟩ (enc c) = none

theorem illegal_ne {c : Char} (hc : isXmlChar c = false) : ∀ x : Char, isXmlChar x = true → c ≠ x := by
  rintro x hx rfl
  rw [hc] at hx; cases hx

theorem escA_illegal {c : Char} (hc : isXmlChar c = false) : escA c = [c] := by
  have ne := illegal_ne hc
  simp only [escA, ne '&' (by decide), ne '<' (by decide), ne '>' (by decide), ne '"' (by decide),
    ne '\r' (by decide), ne '\n' (by decide), ne '\t' (by decide), if_false]

theorem rejects_escA : Rejects escA := by
  intro c hc t as n st d v
  rw [escA_illegal hc]
  simp [run, step, hc]

theorem charOf_illegal {c : Char} (hc : isXmlChar c = false) : charOf c.toNat = none := by
  have hv : c.toNat.isValidChar := c.valid
  have he : Char.ofNatAux c.toNat hv = c := by
    apply Char.ext
    exact UInt32.toNat_inj.mp rfl
  simp only [charOf, hv, dif_pos, he, hc]
  rfl

/-- Reading the name of a reference -/
theorem run_refName (l : List Char) (hl : ∀ c ∈ l, isXmlChar c = true ∧ c ≠ ';') (t as n st d v) : ∀ r,
    run ⟨.ref t as n '"' v r, st, d⟩ l = some ⟨.ref t as n '"' v (l.reverse ++ r), st, d⟩ := by
  induction l with
  | nil => intro r; rfl
  | cons c l ih =>
    intro r
    have hc := hl c (by simp)
    rw [run_cons_of (s' := ⟨.ref t as n '"' v (c :: r), st, d⟩) (by simp [step, hc.1, hc.2]),
      ih (fun x hx => hl x (by simp [hx]))]
    simp

theorem rejects_escR : Rejects escR := by
  intro c hc t as n st d v
  rw [escR, escA_illegal hc]
  by_cases h : c.toNat < 128
  · simp [charRefs, h, run, step, hc]
  · have hd : ∀ x ∈ Nat.toDigits 10 c.toNat, x.isDigit = true := fun x hx => toDigits_digit hx
    have hne : Nat.toDigits 10 c.toNat ≠ [] := Nat.toDigits_ne_nil
    have e : charRefs [c] = '&' :: (('#' :: Nat.toDigits 10 c.toNat) ++ [';']) := by
      simp only [charRefs, List.flatMap_cons, h, if_false, List.flatMap_nil, List.append_nil]
      rfl
    rw [e, run_cons_of (s' := ⟨.ref t as n '"' v [], st, d⟩) (by
        simp [step, show isXmlChar '&' = true by decide]),
      run_append_of (run_refName _ (by
        intro x hx
        rcases List.mem_cons.mp hx with rfl | hx
        · decide
        · exact digit_plain (hd x hx)) t as n st d v [])]
    have hr : reference ('#' :: Nat.toDigits 10 c.toNat) = none := by
      rw [reference_number hd hne, number_digits _ hd hne,
        Nat.ofDigitChars_toDigits (by decide) (by decide), Option.bind_some, charOf_illegal hc]
    simp only [List.append_nil, run, step, show isXmlChar ';' = true by decide, List.reverse_reverse, hr]
    simp

/-- The first illegal character of a value -/
theorem run_value_illegal {enc norm} (h : ReadsAs enc norm) (hj : Rejects enc) (t as n st d) (l : List Char)
    (hl : ∃ c ∈ l, isXmlChar c = false) : ∀ v,
    run ⟨.value t as n '"' v, st, d⟩ (l.flatMap enc) = none := by
  induction l with
  | nil => simp at hl
  | cons c l ih =>
    intro v
    rw [List.flatMap_cons]
    cases hc : isXmlChar c with
    | false => exact run_append_none (hj c hc t as n st d v) _
    | true =>
      rw [run_append_of (h c hc t as n st d v)]
      refine ih ?_ _
      obtain ⟨x, hx, hf⟩ := hl
      rcases List.mem_cons.mp hx with rfl | hx
      · rw [hc] at hf; cases hf
      · exact ⟨x, hx, hf⟩

theorem run_attr_open {t : String} {as m} (hm : InTag t as m) (st d) (k : String) (hk : isName k = true)
    (hn : k ∉ as.map Prod.fst) :
    run ⟨m, st, d⟩ (" ".toList ++ k.toList ++ "=\"".toList) = some ⟨.value t as k '"' [], st, d⟩ := by
  obtain ⟨c, l, h1, h2, h3⟩ := isName_split hk
  have hx := nameChar_xml (nameStart_nameChar h2)
  have e0 : " ".toList = [' '] := rfl
  have e1 : isXmlChar ' ' = true := by decide
  have e2 : isNameChar ' ' = false := by decide
  have e3 : isSpace ' ' = true := by decide
  have e4 : isSpace c = false := by
    cases h : isSpace c with
    | false => rfl
    | true => have := nameStart_nameChar h2; rw [space_not_name h] at this; cases this
  have e5 : c ≠ '>' := by rintro rfl; revert h2; decide
  have e6 : c ≠ '/' := by rintro rfl; revert h2; decide
  have q0 : "=\"".toList = ['=', '"'] := rfl
  have q1 : isXmlChar '=' = true := by decide
  have q2 : isXmlChar '"' = true := by decide
  have q3 : isNameChar '=' = false := by decide
  have s1 : step ⟨m, st, d⟩ ' ' = some ⟨.attrs t as true, st, d⟩ := by
    rcases hm with rfl | ⟨rfl, rfl⟩ <;> simp [step, e1, e2, e3]
  have hname : String.ofList (l.reverse ++ [c]).reverse = k := by
    rw [List.reverse_append, List.reverse_reverse, List.reverse_singleton, List.singleton_append, ← h1,
      ofList_toList]
  rw [h1, e0, q0]
  simp only [List.append_assoc, List.cons_append, List.nil_append]
  rw [run_cons_of s1, run_cons_of (s' := ⟨.attrName t as [c], st, d⟩) (by simp [step, hx, h2, e4, e5, e6]),
    run_append_of (run_attrName l h3 t as st d [c]),
    run_cons_of (s' := ⟨.equals t as k, st, d⟩) (by
      simp only [step, q1, q3, hname]
      simp [hn] at *),
    run_cons_of (s' := ⟨.value t as k '"' [], st, d⟩) (by simp [step, q2])]
  rfl

theorem run_attrs_illegal {enc norm} (h : ReadsAs enc norm) (hj : Rejects enc) {t : String} (st d) :
    ∀ (bs as : List (String × String)) (m : Mode), InTag t as m → (∀ p ∈ bs, isName p.1 = true) →
      ((as ++ bs).map Prod.fst).Nodup → (∃ p ∈ bs, ∃ c ∈ p.2.toList, isXmlChar c = false) →
        run ⟨m, st, d⟩ (writeAttrs (fun v => v.flatMap enc) bs) = none := by
  intro bs
  induction bs with
  | nil => intro as m _ _ _ he; simp at he
  | cons p bs ih =>
    intro as m hm hn hd he
    have hk : p.1 ∉ as.map Prod.fst := by
      intro hmem
      rw [List.map_append, List.map_cons] at hd
      exact (List.nodup_append.mp hd).2.2 _ hmem _ (by simp) rfl
    rw [writeAttrs, List.flatMap_cons]
    by_cases hp : ∃ c ∈ p.2.toList, isXmlChar c = false
    · apply run_append_none
      rw [List.append_assoc, run_append_of (run_attr_open hm st d p.1 (hn p (by simp)) hk)]
      exact run_append_none (run_value_illegal h hj _ _ _ _ _ _ hp _) _
    · have hp' : ∀ c ∈ p.2.toList, isXmlChar c = true := by
        intro c hc
        cases hx : isXmlChar c with
        | true => rfl
        | false => exact absurd ⟨c, hc, hx⟩ hp
      rw [run_append_of (run_attr h hm st d p.1 p.2 (hn p (by simp)) hk hp')]
      refine ih (as ++ [(p.1, String.ofList (p.2.toList.map norm))]) _ (.inl rfl)
        (fun q hq => hn q (by simp [hq])) (by simpa using hd) ?_
      obtain ⟨q, hq, hc⟩ := he
      rcases List.mem_cons.mp hq with rfl | hq
      · exact absurd hc hp
      · exact ⟨q, hq, hc⟩

theorem run_children_none {W : Node → List Char} {f : Node → Node} (cs : List Node) (P : Node → Prop)
    (h : ∀ c ∈ cs, P c → ∀ st d, run ⟨.content, st, d⟩ (W c) = some ⟨.content, st, f c :: d⟩)
    (h' : ∀ c ∈ cs, ¬ P c → ∀ st d, run ⟨.content, st, d⟩ (W c) = none) (he : ∃ c ∈ cs, ¬ P c) : ∀ st d,
    run ⟨.content, st, d⟩ (cs.flatMap W) = none := by
  induction cs with
  | nil => simp at he
  | cons c cs ih =>
    intro st d
    rw [List.flatMap_cons]
    by_cases hp : P c
    · rw [run_append_of (h c (by simp) hp st d)]
      refine ih (fun x hx => h x (by simp [hx])) (fun x hx => h' x (by simp [hx])) ?_ _ _
      obtain ⟨x, hx, hn⟩ := he
      rcases List.mem_cons.mp hx with rfl | hx
      · exact absurd hp hn
      · exact ⟨x, hx, hn⟩
    · exact run_append_none (h' c (by simp) hp st d) _

theorem run_illegal {enc norm} (hr : ReadsAs enc norm) (hj : Rejects enc) (n : Node) (hn : WellNamed n)
    (hl : ¬ LegalValues n) : ∀ st d, run ⟨.content, st, d⟩ (writeWith enc n) = none := by
  induction n using Node.induct with
  | h t as cs ih =>
    intro st d
    cases hn with
    | elem _ _ _ h1 h2 h3 h4 =>
      rw [writeWith_elem]
      by_cases ha : ∃ p ∈ as, ∃ c ∈ p.2.toList, isXmlChar c = false
      · apply run_append_none
        rw [run_append_of (run_open h1 st d)]
        exact run_attrs_illegal hr hj st d as [] _ (.inr ⟨rfl, rfl⟩) h2 (by simpa using h3) ha
      · have l1 : ∀ p ∈ as, ∀ c ∈ p.2.toList, isXmlChar c = true := by
          intro p hp c hc
          cases hx : isXmlChar c with
          | true => rfl
          | false => exact absurd ⟨p, hp, c, hc, hx⟩ ha
        have hc : ∃ c ∈ cs, ¬ LegalValues c := by
          refine Classical.byContradiction fun hno => hl (.elem _ _ _ l1 fun c hc => ?_)
          exact Classical.byContradiction fun hn => hno ⟨c, hc, hn⟩
        obtain ⟨m, k1, k2⟩ := run_start hr h1 h2 h3 l1 st d
        rw [run_append_of k2]
        cases cs with
        | nil => simp at hc
        | cons c cs =>
          simp only [List.isEmpty_cons, Bool.false_eq_true, if_false, List.append_assoc]
          rw [run_append_of (run_gt k1 st d)]
          exact run_append_none (run_children_none (f := Node.mapValues (mapChars norm)) (c :: cs) LegalValues
            (fun x hx hp => run_writeWith hr x (h4 x hx) hp) (fun x hx hp => ih x hx (h4 x hx) hp) hc _ _) _

theorem parse_illegal {enc : Char → List Char} (hr : ReadsAs enc id) (hj : Rejects enc)
    (he : ∀ c, ∀ x ∈ enc c, NoBreak x) (n : Node) (hn : WellNamed n) (hl : ¬ LegalValues n) :
    parse (writeWith enc n) = none := by
  have h := mem_writeWith (P := NoBreak) (by decide) (fun _ => noBreak_name) he n hn
  rw [parse, eol_id (fun h' => (h _ h').1 rfl), run_illegal hr hj n hn hl]
  rfl

end Pyodrx
