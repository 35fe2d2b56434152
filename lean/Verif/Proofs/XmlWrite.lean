import Verif.Proofs.XmlEscape

/-! # Written trees are read back -/

namespace Pyodrx
open XmlParser Spec

theorem attach_map {α β : Type} (l : List α) (f : α → β) : (l.attach.map fun ⟨c, _⟩ => f c) = l.map f := by
  have : (fun (x : {x // x ∈ l}) => match x with | ⟨c, _⟩ => f c) = fun x => f x.1 := by
    funext ⟨c, _⟩; rfl
  simp [this]

theorem attach_flatMap {α β : Type} (l : List α) (f : α → List β) :
    (l.attach.flatMap fun ⟨c, _⟩ => f c) = l.flatMap f := by
  rw [List.flatMap_def, List.flatMap_def, attach_map]

theorem mapValues_elem (f : String → String) (t as cs) : Node.mapValues f (.elem t as cs) =
    .elem t (as.map fun p => (p.1, f p.2)) (cs.map (Node.mapValues f)) := by
  rw [Node.mapValues, attach_map]

theorem serialize_elem (t as cs) : serialize (.elem t as cs) =
    "<".toList ++ t.toList ++ writeAttrs escapeAttrib as ++
    (if cs.isEmpty then " />".toList
     else ">".toList ++ cs.flatMap serialize ++ "</".toList ++ t.toList ++ ">".toList) := by
  rw [serialize, attach_flatMap]

theorem prettyElement_elem (ind t as cs) : prettyElement ind (.elem t as cs) =
    ind ++ "<".toList ++ t.toList ++ writeAttrs escapeData as ++
    (if cs.isEmpty then "/>".toList ++ "\n".toList
     else ">".toList ++ "\n".toList ++ cs.flatMap (prettyElement (ind ++ "\t".toList)) ++
       ind ++ "</".toList ++ t.toList ++ ">".toList ++ "\n".toList) := by
  rw [prettyElement, attach_flatMap]

theorem mapValues_id (n : Node) : Node.mapValues id n = n := by
  induction n using Node.induct with
  | h t as cs ih =>
    rw [mapValues_elem]
    have h1 : as.map (fun p => (p.1, id p.2)) = as := by simp
    have h2 : cs.map (Node.mapValues id) = cs := by
      have := List.map_congr_left (f := Node.mapValues id) (g := id) (l := cs) fun c hc => ih c hc
      rw [this, List.map_id]
    rw [h1, h2]

theorem mapValues_congr {f g : String → String} (n : Node) :
    (∀ v, f v = g v) → Node.mapValues f n = Node.mapValues g n := by
  intro h; rw [show f = g from funext h]

/-- `serialize` with another escaping of the characters -/
def writeWith (enc : Char → List Char) : Node → List Char
  | .elem t as cs =>
    "<".toList ++ t.toList ++ writeAttrs (fun v => v.flatMap enc) as ++
    (if cs.isEmpty then " />".toList
     else ">".toList ++ (cs.attach.flatMap fun ⟨c, _⟩ => writeWith enc c) ++ "</".toList ++ t.toList ++
       ">".toList)

theorem writeWith_elem (enc t as cs) : writeWith enc (.elem t as cs) =
    "<".toList ++ t.toList ++ writeAttrs (fun v => v.flatMap enc) as ++
    (if cs.isEmpty then " />".toList
     else ">".toList ++ cs.flatMap (writeWith enc) ++ "</".toList ++ t.toList ++ ">".toList) := by
  rw [writeWith, attach_flatMap]

theorem flatMap_congr {α β : Type} {l : List α} {f g : α → List β} (h : ∀ x ∈ l, f x = g x) :
    l.flatMap f = l.flatMap g := by
  rw [List.flatMap_def, List.flatMap_def, List.map_congr_left h]

theorem serialize_eq (n : Node) : serialize n = writeWith escA n := by
  induction n using Node.induct with
  | h t as cs ih =>
    rw [serialize_elem, writeWith_elem, show escapeAttrib = fun v => v.flatMap escA from funext escapeAttrib_eq,
      flatMap_congr ih]

theorem name_ascii {t : String} (h : isName t = true) : ∀ c ∈ t.toList, c.toNat < 128 := fun c hc =>
  (nameChar_ascii (isName_chars h c hc)).2

theorem charRefs_attrs (as : List (String × String)) (h : ∀ p ∈ as, isName p.1 = true) :
    charRefs (writeAttrs (fun v => v.flatMap escA) as) = writeAttrs (fun v => v.flatMap escR) as := by
  rw [writeAttrs, charRefs_flatMap, writeAttrs]
  apply flatMap_congr
  intro p hp
  simp only [charRefs_append, charRefs_flatMap]
  rw [charRefs_ascii (name_ascii (h p hp)), charRefs_ascii (l := " ".toList) (by decide),
    charRefs_ascii (l := "=\"".toList) (by decide), charRefs_ascii (l := "\"".toList) (by decide)]
  rfl

theorem charRefs_serialize (n : Node) (hn : WellNamed n) : charRefs (serialize n) = writeWith escR n := by
  rw [serialize_eq]
  induction n using Node.induct with
  | h t as cs ih =>
    cases hn with
    | elem _ _ _ h1 h2 h3 h4 =>
      rw [writeWith_elem, writeWith_elem]
      have ht := charRefs_ascii (name_ascii h1)
      split
      · simp only [charRefs_append, ht, charRefs_attrs as h2]
        rw [charRefs_ascii (l := "<".toList) (by decide), charRefs_ascii (l := " />".toList) (by decide)]
      · simp only [charRefs_append, ht, charRefs_attrs as h2, charRefs_flatMap]
        rw [charRefs_ascii (l := "<".toList) (by decide), charRefs_ascii (l := ">".toList) (by decide),
          charRefs_ascii (l := "</".toList) (by decide), flatMap_congr fun c hc => ih c hc (h4 c hc)]

/-- A list of elements, each of which is read. -/
theorem run_children {W : Node → List Char} {f : Node → Node} (cs : List Node)
    (h : ∀ c ∈ cs, ∀ st d, run ⟨.content, st, d⟩ (W c) = some ⟨.content, st, f c :: d⟩) : ∀ st d,
    run ⟨.content, st, d⟩ (cs.flatMap W) = some ⟨.content, st, (cs.map f).reverse ++ d⟩ := by
  induction cs with
  | nil => intro st d; rfl
  | cons c cs ih =>
    intro st d
    rw [List.flatMap_cons, run_append_of (h c (by simp) st d), ih (fun x hx => h x (by simp [hx]))]
    simp

/-- The value read. -/
def mapChars (norm : Char → Char) (v : String) : String := String.ofList (v.toList.map norm)

theorem run_start {enc norm} (hr : ReadsAs enc norm) {t : String} {as : List (String × String)}
    (h1 : isName t = true) (h2 : ∀ p ∈ as, isName p.1 = true) (h3 : (as.map Prod.fst).Nodup)
    (h4 : ∀ p ∈ as, ∀ c ∈ p.2.toList, isXmlChar c = true) (st d) :
    ∃ m, InTag t (as.map fun p => (p.1, mapChars norm p.2)) m ∧
      run ⟨.content, st, d⟩ ("<".toList ++ t.toList ++ writeAttrs (fun v => v.flatMap enc) as) =
        some ⟨m, st, d⟩ := by
  obtain ⟨m, k1, k2⟩ := run_attrs hr (t := t) st d as [] (.tag t.toList.reverse) (.inr ⟨rfl, rfl⟩) h2
    (by simpa using h3) h4
  exact ⟨m, k1, by rw [run_append_of (run_open h1 st d)]; exact k2⟩

theorem run_writeWith {enc norm} (hr : ReadsAs enc norm) (n : Node) (hn : WellNamed n)
    (hl : LegalValues n) : ∀ st d, run ⟨.content, st, d⟩ (writeWith enc n) =
      some ⟨.content, st, n.mapValues (mapChars norm) :: d⟩ := by
  induction n using Node.induct with
  | h t as cs ih =>
    intro st d
    cases hn with
    | elem _ _ _ h1 h2 h3 h4 =>
      cases hl with
      | elem _ _ _ l1 l2 =>
        obtain ⟨m, k1, k2⟩ := run_start hr h1 h2 h3 l1 st d
        rw [writeWith_elem, run_append_of k2, mapValues_elem]
        cases cs with
        | nil => exact run_space_slash k1 st d
        | cons c cs =>
          simp only [List.isEmpty_cons, Bool.false_eq_true, if_false, List.append_assoc]
          rw [run_append_of (run_gt k1 st d),
            run_append_of (run_children (c :: cs) (fun x hx => ih x hx (h4 x hx) (l2 x hx)) _ _),
            ← List.append_assoc, run_end h1]
          simp

/-! ## No line ends in the plain text -/

theorem eol_cons {c : Char} (hc : c ≠ '\r') (l : List Char) : eol (c :: l) = c :: eol l := by
  rw [eol]
  · exact fun _ h => absurd h hc
  · exact hc

theorem eol_id {l : List Char} (h : '\r' ∉ l) : eol l = l := by
  induction l with
  | nil => rfl
  | cons c l ih =>
    have hc : c ≠ '\r' := fun e => h (by simp [e])
    rw [eol_cons hc, ih (fun h' => h (by simp [h']))]

/-- A character of the written text comes from the markup, a name, or an escaped value. -/
theorem mem_writeWith {enc : Char → List Char} {P : Char → Prop} (hm : ∀ c ∈ "</>=\" ".toList, P c)
    (hname : ∀ c, isNameChar c = true → P c) (henc : ∀ c, ∀ x ∈ enc c, P x) (n : Node)
    (hn : WellNamed n) : ∀ x ∈ writeWith enc n, P x := by
  induction n using Node.induct with
  | h t as cs ih =>
    cases hn with
    | elem _ _ _ h1 h2 h3 h4 =>
      intro x hx
      have hlt : P '<' := hm _ (by decide)
      have hgt : P '>' := hm _ (by decide)
      have hsl : P '/' := hm _ (by decide)
      have heq : P '=' := hm _ (by decide)
      have hq : P '"' := hm _ (by decide)
      have hsp : P ' ' := hm _ (by decide)
      have ht : ∀ x ∈ t.toList, P x := fun x hx => hname x (isName_chars h1 x hx)
      have has : ∀ x ∈ writeAttrs (fun v => v.flatMap enc) as, P x := by
        intro x hx
        simp only [writeAttrs, List.mem_flatMap, List.mem_append] at hx
        obtain ⟨p, hp, (((hx | hx) | hx) | ⟨c, -, hx⟩) | hx⟩ := hx
        · have : x = ' ' := by simpa using hx
          rw [this]; exact hsp
        · exact hname x (isName_chars (h2 p hp) x hx)
        · have : x = '=' ∨ x = '"' := by simpa using hx
          rcases this with rfl | rfl
          · exact heq
          · exact hq
        · exact henc c x hx
        · have : x = '"' := by simpa using hx
          rw [this]; exact hq
      rw [writeWith_elem] at hx
      rcases List.mem_append.mp hx with hx | hx
      · rcases List.mem_append.mp hx with hx | hx
        · rcases List.mem_append.mp hx with hx | hx
          · have : x = '<' := by simpa using hx
            rw [this]; exact hlt
          · exact ht x hx
        · exact has x hx
      · split at hx
        · have : x = ' ' ∨ x = '/' ∨ x = '>' := by simpa using hx
          rcases this with rfl | rfl | rfl <;> assumption
        · simp only [List.mem_append, List.mem_flatMap] at hx
          rcases hx with (((hx | ⟨c, hc, hx⟩) | hx) | hx) | hx
          · have : x = '>' := by simpa using hx
            rw [this]; exact hgt
          · exact ih c hc (h4 c hc) x hx
          · have : x = '<' ∨ x = '/' := by simpa using hx
            rcases this with rfl | rfl <;> assumption
          · exact ht x hx
          · have : x = '>' := by simpa using hx
            rw [this]; exact hgt

/-- Not one of the characters that end lines or are removed before reparsing. -/
def NoBreak (c : Char) : Prop := c ≠ '\r' ∧ c ≠ '\n' ∧ c ≠ '\t'
instance (c : Char) : Decidable (NoBreak c) := inferInstanceAs (Decidable (_ ∧ _ ∧ _))

theorem noBreak_name {c : Char} (h : isNameChar c = true) : NoBreak c := by
  refine ⟨?_, ?_, ?_⟩ <;> rintro rfl <;> revert h <;> decide

theorem noBreak_escA (c : Char) : ∀ x ∈ escA c, NoBreak x := by
  intro x hx
  unfold escA at hx
  split at hx
  · revert x; decide
  split at hx
  · revert x; decide
  split at hx
  · revert x; decide
  split at hx
  · revert x; decide
  split at hx
  · revert x; decide
  split at hx
  · revert x; decide
  split at hx
  · revert x; decide
  simp only [List.mem_singleton] at hx
  subst hx
  exact ⟨by assumption, by assumption, by assumption⟩

theorem noBreak_escR (c : Char) : ∀ x ∈ escR c, NoBreak x := by
  intro x hx
  simp only [escR, charRefs, List.mem_flatMap] at hx
  obtain ⟨y, hy, hx⟩ := hx
  split at hx
  · simp only [List.mem_singleton] at hx
    rw [hx]; exact noBreak_escA c y hy
  · simp only [List.mem_append] at hx
    rcases hx with (hx | hx) | hx
    · revert x; decide
    · exact noBreak_name (by simp [isNameChar, toDigits_digit hx])
    · revert x; decide

theorem parse_writeWith {enc : Char → List Char} (hr : ReadsAs enc id) (he : ∀ c, ∀ x ∈ enc c, NoBreak x)
    (n : Node) (hn : WellNamed n) (hl : LegalValues n) : parse (writeWith enc n) = some n := by
  have h := mem_writeWith (P := NoBreak) (by decide) (fun _ => noBreak_name) he n hn
  rw [parse, eol_id (fun h' => (h _ h').1 rfl), run_writeWith hr n hn hl]
  have : n.mapValues (mapChars id) = n := by
    rw [mapValues_congr (g := id) n (by intro v; simp [mapChars]), mapValues_id]
  simp [this]

theorem filter_id {l : List Char} (h : ∀ x ∈ l, NoBreak x) :
    ((l.filter (· ≠ '\n')).filter (· ≠ '\t')) = l := by
  rw [List.filter_filter, List.filter_eq_self]
  intro x hx
  have := h x hx
  simp [this.2.1, this.2.2]

end Pyodrx
