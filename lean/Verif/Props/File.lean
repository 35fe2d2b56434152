import Verif.Proofs.File
import Verif.Props.ReadFile

/-! # Property C85: the bytes of the written file, and what is on the disk when the program is interrupted -/

namespace Pyodrx.Props
open Pyodrx XmlParser Spec

variable {F : Type} [PyFloat F]

/-! ## Helper facts -/


theorem noCr_pretty (n : Node) (hn : WellNamed n) (hp : PlainValues n) : ∀ ind, '\r' ∉ ind → '\r' ∉ prettyElement ind n := by
  induction n using Node.induct with
  | h t as cs ih =>
    intro ind hi
    cases hn with
    | elem _ _ _ h1 h2 h3 h4 =>
    cases hp with
    | elem _ _ _ p1 p2 =>
      have ha : '\r' ∉ writeAttrs escapeData as := by
        intro hx
        simp only [writeAttrs, List.mem_flatMap, List.mem_append] at hx
        obtain ⟨p, hp, (((hx | hx) | hx) | hx) | hx⟩ := hx
        · exact absurd hx (by decide)
        · exact name_noCr (h2 p hp) hx
        · exact absurd hx (by decide)
        · rw [escapeData_eq, List.mem_flatMap] at hx
          obtain ⟨c, hc, hx⟩ := hx
          exact noCr_escD (p1 p hp c hc).2.1 hx
        · exact absurd hx (by decide)
      have ht := name_noCr h1
      have hc : '\r' ∉ cs.flatMap (prettyElement (ind ++ "\t".toList)) := by
        intro hx
        rw [List.mem_flatMap] at hx
        obtain ⟨c, hc, hx⟩ := hx
        refine ih c hc (h4 c hc) (p2 c hc) _ ?_ hx
        intro h
        rcases List.mem_append.mp h with h | h
        · exact hi h
        · exact absurd h (by decide)
      rw [prettyElement_elem]
      split <;> simp only [List.mem_append, not_or, hi, ha, ht, hc, not_false_eq_true, true_and, and_true] <;> decide

theorem noCr_toPrettyXml {n : Node} (hn : WellNamed n) (hp : PlainValues n) : '\r' ∉ toPrettyXml n := by
  unfold toPrettyXml
  intro h
  rcases List.mem_append.mp h with h | h
  · exact absurd h (by decide)
  · exact noCr_pretty n hn hp [] (by simp) h

theorem writing_last (d : Disk) (name : String) (bytes : List UInt8) :
    (writing d name bytes).getLast? = some (d.put name (bytesOf bytes)) := by
  simp [writing, List.range_succ]

theorem writing_mem {d s : Disk} {name : String} {bytes : List UInt8} (h : s ∈ writing d name bytes) :
    ∃ a b, a ++ b = bytes ∧ s = d.put name (bytesOf a) := by
  simp only [writing, List.mem_map, List.mem_range] at h
  obtain ⟨k, -, rfl⟩ := h
  exact ⟨_, _, List.take_append_drop k bytes, rfl⟩

/-- What is written, and how it ends. -/
theorem written (pl : Platform) {x : Node} (hn : WellNamed x) (hl : LegalValues x) {pretty : Bool} {text : List Char}
    (ht : printToFile x pretty = .ok text) (hu : UsualLinesep pl)
    (henc : pretty = true → WritesUtf8 pl ('\r' :: text))
    (hbr : pretty = true → pl.linesep = ['\n'] ∨ PlainValues x) :
    ∃ chars, fileBytes pl pretty text = some (chars.flatMap String.utf8EncodeChar) ∧ eol chars = eol text ∧
      parse text = some (if pretty then x.mapValues spaced else x) ∧
      ∃ l c tail, chars = l ++ [c] ++ ['>'] ++ tail ∧ c ≠ '\r' ∧ c ≠ '\n' ∧ c ≠ '?' ∧
        (tail = [] ∨ tail = ['\n'] ∨ tail = ['\r', '\n']) := by
  cases pretty with
  | false =>
    rw [plain_text hn] at ht
    cases ht
    obtain ⟨l, c, e, hc⟩ := serialize_ends (enc := escR) hn
    refine ⟨writeWith escR x, ?_, rfl, parse_writeWith reads_escR noBreak_escR _ hn hl, l, c, [], by rw [e, List.append_nil],
      hc.1, hc.2.1, hc.2.2, .inl rfl⟩
    have := mem_writeWith (P := fun c => c.toNat < 128) (by decide) (fun _ => ascii_name) ascii_escR _ hn
    simp only [fileBytes, Bool.false_eq_true, if_false]
    rw [ascii_bytes this]
  | true =>
    rw [pretty_text hn hl] at ht
    cases ht
    obtain ⟨l, c, e, hc⟩ := pretty_ends hn
    have hex : WritesUtf8 pl (expand pl (toPrettyXml x)) := by
      intro c hc
      simp only [expand, List.mem_flatMap] at hc
      obtain ⟨y, hy, hc⟩ := hc
      refine henc rfl c ?_
      split at hc
      · rename_i e
        subst e
        rcases hu with e | e
        · rw [e] at hc; rw [List.mem_singleton.mp hc]; simp [hy]
        · rw [e] at hc
          simp only [List.mem_cons, List.not_mem_nil, or_false] at hc
          rcases hc with rfl | rfl
          · simp
          · simp [hy]
      · rw [List.mem_singleton.mp hc]; simp [hy]
    have hcr : pl.linesep = ['\n'] ∨ '\r' ∉ toPrettyXml x := (hbr rfl).imp id (noCr_toPrettyXml hn)
    refine ⟨expand pl (toPrettyXml x), ?_, eol_expand hu hcr, parse_pretty x hn hl, expand pl l, c, pl.linesep, ?_,
      hc.1, hc.2.1, hc.2.2, .inr hu⟩
    · simp only [fileBytes, if_true]; exact encodeText_utf8 hex
    · rw [e, expand_append, expand_append, expand_append]
      have h1 : expand pl [c] = [c] := by simp [expand, hc.2.1]
      have h2 : expand pl ['>'] = ['>'] := by simp [expand]
      have h3 : expand pl ['\n'] = pl.linesep := by simp [expand]
      rw [h1, h2, h3]

/-! ## C85 -/

/-- C85: what `write_xml` leaves on the disk is a file with the given name that an XML reader reads as the emitted tree,
with pretty printing and without it, on Unix and on Windows; all other files are as they were. It is asked that the
platform's encoding agrees with UTF-8 on the characters that are written with pretty printing (always so for ASCII
characters in the usual encodings), and that on Windows the values have no line breaks. -/
theorem C85_written (pl : Platform) (show' : F → String) (hp : Heap F) (date : String) (o : OpenDrive F)
    (filename : Option String) (pretty : Bool) (d : Disk) (element : Xml F) (h : o.getElement hp date = .ok element)
    (hrep : ∀ kv ∈ o.roads, ∀ i ∈ kv.2.objects, RepeatsNamed (hp.so.objs.cell i))
    (hl : LegalValues (element.render show')) (name : String) (text : List Char)
    (hw : o.writeXml show' hp date filename pretty = .ok (name, text)) (hu : UsualLinesep pl)
    (henc : pretty = true → WritesUtf8 pl ('\r' :: text))
    (hbr : pretty = true → pl.linesep = ['\n'] ∨ PlainValues (element.render show')) :
    ∃ bytes, (o.writeFile pl show' hp date filename pretty d).2 = .ok () ∧
      (o.writeFile pl show' hp date filename pretty d).1.getLast? = some (d.put name bytes) ∧
      treeOfFile bytes = some (if pretty then (element.render show').mapValues spaced else element.render show') ∧
      ∀ readNum : String → Option F, documentOfFile readNum bytes = readFile readNum text := by
  have hn := (OpenDrive.named hrep h).render show'
  have ht : printToFile (element.render show') pretty = .ok text := by
    unfold OpenDrive.writeXml at hw
    rw [h] at hw
    simp only [bind, Except.bind, pure, Except.pure] at hw
    split at hw
    · cases hw
    · rename_i h'; cases hw; exact h'
  obtain ⟨chars, h1, h2, h3, -⟩ := written pl hn hl ht hu henc hbr
  refine ⟨bytesOf (chars.flatMap String.utf8EncodeChar), ?_, ?_, ?_, ?_⟩
  · simp only [OpenDrive.writeFile, hw, h1]
  · simp only [OpenDrive.writeFile, hw, h1]; exact writing_last _ _ _
  · rw [treeOfFile, bytesOf_utf8, textOfFile_utf8, Option.bind_some, ← h3]
    unfold parse; rw [h2]
  · intro readNum
    rw [documentOfFile, bytesOf_utf8, textOfFile_utf8, Option.bind_some]
    unfold readFile parse; rw [h2]

/-- C85: a program that is stopped while `write_xml` writes leaves on the disk either what was there before, or a file
that no XML reader accepts, or the complete document: a file cut off anywhere, even in the middle of a character, is never
read as another document. `s` is any state of the disk on the way. -/
theorem C85_crash (pl : Platform) (show' : F → String) (hp : Heap F) (date : String) (o : OpenDrive F)
    (filename : Option String) (pretty : Bool) (d : Disk) (element : Xml F) (h : o.getElement hp date = .ok element)
    (hrep : ∀ kv ∈ o.roads, ∀ i ∈ kv.2.objects, RepeatsNamed (hp.so.objs.cell i))
    (hl : LegalValues (element.render show')) (name : String) (text : List Char)
    (hw : o.writeXml show' hp date filename pretty = .ok (name, text)) (hu : UsualLinesep pl)
    (henc : pretty = true → WritesUtf8 pl ('\r' :: text))
    (hbr : pretty = true → pl.linesep = ['\n'] ∨ PlainValues (element.render show'))
    (s : Disk) (hs : s ∈ (o.writeFile pl show' hp date filename pretty d).1) :
    (∀ n, n ≠ name → s n = d n) ∧
    ∃ bytes, s name = some bytes ∧ (treeOfFile bytes = none ∨
      treeOfFile bytes = some (if pretty then (element.render show').mapValues spaced else element.render show')) := by
  have hn := (OpenDrive.named hrep h).render show'
  have ht : printToFile (element.render show') pretty = .ok text := by
    unfold OpenDrive.writeXml at hw
    rw [h] at hw
    simp only [bind, Except.bind, pure, Except.pure] at hw
    split at hw
    · cases hw
    · rename_i h'; cases hw; exact h'
  obtain ⟨chars, h1, h2, h3, l, c, tail, hc, hc1, hc2, hc3, htl⟩ := written pl hn hl ht hu henc hbr
  have hs' : s ∈ writing d name (chars.flatMap String.utf8EncodeChar) := by
    simpa only [OpenDrive.writeFile, hw, h1] using hs
  obtain ⟨a, b, hab, rfl⟩ := writing_mem hs'
  refine ⟨fun n hne => by simp [Disk.put, hne], bytesOf a, by simp [Disk.put], ?_⟩
  rcases textOfFile_prefix hab with e | ⟨p, q, hpq, e⟩
  · left; rw [treeOfFile, e]; rfl
  · rw [treeOfFile, e, Option.bind_some]
    refine parse_prefix hc1 hc2 hc3 htl (l := l) (x := c) (tail := tail) ?_ p q (by rw [hpq, hc])
    rw [← hc, ← h3]
    unfold parse; rw [h2]

/-- C85: before it opens the file `write_xml` does all that can fail because of the document: if the document cannot be
emitted, or (with pretty printing) has characters that XML does not allow, it raises and no file has been touched. -/
theorem C85_untouched (pl : Platform) (show' : F → String) (hp : Heap F) (date : String) (o : OpenDrive F)
    (filename : Option String) (d : Disk) :
    (∀ e pretty, o.getElement hp date = .error e →
      o.writeFile pl show' hp date filename pretty d = ([], .error e)) ∧
    (∀ element, o.getElement hp date = .ok element →
      (∀ kv ∈ o.roads, ∀ i ∈ kv.2.objects, RepeatsNamed (hp.so.objs.cell i)) →
      ¬ LegalValues (element.render show') →
      o.writeFile pl show' hp date filename true d = ([], .error .expatError)) := by
  refine ⟨fun e pretty h => ?_, fun element h hrep hl => ?_⟩
  · simp only [OpenDrive.writeFile, C63_error show' hp date o filename pretty e h]
  · simp only [OpenDrive.writeFile, (C63_illegal show' hp date o filename element h hrep hl).1]

/-- C85, a limit: `write_xml` opens the file for writing, it does not replace it: the first thing that happens to an
existing file is that it becomes empty, and an empty file is no XML. A program that stops there has lost the old file
and has no new one. -/
theorem C85_emptied (pl : Platform) (show' : F → String) (hp : Heap F) (date : String) (o : OpenDrive F)
    (filename : Option String) (pretty : Bool) (d : Disk) (name : String) (text : List Char)
    (hw : o.writeXml show' hp date filename pretty = .ok (name, text)) :
    (o.writeFile pl show' hp date filename pretty d).1.head? = some (d.put name ByteArray.empty) ∧
    treeOfFile ByteArray.empty = none := by
  refine ⟨?_, by rfl⟩
  simp only [OpenDrive.writeFile, hw]
  cases fileBytes pl pretty text with
  | none => rfl
  | some bytes => simp [writing, List.head?_map, List.head?_range]; rfl

/-- C85, a limit: with pretty printing (the default), a text with a character that the encoding of the platform does not
have makes `write_xml` raise `UnicodeEncodeError` — behind the point where the file has been emptied. Without pretty
printing this does not happen. -/
theorem C85_unencodable (pl : Platform) (show' : F → String) (hp : Heap F) (date : String) (o : OpenDrive F)
    (filename : Option String) (d : Disk) (name : String) (text : List Char) :
    (∀ c ∈ text, c ≠ '\n' → pl.encode c = none →
      o.writeXml show' hp date filename true = .ok (name, text) →
      o.writeFile pl show' hp date filename true d = ([d.put name ByteArray.empty], .error .unicodeEncodeError)) ∧
    (o.writeXml show' hp date filename false = .ok (name, text) →
      (o.writeFile pl show' hp date filename false d).2 = .ok ()) := by
  refine ⟨fun c hc hcn he hw => ?_, fun hw => ?_⟩
  · have : fileBytes pl true text = none := by
      simp only [fileBytes, if_true, encodeText, Option.map_eq_none_iff]
      have hm : c ∈ text.flatMap fun c => if c = '\n' then pl.linesep else [c] :=
        List.mem_flatMap.mpr ⟨c, hc, by simp [hcn]⟩
      generalize (text.flatMap fun c => if c = '\n' then pl.linesep else [c]) = l at hm
      induction l with
      | nil => cases hm
      | cons x l ih =>
        rw [List.mapM_cons]
        rcases List.mem_cons.mp hm with rfl | hm
        · rw [he]; rfl
        · rw [ih hm]
          cases pl.encode x <;> rfl
    simp only [OpenDrive.writeFile, hw, this]
    rfl
  · simp only [OpenDrive.writeFile, hw, fileBytes, Bool.false_eq_true, if_false]

/-- C85: the whole way: the file that `write_xml` leaves on the disk is read, by a reader that knows XML and the OpenDRIVE
names and nothing of pyodrx, as the document the user described (compare C64). -/
theorem C85_document (pl : Platform) (show' : F → String) (readNum : String → Option F) (hnone : readNum "None" = none)
    (hp : Heap F) (date : String) (o : OpenDrive F) (filename : Option String) (pretty : Bool) (d : Disk)
    (element : Xml F) (h : o.getElement hp date = .ok element)
    (hnum : ∀ x, Occurs (.num x) element → readNum (show' x) = some x)
    (hrep : ∀ kv ∈ o.roads, ∀ i ∈ kv.2.objects, RepeatsNamed (hp.so.objs.cell i))
    (hl : LegalValues (element.render show')) (hpl : pretty = true → PlainValues (element.render show'))
    (gs : Road F → List (RGeometry F))
    (hg : ∀ kv ∈ o.roads, GoodRoad hp kv.2 ∧ readPlanView (kv.2.planview.getElement hp.geoms) = some (gs kv.2))
    (hu : UsualLinesep pl)
    (henc : pretty = true → ∀ name text, o.writeXml show' hp date filename pretty = .ok (name, text) →
      WritesUtf8 pl ('\r' :: text)) :
    ∃ bytes, (o.writeFile pl show' hp date filename pretty d).2 = .ok () ∧
      (o.writeFile pl show' hp date filename pretty d).1.getLast? =
        some (d.put (filename.getD (o.name ++ ".xodr")) bytes) ∧
      documentOfFile readNum bytes = some ⟨o.name, o.roads.map (fun kv => shownRoad hp kv.2 (gs kv.2)),
        o.junctions.map shownJunction⟩ := by
  have : ∃ text, o.writeXml show' hp date filename pretty = .ok (filename.getD (o.name ++ ".xodr"), text) ∧
      readFile readNum text = some ⟨o.name, o.roads.map (fun kv => shownRoad hp kv.2 (gs kv.2)),
        o.junctions.map shownJunction⟩ := by
    cases pretty with
    | false => exact C64_plain show' readNum hnone hp date o filename element h hnum hrep hl gs hg
    | true => exact C64_pretty show' readNum hnone hp date o filename element h hnum hrep hl (hpl rfl) gs hg
  obtain ⟨text, hw, hr⟩ := this
  obtain ⟨bytes, h1, h2, -, h4⟩ := C85_written pl show' hp date o filename pretty d element h hrep hl _ text hw hu
    (fun hp' => henc hp' _ _ hw) (fun hp' => .inr (hpl hp'))
  exact ⟨bytes, h1, h2, (h4 readNum).trans hr⟩

/-! ## Another encoding -/

theorem latin1_bytes {pl : Platform} (he : pl.encode = latin1) (hs : pl.linesep = ['\n']) {text : List Char}
    (h : ∀ c ∈ text, c.toNat < 256) : fileBytes pl true text = some (text.map fun c => c.toNat.toUInt8) := by
  have hx : (text.flatMap fun c => if c = '\n' then pl.linesep else [c]) = text := by
    rw [hs]
    clear h
    induction text with
    | nil => rfl
    | cons c l ih => rw [List.flatMap_cons, ih]; split <;> simp [*]
  simp only [fileBytes, if_true, encodeText, hx, he]
  rw [mapM_some (g := fun c => [c.toNat.toUInt8]) (fun c hc => by simp [latin1, h c hc])]
  rw [Option.map_some, ← List.flatMap_def, List.map_eq_flatMap]

/-- The bytes of a character outside ASCII are at least 128, and there are at least two. -/
theorem utf8_high {c : Char} (h : 128 ≤ c.toNat) : ∃ a b l, String.utf8EncodeChar c = a :: b :: l ∧ 128 ≤ a.toNat ∧ 128 ≤ b.toNat := by
  have hv : c.toNat = c.val.toNat := rfl
  unfold String.utf8EncodeChar
  rw [← hv]
  dsimp only
  split
  · omega
  split
  · exact ⟨_, _, _, rfl, by simp only [UInt8.toNat_ofNat']; omega, by simp only [UInt8.toNat_ofNat']; omega⟩
  split
  · exact ⟨_, _, _, rfl, by simp only [UInt8.toNat_ofNat']; omega, by simp only [UInt8.toNat_ofNat']; omega⟩
  · exact ⟨_, _, _, rfl, by simp only [UInt8.toNat_ofNat']; omega, by simp only [UInt8.toNat_ofNat']; omega⟩

/-- Latin-1 text that happens to be UTF-8 has two neighbouring characters outside ASCII, or it has none. -/
theorem latin1_utf8 : ∀ (l text : List Char), (∀ c ∈ text, c.toNat < 256) →
    text.map (fun c => c.toNat.toUInt8) = l.flatMap String.utf8EncodeChar →
    (∀ c ∈ text, c.toNat < 128) ∨ ∃ u a b v, text = u ++ a :: b :: v ∧ 128 ≤ a.toNat ∧ 128 ≤ b.toNat := by
  intro l
  induction l with
  | nil =>
    intro text _ h
    have : text = [] := by simpa using h
    subst this
    left; simp
  | cons c l ih =>
    intro text h9 h
    rw [List.flatMap_cons] at h
    by_cases hc : c.toNat < 128
    · have e := ascii_bytes (l := [c]) (by simpa using hc)
      simp only [List.map_cons, List.map_nil, List.flatMap_cons, List.flatMap_nil, List.append_nil] at e
      rw [← e] at h
      cases text with
      | nil => simp at h
      | cons x text =>
        simp only [List.map_cons, List.cons_append, List.nil_append, List.cons.injEq] at h
        have hx9 := h9 x (by simp)
        have hx : x.toNat < 128 := by
          have := congrArg UInt8.toNat h.1
          simp only [Nat.toUInt8_eq, UInt8.toNat_ofNat'] at this
          omega
        rcases ih text (fun y hy => h9 y (by simp [hy])) h.2 with h1 | ⟨u, a, b, v, h1, h2⟩
        · left
          intro y hy
          rcases List.mem_cons.mp hy with rfl | hy
          · exact hx
          · exact h1 y hy
        · right; exact ⟨x :: u, a, b, v, by rw [h1]; rfl, h2⟩
    · obtain ⟨a, b, r, e, ha, hb⟩ := utf8_high (by omega : 128 ≤ c.toNat)
      rw [e] at h
      right
      match text, h with
      | [], h => simp at h
      | [x], h => simp at h
      | x :: y :: v, h =>
        simp only [List.map_cons, List.cons_append, List.cons.injEq] at h
        have hx9 := h9 x (by simp)
        have hy9 := h9 y (by simp)
        refine ⟨[], x, y, v, rfl, ?_, ?_⟩
        · have := congrArg UInt8.toNat h.1
          simp only [Nat.toUInt8_eq, UInt8.toNat_ofNat'] at this
          omega
        · have := congrArg UInt8.toNat h.2.1
          simp only [Nat.toUInt8_eq, UInt8.toNat_ofNat'] at this
          omega

/-- C85, a limit: pretty printing (the default) writes the file in the encoding of the platform but without telling it in
the XML declaration, so that a reader takes it for UTF-8. Where the encoding of the platform is Latin-1 (or a relative
like that of Windows), a document with a character like `ß` is not read back as it was written, and if no two such
characters are neighbours the file is not readable at all. -/
theorem C85_latin1 (pl : Platform) (he : pl.encode = latin1) (hs : pl.linesep = ['\n']) (show' : F → String) (hp : Heap F)
    (date : String) (o : OpenDrive F) (filename : Option String) (d : Disk) (name : String) (text : List Char)
    (hw : o.writeXml show' hp date filename true = .ok (name, text)) (h9 : ∀ c ∈ text, c.toNat < 256)
    (hc : ∃ c ∈ text, 128 ≤ c.toNat) :
    ∃ bytes, (o.writeFile pl show' hp date filename true d).2 = .ok () ∧
      (o.writeFile pl show' hp date filename true d).1.getLast? = some (d.put name bytes) ∧
      textOfFile bytes ≠ some text ∧
      ((∀ u a b v, text = u ++ a :: b :: v → a.toNat < 128 ∨ b.toNat < 128) → treeOfFile bytes = none) := by
  refine ⟨bytesOf (text.map fun c => c.toNat.toUInt8), ?_, ?_, ?_, ?_⟩
  · simp only [OpenDrive.writeFile, hw, latin1_bytes he hs h9]
  · simp only [OpenDrive.writeFile, hw, latin1_bytes he hs h9]; exact writing_last _ _ _
  · intro h
    have h1 := decoded h
    obtain ⟨c, hc, h2⟩ := hc
    have h3 := congrArg List.length h1
    rw [List.length_map, List.length_flatMap] at h3
    have h4 : ∀ l : List Char, l.length ≤ (l.map fun c => (String.utf8EncodeChar c).length).sum := by
      intro l
      induction l with
      | nil => simp
      | cons x l ih =>
        have : 1 ≤ (String.utf8EncodeChar x).length := List.length_pos_iff.mpr String.utf8EncodeChar_ne_nil
        simp only [List.length_cons, List.map_cons, List.sum_cons]; omega
    obtain ⟨u, v, rfl⟩ := List.append_of_mem hc
    obtain ⟨a, b, r, e, -⟩ := utf8_high h2
    have hu := h4 u
    have hv := h4 v
    simp only [List.map_append, List.map_cons, List.sum_append, List.sum_cons, e, List.length_append, List.length_cons] at h3
    omega
  · intro hadj
    cases ht : textOfFile (bytesOf (text.map fun c => c.toNat.toUInt8)) with
    | none => rw [treeOfFile, ht]; rfl
    | some l =>
      exfalso
      rcases latin1_utf8 l text h9 (decoded ht) with h1 | ⟨u, a, b, v, h1, h2, h3⟩
      · obtain ⟨c, hc, h2⟩ := hc
        have := h1 c hc
        omega
      · rcases hadj u a b v h1 with h | h <;> omega

/-! ## Non-vacuity -/

/-- the tree of a document without roads whose name is not ASCII -/
def streetTree : Xml F := .elem "OpenDRIVE" [] [headerElement "Straße" "today"]

def streetText : List Char := ("<?xml version=\"1.0\" ?>\n<OpenDRIVE>\n\t<header name=\"Straße\" revMajor=\"1\" revMinor=\"5\" " ++
  "date=\"today\" north=\"0.0\" south=\"0.0\" east=\"0.0\" west=\"0.0\"/>\n</OpenDRIVE>\n").toList

theorem street_ok (show' : F → String) (hp : Heap F) :
    (OpenDrive.new "Straße" : OpenDrive F).getElement hp "today" = .ok streetTree ∧
    LegalValues ((streetTree (F := F)).render show') ∧ PlainValues ((streetTree (F := F)).render show') ∧
    (OpenDrive.new "Straße" : OpenDrive F).writeXml show' hp "today" none true = .ok ("Straße.xodr", streetText) := by
  have e : (streetTree (F := F)).render show' = .elem "OpenDRIVE" [] [.elem "header" [("name", "Straße"), ("revMajor", "1"),
    ("revMinor", "5"), ("date", "today"), ("north", "0.0"), ("south", "0.0"), ("east", "0.0"), ("west", "0.0")] []] := by
    unfold streetTree headerElement
    simp only [render_elem, List.map_cons, List.map_nil, Val.text]
  have hn : WellNamed ((streetTree (F := F)).render show') := by
    rw [e]
    refine .elem _ _ _ (by decide) (by simp) (by simp) ?_
    intro c hc
    rw [List.mem_singleton.mp hc]
    exact .elem _ _ _ (by decide) (by decide) (by decide) (by simp)
  have hl : LegalValues ((streetTree (F := F)).render show') := by
    rw [e]
    refine .elem _ _ _ (by simp) ?_
    intro c hc
    rw [List.mem_singleton.mp hc]
    exact .elem _ _ _ (by decide) (by simp)
  have hg : (OpenDrive.new "Straße" : OpenDrive F).getElement hp "today" = .ok streetTree := rfl
  refine ⟨hg, hl, ?_, ?_⟩
  · rw [e]
    refine .elem _ _ _ (by simp) ?_
    intro c hc
    rw [List.mem_singleton.mp hc]
    exact .elem _ _ _ (by decide) (by simp)
  · have := writeXml_ok (sh := show') hg none (pretty_text hn hl)
    rw [this, show (none : Option String).getD ((OpenDrive.new "Straße" : OpenDrive F).name ++ ".xodr") = "Straße.xodr" from by
      simp [OpenDrive.new], e]
    refine congrArg (fun l => Except.ok ("Straße.xodr", l)) ?_
    unfold toPrettyXml
    rw [prettyElement_elem, List.flatMap_cons, prettyElement_elem]
    decide +kernel

/-- On Windows with UTF-8, the hypotheses of `C85_written` and `C85_crash` hold of it; and on a platform with Latin-1 those
of `C85_latin1` do, and the file is not readable. -/
example (show' : F → String) (hp : Heap F) (d : Disk) :
    (∃ bytes, ((OpenDrive.new "Straße" : OpenDrive F).writeFile ⟨fun c => some (String.utf8EncodeChar c), ['\r', '\n']⟩ show' hp
        "today" none true d).1.getLast? = some (d.put "Straße.xodr" bytes) ∧
      treeOfFile bytes = some (((streetTree (F := F)).render show').mapValues spaced)) ∧
    (∃ bytes, ((OpenDrive.new "Straße" : OpenDrive F).writeFile ⟨latin1, ['\n']⟩ show' hp
        "today" none true d).1.getLast? = some (d.put "Straße.xodr" bytes) ∧ treeOfFile bytes = none) ∧
    (OpenDrive.new "Straße" : OpenDrive F).writeFile ⟨fun c => if c.toNat < 128 then some [c.toNat.toUInt8] else none, ['\n']⟩
        show' hp "today" none true d = ([d.put "Straße.xodr" ByteArray.empty], .error .unicodeEncodeError) := by
  obtain ⟨h1, h2, h3, h4⟩ := street_ok show' hp
  refine ⟨?_, ?_, ?_⟩
  · obtain ⟨bytes, -, h5, h6, -⟩ := C85_written ⟨fun c => some (String.utf8EncodeChar c), ['\r', '\n']⟩ show' hp "today"
      (OpenDrive.new "Straße") none true d _ h1 (by simp [OpenDrive.new]) h2 _ _ h4 (.inr rfl) (fun _ c _ => rfl)
      (fun _ => .inr h3)
    exact ⟨bytes, h5, h6⟩
  · obtain ⟨bytes, -, h5, -, h6⟩ := C85_latin1 ⟨latin1, ['\n']⟩ rfl rfl show' hp "today"
      (OpenDrive.new "Straße") none d _ _ h4 (by decide +kernel) (by decide +kernel)
    refine ⟨bytes, h5, h6 ?_⟩
    have key : ∀ l : List Char, (l.zip l.tail).all (fun p => p.1.toNat < 128 || p.2.toNat < 128) = true →
        ∀ u a b v, l = u ++ a :: b :: v → a.toNat < 128 ∨ b.toNat < 128 := by
      intro l hl u
      induction u generalizing l with
      | nil =>
        rintro a b v rfl
        simp only [List.nil_append, List.tail_cons, List.zip_cons_cons, List.all_cons, Bool.and_eq_true, Bool.or_eq_true,
          decide_eq_true_eq] at hl
        exact hl.1
      | cons x u ih =>
        rintro a b v rfl
        refine ih (u ++ a :: b :: v) ?_ a b v rfl
        cases u <;> simp_all
    exact key _ (by decide +kernel)
  · exact (C85_unencodable _ show' hp "today" (OpenDrive.new "Straße") none d _ streetText).1 'ß' (by decide +kernel) (by decide)
      (by decide) h4

end Pyodrx.Props
