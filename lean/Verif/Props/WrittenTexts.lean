import Verif.Proofs.WrittenTexts
import Verif.Props.UserTexts

/-! # C63: exactly when a file can be written and is read as it was meant -/

namespace Pyodrx.Props
open Pyodrx Spec

variable {F : Type}

theorem legal_all {show' : F → String} : ∀ {x : Xml F}, LegalValues (x.render show') →
    x.All fun v => ∀ c ∈ (v.text show').toList, XmlParser.isXmlChar c = true
  | .elem t as cs, h => by
    rw [render_elem] at h
    cases h with
    | elem _ _ _ ha hc =>
      exact .elem _ _ _ (fun p hp => ha _ (List.mem_map.mpr ⟨p, hp, rfl⟩)) fun c hc' => legal_all (hc _ (List.mem_map.mpr ⟨c, hc', rfl⟩))

theorem plain_all {show' : F → String} : ∀ {x : Xml F}, PlainValues (x.render show') →
    x.All fun v => ∀ c ∈ (v.text show').toList, c ≠ '\n' ∧ c ≠ '\r' ∧ c ≠ '\t'
  | .elem t as cs, h => by
    rw [render_elem] at h
    cases h with
    | elem _ _ _ ha hc =>
      exact .elem _ _ _ (fun p hp => ha _ (List.mem_map.mpr ⟨p, hp, rfl⟩)) fun c hc' => plain_all (hc _ (List.mem_map.mpr ⟨c, hc', rfl⟩))

theorem toUpper_same (c : Char) : c.toUpper = c ∨ (97 ≤ c.toNat ∧ c.toNat ≤ 122) := by
  unfold Char.toUpper
  split
  · right
    rename_i h
    exact ⟨UInt32.le_iff_toNat_le.mp h.1, UInt32.le_iff_toNat_le.mp h.2⟩
  · left; rfl

theorem textOk_chars {Q : Char → Prop} (hQ : ∀ c : Char, 32 ≤ c.toNat → c.toNat < 127 → Q c) {show' : F → String} {t : String}
    (h : TextOk (fun v : Val F => ∀ c ∈ (v.text show').toList, Q c) t) : ∀ c ∈ t.toList, Q c := by
  rcases h with h | h
  · exact h
  · intro c hc
    have := h c.toUpper (by rw [Val.text, String.toList_map]; exact List.mem_map.mpr ⟨c, hc, rfl⟩)
    rcases toUpper_same c with e | ⟨h1, h2⟩
    · rwa [e] at this
    · exact hQ c (by omega) (by omega)

/-- The signals are as `Signal` makes them: their `Type` is kept in two attributes. -/
def SignalsMade (hp : Heap F) (o : OpenDrive F) : Prop :=
  ∀ kv ∈ o.roads, ∀ i ∈ kv.2.signals, (hp.so.sigs.cell i).base.typ = .str (hp.so.sigs.cell i).type

theorem signals_typ {hp : Heap F} {date : String} {o : OpenDrive F} (h : SignalsMade hp o) {P : Val F → Prop}
    (ht : ∀ s ∈ writtenTexts hp date o, P (.str s)) :
    ∀ kv ∈ o.roads, ∀ i ∈ kv.2.signals, ∀ s, (hp.so.sigs.cell i).base.typ = .str s → P (.str s) := by
  intro kv hkv i hi s hs
  rw [h kv hkv i hi] at hs
  cases hs
  refine ht _ (List.mem_append_left _ (List.mem_append_right _ (List.mem_flatMap.mpr ⟨kv, hkv, ?_⟩)))
  exact List.mem_append_left _ (List.mem_append_right _ (List.mem_flatMap.mpr ⟨i, hi, by simp [signalWritten]⟩))

variable [PyFloat F]

/-- The values of the document are legal, or without line breaks and tabs, exactly if the texts of the user that are written are. -/
theorem values_written {show' : F → String} {hp : Heap F} {date : String} {o : OpenDrive F} {element : Xml F}
    (h : o.getElement hp date = .ok element) (hrep : ∀ kv ∈ o.roads, ∀ i ∈ kv.2.objects, RepeatsNamed (hp.so.objs.cell i))
    (hsig : SignalsMade hp o) :
    ((∀ x, ∀ c ∈ (show' x).toList, XmlParser.isXmlChar c = true) →
      (LegalValues (element.render show') ↔ ∀ s ∈ writtenTexts hp date o, ∀ c ∈ s.toList, XmlParser.isXmlChar c = true)) ∧
    ((∀ x, ∀ c ∈ (show' x).toList, c ≠ '\n' ∧ c ≠ '\r' ∧ c ≠ '\t') →
      (PlainValues (element.render show') ↔ ∀ s ∈ writtenTexts hp date o, ∀ c ∈ s.toList, c ≠ '\n' ∧ c ≠ '\r' ∧ c ≠ '\t')) := by
  refine ⟨fun hs => ⟨fun hl s ht => ?_, fun ht => ?_⟩, fun hs => ⟨fun hl s ht => ?_, fun ht => ?_⟩⟩
  · exact textOk_chars (fun c => printable_legal) (OpenDrive.texts (.inl (by simp [Val.text])) h (legal_all hl) s ht)
  · exact (Xml.All.render (OpenDrive.all_written (fixedOk (fun c => printable_legal) hs) hrep
      (signals_typ (P := fun v => ∀ c ∈ (v.text show').toList, XmlParser.isXmlChar c = true) hsig ht) ht h)).1 fun _ h => h
  · exact textOk_chars (fun c h _ => printable_plain h) (OpenDrive.texts (.inl (by simp [Val.text])) h (plain_all hl) s ht)
  · exact (Xml.All.render (OpenDrive.all_written (fixedOk (fun c h _ => printable_plain h) hs) hrep
      (signals_typ (P := fun v => ∀ c ∈ (v.text show').toList, c ≠ '\n' ∧ c ≠ '\r' ∧ c ≠ '\t') hsig ht) ht h)).2 fun _ h => h

/-- **C63** (exactly): the file is written (pretty printed), and the file that is written is XML (without pretty printing), exactly if the
texts of the user that are written have only characters that XML allows. The pretty printed file is read as the document that was emitted
exactly if they have no line breaks and tabs either. -/
theorem C63_exactly (show' : F → String) (hshow : ∀ x, ∀ c ∈ (show' x).toList, XmlParser.isXmlChar c = true ∧ c ≠ '\n' ∧ c ≠ '\r' ∧ c ≠ '\t')
    (hp : Heap F) (date : String) (o : OpenDrive F) (filename : Option String) (element : Xml F) (h : o.getElement hp date = .ok element)
    (hrep : ∀ kv ∈ o.roads, ∀ i ∈ kv.2.objects, RepeatsNamed (hp.so.objs.cell i)) (hsig : SignalsMade hp o) :
    ((∃ f, o.writeXml show' hp date filename true = .ok f) ↔
      ∀ s ∈ writtenTexts hp date o, ∀ c ∈ s.toList, XmlParser.isXmlChar c = true) ∧
    ((∃ f text, o.writeXml show' hp date filename false = .ok (f, text) ∧ ∃ x, XmlParser.parse text = some x) ↔
      ∀ s ∈ writtenTexts hp date o, ∀ c ∈ s.toList, XmlParser.isXmlChar c = true) ∧
    ((∃ f text, o.writeXml show' hp date filename true = .ok (f, text) ∧ XmlParser.parse text = some (element.render show')) ↔
      ∀ s ∈ writtenTexts hp date o, ∀ c ∈ s.toList, XmlParser.isXmlChar c = true ∧ c ≠ '\n' ∧ c ≠ '\r' ∧ c ≠ '\t') := by
  obtain ⟨v1, v2⟩ := values_written (show' := show') h hrep hsig
  have v1 := v1 fun x c hc => (hshow x c hc).1
  have v2 := v2 fun x c hc => (hshow x c hc).2
  have bad : ¬ LegalValues (element.render show') → _ := C63_illegal show' hp date o filename element h hrep
  refine ⟨⟨fun ⟨f, hf⟩ => v1.mp ?_, fun ht => ?_⟩, ⟨fun ⟨f, text, hf, x, hx⟩ => v1.mp ?_, fun ht => ?_⟩,
    ⟨fun ⟨f, text, hf, hx⟩ => ?_, fun ht => ?_⟩⟩
  · by_contra hl
    rw [(bad hl).1] at hf
    cases hf
  · obtain ⟨text, h1, -⟩ := C63_pretty show' hp date o filename element h hrep (v1.mpr ht)
    exact ⟨_, h1⟩
  · by_contra hl
    obtain ⟨-, text', h1, h2⟩ := bad hl
    rw [h1] at hf
    cases hf
    rw [h2] at hx
    cases hx
  · obtain ⟨text, h1, -, h2⟩ := C63_plain show' hp date o filename element h hrep (v1.mpr ht)
    exact ⟨_, _, h1, _, h2⟩
  · have hl : LegalValues (element.render show') := by
      by_contra hl
      rw [(bad hl).1] at hf
      cases hf
    obtain ⟨text', h1, -, h2⟩ := C63_pretty show' hp date o filename element h hrep hl
    rw [h1] at hf
    cases hf
    have := v2.mp (h2.mp hx)
    exact fun s hs c hc => ⟨v1.mp hl s hs c hc, this s hs c hc⟩
  · obtain ⟨text, h1, -, h2⟩ := C63_pretty show' hp date o filename element h hrep (v1.mpr fun s hs c hc => (ht s hs c hc).1)
    exact ⟨_, _, h1, h2.mpr (v2.mpr fun s hs c hc => (ht s hs c hc).2)⟩

/-- A document whose name has a control character is not written, and one with a line break in it is read with another name. -/
example (hp : Heap F) (filename : Option String) :
    (¬ ∃ f, (OpenDrive.mk "a\x01" ([] : Dict (Road F)) []).writeXml (fun _ => "1") hp "today" filename true = .ok f) ∧
    (∃ f, (OpenDrive.mk "a\nb" ([] : Dict (Road F)) []).writeXml (fun _ => "1") hp "today" filename true = .ok f) ∧
    ∀ element, (OpenDrive.mk "a\nb" ([] : Dict (Road F)) []).getElement hp "today" = .ok element →
      ¬ ∃ f text, (OpenDrive.mk "a\nb" ([] : Dict (Road F)) []).writeXml (fun _ => "1") hp "today" filename true = .ok (f, text) ∧
        XmlParser.parse text = some (element.render fun _ => "1") := by
  have key := fun (name : String) (element : Xml F) (h : (OpenDrive.mk name ([] : Dict (Road F)) []).getElement hp "today" = .ok element) =>
    C63_exactly (fun _ => "1") (fun _ => by decide) hp "today" ⟨name, [], []⟩ filename element h (by simp) (fun kv hkv => by simp at hkv)
  refine ⟨fun h => ?_, ?_, fun element he h => ?_⟩
  · have := (key "a\x01" _ rfl).1.mp h "a\x01" (by simp [writtenTexts])
    revert this; decide
  · refine (key "a\nb" _ rfl).1.mpr ?_
    simp only [writtenTexts, List.flatMap_nil, List.append_nil]
    decide
  · have := (key "a\nb" element he).2.2.mp h "a\nb" (by simp [writtenTexts])
    revert this; decide

end Pyodrx.Props
