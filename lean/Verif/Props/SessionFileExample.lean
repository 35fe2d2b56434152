import Verif.Props.SessionFile
import Verif.Props.SessionDocumentExample

/-! # A program that meets the hypotheses of C100: that of C92, two roads and a connecting road, with two poles -/

namespace Pyodrx.Props
open Pyodrx Pyodrx.Spec PyFloat XmlParser

/-- Nothing was made yet. -/
noncomputable def flEmpty : Session (Fl double) := { flStart with geoms := ⟨fun _ => .line ⟨ofInt 0⟩, 0⟩ }

theorem flEmpty_blank : Blank flEmpty where
  arcs := by intro i a h; cases h
  marks := flStart_blank.marks
  signals := flStart_blank.signals

theorem flEmpty_nothing : NothingMade flEmpty where
  texts := by
    refine ⟨?_, ?_, ?_, ?_, ?_, ?_, ?_, ?_⟩
    · intro i t ht; cases ht
    · intro i t ht; cases ht
    · intro i t ht; cases ht
    · intro i t ht
      simpa [flEmpty, flStart, Obj.new, baseTexts] using ht
    · intro i t ht
      simpa [flEmpty, flStart, Signal.new, signalTexts, baseTexts] using ht
    · intro i t ht; cases ht
    · intro i t ht
      simpa [flEmpty, flStart, idTexts] using ht
    · intro i; rfl
  repeats := fun i => rfl

/-- The texts of its calls. -/
theorem connProg_texts (off : Int) : ∀ c ∈ connProg false off, ∀ t ∈ callTexts c, t ∈ ["doc", "other", "normalized", "pole"] := by
  intro c hc t ht
  simp only [connProg, List.mem_cons, List.not_mem_nil, or_false] at hc
  rcases hc with rfl | rfl | rfl | rfl | rfl | rfl | rfl | rfl | rfl | rfl | rfl | rfl | rfl | rfl | rfl | rfl | rfl | rfl | rfl | rfl |
    rfl | rfl | rfl | rfl | rfl | rfl | rfl | rfl | rfl | rfl | rfl | rfl | rfl | rfl | rfl | rfl | rfl | rfl | rfl | rfl |
    rfl | rfl | rfl | rfl | rfl | rfl | rfl | rfl | rfl | rfl <;>
  simp [callTexts, idTexts, flGeom, geomTexts, flLane, exPole, Obj.new, baseTexts] at ht <;> simp_all

/-- Its file, plain or pretty printed, is written and read, and in it are the roads that the calls describe. -/
theorem connProg_file (pretty : Bool) : ∃ (show' : Fl double → String) (readNum : String → Option (Fl double)) (text : List Char)
    (doc : RDocument (Fl double)) (s2 : Session (Fl double)), s2 = (runCalls (connProg false 0 ++ [.adjust 0]) flEmpty).2 ∧
    (s2.readOpenDrive (s2.openDrives.cell 0)).writeXml show' s2.heap "today" none pretty = .ok ("doc.xodr", text) ∧
    readFile readNum text = some doc ∧ DocumentShown (connProg false 0) 0 doc := by
  obtain ⟨element, he⟩ := C89_emits (connProg false 0 ++ [.adjust 0]) (proper_adjust (connProg_proper false 0) ⟨"doc", by simp [connProg]⟩)
    flEmpty 0 "doc" (by simp [connProg]) "today"
  obtain ⟨show', readNum, h1, h2, h3⟩ := exists_printer element
  have hchars : ∀ c ∈ connProg false 0, ∀ t ∈ callTexts c, ∀ x ∈ t.toList,
      isXmlChar x = true ∧ x ≠ '\n' ∧ x ≠ '\r' ∧ x ≠ '\t' := by
    intro c hc t ht x hx
    have := connProg_texts 0 c hc t ht
    have hp : printable t = true := by
      simp only [List.mem_cons, List.not_mem_nil, or_false] at this
      rcases this with rfl | rfl | rfl | rfl <;> decide
    obtain ⟨a, b⟩ := printable_mem hp hx
    exact ⟨printable_legal a b, printable_plain a⟩
  obtain ⟨element', text, e1, e2, e3⟩ := C100_laid (connProg false 0) flEmpty flEmpty_blank flEmpty_nothing 0 (connProg_laidOut 0)
    (connProg_geometry 0) "doc" (by simp [connProg]) (by
      intro v ob h
      simp [connProg, flLane] at h
      rcases h with ⟨-, rfl⟩ | ⟨-, rfl⟩ <;> (intro r hr; simp [exPole, Obj.new] at hr))
    "today" (by decide) (fun c hc t ht x hx => (hchars c hc t ht x hx).1) pretty (fun _ c hc t ht x hx => (hchars c hc t ht x hx).2)
    show' readNum h1 h3 none _ rfl
  rw [he] at e1
  cases e1
  obtain ⟨doc, d1, d2⟩ := e3 h2
  exact ⟨show', readNum, text, doc, _, rfl, e2, d1, d2⟩

/-- A history with other calls between. -/
example : ∃ s', CallHistory flEmpty (connProg false 0 ++ [.adjust 0]) s' :=
  ⟨_, .roadside 60 0 50 (ofInt 10) (ofInt 0) (ofInt 1) .both (.call (.adjust 0) (.geometries 3 false (history_program (connProg false 0) flEmpty)))⟩

end Pyodrx.Props
