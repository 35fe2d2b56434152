import Verif.Proofs.UserTexts
import Verif.Props.ReadFile

/-! # C63, C64: the conditions on the values, in terms of what the user has given -/

namespace Pyodrx.Props
open Pyodrx Spec

variable {F : Type}

theorem Xml.All.render {Q : Char → Prop} {show' : F → String} {x : Xml F}
    (h : x.All fun v => ∀ c ∈ (v.text show').toList, Q c) :
    ((∀ c, Q c → XmlParser.isXmlChar c = true) → LegalValues (x.render show')) ∧
    ((∀ c, Q c → c ≠ '\n' ∧ c ≠ '\r' ∧ c ≠ '\t') → PlainValues (x.render show')) := by
  induction h with
  | elem t as cs ha _ ih =>
    rw [render_elem]
    constructor <;> intro hQ <;> refine .elem _ _ _ ?_ ?_
    · intro p hp c hc
      obtain ⟨q, hq, rfl⟩ := List.mem_map.mp hp
      exact hQ c (ha q hq c hc)
    · intro c hc
      obtain ⟨y, hy, rfl⟩ := List.mem_map.mp hc
      exact (ih y hy).1 hQ
    · intro p hp c hc
      obtain ⟨q, hq, rfl⟩ := List.mem_map.mp hp
      exact hQ c (ha q hq c hc)
    · intro c hc
      obtain ⟨y, hy, rfl⟩ := List.mem_map.mp hc
      exact (ih y hy).2 hQ

theorem printable_mem {s : String} (h : printable s = true) {c : Char} (hc : c ∈ s.toList) :
    32 ≤ c.toNat ∧ c.toNat < 127 := by
  have := List.all_eq_true.mp h c hc
  simpa using this

theorem isDigit_repr (n : Nat) : ∀ c ∈ n.repr.toList, c.isDigit = true := by
  intro c hc
  unfold Nat.repr at hc
  rw [String.toList_ofList] at hc
  exact Nat.isDigit_of_mem_toDigits (by decide) (by decide) hc

theorem printable_repr (n : Nat) : printable n.repr = true := by
  refine List.all_eq_true.mpr fun c hc => ?_
  have h := isDigit_repr n c hc
  simp only [Char.isDigit, Bool.and_eq_true, decide_eq_true_eq] at h
  have h1 : 48 ≤ c.toNat := UInt32.le_iff_toNat_le.mp h.1
  have h2 : c.toNat ≤ 57 := UInt32.le_iff_toNat_le.mp h.2
  simp only [Bool.and_eq_true, decide_eq_true_eq]
  omega

theorem printable_strInt (i : Int) : printable (strInt i) = true := by
  unfold strInt Int.repr
  cases i with
  | ofNat n => exact printable_repr n
  | negSucc n =>
    have h := printable_repr (n + 1)
    unfold printable at h ⊢
    show (("-" ++ (n + 1).repr).toList.all _) = true
    rw [String.toList_append, List.all_append, h]
    decide

theorem toUpper_cases (c : Char) : c.toUpper = c ∨ (32 ≤ c.toUpper.toNat ∧ c.toUpper.toNat < 127) := by
  unfold Char.toUpper
  split
  · right
    rename_i h
    have h1 : 97 ≤ c.val.toNat := UInt32.le_iff_toNat_le.mp h.1
    have h2 : c.val.toNat ≤ 122 := UInt32.le_iff_toNat_le.mp h.2
    have h3 : (c.val + ('A'.val - 'a'.val)).toNat = c.val.toNat - 32 := by
      rw [UInt32.toNat_add, show (('A'.val - 'a'.val) : UInt32).toNat = 4294967264 by decide]
      omega
    show 32 ≤ (c.val + ('A'.val - 'a'.val)).toNat ∧ (c.val + ('A'.val - 'a'.val)).toNat < 127
    rw [h3]; omega
  · left; rfl

theorem printable_legal {c : Char} (h1 : 32 ≤ c.toNat) (h2 : c.toNat < 127) : XmlParser.isXmlChar c = true := by
  unfold XmlParser.isXmlChar
  have a : ' ' ≤ c := by
    rw [Char.le_def]
    exact h1
  have b : c ≠ '\uFFFE' := by rintro rfl; exact absurd h2 (by decide)
  have d : c ≠ '\uFFFF' := by rintro rfl; exact absurd h2 (by decide)
  simp [a, b, d]

theorem printable_plain {c : Char} (h1 : 32 ≤ c.toNat) : c ≠ '\n' ∧ c ≠ '\r' ∧ c ≠ '\t' := by
  refine ⟨?_, ?_, ?_⟩ <;> rintro rfl <;> exact absurd h1 (by decide)

theorem fixedOk {Q : Char → Prop} {show' : F → String} (hQ : ∀ c : Char, 32 ≤ c.toNat → c.toNat < 127 → Q c)
    (hs : ∀ x, ∀ c ∈ (show' x).toList, Q c) : FixedOk fun v : Val F => ∀ c ∈ (v.text show').toList, Q c := by
  have hlit : ∀ s, printable s = true → ∀ c ∈ s.toList, Q c :=
    fun s h c hc => hQ c (printable_mem h hc).1 (printable_mem h hc).2
  refine ⟨hs, fun i => hlit _ (printable_strInt i), hlit "None" (by decide), hlit, ?_⟩
  intro s h c hc
  simp only [Val.text, String.toList_map] at h hc
  obtain ⟨d, hd, rfl⟩ := List.mem_map.mp hc
  rcases toUpper_cases d with e | ⟨h1, h2⟩
  · rw [e]; exact h d hd
  · exact hQ _ h1 h2

/-- C63: what the theorems above ask of the values of the document holds if it holds of the texts the user has
given (names, rules, ids given as text, types, countries, units): everything else that is written is a number,
an integer, `None` or the name of an enum member. -/
theorem C63_texts [PyFloat F] (show' : F → String) (hp : Heap F) (date : String) (o : OpenDrive F)
    (element : Xml F) (h : o.getElement hp date = .ok element)
    (hrep : ∀ kv ∈ o.roads, ∀ i ∈ kv.2.objects, RepeatsNamed (hp.so.objs.cell i)) :
    ((∀ x, ∀ c ∈ (show' x).toList, XmlParser.isXmlChar c = true) →
      (∀ s ∈ userTexts hp date o, ∀ c ∈ s.toList, XmlParser.isXmlChar c = true) →
      LegalValues (element.render show')) ∧
    ((∀ x, ∀ c ∈ (show' x).toList, c ≠ '\n' ∧ c ≠ '\r' ∧ c ≠ '\t') →
      (∀ s ∈ userTexts hp date o, ∀ c ∈ s.toList, c ≠ '\n' ∧ c ≠ '\r' ∧ c ≠ '\t') →
      PlainValues (element.render show')) := by
  constructor
  · intro h1 h2
    exact (Xml.All.render (OpenDrive.all (fixedOk (fun c => printable_legal) h1) hrep h2 h)).1 (fun _ h => h)
  · intro h1 h2
    exact (Xml.All.render (OpenDrive.all (fixedOk (fun c h _ => printable_plain h) h1) hrep h2 h)).2 (fun _ h => h)

/-- C64 in terms of what the user has given: if the texts the user has given have no characters that XML does
not allow and, for pretty printing, no line breaks and tabs, then the text that is written is read as the
document the user described. -/
theorem C64_texts [PyFloat F] (show' : F → String) (readNum : String → Option F) (hnone : readNum "None" = none)
    (hshow : ∀ x, ∀ c ∈ (show' x).toList, XmlParser.isXmlChar c = true ∧ c ≠ '\n' ∧ c ≠ '\r' ∧ c ≠ '\t')
    (hp : Heap F) (date : String) (o : OpenDrive F) (filename : Option String) (pretty : Bool)
    (element : Xml F) (h : o.getElement hp date = .ok element)
    (hnum : ∀ x, Occurs (.num x) element → readNum (show' x) = some x)
    (hrep : ∀ kv ∈ o.roads, ∀ i ∈ kv.2.objects, RepeatsNamed (hp.so.objs.cell i))
    (hlegal : ∀ s ∈ userTexts hp date o, ∀ c ∈ s.toList, XmlParser.isXmlChar c = true)
    (hplain : pretty = true → ∀ s ∈ userTexts hp date o, ∀ c ∈ s.toList, c ≠ '\n' ∧ c ≠ '\r' ∧ c ≠ '\t')
    (gs : Road F → List (RGeometry F))
    (hg : ∀ kv ∈ o.roads, GoodRoad hp kv.2 ∧
      readPlanView (kv.2.planview.getElement hp.geoms) = some (gs kv.2)) :
    ∃ text, o.writeXml show' hp date filename pretty = .ok (filename.getD (o.name ++ ".xodr"), text) ∧
      readFile readNum text = some ⟨o.name, o.roads.map (fun kv => shownRoad hp kv.2 (gs kv.2)),
        o.junctions.map shownJunction⟩ := by
  obtain ⟨h1, h2⟩ := C63_texts show' hp date o element h hrep
  have hl := h1 (fun x c hc => (hshow x c hc).1) hlegal
  cases pretty with
  | false => exact C64_plain show' readNum hnone hp date o filename element h hnum hrep hl gs hg
  | true =>
    exact C64_pretty show' readNum hnone hp date o filename element h hnum hrep hl
      (h2 (fun x c hc => (hshow x c hc).2) (hplain rfl)) gs hg

/-! ## Printers -/

theorem occurs_finite : ∀ x : Xml F, ∃ l : List F, ∀ v, Occurs (.num v) x → v ∈ l
  | .elem t as cs => by
    have ih : ∀ c ∈ cs, ∃ l : List F, ∀ v, Occurs (.num v) c → v ∈ l := fun c hc => occurs_finite c
    classical
    refine ⟨as.filterMap (fun p => match p.2 with | .num v => some v | _ => none) ++
      cs.attach.flatMap (fun c => (ih c.1 c.2).choose), fun v hv => ?_⟩
    cases hv with
    | here _ _ _ k hm => exact List.mem_append_left _ (List.mem_filterMap.mpr ⟨(k, .num v), hm, rfl⟩)
    | child _ _ _ c hc hv =>
      exact List.mem_append_right _ (List.mem_flatMap.mpr ⟨⟨c, hc⟩, List.mem_attach _ _, (ih c hc).choose_spec v hv⟩)
termination_by x => sizeOf x
decreasing_by
  have := List.sizeOf_lt_of_mem hc
  simp only [Xml.elem.sizeOf_spec]
  omega

/-- For every document there are ways to print and read numbers that C64 and C65 can be used with, whatever the
numbers are. -/
theorem exists_printer (element : Xml F) : ∃ (show' : F → String) (readNum : String → Option F),
    readNum "None" = none ∧ (∀ x, Occurs (.num x) element → readNum (show' x) = some x) ∧
    ∀ x, ∀ c ∈ (show' x).toList, XmlParser.isXmlChar c = true ∧ c ≠ '\n' ∧ c ≠ '\r' ∧ c ≠ '\t' := by
  classical
  obtain ⟨l, hl⟩ := occurs_finite element
  refine ⟨fun x => (l.idxOf x).repr, fun s => if s = "None" then none else s.toNat?.bind (l[·]?),
    if_pos rfl, ?_, ?_⟩
  · intro x hx
    have h := List.idxOf_lt_length_of_mem (hl x hx)
    have hN : (l.idxOf x).repr ≠ "None" := fun e =>
      absurd (isDigit_repr _ 'N' (by rw [e]; decide)) (by decide)
    simp [List.getElem?_eq_getElem h, hN]
  · intro x c hc
    have := printable_mem (printable_repr _) hc
    exact ⟨printable_legal this.1 this.2, printable_plain this.1⟩

/-- The hypotheses of `C63_texts` and `C64_texts` hold of the sample document of `Props/ReadFile.lean`, whatever
number its sizes are. -/
example [PyFloat F] (a : F) (hz : PyFloat.isZero a = false) (n : String)
    (hn : ∀ c ∈ n.toList, XmlParser.isXmlChar c = true) :
    (∃ element, (fileDoc a n).getElement (fileHeap a) "today" = .ok element) ∧
    (∀ kv ∈ (fileDoc a n).roads, ∀ i ∈ kv.2.objects, RepeatsNamed ((fileHeap a).so.objs.cell i)) ∧
    (∀ s ∈ userTexts (fileHeap a) "today" (fileDoc a n), ∀ c ∈ s.toList, XmlParser.isXmlChar c = true) := by
  refine ⟨⟨_, fileTree_ok a hz n⟩, ?_, ?_⟩
  · intro kv _ i _
    exact repeatsNamed_repeat (repeatsNamed_new a a (SOType.str "tree") none (some (PyId.int 3)) none Dynamic.no a
      Orientation.none a a a none none none (some a) none) a a {}
  · have : userTexts (fileHeap a) "today" (fileDoc a n) =
        ["doc", "today", "Main & <side>", "sub", "type", "se", "type", "tree", n] := rfl
    rw [this]
    intro s hs
    simp only [List.mem_cons, List.not_mem_nil, or_false] at hs
    rcases hs with rfl | rfl | rfl | rfl | rfl | rfl | rfl | rfl | rfl
    all_goals first | exact hn | decide

end Pyodrx.Props
