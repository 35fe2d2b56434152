import Verif.Proofs.ProgramTexts

/-! # C76: programs that describe a network which fits together -/

namespace Pyodrx.Props
open Pyodrx Spec

/-- C76: a program like examples/road_split.py whose calls fit together runs without exception and writes a document that can
be read and shows what was ordered: the roads with their curves, lanes and links, all linked ends joined, every lane
linked to the lane with the same edges, and the junctions. -/
theorem C76_document (calls : List (RoadCall ℝ)) (L : List (CallEnd × CallEnd)) (hs : Sound calls L)
    (junctions : List AnyJunction) (hj : ∀ j ∈ junctions, AnySound calls j) (st : GenState ℝ) (name date : String)
    (so : SOState ℝ) : ∃ p element doc, networkProgram calls junctions st = .ok p ∧
      OpenDrive.getElement ⟨p.world.net.geoms, p.world.lanes, so⟩ date ⟨name, p.world.net.roads, p.junctions⟩ = .ok element ∧
      readDocument element = some doc ∧ doc.name = name ∧ Shows calls L doc ∧
      List.Forall₂ (ShowsAny calls doc) junctions doc.junctions := by
  obtain ⟨r0, st', roads, h1, h2, h3⟩ := program_prepared hs st
  obtain ⟨xs, h4, h5⟩ := h3.junctions hs junctions hj
  obtain ⟨w', h6, h7⟩ := h3.run hs
  obtain ⟨element, doc, h8, h9, h10⟩ := h3.written hs h6 h7 name date so xs
  have hf : Finished calls L st st' roads w' name date so xs doc := ⟨h3, hs, h7, h10⟩
  refine ⟨⟨xs, w'⟩, element, doc, ?_, h8, h9, ?_, hf.shows, hf.junctions hj h5⟩
  · unfold networkProgram
    rw [h1]
    simp only [h2, h4]
    rw [show (⟨⟨roads.foldl addRoad [], st'.geoms⟩, st'.lanes⟩ : World ℝ) = ⟨netOf roads st', st'.lanes⟩ from rfl, h6]
  · obtain ⟨gs, -, rfl⟩ := document_read h8 h10.good h9
    rfl

/-- C76 for the file: what `write_xml` writes at the end of the program, plain or pretty printed, is read as this document,
if the names (of the document and of the junctions made by hand) contain no characters that XML does not allow and, for
pretty printing, no line breaks and tabs (nor the date, which is made by the library). `show'` prints numbers, `readNum` reads them (see C64). -/
theorem C76_file (calls : List (RoadCall ℝ)) (L : List (CallEnd × CallEnd)) (hs : Sound calls L)
    (junctions : List AnyJunction) (hj : ∀ j ∈ junctions, AnySound calls j) (st : GenState ℝ) (name date : String)
    (so : SOState ℝ) (p : NetworkProgram ℝ) (hrun : networkProgram calls junctions st = .ok p) (element : Xml ℝ)
    (he : OpenDrive.getElement ⟨p.world.net.geoms, p.world.lanes, so⟩ date ⟨name, p.world.net.roads, p.junctions⟩ = .ok element)
    (show' : ℝ → String) (readNum : String → Option ℝ) (hnone : readNum "None" = none)
    (hnum : ∀ x, Occurs (.num x) element → readNum (show' x) = some x)
    (hshow : ∀ x, ∀ c ∈ (show' x).toList, XmlParser.isXmlChar c = true ∧ c ≠ '\n' ∧ c ≠ '\r' ∧ c ≠ '\t')
    (hlegal : ∀ s ∈ name :: date :: junctions.flatMap AnyJunction.texts, ∀ c ∈ s.toList, XmlParser.isXmlChar c = true)
    (filename : Option String) (pretty : Bool)
    (hplain : pretty = true → ∀ s ∈ name :: date :: junctions.flatMap AnyJunction.texts, ∀ c ∈ s.toList,
      c ≠ '\n' ∧ c ≠ '\r' ∧ c ≠ '\t') :
    ∃ text doc, OpenDrive.writeXml show' ⟨p.world.net.geoms, p.world.lanes, so⟩ date
        ⟨name, p.world.net.roads, p.junctions⟩ filename pretty = .ok (filename.getD (name ++ ".xodr"), text) ∧
      readFile readNum text = some doc ∧ doc.name = name ∧ Shows calls L doc ∧
      List.Forall₂ (ShowsAny calls doc) junctions doc.junctions := by
  obtain ⟨r0, st', roads, h1, h2, h3⟩ := program_prepared hs st
  obtain ⟨xs, h4, h5⟩ := h3.junctions hs junctions hj
  obtain ⟨w', h6, h7⟩ := h3.run hs
  have hp : p = ⟨xs, w'⟩ := by
    unfold networkProgram at hrun
    rw [h1] at hrun
    simp only [h2, h4] at hrun
    rw [show (⟨⟨roads.foldl addRoad [], st'.geoms⟩, st'.lanes⟩ : World ℝ) = ⟨netOf roads st', st'.lanes⟩ from rfl, h6] at hrun
    injection hrun with hrun
    exact hrun.symm
  subst hp
  obtain ⟨element', doc, h8, h9, h10⟩ := h3.written hs h6 h7 name date so xs
  obtain rfl : element' = element := by
    rw [h8] at he
    injection he
  have hf : Finished calls L st st' roads w' name date so xs doc := ⟨h3, hs, h7, h10⟩
  have hname : doc.name = name := by
    obtain ⟨gs, -, rfl⟩ := document_read h8 h10.good h9
    rfl
  have hrep : ∀ kv ∈ w'.net.roads, ∀ i ∈ kv.2.objects, RepeatsNamed (so.objs.cell i) := by
    intro kv hkv i hi
    have hd := h3.drawn hs
    have hadj := adjustRoadsAndLanes_net h6
    have hkeys : w'.net.roads.keys = (netOf roads st').roads.keys := (C18_placed_once _ w'.net hd.nodup hd.fresh hadj).1
    obtain ⟨q, k0, e, -⟩ := hd.read hadj (Dict.mem_get? (by rw [hkeys]; exact hd.nodup) hkv)
    obtain ⟨c, -, -, hb⟩ := h3.get hs k0
    rw [e] at hi
    change i ∈ q.objects at hi
    rw [hb.empty.1] at hi
    cases hi
  obtain ⟨l1, l2⟩ := C63_texts show' ⟨w'.net.geoms, w'.lanes, so⟩ date ⟨name, w'.net.roads, xs⟩ element' h8 hrep
  have hl := l1 (fun x c hc => (hshow x c hc).1) (by
    intro s hs' c hc
    rcases hf.texts hj h5 hs' with hs' | hpr
    · exact hlegal s hs' c hc
    · exact printable_legal (printable_mem hpr hc).1 (printable_mem hpr hc).2)
  have hpl : pretty = true → PlainValues (element'.render show') := fun hpretty =>
    l2 (fun x c hc => (hshow x c hc).2) (by
      intro s hs' c hc
      rcases hf.texts hj h5 hs' with hs' | hpr
      · exact hplain hpretty s hs' c hc
      · exact printable_plain (printable_mem hpr hc).1)
  refine (fun (hx : ∃ text, _ ∧ _) => hx.elim fun text hx => ⟨text, doc, hx.1, hx.2, hname, hf.shows, hf.junctions hj h5⟩) ?_
  cases pretty with
  | false =>
    obtain ⟨text, k1, -, k3⟩ := C63_plain show' _ date _ filename element' h8 hrep hl
    exact ⟨text, k1, (readFile_of hnone h8 hnum hrep k3).trans h9⟩
  | true =>
    obtain ⟨text, k1, -, k3⟩ := C63_pretty show' _ date _ filename element' h8 hrep hl
    exact ⟨text, k1, (readFile_of hnone h8 hnum hrep (k3.mpr (hpl rfl))).trans h9⟩

end Pyodrx.Props
