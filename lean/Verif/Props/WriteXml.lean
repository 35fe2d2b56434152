import Verif.Proofs.XmlNames
import Verif.Proofs.XmlIllegal

/-! # Property C63: the text of the written file -/

namespace Pyodrx.Props
open Pyodrx XmlParser Spec

variable {F : Type} [PyFloat F]

/-! ## Helper facts -/

theorem plain_text {x : Node} (hn : WellNamed x) : printToFile x false = .ok (writeWith escR x) := by
  simp [printToFile, charRefs_serialize x hn]

theorem pretty_text {x : Node} (hn : WellNamed x) (hl : LegalValues x) :
    printToFile x true = .ok (toPrettyXml x) := by
  have h := mem_writeWith (P := NoBreak) (by decide) (fun _ => noBreak_name) noBreak_escA x hn
  simp only [printToFile, if_true, serialize_eq, filter_id h, parse_writeWith reads_escA noBreak_escA x hn hl]

theorem pretty_illegal {x : Node} (hn : WellNamed x) (hl : ¬ LegalValues x) :
    printToFile x true = .error .expatError := by
  have h := mem_writeWith (P := NoBreak) (by decide) (fun _ => noBreak_name) noBreak_escA x hn
  simp only [printToFile, if_true, serialize_eq, filter_id h,
    parse_illegal reads_escA rejects_escA noBreak_escA x hn hl]

theorem ascii_name {c : Char} (h : isNameChar c = true) : c.toNat < 128 := (nameChar_ascii h).2

theorem ascii_escR (c : Char) : ∀ x ∈ escR c, x.toNat < 128 := by
  intro x hx
  simp only [escR, charRefs, List.mem_flatMap] at hx
  obtain ⟨y, _, hx⟩ := hx
  split at hx
  · rw [List.mem_singleton.mp hx]; assumption
  · simp only [List.mem_append] at hx
    rcases hx with (hx | hx) | hx
    · revert x; decide
    · exact ascii_name (by simp [isNameChar, toDigits_digit hx])
    · revert x; decide

theorem writeXml_ok {sh : F → String} {hp : Heap F} {date : String} {o : OpenDrive F} {element : Xml F}
    (h : o.getElement hp date = .ok element) (filename : Option String) {pp : Bool} {t : List Char}
    (ht : printToFile (element.render sh) pp = .ok t) :
    o.writeXml sh hp date filename pp = .ok (filename.getD (o.name ++ ".xodr"), t) := by
  unfold OpenDrive.writeXml
  rw [h]
  simp only [bind, Except.bind, ht]
  cases filename <;> rfl

theorem spaced_plain (v : String) : spaced v = v ↔ ∀ c ∈ v.toList, c ≠ '\n' ∧ c ≠ '\r' ∧ c ≠ '\t' := by
  constructor
  · intro h c hc
    rw [← h] at hc
    simp only [spaced, String.toList_ofList, List.mem_map] at hc
    obtain ⟨x, _, rfl⟩ := hc
    cases hs : isSpace x with
    | true => simp
    | false =>
      simp only [isSpace, Bool.or_eq_false_iff, decide_eq_false_iff_not] at hs
      simpa using ⟨hs.1.2, hs.2, hs.1.1.2⟩
  · intro h
    have hr : '\r' ∉ v.toList := fun hm => (h _ hm).2.1 rfl
    have hm : (v.toList.map fun c => if isSpace c then ' ' else c) = v.toList := by
      refine (List.map_congr_left ?_).trans (List.map_id v.toList)
      intro c hc
      have h' := h c hc
      split
      · next hs =>
        simp only [isSpace, Bool.or_eq_true, decide_eq_true_eq, h', or_false] at hs
        exact hs.symm
      · rfl
    rw [spaced, eol_id hr, hm, ofList_toList]

theorem mapValues_spaced (n : Node) : n.mapValues spaced = n ↔ PlainValues n := by
  induction n using Node.induct with
  | h t as cs ih =>
    rw [mapValues_elem]
    constructor
    · intro h
      injection h with _ h1 h2
      refine .elem _ _ _ ?_ ?_
      · intro p hp
        have : (fun p : String × String => (p.1, spaced p.2)) p = id p :=
          List.map_inj_left.mp (h1.trans (List.map_id as).symm) p hp
        exact (spaced_plain p.2).mp (congrArg Prod.snd this)
      · intro c hc
        exact (ih c hc).mp (List.map_inj_left.mp (h2.trans (List.map_id cs).symm) c hc)
    · intro h
      cases h with
      | elem _ _ _ h1 h2 =>
        congr 1
        · refine (List.map_congr_left ?_).trans (List.map_id as)
          intro p hp
          exact Prod.ext rfl ((spaced_plain p.2).mpr (h1 p hp))
        · exact (List.map_congr_left fun c hc => (ih c hc).mpr (h2 c hc)).trans (List.map_id cs)

/-! ## C63 -/

/-- C63: `write_xml(filename, prettyprint=False)` of a document whose values are legal in XML writes, to the
given file or by default to `<name>.xodr`, ASCII text that an XML reader reads as exactly the emitted element
tree: every element with its tag, its attributes in order and their values character for character, and its
children in order. `show'` is how Python prints floats; the tree is any that `get_element` returns. -/
theorem C63_plain (show' : F → String) (hp : Heap F) (date : String) (o : OpenDrive F) (filename : Option String)
    (element : Xml F) (h : o.getElement hp date = .ok element)
    (hrep : ∀ kv ∈ o.roads, ∀ i ∈ kv.2.objects, RepeatsNamed (hp.so.objs.cell i))
    (hl : LegalValues (element.render show')) :
    ∃ text, o.writeXml show' hp date filename false = .ok (filename.getD (o.name ++ ".xodr"), text) ∧
      (∀ c ∈ text, c.toNat < 128) ∧ parse text = some (element.render show') := by
  have hn := (OpenDrive.named hrep h).render show'
  refine ⟨_, writeXml_ok h filename (plain_text hn), ?_, parse_writeWith reads_escR noBreak_escR _ hn hl⟩
  exact mem_writeWith (P := fun c => c.toNat < 128) (by decide) (fun _ => ascii_name) ascii_escR _ hn

/-- C63: with pretty printing (the default) the text is read as the same element tree in which every line
break and every tab inside a value has become a space. -/
theorem C63_pretty (show' : F → String) (hp : Heap F) (date : String) (o : OpenDrive F) (filename : Option String)
    (element : Xml F) (h : o.getElement hp date = .ok element)
    (hrep : ∀ kv ∈ o.roads, ∀ i ∈ kv.2.objects, RepeatsNamed (hp.so.objs.cell i))
    (hl : LegalValues (element.render show')) :
    ∃ text, o.writeXml show' hp date filename true = .ok (filename.getD (o.name ++ ".xodr"), text) ∧
      parse text = some ((element.render show').mapValues spaced) ∧
      (parse text = some (element.render show') ↔ PlainValues (element.render show')) := by
  have hn := (OpenDrive.named hrep h).render show'
  refine ⟨_, writeXml_ok h filename (pretty_text hn hl), parse_pretty _ hn hl, ?_⟩
  rw [parse_pretty _ hn hl, Option.some.injEq, mapValues_spaced]

/-- C63, the limit of the claim: a name, an id or another value with a character that XML does not allow (a
control character) makes pretty printing raise `ExpatError`; without pretty printing a file is written that
no XML reader reads. -/
theorem C63_illegal (show' : F → String) (hp : Heap F) (date : String) (o : OpenDrive F) (filename : Option String)
    (element : Xml F) (h : o.getElement hp date = .ok element)
    (hrep : ∀ kv ∈ o.roads, ∀ i ∈ kv.2.objects, RepeatsNamed (hp.so.objs.cell i))
    (hl : ¬ LegalValues (element.render show')) :
    o.writeXml show' hp date filename true = .error .expatError ∧
    ∃ text, o.writeXml show' hp date filename false = .ok (filename.getD (o.name ++ ".xodr"), text) ∧
      parse text = none := by
  have hn := (OpenDrive.named hrep h).render show'
  refine ⟨?_, _, writeXml_ok h filename (plain_text hn),
    parse_illegal reads_escR rejects_escR noBreak_escR _ hn hl⟩
  unfold OpenDrive.writeXml
  rw [h]
  simp only [bind, Except.bind, pretty_illegal hn hl]

/-- C63: if a road cannot be emitted nothing is written: `write_xml` raises what `get_element` raises. -/
theorem C63_error (show' : F → String) (hp : Heap F) (date : String) (o : OpenDrive F) (filename : Option String)
    (pp : Bool) (e : PyErr) (h : o.getElement hp date = .error e) :
    o.writeXml show' hp date filename pp = .error e := by
  unfold OpenDrive.writeXml
  rw [h]
  rfl

/-- C63: the condition on repeats in the theorems above holds of all objects of a program: of the objects that
`Object(...)` makes; and `repeat`, `add_object`, `add_object_roadside` keep it. -/
theorem C63_repeats :
    (∀ (s t : F) typ subtype id name dynamic zOffset orientation hdg pitch roll width length height radius
      validLength, RepeatsNamed (Obj.new s t typ subtype id name dynamic zOffset orientation hdg pitch roll width
        length height radius validLength)) ∧
    (∀ (o : Obj F) len dist args, RepeatsNamed o → RepeatsNamed (o.repeat len dist args)) ∧
    (∀ (r : Road F) os (so : SOState F), (∀ i, RepeatsNamed (so.objs.cell i)) →
      ∀ i, RepeatsNamed ((r.addObject os so).2.objs.cell i)) ∧
    (∀ lanes proto (dist sOff tOff : F) side (r r' : Road F) so so', (∀ i, RepeatsNamed (so.objs.cell i)) →
      Road.addObjectRoadside lanes proto dist sOff tOff side (r, so) = .ok () (r', so') →
      ∀ i, RepeatsNamed (so'.objs.cell i)) := by
  have hadd : ∀ (r : Road F) os (so : SOState F), (∀ i, RepeatsNamed (so.objs.cell i)) →
      ∀ i, RepeatsNamed ((r.addObject os so).2.objs.cell i) := by
    intro r os so h
    unfold Road.addObject
    dsimp only
    induction os generalizing so with
    | nil => exact h
    | cons a os ih =>
      refine ih _ fun i => ?_
      unfold SOState.updateObjId
      simp only [Store.modify]
      split
      · exact h _
      · exact h _
  have halloc : ∀ (os : List (Obj F)) (st : Store (Obj F)), (∀ i, RepeatsNamed (st.cell i)) →
      (∀ o ∈ os, RepeatsNamed o) → ∀ i, RepeatsNamed ((allocAll st os).1.cell i) := by
    intro os
    induction os with
    | nil => intro st h _; exact h
    | cons a os ih =>
      intro st h ho
      refine ih _ (fun i => ?_) (fun o hm => ho o (by simp [hm]))
      simp only [Store.alloc]
      split
      · exact ho a (by simp)
      · exact h i
  refine ⟨by intros; apply repeatsNamed_new, fun o len dist args h =>
    repeatsNamed_repeat h len dist args, hadd, ?_⟩
  intro lanes proto dist sOff tOff side r r' so so' h hr
  unfold Road.addObjectRoadside at hr
  dsimp only at hr
  split at hr
  · cases hr
  · injection hr with _ hr
    have := congrArg Prod.snd hr
    dsimp only at this
    rw [← this]
    refine hadd _ _ _ (halloc _ _ h ?_)
    intro o ho
    obtain ⟨e, _, rfl⟩ := List.mem_map.mp ho
    unfold roadsideObject
    have hp : RepeatsNamed (so.objs.cell proto) := h proto
    exact repeatsNamed_repeat (o := { so.objs.cell proto with
      base := { (so.objs.cell proto).base with
        t := PyFloat.mul (PyFloat.add e.width tOff) (PyFloat.ofInt e.factor), s := PyFloat.add sOff e.s }
      hdg := PyFloat.div (PyFloat.mul PyFloat.pi (PyFloat.ofInt (1 + e.factor))) (PyFloat.ofInt 2) }) hp _ _ _

/-! ## Non-vacuity -/

/-- A junction whose name needs every kind of escaping -/
def sampleJunction : Junction := (Junction.new "A&B <\"q\">\nä" (.int 5)).addConnection
  ((Connection.new (.int 1) (.int 2) .start none).addLanelink (-1) 1)

/-- the document with this junction -/
def sampleDoc : OpenDrive F := (OpenDrive.new "doc").addJunction sampleJunction

/-- its tree -/
def sampleTree : Xml F := .elem "OpenDRIVE" []
  [headerElement "doc" "today", .elem "junction" [("name", .str "A&B <\"q\">\nä"), ("id", .int 5)]
    [.elem "connection" [("incomingRoad", .int 1), ("id", .int 0), ("contactPoint", .str "start"),
      ("connectingRoad", .int 2)] [.elem "laneLink" [("from", .int (-1)), ("to", .int 1)] []]]]

/-- The hypotheses of `C63_plain` and `C63_pretty` hold of it, with values that need escaping. -/
theorem sampleDoc_legal (show' : F → String) (hp : Heap F) :
    (sampleDoc (F := F)).getElement hp "today" = .ok sampleTree ∧
    (∀ kv ∈ (sampleDoc (F := F)).roads, ∀ i ∈ kv.2.objects, RepeatsNamed (hp.so.objs.cell i)) ∧
    LegalValues ((sampleTree (F := F)).render show') := by
  refine ⟨rfl, by simp [sampleDoc, OpenDrive.addJunction, OpenDrive.new], ?_⟩
  unfold sampleTree headerElement
  simp only [render_elem, List.map_cons, List.map_nil, Val.text]
  refine .elem _ _ _ (by simp) ?_
  intro c hc
  simp only [List.mem_cons, List.not_mem_nil, or_false] at hc
  rcases hc with rfl | rfl
  · exact .elem _ _ _ (by decide) (by simp)
  · refine .elem _ _ _ (by decide) ?_
    intro c hc
    rw [List.mem_singleton.mp hc]
    refine .elem _ _ _ (by decide) ?_
    intro c hc
    rw [List.mem_singleton.mp hc]
    exact .elem _ _ _ (by decide) (by simp)

/-- What is written for the junction's name: as it is read back without pretty printing, and with a space
for the line break with it. -/
example : printToFile (.elem "junction" [("name", "A&B <\"q\">\nä")] []) false =
      .ok "<junction name=\"A&amp;B &lt;&quot;q&quot;&gt;&#10;&#228;\" />".toList ∧
    printToFile (.elem "junction" [("name", "A&B <\"q\">\nä")] []) true =
      .ok "<?xml version=\"1.0\" ?>\n<junction name=\"A&amp;B &lt;&quot;q&quot;&gt;\nä\"/>\n".toList ∧
    spaced "A&B <\"q\">\nä" = "A&B <\"q\"> ä" := by
  have hn : WellNamed (.elem "junction" [("name", "A&B <\"q\">\nä")] []) :=
    .elem _ _ _ (by decide) (by decide) (by decide) (by simp)
  have hl : LegalValues (.elem "junction" [("name", "A&B <\"q\">\nä")] []) :=
    .elem _ _ _ (by decide) (by simp)
  refine ⟨?_, ?_, by decide⟩
  · rw [plain_text hn, writeWith_elem]
    congr 1
  · refine (pretty_text hn hl).trans (congrArg Except.ok ?_)
    unfold toPrettyXml
    refine (congrArg _ (prettyElement_elem _ _ _ _)).trans ?_
    decide +kernel

/-- The hypothesis of `C63_illegal` is met by a name with a vertical tab in it. -/
example (show' : F → String) (hp : Heap F) :
    ((OpenDrive.new "a\x0bb" : OpenDrive F).getElement hp "today" =
      .ok (.elem "OpenDRIVE" [] [headerElement "a\x0bb" "today"])) ∧
    ¬ LegalValues ((.elem "OpenDRIVE" [] [headerElement "a\x0bb" "today"] : Xml F).render show') := by
  refine ⟨rfl, fun h => ?_⟩
  unfold headerElement at h
  simp only [render_elem, List.map_cons, List.map_nil, Val.text] at h
  cases h with
  | elem _ _ _ _ h2 =>
    cases h2 _ (List.mem_singleton.mpr rfl) with
    | elem _ _ _ h3 _ =>
      have := h3 ("name", "a\x0bb") (by simp) '\x0b' (by decide)
      revert this; decide

end Pyodrx.Props
