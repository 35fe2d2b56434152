import Verif.Props.WriteXml
import Verif.Props.EmitDocument
import Verif.Proofs.ReadFile

/-! # Property C64: the file is read as the document that the user described -/

namespace Pyodrx.Props
open Pyodrx Spec

variable {F : Type} [PyFloat F]

theorem readFile_of {show' : F → String} {readNum : String → Option F} {hp : Heap F} {date : String}
    {o : OpenDrive F} {element : Xml F} (hnone : readNum "None" = none)
    (h : o.getElement hp date = .ok element)
    (hnum : ∀ x, Occurs (.num x) element → readNum (show' x) = some x)
    (hrep : ∀ kv ∈ o.roads, ∀ i ∈ kv.2.objects, RepeatsNamed (hp.so.objs.cell i))
    {text : List Char} (ht : XmlParser.parse text = some (element.render show')) :
    readFile readNum text = readDocument element := by
  obtain ⟨h1, h2⟩ := OpenDrive.typed hrep h
  rw [readFile, ht, Option.bind_some, decode_render hnone h1 hnum, readDocument_canon _ h2]

/-- C64: without pretty printing, the text that `write_xml` writes is read, by a reader that knows XML and the
OpenDRIVE names and nothing of pyodrx, as the document the user described: its name, its roads in order with
their id, junction, length, name, rule, links, geometries, lane sections, signals and objects, and its
junctions in order. `show'` prints numbers and `readNum` reads them; all that is asked of them is that the
numbers of the document are read back and that `None` is not a number. `gs` is what a reader sees of the
geometries (`C54` tells what that is). -/
theorem C64_plain (show' : F → String) (readNum : String → Option F) (hnone : readNum "None" = none)
    (hp : Heap F) (date : String) (o : OpenDrive F) (filename : Option String)
    (element : Xml F) (h : o.getElement hp date = .ok element)
    (hnum : ∀ x, Occurs (.num x) element → readNum (show' x) = some x)
    (hrep : ∀ kv ∈ o.roads, ∀ i ∈ kv.2.objects, RepeatsNamed (hp.so.objs.cell i))
    (hl : LegalValues (element.render show')) (gs : Road F → List (RGeometry F))
    (hg : ∀ kv ∈ o.roads, GoodRoad hp kv.2 ∧
      readPlanView (kv.2.planview.getElement hp.geoms) = some (gs kv.2)) :
    ∃ text, o.writeXml show' hp date filename false = .ok (filename.getD (o.name ++ ".xodr"), text) ∧
      readFile readNum text = some ⟨o.name, o.roads.map (fun kv => shownRoad hp kv.2 (gs kv.2)),
        o.junctions.map shownJunction⟩ := by
  obtain ⟨text, h1, _, h3⟩ := C63_plain show' hp date o filename element h hrep hl
  exact ⟨text, h1, (readFile_of hnone h hnum hrep h3).trans (C59_document hp date o element h gs hg)⟩

/-- C64: the same with pretty printing (the default), if no name, id or other value contains a line break or a
tab. -/
theorem C64_pretty (show' : F → String) (readNum : String → Option F) (hnone : readNum "None" = none)
    (hp : Heap F) (date : String) (o : OpenDrive F) (filename : Option String)
    (element : Xml F) (h : o.getElement hp date = .ok element)
    (hnum : ∀ x, Occurs (.num x) element → readNum (show' x) = some x)
    (hrep : ∀ kv ∈ o.roads, ∀ i ∈ kv.2.objects, RepeatsNamed (hp.so.objs.cell i))
    (hl : LegalValues (element.render show')) (hpl : PlainValues (element.render show'))
    (gs : Road F → List (RGeometry F))
    (hg : ∀ kv ∈ o.roads, GoodRoad hp kv.2 ∧
      readPlanView (kv.2.planview.getElement hp.geoms) = some (gs kv.2)) :
    ∃ text, o.writeXml show' hp date filename true = .ok (filename.getD (o.name ++ ".xodr"), text) ∧
      readFile readNum text = some ⟨o.name, o.roads.map (fun kv => shownRoad hp kv.2 (gs kv.2)),
        o.junctions.map shownJunction⟩ := by
  obtain ⟨text, h1, _, h3⟩ := C63_pretty show' hp date o filename element h hrep hl
  exact ⟨text, h1, (readFile_of hnone h hnum hrep (h3.mpr hpl)).trans (C59_document hp date o element h gs hg)⟩

/-! ## Non-vacuity -/

/-- A road with an arc, a lane with a mark and a line, a signal and an object with a repeat -/
def fileRoad (a : F) : Road F :=
  { Road.new (.int 7) ⟨⟨a, a, a⟩, a, true, some ⟨a, a, a⟩, some ⟨a, a, a⟩, [0], [⟨some a, a, a, a, some a, 0⟩], [], true⟩
      [⟨a, 0, [], [1], 1, -2⟩] (-1) (some "Main & <side>") none with objects := [0], signals := [0] }

def fileHeap (a : F) : Heap F :=
  { geoms := ⟨fun _ => .arc ⟨a, some a, none⟩, 1⟩
    lanes := ⟨fun i => if i = 0 then ⟨some 0, .none, a, a, a, a, a, none, []⟩ else
      ⟨some (-1), .driving, a, a, a, a, a,
       some ⟨.broken, .standard, .standard, a, a, none, some a, some a, some a, some a, none,
         some ⟨a, a, a, a, a, some .caution, none⟩⟩, []⟩, 2⟩
    so := ⟨⟨fun _ => (Obj.new a a (.str "tree") none (some (.int 3)) none .no a .none a a a none none none
        (some a) none).repeat a a {}, 1⟩,
      ⟨fun _ => Signal.new a a "se" "type" "sub" (some (.int 4)) none .no none none a .positive a a a none none, 1⟩,
      []⟩ }

def fileDoc (a : F) (junctionName : String) : OpenDrive F :=
  ⟨"doc", [("7", fileRoad a)], [(Junction.new junctionName (.int 5)).addConnection
    ((Connection.new (.int 1) (.int 2) .start none).addLanelink (-1) 1)]⟩

/-- all values have a property -/
inductive AllValues (P : Val F → Prop) : Xml F → Prop
  | elem (t : String) (as : Dict (Val F)) (cs : List (Xml F)) : (∀ p ∈ as, P p.2) → (∀ c ∈ cs, AllValues P c) →
      AllValues P (.elem t as cs)

/-- What the sample document is emitted as. -/
def fileTree (a : F) (junctionName : String) : Xml F :=
  .elem "OpenDRIVE" [] [headerElement "doc" "today",
    .elem "road" [("name", .str "Main & <side>"), ("id", .int 7), ("junction", .int (-1)), ("length", .num a)]
     [.elem "link" [] [],
      .elem "planView" [] [
        .elem "geometry" [("s", .num a), ("x", .num a), ("y", .num a), ("hdg", .num a), ("length", .num a)]
          [.elem "arc" [("curvature", .num a)] []]],
      .elem "lanes" [] [.elem "laneSection" [("s", .num a)]
       [.elem "center" [] [.elem "lane" [("id", .int 0), ("type", .str "none"), ("level", .str "false")]
         [.elem "link" [] [],
          .elem "width" [("a", .num a), ("b", .num a), ("c", .num a), ("d", .num a), ("sOffset", .num a)] []]],
        .elem "right" [] [.elem "lane" [("id", .int (-1)), ("type", .str "driving"), ("level", .str "false")]
         [.elem "link" [] [],
          .elem "width" [("a", .num a), ("b", .num a), ("c", .num a), ("d", .num a), ("sOffset", .num a)] [],
          .elem "roadMark" [("sOffset", .num a), ("type", .str "broken"), ("weight", .str "standard"),
             ("color", .str "standard"), ("height", .num a), ("width", .num a)]
            [.elem "type" [("name", .str "broken"), ("width", .num a)]
              [.elem "line" [("length", .num a), ("space", .num a), ("tOffset", .num a), ("width", .num a),
                ("sOffset", .num a), ("rule", .str "caution")] []]]]]]],
      .elem "signals" [] [.elem "signal" [("id", .int 4), ("s", .num a), ("t", .num a), ("subtype", .str "sub"),
        ("dynamic", .str "no"), ("zOffset", .num a), ("pitch", .num a), ("roll", .num a), ("type", .str "type"),
        ("orientation", .str "+"), ("country", .str "SE"), ("hOffset", .num a)] []],
      .elem "objects" [] [.elem "object" [("id", .int 3), ("s", .num a), ("t", .num a), ("subtype", .pyNone),
        ("dynamic", .str "no"), ("zOffset", .num a), ("pitch", .num a), ("roll", .num a), ("type", .str "tree"),
        ("orientation", .str "none"), ("hdg", .num a), ("radius", .num a)]
        [.elem "repeat" [("length", .num a), ("distance", .num a), ("s", .num a), ("tStart", .num a),
          ("tEnd", .num a), ("heightStart", .pyNone), ("heightEnd", .pyNone), ("zOffsetStart", .num a),
          ("zOffsetEnd", .num a)] []]]],
    .elem "junction" [("name", .str junctionName), ("id", .int 5)]
      [.elem "connection" [("incomingRoad", .int 1), ("id", .int 0), ("contactPoint", .str "start"),
        ("connectingRoad", .int 2)] [.elem "laneLink" [("from", .int (-1)), ("to", .int 1)] []]]]

theorem fileTree_ok (a : F) (hz : PyFloat.isZero a = false) (n : String) :
    (fileDoc a n).getElement (fileHeap a) "today" = .ok (fileTree a n) := by
  have h0 : ∀ k, attrIfNonzero k a = [(k, .num a)] := by intro k; simp [attrIfNonzero, hz]
  have h1 : (Signal.new a a "se" "type" "sub" (some (PyId.int 4)) none Dynamic.no none none a Orientation.positive a
      a a none none).getElement = .elem "signal" [("id", .int 4), ("s", .num a), ("t", .num a), ("subtype", .str "sub"),
        ("dynamic", .str "no"), ("zOffset", .num a), ("pitch", .num a), ("roll", .num a), ("type", .str "type"),
        ("orientation", .str "+"), ("country", .str "SE"), ("hOffset", .num a)] [] := by
    have hc : String.map Char.toUpper "se" = "SE" := by decide +kernel
    simp only [Signal.getElement, Signal.getAttributes, SOBase.commonAttributes, h0, Signal.new, hz, hc]
    rfl
  have h2 : ((Obj.new a a (SOType.str "tree") none (some (PyId.int 3)) none Dynamic.no a Orientation.none a a a none
      none none (some a) none).repeat a a { }).getElement = .elem "object" [("id", .int 3), ("s", .num a),
        ("t", .num a), ("subtype", .pyNone),
        ("dynamic", .str "no"), ("zOffset", .num a), ("pitch", .num a), ("roll", .num a), ("type", .str "tree"),
        ("orientation", .str "none"), ("hdg", .num a), ("radius", .num a)]
        [.elem "repeat" [("length", .num a), ("distance", .num a), ("s", .num a), ("tStart", .num a),
          ("tEnd", .num a), ("heightStart", .pyNone), ("heightEnd", .pyNone), ("zOffsetStart", .num a),
          ("zOffsetEnd", .num a)] []] := by
    have hn : Obj.new a a (SOType.str "tree") none (some (PyId.int 3)) none Dynamic.no a Orientation.none a a a none
      none none (some a) none = ⟨⟨a, a, some (.int 3), .str "tree", none, .no, none, a, .none, a, a, none, none⟩,
        none, none, a, some a, []⟩ := rfl
    rw [hn]
    simp only [Obj.getElement, Obj.getAttributes, SOBase.commonAttributes, h0, Obj.repeat]
    rfl
  have hl : (fileHeap a).so.objs.cell 0 = (Obj.new a a (SOType.str "tree") none (some (PyId.int 3)) none Dynamic.no a
      Orientation.none a a a none none none (some a) none).repeat a a { } := rfl
  have hs : (fileHeap a).so.sigs.cell 0 = Signal.new a a "se" "type" "sub" (some (PyId.int 4)) none Dynamic.no none
      none a Orientation.positive a a a none none := rfl
  have h3 : Lanes.getElement (fileHeap a).lanes (fileRoad a).lanesections = .ok (.elem "lanes" [] [
      .elem "laneSection" [("s", .num a)]
       [.elem "center" [] [.elem "lane" [("id", .int 0), ("type", .str "none"), ("level", .str "false")]
         [.elem "link" [] [],
          .elem "width" [("a", .num a), ("b", .num a), ("c", .num a), ("d", .num a), ("sOffset", .num a)] []]],
        .elem "right" [] [.elem "lane" [("id", .int (-1)), ("type", .str "driving"), ("level", .str "false")]
         [.elem "link" [] [],
          .elem "width" [("a", .num a), ("b", .num a), ("c", .num a), ("d", .num a), ("sOffset", .num a)] [],
          .elem "roadMark" [("sOffset", .num a), ("type", .str "broken"), ("weight", .str "standard"),
             ("color", .str "standard"), ("height", .num a), ("width", .num a)]
            [.elem "type" [("name", .str "broken"), ("width", .num a)]
              [.elem "line" [("length", .num a), ("space", .num a), ("tOffset", .num a), ("width", .num a),
                ("sOffset", .num a), ("rule", .str "caution")] []]]]]]]) := by
    simp only [Lanes.getElement, fileRoad, Road.new, LaneSection.getElement, List.mapM_cons, List.mapM_nil,
      fileHeap, Lane.getElement, if_true, if_neg (show ¬ (1 = 0) by decide), bind, Except.bind, pure, Except.pure,
      RoadMark.getElement, RoadLine.getElement, show enum2strName LaneType.none.name = "none" by decide +kernel,
      show enum2strName LaneType.driving.name = "driving" by decide +kernel,
      show enum2strName RoadMarkType.broken.name = "broken" by decide +kernel,
      show enum2strName RoadMarkWeight.standard.name = "standard" by decide +kernel,
      show enum2strName RoadMarkColor.standard.name = "standard" by decide +kernel,
      show enum2strName MarkRule.caution.name = "caution" by decide +kernel]
    rfl
  have h4 : (fileRoad a).getAttributes = [("name", .str "Main & <side>"), ("id", .int 7), ("junction", .int (-1)),
      ("length", .num a)] := by
    simp only [Road.getAttributes, fileRoad, Road.new, attrIfText, if_neg (show ¬ ("Main & <side>" = "") by decide)]
    rfl
  simp only [OpenDrive.getElement, fileDoc, List.mapM_cons, List.mapM_nil, Road.getElement, h3, h4, bind, Except.bind,
    pure, Except.pure]
  have h5 : PlanView.getElement (fileHeap a).geoms (fileRoad a).planview = .elem "planView" [] [
        .elem "geometry" [("s", .num a), ("x", .num a), ("y", .num a), ("hdg", .num a), ("length", .num a)]
          [.elem "arc" [("curvature", .num a)] []]] := rfl
  have h6 : (((Junction.new n (PyId.int 5)).addConnection ((Connection.new (PyId.int 1) (PyId.int 2)
      ContactPoint.start none).addLanelink (-1) 1)).getElement : Xml F) =
      .elem "junction" [("name", .str n), ("id", .int 5)]
      [.elem "connection" [("incomingRoad", .int 1), ("id", .int 0), ("contactPoint", .str "start"),
        ("connectingRoad", .int 2)] [.elem "laneLink" [("from", .int (-1)), ("to", .int 1)] []]] := by
    simp [Junction.getElement, Junction.addConnection, Connection.getElement, Connection.addLanelink, Connection.new,
      Junction.new, Connection.setId, Val.ofId, show enum2strName ContactPoint.start.name = "start" by decide +kernel]
  have h7 : (Links.getElement (fileRoad a).links : Xml F) = .elem "link" [] [] := rfl
  rw [h5, List.map_cons, List.map_nil, h6, h7]
  simp only [fileRoad, Road.new, List.map_cons, List.map_nil, hl, hs, h1, h2]
  simp [fileTree]

/-- The hypotheses of `C64_plain` and `C64_pretty` hold of the sample document, whatever number its sizes are
and whatever the name of the junction is; for pretty printing the name must have no line breaks. -/
example (a : F) (hz : PyFloat.isZero a = false) (show' : F → String) (readNum : String → Option F)
    (h1 : readNum (show' a) = some a) (h2 : ∀ c ∈ (show' a).toList, XmlParser.isXmlChar c = true ∧ c ≠ '\n' ∧
      c ≠ '\r' ∧ c ≠ '\t') (n : String) (hn1 : ∀ c ∈ n.toList, XmlParser.isXmlChar c = true) :
    (fileDoc a n).getElement (fileHeap a) "today" = .ok (fileTree a n) ∧
    (∀ x, Occurs (.num x) (fileTree a n) → readNum (show' x) = some x) ∧
    (∀ kv ∈ (fileDoc a n).roads, ∀ i ∈ kv.2.objects, RepeatsNamed ((fileHeap a).so.objs.cell i)) ∧
    (∀ kv ∈ (fileDoc a n).roads, GoodRoad (fileHeap a) kv.2 ∧
      readPlanView (kv.2.planview.getElement (fileHeap a).geoms) = some [⟨a, a, a, a, a, .arc a⟩]) ∧
    LegalValues ((fileTree a n).render show') ∧
    ((∀ c ∈ n.toList, c ≠ '\n' ∧ c ≠ '\r' ∧ c ≠ '\t') → PlainValues ((fileTree a n).render show')) := by
  have hall : ∀ P : Val F → Prop, (P (.num a) ∧ P (.str n) ∧ P .pyNone ∧
      (∀ i ∈ [(-1 : Int), 0, 1, 2, 3, 4, 5, 7], P (.int i)) ∧
      ∀ s ∈ ["doc", "today", "1", "5", "0.0", "Main & <side>", "none", "false", "driving", "broken", "standard",
        "caution", "no", "sub", "type", "+", "SE", "tree", "start"], P (.str s)) → AllValues P (fileTree a n) := by
    rintro P ⟨h1, h2, h3, h4, h5⟩
    have key : ∀ v : Val F, v = .num a ∨ v = .str n ∨ v = .pyNone ∨ (∃ i ∈ [(-1 : Int), 0, 1, 2, 3, 4, 5, 7], v = .int i) ∨
      (∃ s ∈ ["doc", "today", "1", "5", "0.0", "Main & <side>", "none", "false", "driving", "broken", "standard",
        "caution", "no", "sub", "type", "+", "SE", "tree", "start"], v = .str s) → P v := by
      rintro v (rfl | rfl | rfl | ⟨i, hi, rfl⟩ | ⟨s, hs, rfl⟩)
      · exact h1
      · exact h2
      · exact h3
      · exact h4 i hi
      · exact h5 s hs
    have lit : ∀ (t : String) (as : Dict (Val F)) (cs : List (Xml F)), List.Forall (fun p : String × Val F => P p.2) as →
        List.Forall (AllValues P) cs → AllValues P (.elem t as cs) := by
      intro t as cs ha hc
      exact .elem _ _ _ (List.forall_iff_forall_mem.mp ha) (List.forall_iff_forall_mem.mp hc)
    simp only [List.mem_cons, List.not_mem_nil, or_false, forall_eq_or_imp, forall_eq] at h4 h5
    obtain ⟨i1, i2, i3, i4, i5, i6, i7, i8⟩ := h4
    obtain ⟨s1, s2, s3, s4, s5, s6, s7, s8, s9, s10, s11, s12, s13, s14, s15, s16, s17, s18, s19⟩ := h5
    unfold fileTree headerElement
    repeat' first | exact True.intro | (apply lit) | assumption | (refine ⟨?_, ?_⟩)
  have hleg : ∀ (P : Char → Prop), (∀ c ∈ (show' a).toList, P c) → (∀ c ∈ n.toList, P c) →
      (∀ s ∈ ["None", "-1", "0", "1", "2", "3", "4", "5", "7", "doc", "today", "1", "5", "0.0", "Main & <side>", "none",
        "false", "driving", "broken", "standard", "caution", "no", "sub", "type", "+", "SE", "tree", "start"],
        ∀ c ∈ s.toList, P c) → AllValues (fun v => ∀ c ∈ (v.text show').toList, P c) (fileTree a n) := by
    intro P h1 h2 h3
    refine hall _ ⟨h1, h2, h3 "None" (by decide), ?_, fun s hs => h3 s (List.mem_append_right
      ["None", "-1", "0", "1", "2", "3", "4", "5", "7"] hs)⟩
    intro i hi
    refine h3 (strInt i) ?_
    revert i; decide
  have hren : ∀ {P : Char → Prop} {x : Xml F}, AllValues (fun v => ∀ c ∈ (v.text show').toList, P c) x →
      ((P = fun c => XmlParser.isXmlChar c = true) → LegalValues (x.render show')) ∧
      ((P = fun c => c ≠ '\n' ∧ c ≠ '\r' ∧ c ≠ '\t') → PlainValues (x.render show')) := by
    intro P x hx
    induction hx with
    | elem t as cs ha _ ih =>
      rw [render_elem]
      constructor
      · rintro rfl
        refine .elem _ _ _ ?_ ?_
        · intro p hp
          obtain ⟨q, hq, rfl⟩ := List.mem_map.mp hp
          exact ha q hq
        · intro c hc
          obtain ⟨y, hy, rfl⟩ := List.mem_map.mp hc
          exact (ih y hy).1 rfl
      · rintro rfl
        refine .elem _ _ _ ?_ ?_
        · intro p hp
          obtain ⟨q, hq, rfl⟩ := List.mem_map.mp hp
          exact ha q hq
        · intro c hc
          obtain ⟨y, hy, rfl⟩ := List.mem_map.mp hc
          exact (ih y hy).2 rfl
  refine ⟨fileTree_ok a hz n, ?_, ?_, ?_, ?_, ?_⟩
  · intro x hx
    have h : AllValues (fun v => ∀ x, v = .num x → x = a) (fileTree a n) := by
      refine hall _ ⟨fun x hx => by injection hx with hx; exact hx.symm, ?_, ?_, ?_, ?_⟩ <;> intros <;> contradiction
    have key : ∀ {t : Xml F}, Occurs (.num x) t → AllValues (fun v => ∀ x, v = .num x → x = a) t → x = a := by
      intro t ht
      induction ht with
      | here t as cs k hm => intro h; cases h with | elem _ _ _ h1 _ => exact h1 _ hm x rfl
      | child t as cs c hc _ ih => intro h; cases h with | elem _ _ _ _ h2 => exact ih (h2 c hc)
    rw [key hx h, h1]
  · intro kv _ i _
    exact repeatsNamed_repeat (repeatsNamed_new a a (SOType.str "tree") none (some (PyId.int 3)) none Dynamic.no a
      Orientation.none a a a none none none (some a) none) a a {}
  · intro kv hkv
    rw [List.mem_singleton.mp (show kv ∈ [("7", fileRoad a)] from hkv)]
    refine ⟨⟨?_, fun i _ => rfl⟩, rfl⟩
    intro sec _ l _ m hm _
    unfold fileHeap at hm
    dsimp only at hm
    split at hm
    · cases hm
    · cases hm; rfl
  · exact (hren (hleg (fun c => XmlParser.isXmlChar c = true) (fun c hc => (h2 c hc).1) hn1 (by decide +kernel))).1 rfl
  · intro hn
    exact (hren (hleg (fun c => c ≠ '\n' ∧ c ≠ '\r' ∧ c ≠ '\t') (fun c hc => (h2 c hc).2) hn (by decide +kernel))).2 rfl

end Pyodrx.Props
