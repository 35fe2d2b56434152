import Verif.Proofs.SessionFile
import Verif.Props.SessionDocumentJoints
import Verif.Props.SessionRoadside
import Verif.Props.UserTexts

/-! # C100: the file that a program of calls writes

What C63, C64, C97 and C99 ask of texts and parts of the document, said of the calls of the program: the texts, signals, objects and road marks
that the user gives in the calls. -/

namespace Pyodrx.Props
open Pyodrx Spec PyFloat XmlParser

variable {F : Type} [PyFloat F]

/-- C100: every text of a document comes from a call, is a number or `None` (a lane id that was not given), or is that of the clock;
whatever calls were made in whatever order, and whatever exceptions were caught. -/
theorem C100_texts (p : List (Call F)) (s s' : Session F) (hs : NothingMade s) (hp : CallHistory s p s') (o : Nat) (date : String) :
    ∀ t ∈ userTexts s'.heap date (s'.readOpenDrive (s'.openDrives.cell o)), t = date ∨ TextOf p t := by
  have h := textsAre_history (P := TextOf p) (fun i => .inr (.inl ⟨i, rfl⟩)) (fun n => .inr (.inl ⟨n, rfl⟩)) (.inr (.inr (.inl rfl))) hp
    (fun c hc t ht => .inl ⟨c, hc, ht⟩) (hs.texts.imp fun t ht => .inr (.inr (.inr ht)))
  exact (h.imp fun t ht => Or.inr ht).document o (.inl rfl)

theorem history_program (p : List (Call F)) (s : Session F) : CallHistory s p (runCalls p s).2 := history_runCalls s p [] s .start

/-- What is true of the characters of the texts in calls, of the clock, of digits and of letters is true of the characters of all texts
in the document. -/
theorem chars_history {Q : Char → Prop} (hQ : ∀ c : Char, 32 ≤ c.toNat → c.toNat < 127 → Q c)
    (p : List (Call F)) (s s' : Session F) (hs : NothingMade s) (hh : CallHistory s p s') (o : Nat) (date : String) (hd : ∀ c ∈ date.toList, Q c)
    (hp : ∀ c ∈ p, ∀ t ∈ callTexts c, ∀ x ∈ t.toList, Q x) :
    ∀ t ∈ userTexts s'.heap date (s'.readOpenDrive (s'.openDrives.cell o)), ∀ c ∈ t.toList, Q c := by
  have print : ∀ t : String, printable t = true → ∀ c ∈ t.toList, Q c := fun t h c hc =>
    hQ c (printable_mem h hc).1 (printable_mem h hc).2
  intro t ht
  rcases C100_texts p s s' hs hh o date t ht with rfl | ⟨c, hc, h⟩ | ⟨i, rfl⟩ | rfl | rfl
  · exact hd
  · exact hp c hc t h
  · exact print _ (printable_strInt i)
  · exact print _ (by decide)
  · exact print _ (by decide)

theorem repeats_call (c : Call F) (hc : ∀ v ob, c = .object v ob → RepeatsNamed ob) (s : Session F)
    (h : ∀ i, RepeatsNamed (s.objs.cell i)) : ∀ i, RepeatsNamed ((c.step s).2.objs.cell i) := by
  cases c with
  | object v ob =>
    intro i
    simp only [Call.step, Call.run, Store.put, Store.modify]
    split
    · exact hc v ob rfl
    · exact h i
  | repeatObject o l d a =>
    intro i
    simp only [Call.step, Call.run, Store.modify]
    split
    · exact repeatsNamed_repeat (h o) l d a
    · exact h i
  | addObject r os => exact C63_repeats.2.2.1 (s.roads.cell r).attrs os ⟨s.objs, s.sigs, s.reg⟩ h
  | planView v x y hd =>
    simp only [Call.step, Call.run]
    cases PlanView.new x y hd <;> exact h
  | addSuccessor r et id cp off =>
    simp only [Call.step, Call.run, withRoad]
    cases Road.addSuccessor et id cp off (s.roads.cell r).attrs <;> exact h
  | addPredecessor r et id cp off =>
    simp only [Call.step, Call.run, withRoad]
    cases Road.addPredecessor et id cp off (s.roads.cell r).attrs <;> exact h
  | addNeighbor r et id d =>
    simp only [Call.step, Call.run, withRoad]
    cases Road.addNeighbor et id d (s.roads.cell r).attrs <;> exact h
  | adjust o =>
    simp only [Call.step, Call.run, Session.adjust]
    cases SharedNet.adjustStartpoints (s.net o) with
    | error e n => exact h
    | ok _ n =>
      dsimp only
      split <;> (rename_i hh; split at hh <;> cases hh <;> exact h)
  | _ => exact h

/-- The objects of a program have the repetitions that the API makes. -/
theorem repeats_history {p : List (Call F)} {s s' : Session F} (hp : CallHistory s p s') (hc : ∀ v ob, .object v ob ∈ p → RepeatsNamed ob)
    (h : ∀ i, RepeatsNamed (s.objs.cell i)) : ∀ i, RepeatsNamed (s'.objs.cell i) := by
  induction hp with
  | start => exact h
  | @call p s' c _ ih =>
    have := repeats_call c (fun v ob e => hc v ob (by rw [← e]; simp)) s' (ih fun v ob hm => hc v ob (List.mem_append_left _ hm))
    have e : leaves c.run s' = (c.step s').2 := by
      unfold leaves Call.step
      cases c.run s' <;> rfl
    rw [e]
    exact this
  | @roadside p s' names r proto dist so tof side _ ih =>
    have ih := ih hc
    unfold leaves Session.addObjectRoadside
    cases hr : Road.addObjectRoadside s'.laneObjs proto dist so tof side
        (s'.readRoad (s'.roads.cell r), ⟨{ s'.objs with next := names }, s'.sigs, s'.reg⟩) with
    | error e x => exact ih
    | ok u x => exact C63_repeats.2.2.2 _ proto dist so tof side _ x.1 ⟨{ s'.objs with next := names }, s'.sigs, s'.reg⟩ x.2 ih hr
  | @geometries p s' pv fromEnd _ ih =>
    have ih := ih hc
    unfold leaves Session.adjustGeometries
    cases PlanView.adjustGeometries fromEnd ⟨s'.planviews.cell pv, s'.geoms⟩ <;> exact ih

theorem repeats_nothing {s : Session F} (hs : NothingMade s) (i : Nat) : RepeatsNamed (s.objs.cell i) := by
  intro r hr
  rw [hs.repeats i] at hr
  cases hr

/-- C100: the file after any history of calls, `add_object_roadside` and `adjust_geometries`. If the texts that the user gave in the calls and
the text of the clock have only characters that XML allows, and the document can be emitted, then `write_xml` writes the file, and what a
reader reads of it (pretty printed: if there are also no line breaks and tabs in the texts) is what it would read of the element. `show'`
prints numbers and `readNum` reads them, see C64. -/
theorem C100_history (p : List (Call F)) (s s' : Session F) (hs : NothingMade s) (hp : CallHistory s p s') (o : Nat)
    (hrep : ∀ v ob, .object v ob ∈ p → RepeatsNamed ob)
    (date : String) (hdate : ∀ c ∈ date.toList, isXmlChar c = true ∧ c ≠ '\n' ∧ c ≠ '\r' ∧ c ≠ '\t')
    (hlegal : ∀ c ∈ p, ∀ t ∈ callTexts c, ∀ x ∈ t.toList, isXmlChar x = true)
    (pretty : Bool) (hplain : pretty = true → ∀ c ∈ p, ∀ t ∈ callTexts c, ∀ x ∈ t.toList, x ≠ '\n' ∧ x ≠ '\r' ∧ x ≠ '\t')
    (show' : F → String) (readNum : String → Option F) (hnone : readNum "None" = none)
    (hshow : ∀ x, ∀ c ∈ (show' x).toList, isXmlChar c = true ∧ c ≠ '\n' ∧ c ≠ '\r' ∧ c ≠ '\t') (filename : Option String)
    (element : Xml F) (he : s'.getElement o date = .ok element) :
    ∃ text, (s'.readOpenDrive (s'.openDrives.cell o)).writeXml show' s'.heap date filename pretty =
        .ok (filename.getD ((s'.openDrives.cell o).name ++ ".xodr"), text) ∧
      ((∀ x, Occurs (.num x) element → readNum (show' x) = some x) → readFile readNum text = readDocument element) := by
  have hr : ∀ i, RepeatsNamed (s'.objs.cell i) := repeats_history hp hrep (repeats_nothing hs)
  have hr' : ∀ kv ∈ (s'.readOpenDrive (s'.openDrives.cell o)).roads, ∀ i ∈ kv.2.objects,
      RepeatsNamed (s'.heap.so.objs.cell i) := fun _ _ i _ => hr i
  obtain ⟨l1, l2⟩ := C63_texts show' _ date _ element he hr'
  have hl := l1 (fun x c hc => (hshow x c hc).1)
    (chars_history (fun _ => printable_legal) p s s' hs hp o date (fun c hc => (hdate c hc).1) hlegal)
  cases pretty with
  | false =>
    obtain ⟨text, h1, _, h3⟩ := C63_plain show' _ date _ filename element he hr' hl
    exact ⟨text, h1, fun hnum => readFile_of hnone he hnum hr' h3⟩
  | true =>
    obtain ⟨text, h1, _, h3⟩ := C63_pretty show' _ date _ filename element he hr' hl
    exact ⟨text, h1, fun hnum => readFile_of hnone he hnum hr' (h3.mpr (l2 (fun x c hc => (hshow x c hc).2)
      (chars_history (fun _ h _ => printable_plain h) p s s' hs hp o date (fun c hc => (hdate c hc).2) (hplain rfl))))⟩

/-- C100: the file of a program in which each variable is assigned before it is used and once: it is always written. -/
theorem C100_file (p : List (Call F)) (hp : Proper p) (s : Session F) (hs : NothingMade s) (o : Nat) (name : String) (ho : .openDrive o name ∈ p)
    (hrep : ∀ v ob, .object v ob ∈ p → RepeatsNamed ob)
    (date : String) (hdate : ∀ c ∈ date.toList, isXmlChar c = true ∧ c ≠ '\n' ∧ c ≠ '\r' ∧ c ≠ '\t')
    (hlegal : ∀ c ∈ p, ∀ t ∈ callTexts c, ∀ x ∈ t.toList, isXmlChar x = true)
    (pretty : Bool) (hplain : pretty = true → ∀ c ∈ p, ∀ t ∈ callTexts c, ∀ x ∈ t.toList, x ≠ '\n' ∧ x ≠ '\r' ∧ x ≠ '\t')
    (show' : F → String) (readNum : String → Option F) (hnone : readNum "None" = none)
    (hshow : ∀ x, ∀ c ∈ (show' x).toList, isXmlChar c = true ∧ c ≠ '\n' ∧ c ≠ '\r' ∧ c ≠ '\t') (filename : Option String) :
    ∃ element text, (runCalls p s).2.getElement o date = .ok element ∧
      ((runCalls p s).2.readOpenDrive ((runCalls p s).2.openDrives.cell o)).writeXml show' (runCalls p s).2.heap date filename pretty =
        .ok (filename.getD (name ++ ".xodr"), text) ∧
      ((∀ x, Occurs (.num x) element → readNum (show' x) = some x) → readFile readNum text = readDocument element) := by
  obtain ⟨element, he⟩ := C89_emits p hp s o name ho date
  have hname : ((runCalls p s).2.openDrives.cell o).name = name := by
    obtain ⟨name', roads, h1, h2, -⟩ := odrIs_program p hp s o ⟨_, ho, rfl⟩
    have := made_once hp (x := .openDrive o) ho h1 rfl rfl
    simp only [Call.openDrive.injEq, true_and] at this
    simp only [h2, this]
  obtain ⟨text, h1, h2⟩ := C100_history p s _ hs (history_program p s) o hrep date hdate hlegal pretty hplain show' readNum hnone hshow filename
    element he
  rw [hname] at h1
  exact ⟨element, text, he, h1, h2⟩

/-- The roads of a document in a program have the marks and signals that the user gave in the calls. -/
theorem good_program (p : List (Call F)) (hp : Proper p) (s : Session F) (o : Nat) (name : String) (ho : .openDrive o name ∈ p)
    (hmarks : ∀ l m, .addRoadmark l m ∈ p → m.line.isSome → m.width.isSome)
    (hsignals : ∀ v g, .signal v g ∈ p → g.base.typ = .str g.type) :
    ∀ kv ∈ ((runCalls p s).2.readOpenDrive ((runCalls p s).2.openDrives.cell o)).roads, GoodRoad (runCalls p s).2.heap kv.2 := by
  obtain ⟨h, hu⟩ := num_program p hp s
  intro kv hkv
  simp only [Session.readOpenDrive, List.mem_map] at hkv
  obtain ⟨⟨k, v⟩, hv, rfl⟩ := hkv
  have hm := h.odrs o ⟨_, ho, rfl⟩ _ hv
  have hl := h.roads _ hm
  refine ⟨?_, ?_⟩
  · intro sec hsec r hr
    simp only [Session.readRoad, List.mem_map] at hsec
    obtain ⟨w, hw, rfl⟩ := hsec
    rw [h.lanes _ hl, sectionCalls_mem] at hw
    obtain ⟨ls, hw⟩ := hw
    obtain ⟨sc, ce, c1, c2⟩ := h.secs w (hu _ hw _ (.inr (.inl rfl)))
    have hmade : Made p (.lane r) := by
      rw [c2] at hr
      simp only [List.mem_append, List.mem_singleton] at hr
      rcases hr with (hr | rfl) | hr
      · exact hu _ (leftCalls_mem.mp hr) _ (.inr rfl)
      · exact hu _ c1 _ rfl
      · exact hu _ (rightCalls_mem.mp hr) _ (.inr rfl)
    obtain ⟨d, hd, hx⟩ := hmade
    cases d <;> simp [Makes] at hx
    case lane v' t a b c d so =>
      subst hx
      obtain ⟨-, -, -, -, -, -, e⟩ := C93_lane p hp s _ t a b c d so hd
      intro m hm'
      rw [show (runCalls p s).2.heap.lanes = (runCalls p s).2.laneObjs from rfl, e] at hm'
      have := List.mem_of_getLast? hm'
      simp only [markCalls, List.mem_filterMap] at this
      obtain ⟨c, hc, hx⟩ := this
      cases c <;> simp only [reduceCtorEq] at hx
      split at hx
      · cases hx; exact hmarks _ _ hc
      · cases hx
  · intro i hi
    have e : ((runCalls p s).2.readRoad ((runCalls p s).2.roads.cell v)).signals = signalCalls v p := ((idsInv_program p hp s).roads v hm).2
    rw [e] at hi
    obtain ⟨c, hc, hx⟩ := List.mem_flatMap.mp hi
    have hmade : Made p (.signal i) := by
      cases c <;> simp only [List.not_mem_nil] at hx
      split at hx
      · exact hu _ hc _ (.inr ⟨i, hx, rfl⟩)
      · cases hx
    obtain ⟨d, hd, hx⟩ := hmade
    cases d <;> simp [Makes] at hx
    case signal v' g =>
      subst hx
      have h1 := C93_signal p hp s _ g hd
      have h2 := hsignals _ _ hd
      have e1 := congrArg (fun x : Signal F => x.base.typ) h1
      have e2 := congrArg (fun x : Signal F => x.type) h1
      simp only [Signal.anonymous] at e1 e2
      show ((runCalls p s).2.sigs.cell i).base.typ = .str ((runCalls p s).2.sigs.cell i).type
      rw [e1, e2, h2]

/-- C100: the document of a program in which the signals and road marks are as their constructors make them: what is read of it is what the
calls say. (C97_document with hypotheses about the calls only.) -/
theorem C100_document (p : List (Call F)) (hp : Proper p) (s : Session F) (o : Nat) (name : String) (ho : .openDrive o name ∈ p)
    (hids : ∀ v i pv l t n ru w j pv' l' t' n' ru', .addRoad o v ∈ p → .addRoad o w ∈ p → .road v i pv l t n ru ∈ p →
      .road w j pv' l' t' n' ru' ∈ p → i.toStr = j.toStr → v = w)
    (honce : ∀ v i pv l t n ru sec x, .addRoad o v ∈ p → .road v i pv l t n ru ∈ p → sec ∈ sectionCalls l p →
      x ∈ leftCalls sec p ++ rightCalls sec p → (puts x p).length = 1)
    (hmarks : ∀ l m, .addRoadmark l m ∈ p → m.line.isSome → m.width.isSome)
    (hsignals : ∀ v g, .signal v g ∈ p → g.base.typ = .str g.type) (date : String) :
    ∃ element, (runCalls p s).2.getElement o date = .ok element ∧ ∀ doc, readDocument element = some doc → DocumentShown p o doc := by
  obtain ⟨element, he⟩ := C89_emits p hp s o name ho date
  exact ⟨element, he, fun doc hdoc => C97_document p hp s o name ho hids honce date element he doc hdoc
    (good_program p hp s o name ho hmarks hsignals)⟩

/-- C100: the document after `add_object_roadside`: C99_document with hypotheses about the calls only. -/
theorem C100_roadside (p : List (Call F)) (hp : Proper p) (s : Session F) (o : Nat) (name : String) (ho : .openDrive o name ∈ p)
    (hids : ∀ v i pv l t n ru w j pv' l' t' n' ru', .addRoad o v ∈ p → .addRoad o w ∈ p → .road v i pv l t n ru ∈ p →
      .road w j pv' l' t' n' ru' ∈ p → i.toStr = j.toStr → v = w)
    (honce : ∀ v i pv l t n ru sec x, .addRoad o v ∈ p → .road v i pv l t n ru ∈ p → sec ∈ sectionCalls l p →
      x ∈ leftCalls sec p ++ rightCalls sec p → (puts x p).length = 1)
    (hmarks : ∀ l m, .addRoadmark l m ∈ p → m.line.isSome → m.width.isSome)
    (hsignals : ∀ v g, .signal v g ∈ p → g.base.typ = .str g.type)
    (v : Nat) (i : PyId) (pv l : Nat) (t : Int) (n ru : Option String) (hadd : .addRoad o v ∈ p)
    (hv : .road v i pv l t n ru ∈ p) (hadj : ((runCalls p s).2.planviews.cell pv).adjusted = true)
    (proto : Nat) (ob : Obj F) (hproto : .object proto ob ∈ p) (names : Nat) (hnames : ∀ x ob', .object x ob' ∈ p → x < names)
    (dist so tof : F) (side : RoadSide) :
    ∃ s3, Session.addObjectRoadside names v proto dist so tof side (runCalls p s).2 = .ok () s3 ∧
      ∀ date, ∃ element, s3.getElement o date = .ok element ∧ ∀ doc, readDocument element = some doc →
        DocumentShown p o (doc.withoutObjects i.toStr (objectCalls v p).length) ∧
        (∀ rd ∈ doc.roads, rd.id = i.toStr → List.Forall₂ (BesideShown p proto rd.length dist so tof) (roadsidePlaces p l side)
          (rd.objects.drop (objectCalls v p).length)) ∧
        ((addedObjects p).Nodup → (doc.roads.flatMap fun r => r.objects.map (·.placed.id)).Nodup) :=
  C99_document p hp s o name ho hids honce (good_program p hp s o name ho hmarks hsignals) v i pv l t n ru hadd hv hadj proto ob hproto names
    hnames dist so tof side

section
variable {R : Rounding}

/-- C100: the file of a laid out program after `adjust_roads_and_lanes`. If the texts in the calls have only characters that XML allows,
`write_xml` writes the file, and a reader that knows XML and the OpenDRIVE names and nothing of pyodrx reads from it the document that the
calls describe. -/
theorem C100_laid (p : List (Call (Fl R))) (s : Session (Fl R)) (hb : Blank s) (hs : NothingMade s) (o : Nat) (h : LaidOut p o)
    (hg : DrawnGeometry p o) (name : String) (ho : .openDrive o name ∈ p) (hrep : ∀ v ob, .object v ob ∈ p → RepeatsNamed ob)
    (date : String) (hdate : ∀ c ∈ date.toList, isXmlChar c = true ∧ c ≠ '\n' ∧ c ≠ '\r' ∧ c ≠ '\t')
    (hlegal : ∀ c ∈ p, ∀ t ∈ callTexts c, ∀ x ∈ t.toList, isXmlChar x = true)
    (pretty : Bool) (hplain : pretty = true → ∀ c ∈ p, ∀ t ∈ callTexts c, ∀ x ∈ t.toList, x ≠ '\n' ∧ x ≠ '\r' ∧ x ≠ '\t')
    (show' : Fl R → String) (readNum : String → Option (Fl R)) (hnone : readNum "None" = none)
    (hshow : ∀ x, ∀ c ∈ (show' x).toList, isXmlChar c = true ∧ c ≠ '\n' ∧ c ≠ '\r' ∧ c ≠ '\t') (filename : Option String)
    (s2 : Session (Fl R)) (h2 : s2 = (runCalls (p ++ [.adjust o]) s).2) :
    ∃ element text, s2.getElement o date = .ok element ∧
      (s2.readOpenDrive (s2.openDrives.cell o)).writeXml show' s2.heap date filename pretty = .ok (filename.getD (name ++ ".xodr"), text) ∧
      ((∀ x, Occurs (.num x) element → readNum (show' x) = some x) →
        ∃ doc, readFile readNum text = some doc ∧ DocumentShown p o doc) := by
  have hp := proper_adjust h.drawing.proper ⟨name, ho⟩
  have calls : ∀ c, c ∈ p ++ [Call.adjust (F := Fl R) o] → c ∈ p ∨ callTexts c = [] := by
    intro c hc
    rcases List.mem_append.mp hc with hc | hc
    · exact .inl hc
    · rw [List.mem_singleton.mp hc]; exact .inr rfl
  obtain ⟨element, text, he, ht, hr⟩ := C100_file (p ++ [.adjust o]) hp s hs o name (List.mem_append_left _ ho)
    (fun v ob hv => by
      rcases List.mem_append.mp hv with hv | hv
      · exact hrep v ob hv
      · simp at hv)
    date hdate
    (fun c hc t ht => by
      rcases calls c hc with hc | e
      · exact hlegal c hc t ht
      · rw [e] at ht; cases ht)
    pretty
    (fun hpr c hc t ht => by
      rcases calls c hc with hc | e
      · exact hplain hpr c hc t ht
      · rw [e] at ht; cases ht)
    show' readNum hnone hshow filename
  rw [← h2] at he ht
  refine ⟨element, text, he, ht, fun hnum => ?_⟩
  obtain ⟨hnet, hone, hrange⟩ := program_drawn p s hb o h hg
  obtain ⟨hadj, hgood⟩ := drawing_adjusted p h.drawing s hb o name ho (laidOut_returns p s hb o h)
  obtain ⟨element', he', hshown⟩ := C97_adjusted p s hb o h date
  rw [← h2] at hadj hgood he'
  have : element' = element := by rw [he] at he'; cases he'; rfl
  subst this
  obtain ⟨doc, hdoc⟩ := C86_readable _ _ hnet hadj (s2.readOpenDrive (s2.openDrives.cell o)) s2.heap date rfl rfl hgood element' he hone hrange
  exact ⟨doc, (hr hnum).trans hdoc, hshown doc hdoc⟩

end

end Pyodrx.Props
