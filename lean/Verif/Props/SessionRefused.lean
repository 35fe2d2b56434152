import Verif.Spec.SessionRefused
import Verif.Props.WrittenTexts
import Verif.Props.SessionFile

/-! # C100: the text that XML does not allow is refused -/

namespace Pyodrx.Props
open Pyodrx Pyodrx.Spec PyFloat XmlParser

variable {F : Type} [PyFloat F]

theorem kept_road (p : List (Call F)) (hp : Proper p) (s : Session F) (o v : Nat) (ho : Made p (.openDrive o)) (hv : RoadKept p o v) :
    ∃ k, (k, (runCalls p s).2.readRoad ((runCalls p s).2.roads.cell v)) ∈
      ((runCalls p s).2.readOpenDrive ((runCalls p s).2.openDrives.cell o)).roads := by
  obtain ⟨name', roads, h1, h2, h3, h4⟩ := odrIs_program p hp s o ho
  obtain ⟨a, b, e, hb⟩ := hv
  have hu := (num_program p hp s).2
  have hmade : ∀ w ∈ roadCalls o p, Made p (.road w) := fun w hw => hu _ (roadCalls_mem.mp hw) _ (.inr rfl)
  have hvm : v ∈ roadCalls o p := by rw [e]; simp
  have hlast : ((roadCalls o p).filter fun w => roadText (runCalls p s).2 w = roadText (runCalls p s).2 v).getLast? = some v := by
    rw [e, List.filter_append, List.filter_cons_of_pos (by simp), List.getLast?_append]
    have : b.filter (fun w => roadText (runCalls p s).2 w = roadText (runCalls p s).2 v) = [] := by
      rw [List.filter_eq_nil_iff]
      intro w hw hx
      have hwm : w ∈ roadCalls o p := by rw [e]; simp [hw]
      refine hb w hw ?_
      rw [roadIdCall_text hp s (hmade w hwm), roadIdCall_text hp s (hmade v hvm)]
      simpa using hx
    rw [this]
    rfl
  have := h4 (roadText (runCalls p s).2 v)
  rw [hlast] at this
  refine ⟨roadText (runCalls p s).2 v, ?_⟩
  simp only [Session.readOpenDrive, h2, List.mem_map]
  exact ⟨(_, v), get?_mem this, rfl⟩

theorem signals_program (p : List (Call F)) (hp : Proper p) (s : Session F) (o : Nat) (name : String) (ho : .openDrive o name ∈ p)
    (hsignals : ∀ v g, .signal v g ∈ p → g.base.typ = .str g.type) :
    SignalsMade (runCalls p s).2.heap ((runCalls p s).2.readOpenDrive ((runCalls p s).2.openDrives.cell o)) := by
  obtain ⟨h, hu⟩ := num_program p hp s
  intro kv hkv i hi
  simp only [Session.readOpenDrive, List.mem_map] at hkv
  obtain ⟨⟨k, v⟩, hv, rfl⟩ := hkv
  have hm := h.odrs o ⟨_, ho, rfl⟩ _ hv
  have e : ((runCalls p s).2.readRoad ((runCalls p s).2.roads.cell v)).signals = signalCalls v p := ((idsInv_program p hp s).roads v hm).2
  rw [e] at hi
  obtain ⟨c, hc, hx⟩ := List.mem_flatMap.mp hi
  have hmade : Made p (.signal i) := by
    cases c <;> simp only [List.not_mem_nil] at hx
    split at hx
    · exact hu _ hc _ (.inr ⟨i, hx, rfl⟩)
    · cases hx
  obtain ⟨d, hd, hx⟩ := hmade
  cases d <;> simp [Makes] at hx
  case signal v' g =>
    subst hx
    have h1 := C93_signal p hp s _ g hd
    have h2 := hsignals _ _ hd
    have e1 := congrArg (fun x : Signal F => x.base.typ) h1
    have e2 := congrArg (fun x : Signal F => x.type) h1
    simp only [Signal.anonymous] at e1 e2
    show ((runCalls p s).2.sigs.cell i).base.typ = .str ((runCalls p s).2.sigs.cell i).type
    rw [e1, e2, h2]

omit [PyFloat F] in
theorem repeat_base (cs : List (F × F × RepeatArgs F)) (o : Obj F) :
    (cs.foldl (fun o c => o.repeat c.1 c.2.1 c.2.2) o).base = o.base := by
  induction cs generalizing o with
  | nil => rfl
  | cons c cs ih => rw [List.foldl_cons, ih]; rfl

/-- The texts of `CallWritten` are written. -/
theorem call_written (p : List (Call F)) (hp : Proper p) (s : Session F) (o : Nat) (name : String) (ho : .openDrive o name ∈ p)
    (date : String) (t : String) (ht : CallWritten p o t) :
    t ∈ writtenTexts (runCalls p s).2.heap date ((runCalls p s).2.readOpenDrive ((runCalls p s).2.openDrives.cell o)) := by
  have inRoad : ∀ {v}, RoadKept p o v → t ∈ roadWritten (runCalls p s).2.heap ((runCalls p s).2.readRoad ((runCalls p s).2.roads.cell v)) →
      t ∈ writtenTexts (runCalls p s).2.heap date ((runCalls p s).2.readOpenDrive ((runCalls p s).2.openDrives.cell o)) := by
    intro v hv h
    obtain ⟨k, hk⟩ := kept_road p hp s o v ⟨_, ho, rfl⟩ hv
    exact List.mem_append_left _ (List.mem_append_right _ (List.mem_flatMap.mpr ⟨_, hk, h⟩))
  have made : ∀ {v}, RoadKept p o v → Made p (.road v) := by
    rintro v ⟨a, b, e, -⟩
    exact (num_program p hp s).2 _ (roadCalls_mem.mp (by rw [e]; simp : v ∈ roadCalls o p)) _ (.inr rfl)
  have inObject : ∀ {v x ob}, RoadKept p o v → x ∈ objectCalls v p → .object x ob ∈ p →
      t ∈ ob.base.subtype.toList ++ ob.base.name.toList ++ (match ob.base.typ with | .str s => [s] | .obj _ => []) →
      t ∈ roadWritten (runCalls p s).2.heap ((runCalls p s).2.readRoad ((runCalls p s).2.roads.cell v)) := by
    intro v x ob hv hx hob h
    refine List.mem_append_right _ (List.mem_flatMap.mpr ⟨x, ?_, ?_⟩)
    · rw [show ((runCalls p s).2.readRoad ((runCalls p s).2.roads.cell v)).objects = objectCalls v p from
        ((idsInv_program p hp s).roads v (made hv)).1]
      exact hx
    · have e := congrArg (fun x : Obj F => x.base) (C93_object p hp s x ob hob)
      simp only [repeat_base] at e
      have e1 := congrArg SOBase.subtype e
      have e2 := congrArg SOBase.name e
      have e3 := congrArg SOBase.typ e
      simp only [Obj.anonymous] at e1 e2 e3
      show t ∈ baseTexts ((runCalls p s).2.objs.cell x).base
      simp only [baseTexts, e1, e2, e3, List.append_assoc]
      refine List.mem_append_right _ ?_
      revert h
      cases ob.base.typ <;> exact fun h => by simpa using h
  have inSignal : ∀ {v x g}, RoadKept p o v → x ∈ signalCalls v p → .signal x g ∈ p →
      t ∈ g.base.subtype.toList ++ g.base.name.toList ++ [g.country, g.type] ++ (match g.value with | some _ => g.unit.toList | none => []) →
      t ∈ roadWritten (runCalls p s).2.heap ((runCalls p s).2.readRoad ((runCalls p s).2.roads.cell v)) := by
    intro v x g hv hx hg h
    refine List.mem_append_left _ (List.mem_append_right _ (List.mem_flatMap.mpr ⟨x, ?_, ?_⟩))
    · rw [show ((runCalls p s).2.readRoad ((runCalls p s).2.roads.cell v)).signals = signalCalls v p from
        ((idsInv_program p hp s).roads v (made hv)).2]
      exact hx
    · have e := C93_signal p hp s x g hg
      have e1 := congrArg (fun g => g.base.subtype) e
      have e2 := congrArg (fun g => g.base.name) e
      have e3 := congrArg Signal.country e
      have e4 := congrArg Signal.type e
      have e5 := congrArg Signal.value e
      have e6 := congrArg Signal.unit e
      simp only [Signal.anonymous] at e1 e2 e3 e4 e5 e6
      show t ∈ signalWritten ((runCalls p s).2.sigs.cell x)
      simp only [signalWritten, e1, e2, e3, e4, e5, e6, List.append_assoc]
      refine List.mem_append_right _ ?_
      revert h
      cases g.value <;> exact fun h => by simpa using h
  have inJunction : ∀ {j}, .addJunction o j ∈ p → t ∈ junctionTexts ((runCalls p s).2.readJunction ((runCalls p s).2.junctions.cell j)) →
      t ∈ writtenTexts (runCalls p s).2.heap date ((runCalls p s).2.readOpenDrive ((runCalls p s).2.openDrives.cell o)) := by
    intro j hj h
    obtain ⟨name', roads, -, h2, -⟩ := odrIs_program p hp s o ⟨_, ho, rfl⟩
    refine List.mem_append_right _ (List.mem_flatMap.mpr ⟨_, ?_, h⟩)
    simp only [Session.readOpenDrive, h2]
    exact List.mem_map.mpr ⟨j, junctionCalls_mem.mpr hj, rfl⟩
  have junctionMade : ∀ {j}, .addJunction o j ∈ p → Made p (.junction j) := fun hj => (num_program p hp s).2 _ hj _ (.inr rfl)
  cases ht with
  | document h =>
    obtain ⟨name', roads, h1, h2, -⟩ := odrIs_program p hp s o ⟨_, ho, rfl⟩
    have := made_once hp (x := .openDrive o) h h1 rfl rfl
    cases this
    simp [writtenTexts, Session.readOpenDrive, h2]
  | road hv hr h =>
    obtain ⟨⟨e1, -, e2, e3, -⟩, -⟩ := C91_links p hp s _ _ _ _ _ _ _ hr _ rfl
    refine inRoad hv ?_
    simp only [roadWritten, Session.readRoad, e1, e2, e3, List.append_assoc]
    simp only [List.append_assoc, List.mem_append] at h ⊢
    tauto
  | link hv hl h =>
    obtain ⟨d, hd, hx⟩ := made hv
    cases d <;> simp [Makes] at hx
    subst hx
    obtain ⟨-, -, -, e1, e2, -⟩ := C91_links p hp s _ _ _ _ _ _ _ hd _ rfl
    refine inRoad hv ?_
    refine List.mem_append_left _ (List.mem_append_left _ (List.mem_append_left _ (List.mem_append_left _ (List.mem_append_right _ ?_))))
    rw [List.map_append, ← e1, ← e2] at hl
    refine List.mem_flatMap.mpr ⟨_, List.mem_filter.mpr ?_, h⟩
    rcases List.mem_append.mp hl with hl | hl <;>
    · obtain ⟨a, b⟩ := List.mem_filter.mp hl
      refine ⟨a, ?_⟩
      simp only [decide_eq_true_eq] at b ⊢
      rw [b]; simp
  | object hv hx hob h => exact inRoad hv (inObject hv hx hob (List.mem_append_left _ h))
  | objectType hv hx hob h =>
    refine inRoad hv (inObject hv hx hob (List.mem_append_right _ ?_))
    rw [h]; simp
  | signal hv hx hg h => exact inRoad hv (inSignal hv hx hg (List.mem_append_left _ h))
  | unit hv hx hg h hu =>
    refine inRoad hv (inSignal hv hx hg (List.mem_append_right _ ?_))
    obtain ⟨y, hy⟩ := Option.isSome_iff_exists.mp h
    rw [hy, hu]; simp
  | junction hj hm h =>
    refine inJunction hj ?_
    rw [(C89_connections p hp s).1 _ _ _ hm]
    simp only [junctionTexts, List.singleton_append]
    exact List.mem_append_left _ h
  | connection hj hx hc h =>
    obtain ⟨d, hd, hm⟩ := junctionMade hj
    cases d <;> simp [Makes] at hm
    subst hm
    refine inJunction hj ?_
    rw [(C89_connections p hp s).1 _ _ _ hd]
    refine List.mem_append_right _ (List.mem_flatMap.mpr ⟨_, List.mem_map.mpr ⟨_, hx, rfl⟩, ?_⟩)
    obtain ⟨inc1, con1, cp1, id1, i1, a1, a2, -, -⟩ := con_program p hp s _ ⟨_, hc, rfl⟩
    have := made_once hp hc a1 rfl rfl
    cases this
    rw [a2]
    exact h

/-- C100: the text that XML does not allow. If a text that is certainly written (`CallWritten`) has a character that XML does not allow,
then the pretty printed file is not written: `write_xml` raises `ExpatError`; without pretty printing a file is written that is not XML. -/
theorem C100_refused (p : List (Call F)) (hp : Proper p) (s : Session F) (hs : NothingMade s) (o : Nat) (name : String)
    (ho : .openDrive o name ∈ p) (hrep : ∀ v ob, .object v ob ∈ p → RepeatsNamed ob)
    (hsignals : ∀ v g, .signal v g ∈ p → g.base.typ = .str g.type) (show' : F → String)
    (hshow : ∀ x, ∀ c ∈ (show' x).toList, isXmlChar c = true) (date : String) (filename : Option String)
    (t : String) (ht : CallWritten p o t) (c : Char) (hc : c ∈ t.toList) (hbad : isXmlChar c = false) :
    ((runCalls p s).2.readOpenDrive ((runCalls p s).2.openDrives.cell o)).writeXml show' (runCalls p s).2.heap date filename true =
      .error .expatError ∧
    ∃ text, ((runCalls p s).2.readOpenDrive ((runCalls p s).2.openDrives.cell o)).writeXml show' (runCalls p s).2.heap date filename false =
        .ok (filename.getD (name ++ ".xodr"), text) ∧ parse text = none := by
  obtain ⟨element, he⟩ := C89_emits p hp s o name ho date
  have hr : ∀ i, RepeatsNamed ((runCalls p s).2.objs.cell i) := repeats_history (history_program p s) hrep (repeats_nothing hs)
  have hr' : ∀ kv ∈ ((runCalls p s).2.readOpenDrive ((runCalls p s).2.openDrives.cell o)).roads, ∀ i ∈ kv.2.objects,
      RepeatsNamed ((runCalls p s).2.heap.so.objs.cell i) := fun _ _ i _ => hr i
  have v1 := (values_written (show' := show') he hr' (signals_program p hp s o name ho hsignals)).1 hshow
  have hl : ¬ LegalValues (element.render show') := by
    intro hl
    have := v1.mp hl t (call_written p hp s o name ho date t ht) c hc
    rw [hbad] at this
    cases this
  have := C63_illegal show' _ date _ filename element he hr' hl
  have hname : ((runCalls p s).2.readOpenDrive ((runCalls p s).2.openDrives.cell o)).name = name := by
    obtain ⟨name', roads, h1, h2, -⟩ := odrIs_program p hp s o ⟨_, ho, rfl⟩
    have := made_once hp (x := .openDrive o) ho h1 rfl rfl
    simp only [Call.openDrive.injEq, true_and] at this
    simp only [Session.readOpenDrive, h2, this]
  rw [hname] at this
  exact this

/-! A program that meets the hypotheses: a road that replaces another one under the same id, with a signal whose type is not allowed. -/

def exRefused : List (Call F) :=
  [.openDrive 0 "doc", .planView 0 none none none, .lanes 0, .road 0 (.int 1) 0 0 (-1) (some "kept") none,
   .road 1 (.str "1") 0 0 (-1) (some "replaced\x01") none, .addRoad 0 1, .addRoad 0 0,
   .signal 0 (Signal.new (ofInt 1) (ofInt 2) "DE" "27\x014" "" none none .no (some (ofInt 50)) (some "km/h") (ofInt 0) .none (ofInt 0)
     (ofInt 0) (ofInt 0) none none), .addSignal 0 [0]]

theorem exRefused_kept : RoadKept (exRefused (F := F)) 0 0 := ⟨[1], [], rfl, by simp⟩

/-- The road that is replaced is not kept. -/
example : ¬ RoadKept (exRefused (F := F)) 0 1 := by
  rintro ⟨a, b, e, h⟩
  have e : [1, 0] = a ++ 1 :: b := e
  match a, e with
  | [], e =>
    simp only [List.nil_append, List.cons.injEq, true_and] at e
    subst e
    exact h 0 (by simp) rfl
  | [x], e => simp at e
  | x :: y :: a, e => simp at e

example (s : Session F) (hs : NothingMade s) (show' : F → String) (hshow : ∀ x, ∀ c ∈ (show' x).toList, isXmlChar c = true) (date : String) :
    ((runCalls exRefused s).2.readOpenDrive ((runCalls exRefused s).2.openDrives.cell 0)).writeXml show' (runCalls exRefused s).2.heap date
      none true = .error .expatError :=
  (C100_refused exRefused (proper_by _ rfl) s hs 0 "doc" (by simp [exRefused]) (by intro v ob h; simp [exRefused] at h)
    (by intro v g h; simp [exRefused] at h; obtain ⟨-, rfl⟩ := h; rfl) show' hshow date none "27\x014"
    (.signal (v := 0) (x := 0) (exRefused_kept (F := F)) (by simp [exRefused, signalCalls]) (by simp [exRefused]; rfl) (by simp [Signal.new])) '\x01' (by decide) (by decide)).1

example : CallWritten (exRefused (F := F)) 0 "km/h" :=
  .unit (x := 0) exRefused_kept (by simp [exRefused, signalCalls]) (by simp only [exRefused, List.mem_cons, reduceCtorEq, false_or]; exact .inl rfl) rfl rfl

end Pyodrx.Props
