import Verif.Model.Helpers
import Verif.Spec.Shell
import Verif.Props.WriteXml

/-! # C82: `prettyprint` and `run_road` show the file -/

namespace Pyodrx.Props
open Pyodrx XmlParser Spec

variable {F : Type} [PyFloat F]

/-- C82: `prettyprint(odr.get_element())` writes on the screen exactly the text that `write_xml` writes to the file (and a
line break); if one of them raises an exception, so does the other. -/
theorem C82_prettyprint (show' : F → String) (hp : Heap F) (date : String) (o : OpenDrive F) (filename : Option String)
    (element : Xml F) (h : o.getElement hp date = .ok element)
    (hrep : ∀ kv ∈ o.roads, ∀ i ∈ kv.2.objects, RepeatsNamed (hp.so.objs.cell i)) :
    prettyPrint (element.render show') =
      (o.writeXml show' hp date filename true).map fun file => file.2 ++ ['\n'] := by
  have hn := (OpenDrive.named hrep h).render show'
  have hb := mem_writeWith (P := NoBreak) (by decide) (fun _ => noBreak_name) noBreak_escA _ hn
  unfold OpenDrive.writeXml
  rw [h]
  simp only [bind, Except.bind, printToFile, if_true, prettyPrint, serialize_eq, filter_id hb]
  cases parse (writeWith escA (element.render show')) with
  | none => rfl
  | some r => cases filename <;> simp [Except.map, pure, Except.pure]

theorem join_dir (p : String) (d : List String) (hd : ∀ b ∈ d, b.toList ≠ [] ∧ b.toList.head? ≠ some '/' ∧
    b.toList.getLast? ≠ some '/') (b : String) (hb : b.toList.head? ≠ some '/') :
    osPathJoin p (d ++ [b]) = dirPrefix p ++ String.join (d.map (· ++ "/")) ++ b := by
  induction d generalizing p with
  | nil =>
    simp only [List.nil_append, osPathJoin, dirPrefix, if_neg hb, List.map_nil]
    split <;> simp [String.join]
  | cons a d ih =>
    obtain ⟨h1, h2, h3⟩ := hd a (by simp)
    have hne : ∀ q : String, dirPrefix (q ++ a) = q ++ a ++ "/" := by
      intro q
      unfold dirPrefix
      rw [if_neg]
      rw [String.toList_append, List.append_eq_nil_iff, List.getLast?_append]
      refine not_or.mpr ⟨fun h => h1 h.2, ?_⟩
      cases hl : a.toList.getLast? with
      | none => exact absurd (List.getLast?_eq_none_iff.mp hl) h1
      | some c => rw [hl] at h3; simpa using h3
    simp only [List.cons_append, osPathJoin, if_neg h2]
    split
    · rename_i hp
      rw [ih _ (fun b hb => hd b (by simp [hb])), hne, dirPrefix, if_pos hp]
      simp [String.join_cons, String.append_assoc]
    · rename_i hp
      rw [ih _ (fun b hb => hd b (by simp [hb])), hne, dirPrefix, if_neg hp]
      simp [String.join_cons, String.append_assoc]

/-- The words of a command, one after the other. -/
theorem splitOnP_words (ws : List (List Char)) (hw : ∀ w ∈ ws, ' ' ∉ w ∧ w ≠ []) :
    ((List.intercalate [' '] ws).splitOnP (· = ' ')).filter (· ≠ []) = ws := by
  have hs : ∀ w : List Char, ' ' ∉ w → ∀ x ∈ w, decide (x = ' ') = false := by
    intro w hw x hx; exact decide_eq_false fun h => hw (h ▸ hx)
  induction ws with
  | nil => rfl
  | cons w ws ih =>
    obtain ⟨h1, h2⟩ := hw w (by simp)
    cases ws with
    | nil =>
      rw [show List.intercalate [' '] [w] = w by simp [List.intercalate], List.splitOnP_eq_single (hs w h1)]
      simp [h2]
    | cons v ws =>
      rw [show List.intercalate [' '] (w :: v :: ws) = w ++ ' ' :: List.intercalate [' '] (v :: ws) by
        simp [List.intercalate], List.splitOnP_first (hs w h1) ' ' rfl,
        List.filter_cons_of_pos (by simpa using h2), ih fun x hx => hw x (by simp [hx])]

theorem shellWords_of (ws : List (List Char)) (hw : ∀ w ∈ ws, w ≠ [] ∧ ∀ c ∈ w, shellPlain c = true) (cmd : String)
    (hc : cmd.toList = List.intercalate [' '] ws) : shellWords cmd = some (ws.map String.ofList) := by
  have hsp : ∀ w ∈ ws, ' ' ∉ w ∧ w ≠ [] := fun w h =>
    ⟨fun hm => absurd ((hw w h).2 _ hm) (by decide), (hw w h).1⟩
  unfold shellWords
  rw [hc, if_pos, splitOnP_words ws hsp]
  rw [List.all_eq_true]
  intro c hcm
  rw [List.intercalate, List.mem_flatten] at hcm
  obtain ⟨l, hl, hcl⟩ := hcm
  have : l ∈ ws ∨ l = [' '] := by
    clear hc hw hsp
    induction ws with
    | nil => simp at hl
    | cons w ws ih =>
      cases ws with
      | nil => simp at hl; simp [hl]
      | cons v ws =>
        simp only [List.intersperse_cons₂, List.mem_cons] at hl ih ⊢
        rcases hl with rfl | rfl | hl
        · simp
        · simp
        · rcases ih hl with h | h
          · exact .inl (.inr h)
          · exact .inr h
  rcases this with h | rfl
  · rw [(hw l h).2 c hcl]; rfl
  · rw [List.mem_singleton.mp hcl]; rfl

theorem shellPlain_space {c : Char} (h : shellPlain c = true) : c ≠ ' ' := by
  rintro rfl; revert h; decide

/-- The name of the file written by `run_road` and the file named in the command. -/
theorem run_paths (p : String) :
    osPathJoin (osPathJoin p ["resources", "xodr"]) ["pythonroad.xodr"] = dirPrefix p ++ "resources/xodr/pythonroad.xodr" ∧
    osPathJoin p ["resources", "xodr", "pythonroad.xodr"] = dirPrefix p ++ "resources/xodr/pythonroad.xodr" := by
  have h := join_dir p ["resources", "xodr"] (by decide) "pythonroad.xodr" (by decide)
  refine ⟨?_, ?_⟩
  · have : ∀ (l : List String) (a b : String), osPathJoin (osPathJoin a l) [b] = osPathJoin a (l ++ [b]) := by
      intro l
      induction l with
      | nil => intro a b; rfl
      | cons c l ih => intro a b; exact ih _ _
    rw [this]
    exact h.trans (by rw [String.append_assoc]; rfl)
  · exact h.trans (by rw [String.append_assoc]; rfl)

theorem run_viewer (p : String) : osPathJoin "." [p, "bin", "odrviewer"] =
    (if p.toList.head? = some '/' then "" else "./") ++ dirPrefix p ++ "bin/odrviewer" := by
  have h := fun q => join_dir q ["bin"] (by decide) "odrviewer" (by decide)
  show osPathJoin _ (["bin"] ++ ["odrviewer"]) = _
  rw [h]
  have hd : ("." : String).toList = ['.'] := rfl
  split
  · rw [String.append_assoc]; simp
  · rename_i hp
    rw [if_neg (by rw [hd]; decide)]
    have : dirPrefix ("." ++ "/" ++ p) = "./" ++ dirPrefix p := by
      unfold dirPrefix
      by_cases hn : p.toList = []
      · have : p = "" := String.toList_inj.mp hn
        subst this
        decide
      · have e : ("." ++ "/" ++ p).toList = ['.', '/'] ++ p.toList := by rw [String.toList_append]; rfl
        rw [e, List.getLast?_append]
        cases hl : p.toList.getLast? with
        | none => exact absurd (List.getLast?_eq_none_iff.mp hl) hn
        | some c =>
          simp only [hn, Option.some_or, Option.some.injEq, false_or, List.append_eq_nil_iff, and_false]
          split <;> rfl
    rw [this, String.append_assoc]
    rfl

/-- C82: if the path of esmini has no characters with a special meaning in the shell, `run_road` writes the pretty printed
document to the file `pythonroad.xodr` in `resources/xodr` of esmini and starts the viewer of esmini on exactly this file,
with the given traffic density; if the document cannot be written, nothing is started. -/
theorem C82_run_road (show' : F → String) (hp : Heap F) (date : String) (o : OpenDrive F) (p density : String)
    (hplain : ∀ c ∈ p.toList ++ density.toList, shellPlain c = true) (hd : density ≠ "") :
    (∀ e, o.writeXml show' hp date none true = .error e → runRoad show' hp date o p density = .error e) ∧
    ∀ name text, o.writeXml show' hp date none true = .ok (name, text) →
      ∃ r, runRoad show' hp date o p density = .ok r ∧
        r.file = (dirPrefix p ++ "resources/xodr/pythonroad.xodr", text) ∧
        shellWords r.command = some [(if p.toList.head? = some '/' then "" else "./") ++ dirPrefix p ++ "bin/odrviewer",
          "--odr", r.file.1, "--osi_features", "on", "--clear-color", "0.2,0.2,0.2", "--window", "60", "60", "800", "400",
          "--density", density] := by
  obtain ⟨p1, p2⟩ := run_paths p
  constructor
  · intro e he
    unfold OpenDrive.writeXml at he
    unfold runRoad OpenDrive.writeXml
    cases hg : o.getElement hp date with
    | error e' => rw [hg] at he; cases he; simp only [bind, Except.bind]
    | ok el =>
      rw [hg] at he
      simp only [bind, Except.bind] at he ⊢
      cases hw : printToFile (el.render show') true with
      | error e' => rw [hw] at he; cases he; rfl
      | ok t => rw [hw] at he; cases he
  · intro name text hw
    refine ⟨⟨osPathJoin p ["resources", "xodr"], (dirPrefix p ++ "resources/xodr/pythonroad.xodr", text),
      osPathJoin "." [p, "bin", "odrviewer"] ++ " --odr " ++ osPathJoin p ["resources", "xodr", "pythonroad.xodr"] ++
      " --osi_features on --clear-color 0.2,0.2,0.2 --window 60 60 800 400 --density " ++ density⟩, ?_, rfl, ?_⟩
    · unfold OpenDrive.writeXml at hw
      unfold runRoad OpenDrive.writeXml
      cases hg : o.getElement hp date with
      | error e' => rw [hg] at hw; cases hw
      | ok el =>
        rw [hg] at hw
        simp only [bind, Except.bind] at hw ⊢
        cases hw' : printToFile (el.render show') true with
        | error e' => rw [hw'] at hw; cases hw
        | ok t =>
          rw [hw'] at hw
          cases hw
          simp only [pure, Except.pure, p1]
    · rw [run_viewer, p2]
      dsimp only
      generalize hv : (if p.toList.head? = some '/' then "" else "./") ++ dirPrefix p ++ "bin/odrviewer" = v
      generalize hf : dirPrefix p ++ "resources/xodr/pythonroad.xodr" = f
      have hdp : ∀ c ∈ (dirPrefix p).toList, shellPlain c = true := by
        unfold dirPrefix
        split
        · exact fun c hc => hplain c (by simp [hc])
        · intro c hc
          rw [String.toList_append, List.mem_append] at hc
          rcases hc with hc | hc
          · exact hplain c (by simp [hc])
          · rw [List.mem_singleton.mp hc]; decide
      have hvp : v.toList ≠ [] ∧ ∀ c ∈ v.toList, shellPlain c = true := by
        rw [← hv]
        simp only [String.toList_append]
        refine ⟨by simp, fun c hc => ?_⟩
        simp only [List.mem_append] at hc
        rcases hc with (hc | hc) | hc
        · split at hc
          · simp at hc
          · revert c; decide
        · exact hdp c hc
        · revert c; decide
      have hfp : f.toList ≠ [] ∧ ∀ c ∈ f.toList, shellPlain c = true := by
        rw [← hf]
        simp only [String.toList_append]
        refine ⟨by simp, fun c hc => ?_⟩
        simp only [List.mem_append] at hc
        rcases hc with hc | hc
        · exact hdp c hc
        · revert c; decide
      have := shellWords_of ([v, "--odr", f, "--osi_features", "on", "--clear-color", "0.2,0.2,0.2", "--window", "60", "60",
        "800", "400", "--density", density].map String.toList) ?_
        (v ++ " --odr " ++ f ++ " --osi_features on --clear-color 0.2,0.2,0.2 --window 60 60 800 400 --density " ++ density) ?_
      · rw [this]; simp [String.ofList_toList]
      · intro w hw
        simp only [List.map_cons, List.map_nil, List.mem_cons, List.not_mem_nil, or_false] at hw
        rcases hw with rfl | rfl | rfl | rfl | rfl | rfl | rfl | rfl | rfl | rfl | rfl | rfl | rfl | rfl
        · exact hvp
        · decide
        · exact hfp
        all_goals first | decide | skip
        exact ⟨fun h => hd (String.toList_inj.mp h), fun c hc => hplain c (by simp [hc])⟩
      · simp [List.intercalate]

/-- C82 (finding): the path is not quoted. If it contains a space (`C:/Program Files/...`), the viewer is not started on the
file that was written: no word of the command is the name of this file. -/
theorem C82_space (show' : F → String) (hp : Heap F) (date : String) (o : OpenDrive F) (p density : String)
    (hs : ' ' ∈ p.toList) (r : RunRoad) (hr : runRoad show' hp date o p density = .ok r) (ws : List String)
    (hw : shellWords r.command = some ws) : r.file.1 = dirPrefix p ++ "resources/xodr/pythonroad.xodr" ∧ r.file.1 ∉ ws := by
  obtain ⟨p1, p2⟩ := run_paths p
  have hf : r.file.1 = dirPrefix p ++ "resources/xodr/pythonroad.xodr" := by
    unfold runRoad OpenDrive.writeXml at hr
    cases hg : o.getElement hp date with
    | error e' => rw [hg] at hr; cases hr
    | ok el =>
      rw [hg] at hr
      simp only [bind, Except.bind] at hr
      cases hw' : printToFile (el.render show') true with
      | error e' => rw [hw'] at hr; cases hr
      | ok t =>
        rw [hw'] at hr
        cases hr
        exact p1
  refine ⟨hf, fun hm => ?_⟩
  have hsp : ' ' ∈ r.file.1.toList := by
    rw [hf, String.toList_append, dirPrefix]
    split <;> simp [hs]
  unfold shellWords at hw
  split at hw
  · cases hw
    obtain ⟨w, hw, he⟩ := List.mem_map.mp hm
    rw [← he, String.toList_ofList] at hsp
    have hw := (List.mem_filter.mp hw).1
    have : ∀ (l : List Char), ∀ w ∈ l.splitOnP (fun c => decide (c = ' ')), ' ' ∉ w := by
      intro l
      induction l with
      | nil => intro w hw; simp [List.splitOnP_nil] at hw; simp [hw]
      | cons c l ih =>
        intro w hw
        rw [List.splitOnP_cons] at hw
        split at hw
        · rcases List.mem_cons.mp hw with rfl | hw
          · simp
          · exact ih w hw
        · rename_i hc
          cases hl : l.splitOnP (fun c => decide (c = ' ')) with
          | nil => rw [hl] at hw; simp at hw
          | cons v vs =>
            rw [hl] at hw ih
            simp only [List.modifyHead_cons, List.mem_cons] at hw
            rcases hw with rfl | hw
            · have hc' : c ≠ ' ' := by simpa using hc
              have := ih v (by simp)
              simp [hc'.symm, this]
            · exact ih w (by simp [hw])
    exact this _ w hw hsp
  · cases hw

/-- The command for the default path and density. -/
example : shellWords (osPathJoin "." ["esmini", "bin", "odrviewer"] ++ " --odr " ++
      osPathJoin "esmini" ["resources", "xodr", "pythonroad.xodr"] ++ " --density " ++ "15") =
    some ["./esmini/bin/odrviewer", "--odr", "esmini/resources/xodr/pythonroad.xodr", "--density", "15"] := by decide +kernel

example : osPathJoin "." ["/opt/esmini/", "bin", "odrviewer"] = "/opt/esmini/bin/odrviewer" := by decide +kernel

/-- C82 on a small document: what is printed and written, and how the viewer is started. -/
example (show' : F → String) (hp : Heap F) : ∃ name text r,
    (sampleDoc (F := F)).writeXml show' hp "today" none true = .ok (name, text) ∧
    prettyPrint ((sampleTree (F := F)).render show') = .ok (text ++ ['\n']) ∧
    runRoad show' hp "today" sampleDoc "../esmini" "15" = .ok r ∧
    r.file = ("../esmini/resources/xodr/pythonroad.xodr", text) ∧
    shellWords r.command = some ["./../esmini/bin/odrviewer", "--odr", "../esmini/resources/xodr/pythonroad.xodr",
      "--osi_features", "on", "--clear-color", "0.2,0.2,0.2", "--window", "60", "60", "800", "400", "--density", "15"] := by
  obtain ⟨h1, h2, h3⟩ := sampleDoc_legal show' hp
  obtain ⟨text, hw, _⟩ := C63_pretty show' hp "today" sampleDoc none _ h1 h2 h3
  obtain ⟨r, hr, hf, hc⟩ := (C82_run_road show' hp "today" sampleDoc "../esmini" "15" (by decide) (by decide)).2 _ text hw
  have hd : dirPrefix "../esmini" = "../esmini/" := by decide
  refine ⟨_, text, r, hw, ?_, hr, ?_, ?_⟩
  · rw [C82_prettyprint show' hp "today" sampleDoc none _ h1 h2, hw]; rfl
  · rw [hf, hd]; rfl
  · rw [hc, hf, hd]; rfl

end Pyodrx.Props
