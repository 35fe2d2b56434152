import Verif.Props.Lane
import Verif.Model.OpenDrive
import Mathlib.Data.List.Dedup
import Mathlib.Logic.Function.Basic

/-! # Properties C43, C44: the emitted document, enumeration texts -/

namespace Pyodrx.Props
open Pyodrx Spec

variable {F : Type}

/-! ## C44 -/

theorem enum2strName_toList (s : String) :
    (enum2strName s).toList = s.toList.map (fun c => if c = '_' then ' ' else c) := by
  simp [enum2strName]

/-- C44: the emitted text of any name contains no underscore and has the same length. -/
theorem C44_no_underscore (s : String) :
    '_' ∉ (enum2strName s).toList ∧ (enum2strName s).toList.length = s.toList.length := by
  rw [enum2strName_toList]
  refine ⟨?_, by simp⟩
  simp only [List.mem_map, not_exists, not_and]
  intro c _
  split
  · decide
  · assumption

/-- C44: on names without spaces (every Python identifier) the text determines the name. -/
theorem C44_injective (s t : String) (hs : ' ' ∉ s.toList) (ht : ' ' ∉ t.toList)
    (he : enum2strName s = enum2strName t) : s = t := by
  have h := congrArg String.toList he
  clear he
  rw [enum2strName_toList, enum2strName_toList] at h
  apply String.toList_inj.mp
  generalize s.toList = l at *
  generalize t.toList = m at *
  clear s t
  induction l generalizing m with
  | nil => cases m with
    | nil => rfl
    | cons => simp at h
  | cons a l ih => cases m with
    | nil => simp at h
    | cons b m =>
      simp only [List.mem_cons, not_or] at hs ht
      simp only [List.map_cons, List.cons.injEq] at h
      rw [ih hs.2 m ht.2 h.2]
      congr 1
      have h1 := h.1
      by_cases ha : a = '_' <;> by_cases hb : b = '_'
      · rw [ha, hb]
      · simp only [ha, if_true, hb, if_false] at h1; exact absurd h1 ht.1
      · simp only [ha, if_false, hb, if_true] at h1; exact absurd h1.symm hs.1
      · simpa [ha, hb] using h1

/-- C44: on arbitrary names two texts agree iff the names agree up to `_` and the space. -/
theorem C44_kernel (s t : String) : enum2strName s = enum2strName t ↔
    s.toList.map (fun c => if c = '_' then ' ' else c) =
      t.toList.map (fun c => if c = '_' then ' ' else c) := by
  rw [← String.toList_inj, enum2strName_toList, enum2strName_toList]

/-- C44: in every enumeration of pyodrx different members have different texts. -/
theorem C44_enumerations :
    Function.Injective (fun x : MarkRule => enum2strName x.name) ∧
    Function.Injective (fun x : LaneType => enum2strName x.name) ∧
    Function.Injective (fun x : RoadMarkColor => enum2strName x.name) ∧
    Function.Injective (fun x : RoadMarkWeight => enum2strName x.name) ∧
    Function.Injective (fun x : RoadMarkType => enum2strName x.name) ∧
    Function.Injective (fun x : LaneChange => enum2strName x.name) ∧
    Function.Injective (fun x : ElementType => enum2strName x.name) ∧
    Function.Injective (fun x : ContactPoint => enum2strName x.name) ∧
    Function.Injective (fun x : Direction => enum2strName x.name) ∧
    Function.Injective (fun x : Orientation => enum2strName x.name) ∧
    Function.Injective (fun x : ObjectType => enum2strName x.name) ∧
    Function.Injective (fun x : Dynamic => enum2strName x.name) := by
  refine ⟨?_, ?_, ?_, ?_, ?_, ?_, ?_, ?_, ?_, ?_, ?_, ?_⟩
  all_goals
    intro a b h
    have h := C44_injective _ _ (by cases a <;> decide) (by cases b <;> decide) h
    revert h
    cases a <;> cases b <;> first | (intro _; rfl) | (intro h; exact absurd h (by decide))

example : enum2strName RoadMarkType.solid_broken.name = "solid broken" := by decide

/-! ## C43 -/

/-- A call that adds something to the document. -/
inductive DocOp (F : Type) where
  | road (r : Road F)
  | junction (j : Junction)

/-- Execute a history of such calls. -/
def runDoc (ops : List (DocOp F)) (o : OpenDrive F) : OpenDrive F :=
  ops.foldl (fun o op => match op with
    | .road r => o.addRoad r
    | .junction j => o.addJunction j) o

/-- the roads of a history, in order of the calls -/
def roadsOf : List (DocOp F) → List (Road F)
  | [] => []
  | .road r :: ops => r :: roadsOf ops
  | .junction _ :: ops => roadsOf ops

/-- the junctions of a history, in order of the calls -/
def junctionsOf : List (DocOp F) → List Junction
  | [] => []
  | .road _ :: ops => junctionsOf ops
  | .junction j :: ops => j :: junctionsOf ops

/-- The ids in order of first use, after the ids `seen`. -/
def firstIds (seen : List String) : List (Road F) → List String
  | [] => seen
  | r :: rs => firstIds (if r.id.toStr ∈ seen then seen else seen ++ [r.id.toStr]) rs

/-- The last road added under this id. -/
def lastWith (k : String) (rs : List (Road F)) : Option (Road F) :=
  rs.reverse.find? (fun r => r.id.toStr = k)

theorem runDoc_spec (ops : List (DocOp F)) : ∀ o : OpenDrive F,
    (runDoc ops o).roads = (roadsOf ops).foldl addRoad o.roads ∧
    (runDoc ops o).junctions = o.junctions ++ junctionsOf ops ∧ (runDoc ops o).name = o.name := by
  induction ops with
  | nil => intro o; simp [runDoc, roadsOf, junctionsOf]
  | cons op ops ih =>
    intro o
    cases op with
    | road r =>
      obtain ⟨h1, h2, h3⟩ := ih (o.addRoad r)
      have e : runDoc (.road r :: ops) o = runDoc ops (o.addRoad r) := rfl
      rw [e, h1, h2, h3]; exact ⟨rfl, rfl, rfl⟩
    | junction j =>
      obtain ⟨h1, h2, h3⟩ := ih (o.addJunction j)
      have e : runDoc (.junction j :: ops) o = runDoc ops (o.addJunction j) := rfl
      rw [e, h1, h2, h3]
      exact ⟨rfl, by simp [OpenDrive.addJunction, junctionsOf], rfl⟩

theorem foldl_addRoad_keys (rs : List (Road F)) : ∀ d : Dict (Road F),
    (rs.foldl addRoad d).keys = firstIds d.keys rs := by
  induction rs with
  | nil => intro d; rfl
  | cons r rs ih =>
    intro d
    rw [List.foldl_cons, ih, firstIds, addRoad, Dict.keys_set]

theorem foldl_addRoad_get? (rs : List (Road F)) (k : String) : ∀ d : Dict (Road F),
    (rs.foldl addRoad d).get? k = (lastWith k rs).or (d.get? k) := by
  induction rs with
  | nil => intro d; simp [lastWith]
  | cons r rs ih =>
    intro d
    rw [List.foldl_cons, ih, addRoad, Dict.get?_set]
    simp only [lastWith, List.reverse_cons, List.find?_append, List.find?_singleton]
    by_cases h : r.id.toStr = k
    · simp only [h, if_true, decide_true]
      cases (rs.reverse.find? fun r => decide (r.id.toStr = k)) <;> rfl
    · simp only [h, if_false, decide_false]
      cases (rs.reverse.find? fun r => decide (r.id.toStr = k)) <;> rfl

/-- C43: after any history of `add_road` and `add_junction` calls, the document has one road per
distinct id, in the order in which the ids were first used, namely the road last added under that
id; and all junctions in the order of the calls. -/
theorem C43_history (name : String) (ops : List (DocOp F)) :
    let o := runDoc ops (OpenDrive.new name)
    o.roads.keys = firstIds [] (roadsOf ops) ∧
    (∀ k, o.roads.get? k = lastWith k (roadsOf ops)) ∧
    o.junctions = junctionsOf ops ∧ o.name = name := by
  obtain ⟨h1, h2, h3⟩ := runDoc_spec ops (OpenDrive.new (F := F) name)
  simp only
  refine ⟨?_, ?_, ?_, h3⟩
  · rw [h1, foldl_addRoad_keys]; rfl
  · intro k; rw [h1, foldl_addRoad_get?]; simp [OpenDrive.new, Dict.get?]
  · rw [h2]; rfl

theorem firstIds_spec (rs : List (Road F)) : ∀ seen : List String, seen.Nodup →
    (firstIds seen rs).Nodup ∧ (∀ k, k ∈ firstIds seen rs ↔ k ∈ seen ∨ ∃ r ∈ rs, r.id.toStr = k) ∧
    seen <+: firstIds seen rs := by
  induction rs with
  | nil => intro seen h; simp [firstIds, h]
  | cons r rs ih =>
    intro seen h
    by_cases hr : r.id.toStr ∈ seen
    · obtain ⟨h1, h2, h3⟩ := ih seen h
      simp only [firstIds, if_pos hr]
      refine ⟨h1, fun k => ?_, h3⟩
      rw [h2]
      simp only [List.mem_cons, exists_eq_or_imp]
      constructor
      · tauto
      · rintro (h | h | h)
        · exact Or.inl h
        · exact Or.inl (h ▸ hr)
        · exact Or.inr h
    · obtain ⟨h1, h2, h3⟩ := ih (seen ++ [r.id.toStr]) (by
        rw [List.nodup_append]
        refine ⟨h, by simp, ?_⟩
        intro a ha b hb
        simp only [List.mem_singleton] at hb
        subst hb
        exact fun e => hr (e ▸ ha))
      simp only [firstIds, if_neg hr]
      refine ⟨h1, fun k => ?_, (List.prefix_append _ _).trans h3⟩
      rw [h2]
      simp only [List.mem_append, List.mem_cons, exists_eq_or_imp, List.not_mem_nil, or_false]
      constructor
      · rintro ((h | h) | h)
        · exact Or.inl h
        · exact Or.inr (Or.inl h.symm)
        · exact Or.inr (Or.inr h)
      · rintro (h | h | h)
        · exact Or.inl (Or.inl h)
        · exact Or.inl (Or.inr h.symm)
        · exact Or.inr h

/-- C43: no id occurs twice among the roads of the document, and an id occurs iff a road was added
under it. -/
theorem C43_ids (rs : List (Road F)) : (firstIds [] rs).Nodup ∧
    ∀ k, k ∈ firstIds [] rs ↔ ∃ r ∈ rs, r.id.toStr = k := by
  obtain ⟨h1, h2, -⟩ := firstIds_spec rs [] List.nodup_nil
  exact ⟨h1, fun k => by rw [h2]; simp⟩

section
variable [PyFloat F]

theorem roadsOk (hp : Heap F) (d : Dict (Road F)) (rs : List (Xml F))
    (h : d.mapM (fun kv => kv.2.getElement hp) = .ok rs) :
    List.Forall₂ (fun kv x => kv.2.getElement hp = .ok x) d rs := mapM_except_forall₂ _ _ h

theorem road_ok {hp : Heap F} {r : Road F} {x : Xml F} (h : r.getElement hp = .ok x) :
    ∃ l, Lanes.getElement hp.lanes r.lanesections = .ok l ∧ x = .elem "road" r.getAttributes
    ([Links.getElement r.links, r.planview.getElement hp.geoms, l] ++
     (if r.signals.isEmpty then []
      else [.elem "signals" [] (r.signals.map fun i => (hp.so.sigs.cell i).getElement)]) ++
     (if r.objects.isEmpty then []
      else [.elem "objects" [] (r.objects.map fun i => (hp.so.objs.cell i).getElement)])) := by
  unfold Road.getElement at h
  cases hl : Lanes.getElement hp.lanes r.lanesections with
  | error e => rw [hl] at h; cases h
  | ok l => rw [hl] at h; cases h; exact ⟨l, rfl, rfl⟩

theorem lanes_ok {lanes : Store (Lane F)} {secs : List (LaneSection F)} {x : Xml F}
    (h : Lanes.getElement lanes secs = .ok x) : ∃ cs, secs.mapM (LaneSection.getElement lanes) = .ok cs ∧
      x = .elem "lanes" [] cs := by
  unfold Lanes.getElement at h
  cases hl : secs.mapM (LaneSection.getElement lanes) with
  | error e => rw [hl] at h; cases h
  | ok l => rw [hl] at h; cases h; exact ⟨l, rfl, rfl⟩

/-- C43: a road element: its id, junction and length attributes, and its children. -/
theorem C43_road (hp : Heap F) (r : Road F) (x : Xml F) (h : r.getElement hp = .ok x) :
    x.tag = "road" ∧ x.attr "id" = some (.ofId r.id) ∧ x.attr "junction" = some (.int r.roadType) ∧
    x.attr "length" = some (.num r.planview.getTotalLength) ∧
    x.children.map Xml.tag = ["link", "planView", "lanes"] ++
      (if r.signals = [] then [] else ["signals"]) ++ (if r.objects = [] then [] else ["objects"]) ∧
    (∀ c ∈ x.children, c.tag = "link" →
      c.children = (r.links.filter (·.kind ≠ .pyNone)).map Link.getElement) ∧
    (∀ c ∈ x.children, c.tag = "planView" →
      c.children = r.planview.adjGeoms.map (AdjGeom.getElement hp.geoms)) ∧
    (∀ c ∈ x.children, c.tag = "lanes" → c.children.map Except.ok =
      r.lanesections.map (LaneSection.getElement hp.lanes)) ∧
    (∀ c ∈ x.children, c.tag = "signals" →
      c.children = r.signals.map fun i => (hp.so.sigs.cell i).getElement) ∧
    (∀ c ∈ x.children, c.tag = "objects" →
      c.children = r.objects.map fun i => (hp.so.objs.cell i).getElement) := by
  obtain ⟨l, hl, rfl⟩ := road_ok h
  obtain ⟨cs, hcs, rfl⟩ := lanes_ok hl
  have hcs' : cs.map Except.ok = r.lanesections.map (LaneSection.getElement hp.lanes) := by
    have := mapM_except_forall₂ _ _ hcs
    clear hcs hl h
    generalize r.lanesections = secs at this ⊢
    induction this with
    | nil => rfl
    | cons h1 _ ih => simp [h1, ih]
  have hattr : ∀ k v, k ≠ "name" → k ≠ "rule" → Dict.get? [("id", Val.ofId r.id),
      ("junction", .int r.roadType), ("length", .num r.planview.getTotalLength)] k = some v →
      Dict.get? r.getAttributes k = some v := by
    intro k v h1 h2 hv
    unfold Road.getAttributes attrIfText
    cases r.name <;> cases r.rule <;> dsimp only
    · simpa using hv
    · split <;> simpa [Dict.get?, Ne.symm h1, Ne.symm h2] using hv
    · split <;> simpa [Dict.get?, Ne.symm h1, Ne.symm h2] using hv
    · split <;> split <;> simpa [Dict.get?, Ne.symm h1, Ne.symm h2] using hv
  refine ⟨rfl, hattr _ _ (by decide) (by decide) (by simp [Dict.get?]),
    hattr _ _ (by decide) (by decide) (by simp [Dict.get?]),
    hattr _ _ (by decide) (by decide) (by simp [Dict.get?]), ?_, ?_, ?_, ?_, ?_, ?_⟩
  · cases r.signals <;> cases r.objects <;> simp [Links.getElement, PlanView.getElement]
  all_goals
    intro c hc ht
    simp only [Xml.children_elem, List.mem_append, List.mem_cons, List.not_mem_nil, or_false] at hc
    rcases hc with ((rfl | rfl | rfl) | hc) | hc
    all_goals first
      | rfl
      | exact hcs'
      | exact absurd ht (by simp [Links.getElement, PlanView.getElement])
      | (split at hc
         · cases hc
         · simp only [List.mem_singleton] at hc
           subst hc
           first | rfl | exact absurd ht (by simp))

/-- C43: the document element: one header, then the roads in order, then the junctions in order. -/
theorem C43_document (hp : Heap F) (date : String) (o : OpenDrive F) (x : Xml F)
    (h : o.getElement hp date = .ok x) :
    x.tag = "OpenDRIVE" ∧
    ∃ rs, x.children = headerElement o.name date :: (rs ++ o.junctions.map Junction.getElement) ∧
      rs.map Except.ok = o.roads.map (fun kv => kv.2.getElement hp) ∧
      rs.map Xml.tag = o.roads.map (fun _ => "road") ∧
      rs.map (·.attr "id") = o.roads.map (fun kv => some (Val.ofId kv.2.id)) ∧
      (o.junctions.map (Junction.getElement (F := F))).map Xml.tag =
        o.junctions.map (fun _ => "junction") := by
  unfold OpenDrive.getElement at h
  cases hr : o.roads.mapM (fun kv => kv.2.getElement hp) with
  | error e => rw [hr] at h; cases h
  | ok rs =>
    rw [hr] at h
    cases h
    have hf := roadsOk hp _ _ hr
    refine ⟨rfl, rs, by simp, ?_, ?_, ?_, by rw [List.map_map]; rfl⟩
    all_goals
      clear hr
      generalize o.roads = d at hf ⊢
      induction hf with
      | nil => rfl
      | cons h1 _ ih =>
        have := C43_road hp _ _ h1
        simp only [List.map_cons, ih, h1, this.1, this.2.1]

/-- C43: a document can be emitted iff every lane of every section of every road has an id; the
only exception possible is `ValueError`. -/
theorem C43_error (hp : Heap F) (date : String) (o : OpenDrive F) :
    ((∃ x, o.getElement hp date = .ok x) ↔
      ∀ kv ∈ o.roads, ∀ sec ∈ kv.2.lanesections, ∀ r ∈ sec.left ++ [sec.center] ++ sec.right,
        (hp.lanes.cell r).laneId ≠ none) ∧
    ∀ e, o.getElement hp date = .error e → e = .valueError := by
  have hsec : ∀ secs : List (LaneSection F),
      (∃ cs, secs.mapM (LaneSection.getElement hp.lanes) = .ok cs ∧ ∀ sec ∈ secs,
        ∀ r ∈ sec.left ++ [sec.center] ++ sec.right, (hp.lanes.cell r).laneId ≠ none) ∨
      (secs.mapM (LaneSection.getElement hp.lanes) = .error .valueError ∧ ¬ ∀ sec ∈ secs,
        ∀ r ∈ sec.left ++ [sec.center] ++ sec.right, (hp.lanes.cell r).laneId ≠ none) := by
    intro secs
    induction secs with
    | nil => exact Or.inl ⟨[], rfl, by simp⟩
    | cons sec secs ih =>
      by_cases hx : ∀ r ∈ sec.left ++ [sec.center] ++ sec.right, (hp.lanes.cell r).laneId ≠ none
      · obtain ⟨y, hy, -⟩ := C42_element hp.lanes sec hx
        rcases ih with ⟨cs, h1, h2⟩ | ⟨h1, h2⟩
        · refine Or.inl ⟨y :: cs, by rw [List.mapM_cons, hy, h1]; rfl, ?_⟩
          intro s hs
          rcases List.mem_cons.mp hs with rfl | hs
          · exact hx
          · exact h2 s hs
        · refine Or.inr ⟨by rw [List.mapM_cons, hy, h1]; rfl, fun h => h2 fun s hs => h s (by simp [hs])⟩
      · right
        have hx' := hx
        push Not at hx'
        rw [List.mapM_cons, ((C42_error hp.lanes sec).1).mpr hx']
        exact ⟨rfl, fun h => hx (h sec List.mem_cons_self)⟩
  have hdoc : ∀ d : Dict (Road F),
      (∃ cs, d.mapM (fun kv => kv.2.getElement hp) = .ok cs ∧ ∀ kv ∈ d, ∀ sec ∈ kv.2.lanesections,
        ∀ r ∈ sec.left ++ [sec.center] ++ sec.right, (hp.lanes.cell r).laneId ≠ none) ∨
      (d.mapM (fun kv => kv.2.getElement hp) = .error .valueError ∧ ¬ ∀ kv ∈ d,
        ∀ sec ∈ kv.2.lanesections,
        ∀ r ∈ sec.left ++ [sec.center] ++ sec.right, (hp.lanes.cell r).laneId ≠ none) := by
    intro d
    induction d with
    | nil => exact Or.inl ⟨[], rfl, by simp⟩
    | cons kv d ih =>
      rcases hsec kv.2.lanesections with ⟨cs, h1, h2⟩ | ⟨h1, h2⟩
      · have hy : ∃ y, kv.2.getElement hp = .ok y := by
          unfold Road.getElement Lanes.getElement; rw [h1]; exact ⟨_, rfl⟩
        obtain ⟨y, hy⟩ := hy
        rcases ih with ⟨cs', h3, h4⟩ | ⟨h3, h4⟩
        · refine Or.inl ⟨y :: cs', by rw [List.mapM_cons, hy, h3]; rfl, ?_⟩
          intro s hs
          rcases List.mem_cons.mp hs with rfl | hs
          · exact h2
          · exact h4 s hs
        · exact Or.inr ⟨by rw [List.mapM_cons, hy, h3]; rfl,
            fun h => h4 fun s hs => h s (List.mem_cons_of_mem _ hs)⟩
      · right
        have hy : kv.2.getElement hp = .error .valueError := by
          unfold Road.getElement Lanes.getElement; rw [h1]; rfl
        rw [List.mapM_cons, hy]
        exact ⟨rfl, fun h => h2 (h kv List.mem_cons_self)⟩
  rcases hdoc o.roads with ⟨cs, h1, h2⟩ | ⟨h1, h2⟩
  · have : ∃ x, o.getElement hp date = .ok x := by
      unfold OpenDrive.getElement; rw [h1]; exact ⟨_, rfl⟩
    obtain ⟨x, hx⟩ := this
    refine ⟨⟨fun _ => h2, fun _ => ⟨x, hx⟩⟩, ?_⟩
    intro e he; rw [hx] at he; cases he
  · have : o.getElement hp date = .error .valueError := by
      unfold OpenDrive.getElement; rw [h1]; rfl
    rw [this]
    refine ⟨⟨?_, fun h => absurd h h2⟩, ?_⟩
    · rintro ⟨x, hx⟩; cases hx
    · intro e he; cases he; rfl

end

/-- Adding roads "1", "2" and again "1": two roads remain, the first one replaced. -/
example (a b c : Road F) (ha : a.id = .int 1) (hb : b.id = .int 2) (hc : c.id = .str "1") :
    (runDoc [.road a, .road b, .junction ⟨"j", .int 1, [], 0⟩, .road c] (OpenDrive.new "x")).roads =
      [("1", c), ("2", b)] := by
  have h1 : strInt 1 = "1" := by decide
  have h2 : strInt 2 = "2" := by decide
  simp [runDoc, OpenDrive.addRoad, OpenDrive.addJunction, addRoad, OpenDrive.new, Dict.set, ha, hb,
    hc, PyId.toStr, h1, h2]

end Pyodrx.Props
