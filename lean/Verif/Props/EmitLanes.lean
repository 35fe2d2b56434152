import Verif.Props.EmitLinks

/-! # Property C57: what a reader sees of lanes, lane sections and road marks -/

namespace Pyodrx.Props
open Pyodrx Spec

variable {F : Type}

theorem enum_markRule (t : MarkRule) :
    enumOf (F := F) markRules (.str (enum2strName t.name)) = some t := by cases t <;> rfl
theorem enum_laneType (t : LaneType) :
    enumOf (F := F) laneTypes (.str (enum2strName t.name)) = some t := by cases t <;> rfl
theorem enum_markType (t : RoadMarkType) :
    enumOf (F := F) markTypes (.str (enum2strName t.name)) = some t := by cases t <;> rfl
theorem enum_markWeight (t : RoadMarkWeight) :
    enumOf (F := F) markWeights (.str (enum2strName t.name)) = some t := by cases t <;> rfl
theorem enum_markColor (t : RoadMarkColor) :
    enumOf (F := F) markColors (.str (enum2strName t.name)) = some t := by cases t <;> rfl
theorem enum_laneChange (t : LaneChange) :
    enumOf (F := F) laneChanges (.str (enum2strName t.name)) = some t := by cases t <;> rfl

/-- C57: reading the element of a line gives back its fields (the color is not emitted). -/
theorem C57_line (l : RoadLine F) : readLine l.getElement = some (shownLine l) := by
  obtain ⟨w, le, sp, t, s, r, c⟩ := l
  cases r <;> simp [readLine, RoadLine.getElement, need, may, Xml.attr, Dict.get?, numOf_num,
    enum_markRule, shownLine]

/-- C57: reading the element of a road mark gives back its fields, provided a mark with a line has a
width (always so when the constructor made the line). -/
theorem C57_mark (m : RoadMark F) (hm : m.line.isSome → m.width.isSome) :
    readMark m.getElement = some (shownMark m) := by
  obtain ⟨mt, mw, c, so, h, lc, w, le, sp, t, r, li⟩ := m
  cases li with
  | none =>
    cases w <;> cases lc <;> simp [readMark, RoadMark.getElement, childWith, need, may, Xml.attr,
      Dict.get?, numOf_num, enum_markType, enum_markWeight, enum_markColor, enum_laneChange, shownMark]
  | some li =>
    cases w with
    | none => simp at hm
    | some w =>
      cases lc <;> simp [readMark, RoadMark.getElement, childWith, need, may, Xml.attr,
        Dict.get?, numOf_num, enum_markType, enum_markWeight, enum_markColor, enum_laneChange,
        shownMark, readMarkType, C57_line, Val.ofOpt]

/-- A mark made by the constructor has a width whenever it has a line. -/
theorem mark_new_width [PyFloat F] (mt : RoadMarkType) (width length space toffset : Option F)
    (soffset : F) (rule : Option MarkRule) (color : RoadMarkColor) (weight : RoadMarkWeight)
    (height : F) (lc : Option LaneChange) :
    let m := RoadMark.new mt width length space toffset soffset rule color weight height lc
    m.line.isSome → m.width.isSome := by
  simp only [RoadMark.new]
  split <;> simp

/-- C57: a road mark made by `RoadMark(...)` is seen by a reader with the given type, weight, color,
sOffset, height and lane change; with the given width, or the default 0.2 if the mark has a line
and no (or a zero) width was given; and with at most one line, of the same width and sOffset. -/
theorem C57_new_mark [PyFloat F] (mt : RoadMarkType) (width length space toffset : Option F)
    (soffset : F) (rule : Option MarkRule) (color : RoadMarkColor) (weight : RoadMarkWeight)
    (height : F) (lc : Option LaneChange) :
    ∃ r, readMark (RoadMark.new mt width length space toffset soffset rule color weight height
        lc).getElement = some r ∧
      r.type = mt ∧ r.weight = weight ∧ r.color = color ∧ r.sOffset = soffset ∧ r.height = height ∧
      r.laneChange = lc ∧
      (r.explicit = none → r.width = width) ∧
      (∀ e, r.explicit = some e → e.name = mt ∧ r.width = some e.width ∧
        e.width = PyFloat.orElse width (PyFloat.div (PyFloat.ofInt 2) (PyFloat.ofInt 10)) ∧
        ∃ l, e.lines = [l] ∧ l.width = e.width ∧ l.sOffset = soffset ∧
          l.rule = some (rule.getD .none)) := by
  refine ⟨_, C57_mark _ (mark_new_width mt width length space toffset soffset rule color weight
    height lc), ?_⟩
  by_cases h : (PyFloat.truthy length || PyFloat.truthy space || PyFloat.truthy toffset ||
      rule.isSome) = true
  · simp only [RoadMark.new, if_pos h, shownMark]
    simp [shownLine]
  · simp only [RoadMark.new, if_neg h, shownMark]
    simp

/-- The marks on a lane come from the constructor. -/
def GoodMark (l : Lane F) : Prop := ∀ m, l.roadmark = some m → m.line.isSome → m.width.isSome

theorem childWith_lane (l : Lane F) (i : Int) (x : Xml F)
    (hx : l.getElement = .ok x) (hi : l.laneId = some i) :
    x.tag = "lane" ∧ x.attr "id" = some (.int i) ∧
    x.attr "type" = some (.str (enum2strName l.laneType.name)) ∧
    x.attr "level" = some (.str "false") ∧
    childWith x "link" = some (some (Links.getElement l.links)) ∧
    childWith x "width" = some (some (.elem "width" [("a", .num l.a), ("b", .num l.b),
      ("c", .num l.c), ("d", .num l.d), ("sOffset", .num l.soffset)] [])) ∧
    childWith x "roadMark" = some (l.roadmark.map RoadMark.getElement) := by
  simp only [Lane.getElement, hi, Except.ok.injEq] at hx
  subst hx
  cases l.roadmark <;> simp [Xml.attr, Dict.get?, childWith, Links.getElement, RoadMark.getElement]

/-- C57: a lane that has an id is emitted, and a reader sees its id, type, level (always false), links, width polynomial
and road mark. -/
theorem C57_lane (l : Lane F) (i : Int) (hi : l.laneId = some i) (hg : GoodMark l) :
    ∃ x, l.getElement = .ok x ∧ readLane x = some (shownLane l i) := by
  have hx : ∃ x, l.getElement = .ok x := by simp [Lane.getElement, hi]
  obtain ⟨x, hx⟩ := hx
  refine ⟨x, hx, ?_⟩
  obtain ⟨h1, h2, h3, h3l, h4, h5, h6⟩ := childWith_lane l i x hx hi
  have hl : readLinks x = some (shownLinks l.links) := by
    unfold readLinks
    rw [h4]
    exact mapM_map_some _ _ shownLink _ fun k _ => C55_link k
  unfold readLane
  rw [if_pos h1, h5, h6, hl]
  simp only [Option.bind_eq_bind, Option.bind_some]
  have h2' : need intOf x "id" = some i := by rw [need, h2]; rfl
  have h3' : need (enumOf laneTypes) x "type" = some l.laneType := by
    rw [need, h3]; exact enum_laneType (F := F) _
  have h3'' : need (enumOf yesNo) x "level" = some false := by rw [need, h3l]; rfl
  rw [h2', h3', h3'']
  cases hr : l.roadmark with
  | none =>
    simp [need, Xml.attr, Dict.get?, numOf_num, shownLane, hr]
  | some m =>
    simp [need, Xml.attr, Dict.get?, numOf_num, shownLane, hr,
      C57_mark m (hg m hr)]

theorem read_lanes (lanes : Store (Lane F)) (rs : List Nat) (out : List (Xml F))
    (hid : ∀ r ∈ rs, (lanes.cell r).laneId.isSome) (hg : ∀ r ∈ rs, GoodMark (lanes.cell r))
    (h : rs.mapM (fun r => (lanes.cell r).getElement) = .ok out) :
    out.mapM readLane =
      some (rs.map fun r => shownLane (lanes.cell r) ((lanes.cell r).laneId.getD 0)) := by
  have hf := mapM_except_forall₂ _ _ h
  clear h
  induction hf with
  | nil => rfl
  | @cons r x rs out h1 _ ih =>
    obtain ⟨i, hi⟩ := Option.isSome_iff_exists.mp (hid r (by simp))
    obtain ⟨x', hx', hr⟩ := C57_lane _ i hi (hg r (by simp))
    rw [h1] at hx'
    cases hx'
    rw [List.mapM_cons, hr, ih (fun q hq => hid q (by simp [hq])) (fun q hq => hg q (by simp [hq]))]
    simp [hi]

/-- The lanes of a section, as a reader should see them. -/
def shownLanes (lanes : Store (Lane F)) (rs : List Nat) : List (RLane F) :=
  rs.map fun r => shownLane (lanes.cell r) ((lanes.cell r).laneId.getD 0)

/-- C57: a reader of an emitted lane section finds its start, its left and right lanes in order of
addition, and its center lane, each with its id, type, links, width polynomial and road mark. -/
theorem C57_section (lanes : Store (Lane F)) (sec : LaneSection F) (x : Xml F)
    (hg : ∀ r ∈ sec.left ++ [sec.center] ++ sec.right, GoodMark (lanes.cell r))
    (hx : sec.getElement lanes = .ok x) :
    readSection x = some ⟨sec.s, shownLanes lanes sec.left, shownLanes lanes [sec.center],
      shownLanes lanes sec.right⟩ := by
  have hid : ∀ r ∈ sec.left ++ [sec.center] ++ sec.right, (lanes.cell r).laneId ≠ none := by
    intro r hr hn
    have := (C42_error lanes sec).1.mpr ⟨r, hr, hn⟩
    rw [hx] at this; cases this
  have hid' : ∀ r ∈ sec.left ++ [sec.center] ++ sec.right, (lanes.cell r).laneId.isSome :=
    fun r hr => Option.isSome_iff_ne_none.mpr (hid r hr)
  obtain ⟨ls, l1, -⟩ := lanes_mapM lanes sec.left (fun r hr => hid r (by simp [hr]))
  obtain ⟨rs, r1, -⟩ := lanes_mapM lanes sec.right (fun r hr => hid r (by simp [hr]))
  obtain ⟨i, hi⟩ := Option.ne_none_iff_exists'.mp (hid sec.center (by simp))
  obtain ⟨c, hc, hcr⟩ := C57_lane _ i hi (hg sec.center (by simp))
  rw [LaneSection.getElement, l1, hc, r1] at hx
  cases hx
  have hl := read_lanes lanes sec.left ls (fun r hr => hid' r (by simp [hr]))
    (fun r hr => hg r (by simp [hr])) l1
  have hr := read_lanes lanes sec.right rs (fun r hr => hid' r (by simp [hr]))
    (fun r hr => hg r (by simp [hr])) r1
  unfold readSection readSide childWith
  cases hsl : sec.left <;> cases hsr : sec.right <;> rw [hsl] at hl <;> rw [hsr] at hr <;>
    simp [need, Xml.attr, Dict.get?, numOf_num, hcr, hl, hr, shownLanes, hi]

/-- C57: for every interleaving of `add_left_lane`/`add_right_lane` with distinct lane objects, the
section is emitted, and a reader finds the i-th lane put on the left with id `i`, the i-th lane put
on the right with id `-i` and the center lane with id 0, otherwise as the user made them. -/
theorem C57_built (s : F) (center : Nat) (ops : List LaneOp) (lanes : Store (Lane F))
    (hnd : (center :: added ops).Nodup) (hg : ∀ r ∈ center :: added ops, GoodMark (lanes.cell r)) :
    ∃ x, (buildSection s center ops lanes).1.getElement (buildSection s center ops lanes).2 = .ok x ∧
      readSection x = some ⟨s,
        (lefts ops).mapIdx fun i r => shownLane (lanes.cell r) ((i : Int) + 1),
        [shownLane (lanes.cell center) 0],
        (rights ops).mapIdx fun i r => shownLane (lanes.cell r) (-((i : Int) + 1))⟩ := by
  obtain ⟨h1, h2, h3, h4, h5, h6, h7, h8⟩ := C32_numbering s center ops lanes hnd
  generalize buildSection s center ops lanes = b at h1 h2 h3 h4 h5 h6 h7 h8
  obtain ⟨sec, lanes'⟩ := b
  simp only at h1 h2 h3 h4 h5 h6 h7 h8 ⊢
  have hall : ∀ r ∈ sec.left ++ [sec.center] ++ sec.right,
      ∃ i, lanes'.cell r = (lanes.cell r).setLaneId i ∧ r ∈ center :: added ops := by
    intro r hr
    simp only [List.mem_append, List.mem_singleton, h1, h2, h3] at hr
    rcases hr with (hr | rfl) | hr
    · obtain ⟨i, hi⟩ := List.getElem?_of_mem hr
      exact ⟨_, h6 i r hi, List.mem_cons_of_mem _ (mem_added.mpr (Or.inl hr))⟩
    · exact ⟨0, h5, by simp⟩
    · obtain ⟨i, hi⟩ := List.getElem?_of_mem hr
      exact ⟨_, h7 i r hi, List.mem_cons_of_mem _ (mem_added.mpr (Or.inr hr))⟩
  obtain ⟨x, hx, -⟩ := C42_element lanes' sec (fun r hr => by
    obtain ⟨i, hi, -⟩ := hall r hr
    rw [hi]; simp [Lane.setLaneId])
  refine ⟨x, hx, ?_⟩
  rw [C57_section lanes' sec x (fun r hr => by
    obtain ⟨i, hi, hm⟩ := hall r hr
    rw [hi]; exact hg r hm) hx, h1, h2, h3, h4]
  congr 2
  · apply List.ext_getElem
    · simp [shownLanes]
    · intro i a b
      have hlt : i < (lefts ops).length := by simpa using b
      have hi : (lefts ops)[i]? = some (lefts ops)[i] := List.getElem?_eq_getElem _
      simp [shownLanes, h6 i _ hi, shownLane, Lane.setLaneId]
  · simp [shownLanes, h5, shownLane, Lane.setLaneId]
  · apply List.ext_getElem
    · simp [shownLanes]
    · intro i a b
      have hlt : i < (rights ops).length := by simpa using b
      have hi : (rights ops)[i]? = some (rights ops)[i] := List.getElem?_eq_getElem _
      simp [shownLanes, h7 i _ hi, shownLane, Lane.setLaneId]

/-- Non-vacuity: lanes without marks, and lanes with constructed marks, meet `GoodMark`. -/
example [PyFloat F] (a : F) : GoodMark (Lane.new .driving a a a a a) ∧
    GoodMark ((Lane.new .driving a a a a a).addRoadmark
      (RoadMark.new .solid none (some a) none none a none .white .standard a none)) := by
  refine ⟨by intro m h; simp [Lane.new] at h, ?_⟩
  intro m h
  simp only [Lane.addRoadmark, Option.some.injEq] at h
  subst h
  exact mark_new_width .solid none (some a) none none a none .white .standard a none

end Pyodrx.Props
