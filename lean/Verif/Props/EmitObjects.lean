import Verif.Props.EmitLinks
import Verif.Props.Objects

/-! # Property C58: what a reader sees of signals and objects -/

namespace Pyodrx.Props
open Pyodrx Spec

variable {F : Type} [PyFloat F]

omit [PyFloat F] in
theorem enum_dynamic (t : Dynamic) :
    enumOf (F := F) dynamics (.str (enum2strName t.name)) = some t := by cases t <;> rfl
omit [PyFloat F] in
theorem enum_orientation (t : Orientation) :
    enumOf (F := F) orientations (match t with
     | .positive => .str "+" | .negative => .str "-" | .none => .str (enum2strName Orientation.none.name)) =
      some t := by cases t <;> rfl

theorem get?_attrIfNonzero_same (k : String) (x : F) :
    Dict.get? (attrIfNonzero k x) k = (nonzero x).map Val.num := by
  unfold attrIfNonzero nonzero; split <;> simp [Dict.get?]

/-- the attributes of the common part, each looked up -/
theorem common_get (o : SOBase F) :
    let g := Dict.get? o.commonAttributes
    g "id" = some (.ofOptId o.id) ∧ g "s" = some (.num o.s) ∧ g "t" = some (.num o.t) ∧
    g "subtype" = some (.ofOptStr o.subtype) ∧
    g "dynamic" = some (.str (enum2strName o.dynamic.name)) ∧
    g "zOffset" = some (.num o.zOffset) ∧ g "pitch" = (nonzero o.pitch).map Val.num ∧
    g "roll" = (nonzero o.roll).map Val.num ∧ g "width" = o.width.map Val.num ∧
    g "height" = o.height.map Val.num ∧ g "name" = o.name.map Val.str ∧
    g "type" = some (match o.typ with | .obj t => .str (enum2strName t.name) | .str s => .str s) ∧
    g "orientation" = some (match o.orientation with
     | .positive => .str "+" | .negative => .str "-" | .none => .str (enum2strName Orientation.none.name)) ∧
    g "hOffset" = none ∧ g "value" = none ∧ g "unit" = none ∧ g "country" = none ∧
    g "hdg" = none ∧ g "radius" = none ∧ g "length" = none ∧ g "validLength" = none := by
  unfold SOBase.commonAttributes
  cases o.name <;> cases o.typ <;> cases o.orientation <;>
  simp [Dict.get?_append, get?_attrIfNonzero, get?_attrIfSome, get?_attrIfSome_same,
    get?_attrIfNonzero_same, Dict.get?]

omit [PyFloat F] in
theorem textOf_ofOptId (i : Option PyId) : textOf (Val.ofOptId i : Val F) = some (optIdText i) := by
  cases i with
  | none => rfl
  | some i => exact textOf_ofId i
omit [PyFloat F] in
theorem textOf_ofOptStr (s : Option String) :
    textOf (Val.ofOptStr s : Val F) = some (s.getD "None") := by cases s <;> rfl
omit [PyFloat F] in
theorem textOf_typ (t : SOType) : textOf (match t with
    | .obj t => .str (enum2strName t.name) | .str s => .str s : Val F) =
    some (match t with | .obj t => enum2strName t.name | .str s => s) := by cases t <;> rfl

omit [PyFloat F] in
theorem may_num {x : Xml F} {n : String} {o : Option F} (h : x.attr n = o.map Val.num) :
    may numOf x n = some o := by
  unfold may; rw [h]; cases o <;> rfl
omit [PyFloat F] in
theorem may_text {x : Xml F} {n : String} {o : Option String} (h : x.attr n = o.map Val.str) :
    may textOf x n = some o := by
  unfold may; rw [h]; cases o <;> rfl
omit [PyFloat F] in
theorem need_of {β : Type} {f : Val F → Option β} {x : Xml F} {n : String} {v : Val F}
    (h : x.attr n = some v) : need f x n = f v := by rw [need, h]; rfl

/-- An element whose attributes include the common ones is read correctly. -/
theorem readPlaced_of (o : SOBase F) (x : Xml F)
    (h : ∀ n ∈ ["id", "s", "t", "type", "subtype", "dynamic", "zOffset", "orientation", "pitch",
      "roll", "width", "height", "name"], x.attr n = Dict.get? o.commonAttributes n) :
    readPlaced x = some (shownPlaced o) := by
  obtain ⟨g1, g2, g3, g4, g5, g6, g7, g8, g9, g10, g11, g12, g13, -⟩ := common_get o
  have e := fun n hn => (h n hn)
  unfold readPlaced
  rw [need_of ((e "id" (by decide)).trans g1), need_of ((e "s" (by decide)).trans g2),
    need_of ((e "t" (by decide)).trans g3), need_of ((e "type" (by decide)).trans g12),
    need_of ((e "subtype" (by decide)).trans g4), need_of ((e "dynamic" (by decide)).trans g5),
    need_of ((e "zOffset" (by decide)).trans g6), need_of ((e "orientation" (by decide)).trans g13),
    may_num ((e "pitch" (by decide)).trans g7), may_num ((e "roll" (by decide)).trans g8),
    may_num ((e "width" (by decide)).trans g9), may_num ((e "height" (by decide)).trans g10),
    may_text ((e "name" (by decide)).trans g11), textOf_ofOptId, textOf_typ, textOf_ofOptStr,
    enum_dynamic, enum_orientation]
  rfl

/-- C58: a reader of an emitted signal finds id, position, type, subtype, orientation, sizes and
name as given; the country in capitals; angles left out iff zero; the value iff given, and then
a unit. -/
theorem C58_signal (g : Signal F) (ht : g.base.typ = .str g.type) :
    readSignal g.getElement = some (shownSignal g) := by
  obtain ⟨g1, g2, g3, g4, g5, g6, g7, g8, g9, g10, g11, g12, g13, g14, g15, g16, g17, -⟩ :=
    common_get g.base
  have hp : readPlaced g.getElement = some (shownPlaced g.base) := by
    apply readPlaced_of
    intro n hn
    simp only [List.mem_cons, List.not_mem_nil, or_false] at hn
    simp only [Signal.getElement, Xml.attr, Xml.attrs_elem, Signal.getAttributes]
    cases g.value <;> by_cases hz : PyFloat.isZero g.hOffset = true <;>
      rcases hn with rfl | rfl | rfl | rfl | rfl | rfl | rfl | rfl | rfl | rfl | rfl | rfl | rfl <;>
      simp [hz, Dict.get?_set, g12, g4, ht]
  have h1 : g.getElement.attr "country" = some (.str (g.country.map Char.toUpper)) := by
    simp only [Signal.getElement, Xml.attr, Xml.attrs_elem, Signal.getAttributes]
    cases g.value <;> by_cases hz : PyFloat.isZero g.hOffset = true <;> simp [hz, Dict.get?_set]
  have h2 : g.getElement.attr "hOffset" = (nonzero g.hOffset).map Val.num := by
    simp only [Signal.getElement, Xml.attr, Xml.attrs_elem, Signal.getAttributes, nonzero]
    cases g.value <;> by_cases hz : PyFloat.isZero g.hOffset = true <;>
      simp [hz, Dict.get?_set, g14]
  have h3 : g.getElement.attr "value" = g.value.map Val.num := by
    simp only [Signal.getElement, Xml.attr, Xml.attrs_elem, Signal.getAttributes]
    cases g.value <;> by_cases hz : PyFloat.isZero g.hOffset = true <;>
      simp [hz, Dict.get?_set, g15]
  have h4 : may textOf g.getElement "unit" = some (g.value.map fun _ => g.unit.getD "None") := by
    simp only [may, Signal.getElement, Xml.attr, Xml.attrs_elem, Signal.getAttributes]
    cases g.value <;> by_cases hz : PyFloat.isZero g.hOffset = true <;>
      simp [hz, Dict.get?_set, g16, textOf_ofOptStr]
  unfold readSignal
  rw [if_pos (by rfl), hp, need_of h1, may_num h2, may_num h3, h4]
  simp [textOf_str, shownSignal, shownPlaced, ht]

/-- C58: every signal made by the constructor is read as it was given. -/
theorem C58_new_signal (s t : F) (country type subtype : String) (id : Option PyId)
    (name : Option String) (dynamic : Dynamic) (value : Option F) (unit : Option String)
    (zOffset : F) (orientation : Orientation) (hOffset pitch roll : F) (height width : Option F) :
    readSignal (Signal.new s t country type subtype id name dynamic value unit zOffset orientation
        hOffset pitch roll height width).getElement =
      some { placed := { id := optIdText id, s, t, type, subtype, dynamic, zOffset, orientation,
                         pitch := nonzero pitch, roll := nonzero roll, width, height, name }
             country := country.map Char.toUpper, hOffset := nonzero hOffset, value
             unit := value.map fun _ => unit.getD "None" } := by
  rw [C58_signal _ rfl]; rfl

/-- C58 (violated): a signal given a value but no unit is emitted with the text `None` as its unit. -/
theorem C58_value_without_unit (g : Signal F) (v : F) (hv : g.value = some v) (hu : g.unit = none) :
    g.getElement.attr "unit" = some .pyNone := by
  simp only [Signal.getElement, Xml.attr, Xml.attrs_elem, Signal.getAttributes, hv, hu]
  simp [Dict.get?_set, Val.ofOptStr]

/-- C58: a reader of a dependency finds the id and the type it was made with; nothing else is in the element. -/
theorem C58_dependency (id type : String) :
    readDependency (Dependency.getElement id type : Xml F) = some (id, type) ∧
    (Dependency.getElement id type : Xml F).children = [] := ⟨rfl, rfl⟩

/-- C58: a reader of an emitted object finds id, position, type, subtype, orientation, heading,
sizes and name as given, and its repeats in order. -/
theorem C58_object (o : Obj F) : readObject o.getElement = some (shownObject o) := by
  obtain ⟨g1, g2, g3, g4, g5, g6, g7, g8, g9, g10, g11, g12, g13, -, -, -, -, g18, g19, g20, g21⟩ :=
    common_get o.base
  have hp : readPlaced o.getElement = some (shownPlaced o.base) := by
    apply readPlaced_of
    intro n hn
    simp only [List.mem_cons, List.not_mem_nil, or_false] at hn
    simp only [Obj.getElement, Xml.attr, Xml.attrs_elem, Obj.getAttributes]
    cases o.validLength <;> cases o.radius <;> cases o.length <;> cases hw : o.base.width <;>
      rcases hn with rfl | rfl | rfl | rfl | rfl | rfl | rfl | rfl | rfl | rfl | rfl | rfl | rfl <;>
      simp [Dict.get?_set, g9, hw]
  have h1 : o.getElement.attr "hdg" = some (.num o.hdg) := by
    simp only [Obj.getElement, Xml.attr, Xml.attrs_elem, Obj.getAttributes]
    cases o.validLength <;> cases o.radius <;> cases o.length <;> cases o.base.width <;>
      simp [Dict.get?_set]
  have h2 : o.getElement.attr "length" =
      (if o.radius.isNone ∧ o.base.width.isSome then o.length else none).map Val.num := by
    simp only [Obj.getElement, Xml.attr, Xml.attrs_elem, Obj.getAttributes]
    cases o.validLength <;> cases o.radius <;> cases o.length <;> cases o.base.width <;>
      simp [Dict.get?_set, g20]
  have h3 : o.getElement.attr "radius" = o.radius.map Val.num := by
    simp only [Obj.getElement, Xml.attr, Xml.attrs_elem, Obj.getAttributes]
    cases o.validLength <;> cases o.radius <;> cases o.length <;> cases o.base.width <;>
      simp [Dict.get?_set, g19]
  have h4 : o.getElement.attr "validLength" = o.validLength.map Val.num := by
    simp only [Obj.getElement, Xml.attr, Xml.attrs_elem, Obj.getAttributes]
    cases o.validLength <;> cases o.radius <;> cases o.length <;> cases o.base.width <;>
      simp [Dict.get?_set, g21]
  have h5 : o.getElement.children.mapM
      (fun c : Xml F => if c.tag = "repeat" then some c.attrs else none) = some o.repeats := by
    conv_rhs => rw [← List.map_id o.repeats]
    exact mapM_map_some _ _ _ _ fun a _ => rfl
  unfold readObject
  rw [if_pos (by rfl), hp, need_of h1, may_num h2, may_num h3, may_num h4, h5]
  simp [numOf_num, shownObject]

omit [PyFloat F] in
theorem enum_objectType (t : ObjectType) :
    enumOf (F := F) objectTypes (.str (enum2strName t.name)) = some t := by
  cases t <;> rfl

/-- C58: an object made with one of the object types is written with the type text of the standard. -/
theorem C58_object_type (o : Obj F) (t : ObjectType) (ht : o.base.typ = .obj t) :
    need (enumOf objectTypes) o.getElement "type" = some t := by
  have h : o.getElement.attr "type" = some (.str (enum2strName t.name)) := by
    have g12 := (common_get o.base).2.2.2.2.2.2.2.2.2.2.2.1
    simp only [ht] at g12
    simp only [Obj.getElement, Xml.attr, Xml.attrs_elem, Obj.getAttributes]
    cases o.validLength <;> cases o.radius <;> cases o.length <;> cases o.base.width <;>
      simp [Dict.get?_set, g12]
  rw [need_of h, enum_objectType]

/-- C58: every object made by the constructor is read as it was given; if a radius is given the
width and length are dropped, and if one of width and length is given the other becomes 0. -/
theorem C58_new_object (s t : F) (typ : SOType) (subtype : Option String) (id : Option PyId)
    (name : Option String) (dynamic : Dynamic) (zOffset : F) (orientation : Orientation)
    (hdg pitch roll : F) (width length height radius validLength : Option F) :
    readObject (Obj.new s t typ subtype id name dynamic zOffset orientation hdg pitch roll width
        length height radius validLength).getElement =
      some { placed := { id := optIdText id, s, t
                         type := match typ with | .obj t => enum2strName t.name | .str s => s
                         subtype := subtype.getD "None", dynamic, zOffset, orientation
                         pitch := nonzero pitch, roll := nonzero roll
                         width := if radius.isSome then none else
                           width.or (length.map fun _ => PyFloat.ofInt 0)
                         height, name }
             hdg
             length := if radius.isSome then none else
               length.or (width.map fun _ => PyFloat.ofInt 0)
             radius, validLength, repeats := [] } := by
  rw [C58_object]
  cases typ <;> cases radius <;> cases width <;> cases length <;>
    simp [Obj.new, shownObject, shownPlaced]

omit [PyFloat F] in
/-- C58: on exact numbers, the angles seen by a reader (absent meaning 0) are those given. -/
theorem C58_angles (o : SOBase ℝ) :
    ((shownPlaced o).pitch).getD 0 = o.pitch ∧ ((shownPlaced o).roll).getD 0 = o.roll := by
  have : ∀ a : ℝ, (nonzero a).getD 0 = a := by
    intro a
    unfold nonzero
    by_cases h : a = 0
    · rw [if_pos (by simpa using h)]; exact h.symm
    · rw [if_neg (by simpa using h)]; rfl
  exact ⟨this _, this _⟩

/-- The hypothesis of `C58_object_type` holds of a new parking space. -/
example (s t : ℝ) : (Obj.new s t (.obj .parkingSpace) none none none .no 0 .none 0 0 0 (some 2) (some 5)
    none none none).base.typ = .obj .parkingSpace := by simp [Obj.new]

end Pyodrx.Props
