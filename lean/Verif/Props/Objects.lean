import Verif.Props.SignalsObjects
import Verif.PyReal

/-! # Properties C38, C39, C40: roadside objects, outlines, repeats -/

namespace Pyodrx.Props
open Pyodrx Spec

variable {F : Type}

/-! ## C38 -/

/-- The placements a roadside call has to produce: per lane section, left then right. -/
def placements (side : RoadSide) (secs : List (LaneSection F)) : List (LaneSection F × Bool) :=
  secs.flatMap fun sec => match side with
    | .both => [(sec, true), (sec, false)]
    | .left => [(sec, true)]
    | .right => [(sec, false)]

theorem entries_eq [PyFloat F] (lanes : Store (Lane F)) (side : RoadSide) (secs : List (LaneSection F)) :
    secs.flatMap (roadsideEntries lanes side) = (placements side secs).map fun p =>
      if p.2 then (⟨p.1.s, 1, sumWidths lanes p.1.left⟩ : RoadsideEntry F)
      else ⟨p.1.s, -1, sumWidths lanes p.1.right⟩ := by
  unfold placements
  rw [List.map_flatMap]
  congr 1
  funext sec
  cases side <;> simp [roadsideEntries]

theorem foldl_add_real (lanes : Store (Lane ℝ)) (l : List Nat) : ∀ w : ℝ,
    l.foldl (fun w r => PyFloat.add w (lanes.cell r).a) w =
      w + (l.map fun r => (lanes.cell r).a).sum := by
  induction l with
  | nil => intro w; simp
  | cons a l ih => intro w; rw [List.foldl_cons, ih]; simp [add_assoc]

theorem sumWidths_real (lanes : Store (Lane ℝ)) (l : List Nat) :
    sumWidths lanes l = (l.map fun r => (lanes.cell r).a).sum := by
  unfold sumWidths; rw [foldl_add_real]; simp

/-- C38: on a road that is not adjusted nothing happens but `RoadsAndLanesNotAdjusted`. -/
theorem C38_not_adjusted [PyFloat F] (lanes : Store (Lane F)) (proto : Nat) (dist sOff tOff : F)
    (side : RoadSide) (r : Road F) (st : SOState F) (h : r.planview.adjusted = false) :
    Road.addObjectRoadside lanes proto dist sOff tOff side (r, st) =
      .error .roadsAndLanesNotAdjusted (r, st) := by
  simp [Road.addObjectRoadside, h]

/-- C38: on an adjusted road the call succeeds and appends exactly one new object per lane section
and requested side. Existing objects (the prototype among them), all signals and the rest of the road
are not changed. The object of a placement is the prototype with the stated position, heading and one
more repeat, which starts at the object and ends exactly at the end of the road. -/
theorem C38_roadside (lanes : Store (Lane ℝ)) (proto : Nat) (dist sOff tOff : ℝ)
    (side : RoadSide) (r : Road ℝ) (st : SOState ℝ) (h : r.planview.adjusted = true) :
    ∃ new st', Road.addObjectRoadside lanes proto dist sOff tOff side (r, st) =
        .ok () ({ r with objects := r.objects ++ new }, st') ∧
      new.length = (placements side r.lanesections).length ∧ new.Nodup ∧
      (∀ o ∈ new, st.objs.next ≤ o ∧ o < st'.objs.next) ∧
      (∀ o, o < st.objs.next → st'.objs.cell o = st.objs.cell o) ∧ st'.sigs = st.sigs ∧
      ∀ (i : Nat) sec left, (placements side r.lanesections)[i]? = some (sec, left) →
        ∃ o, new[i]? = some o ∧
          let ob := st'.objs.cell o
          let pr := st.objs.cell proto
          ob.base.s = sec.s + sOff ∧
          ob.base.t = (if left then (sec.left.map fun q => (lanes.cell q).a).sum + tOff
            else -((sec.right.map fun q => (lanes.cell q).a).sum + tOff)) ∧
          ob.hdg = (if left then Real.pi else 0) ∧
          (∃ rep len, ob.repeats = pr.repeats ++ [rep] ∧
            rep.get? "s" = some (.num ob.base.s) ∧ rep.get? "length" = some (.num len) ∧
            ob.base.s + len = r.planview.getTotalLength ∧ rep.get? "distance" = some (.num dist) ∧
            rep.get? "tStart" = some (.num ob.base.t) ∧ rep.get? "tEnd" = some (.num ob.base.t)) ∧
          ({ ob with
            base := { ob.base with s := pr.base.s, t := pr.base.t, id := pr.base.id }
            hdg := pr.hdg
            repeats := pr.repeats } : Obj ℝ) = pr := by
  set objs := (r.lanesections.flatMap (roadsideEntries lanes side)).map
        (roadsideObject (st.objs.cell proto) r.planview.getTotalLength dist sOff tOff) with hobjs
  obtain ⟨a1, a2, a3, a4⟩ := allocAll_spec objs st.objs
  set al := allocAll st.objs objs with hal
  set st1 : SOState ℝ := { st with objs := al.1 } with hst1
  obtain ⟨-, -, g3, -, g5, g6, g7⟩ := foldl_obj al.2 st1 (fun _ => False)
    (fun _ h => h.elim) (fun _ _ h => h.elim)
  set st' := al.2.foldl SOState.updateObjId st1 with hst'
  have hlen : objs.length = (placements side r.lanesections).length := by
    rw [hobjs, entries_eq]; simp
  have hmem : ∀ o ∈ al.2, st.objs.next ≤ o ∧ o < st'.objs.next := by
    intro o ho
    rw [a1] at ho
    simp only [List.mem_map, List.mem_range] at ho
    obtain ⟨i, hi, rfl⟩ := ho
    rw [g5]
    show _ ∧ _ < al.1.next
    rw [a2]; omega
  refine ⟨al.2, st', ?_, ?_, ?_, hmem, ?_, ?_, ?_⟩
  · unfold Road.addObjectRoadside
    dsimp only
    rw [if_neg (by rw [h]; simp)]
    rfl
  · rw [a1]; simp [hlen]
  · rw [a1]
    refine List.Nodup.map_on ?_ List.nodup_range
    intro a _ b _ e
    simpa using e
  · intro o ho
    rw [g6 o (fun hm => by have := (hmem o hm).1; omega)]
    exact a3 o ho
  · rw [g3]
  · intro i sec left hi
    have hi' : i < objs.length := by
      rw [hlen]; exact (List.getElem?_eq_some_iff.mp hi).1
    refine ⟨st.objs.next + i, by rw [a1, List.getElem?_map, List.getElem?_range hi']; rfl, ?_⟩
    have hob : objs[i]? = some (roadsideObject (st.objs.cell proto) r.planview.getTotalLength dist
        sOff tOff (if left then ⟨sec.s, 1, sumWidths lanes sec.left⟩
          else ⟨sec.s, -1, sumWidths lanes sec.right⟩)) := by
      rw [hobjs, entries_eq, List.getElem?_map, List.getElem?_map, hi]; rfl
    have hc := a4 i _ hob
    have hf := g7 (st.objs.next + i)
    have hcell : st1.objs.cell (st.objs.next + i) = al.1.cell (st.objs.next + i) := rfl
    rw [hcell, hc] at hf
    intro ob pr
    have hf : ({ ob with base := { ob.base with id := none } } : Obj ℝ) = _ := hf
    clear_value ob
    have e1 := congrArg (fun o : Obj ℝ => o.base.s) hf
    have e2 := congrArg (fun o : Obj ℝ => o.base.t) hf
    have e3 := congrArg Obj.hdg hf
    have e4 := congrArg Obj.repeats hf
    have e5 := congrArg (fun o : Obj ℝ => ({ o with
            base := { o.base with s := pr.base.s, t := pr.base.t, id := pr.base.id }
            hdg := pr.hdg
            repeats := pr.repeats } : Obj ℝ)) hf
    have hs : ob.base.s = sec.s + sOff := by
      dsimp only at e1
      rw [e1]
      cases left <;> simp [roadsideObject, Obj.repeat, add_comm]
    have ht : ob.base.t = if left then (sec.left.map fun q => (lanes.cell q).a).sum + tOff
            else -((sec.right.map fun q => (lanes.cell q).a).sum + tOff) := by
      dsimp only at e2
      rw [e2]
      cases left <;> simp [roadsideObject, Obj.repeat, sumWidths_real]
    refine ⟨hs, ht, ?_, ?_, ?_⟩
    · dsimp only at e3
      rw [e3]
      cases left <;> simp [roadsideObject, Obj.repeat]
    · dsimp only at e1 e2 e4
      refine ⟨_, r.planview.getTotalLength - sOff - sec.s, e4.trans (by
        simp only [roadsideObject, Obj.repeat]; rfl), ?_, ?_, ?_, ?_, ?_, ?_⟩
      · rw [e1]; simp [Dict.get?, roadsideObject, Obj.repeat]
      · cases left <;> simp [Dict.get?]
      · rw [hs]; ring
      · simp [Dict.get?]
      · rw [e2]; simp [Dict.get?, roadsideObject, Obj.repeat]
      · rw [e2]; simp [Dict.get?, roadsideObject, Obj.repeat]
    · dsimp only at e5
      rw [e5]
      simp [roadsideObject, Obj.repeat, pr]

/-- C38: both sides of a road with two sections give four placements. -/
example (a b : LaneSection ℝ) : placements .both [a, b] = [(a, true), (a, false), (b, true), (b, false)] :=
  rfl

/-! ## C39 -/

theorem Dict.get?_append {α : Type} (d e : Dict α) (k : String) :
    Dict.get? (d ++ e) k = (Dict.get? d k).or (Dict.get? e k) := by
  induction d with
  | nil => simp [Dict.get?]
  | cons kv d ih =>
    obtain ⟨k', v⟩ := kv
    by_cases h : k' = k <;> simp [Dict.get?, h, ih]

section
variable [PyFloat F]

theorem get?_attrIfNonzero (k k' : String) (x : F) (h : k ≠ k') :
    Dict.get? (attrIfNonzero k x) k' = none := by
  unfold attrIfNonzero; split <;> simp [Dict.get?, h]

omit [PyFloat F] in
theorem get?_attrIfSome (k k' : String) (x : Option F) (h : k ≠ k') :
    Dict.get? (attrIfSome k x) k' = none := by
  unfold attrIfSome; split <;> simp [Dict.get?, h]

omit [PyFloat F] in
theorem get?_attrIfSome_same (k : String) (x : Option F) :
    Dict.get? (attrIfSome k x) k = x.map Val.num := by
  unfold attrIfSome; split <;> simp [Dict.get?]

theorem common_width (o : SOBase F) :
    Dict.get? o.commonAttributes "width" = o.width.map Val.num := by
  unfold SOBase.commonAttributes
  cases o.name <;>
  simp [Dict.get?_append, get?_attrIfNonzero, get?_attrIfSome, get?_attrIfSome_same, Dict.get?]

theorem common_radius (o : SOBase F) : Dict.get? o.commonAttributes "radius" = none := by
  unfold SOBase.commonAttributes
  cases o.name <;>
  simp [Dict.get?_append, get?_attrIfNonzero, get?_attrIfSome, Dict.get?]

theorem common_length (o : SOBase F) : Dict.get? o.commonAttributes "length" = none := by
  unfold SOBase.commonAttributes
  cases o.name <;>
  simp [Dict.get?_append, get?_attrIfNonzero, get?_attrIfSome, Dict.get?]

/-- The outline of an object as emitted: radius, width and length attributes. -/
def outline (o : Obj F) : Option (Val F) × Option (Val F) × Option (Val F) :=
  (o.getElement.attr "radius", o.getElement.attr "width", o.getElement.attr "length")

theorem outline_eq (o : Obj F) : outline o =
    match o.radius, o.length, o.base.width with
    | some r, _, w => (some (.num r), w.map Val.num, none)
    | none, some l, some w => (none, some (.num w), some (.num l))
    | none, _, w => (none, w.map Val.num, none) := by
  unfold outline
  simp only [Obj.getElement, Xml.attr, Xml.attrs_elem, Obj.getAttributes]
  cases o.validLength <;> cases o.radius <;> cases o.length <;> cases hw : o.base.width <;>
    simp [Dict.get?_set, common_width, common_radius, common_length, hw]

/-- C39: an object created with a radius is emitted with that radius and neither width nor length;
without radius but with a width or a length it is emitted with both (0 for the missing one) and no
radius; with none of the three it is emitted with none. -/
theorem C39_outline (s t : F) (typ : SOType) (subtype : Option String) (id : Option PyId)
    (name : Option String) (dynamic : Dynamic) (zOffset : F) (orientation : Orientation)
    (hdg pitch roll : F) (width length height radius validLength : Option F) :
    outline (Obj.new s t typ subtype id name dynamic zOffset orientation hdg pitch roll width length
        height radius validLength) =
      match radius, width, length with
      | some r, _, _ => (some (.num r), none, none)
      | none, none, none => (none, none, none)
      | none, w, l => (none, some (.num (w.getD (PyFloat.ofInt 0))),
          some (.num (l.getD (PyFloat.ofInt 0)))) := by
  rw [outline_eq]
  cases radius <;> cases width <;> cases length <;> simp [Obj.new]

/-- C39: `repeat` and the assignment of an id do not change the outline. -/
theorem C39_stable (o : Obj F) (len dist : F) (args : RepeatArgs F) (i : Option PyId) :
    outline (o.repeat len dist args) = outline o ∧
    outline { o with base := { o.base with id := i } } = outline o := by
  simp [outline_eq, Obj.repeat]

/-! ## C40 -/

/-- The repeat entry a call adds. -/
def lastRepeat (o : Obj F) : Dict (Val F) := o.repeats.getLast?.getD []

/-- C40: a call of `repeat` appends one entry and changes nothing else. -/
theorem C40_appends (o : Obj F) (len dist : F) (a : RepeatArgs F) :
    o.repeat len dist a =
      { o with repeats := o.repeats ++ [lastRepeat (o.repeat len dist a)] } := by
  simp [Obj.repeat, lastRepeat]

/-- C40: the entry has the required attributes, each with the given value or else the one of the
parent object. -/
theorem C40_required (o : Obj F) (len dist : F) (a : RepeatArgs F) :
    let d := lastRepeat (o.repeat len dist a)
    d.get? "length" = some (.num len) ∧ d.get? "distance" = some (.num dist) ∧
    d.get? "s" = some (.num (a.sStart.getD o.base.s)) ∧
    d.get? "tStart" = some (.num (a.tStart.getD o.base.t)) ∧
    d.get? "tEnd" = some (.num (a.tEnd.getD o.base.t)) ∧
    d.get? "zOffsetStart" = some (.num (a.zOffsetStart.getD o.base.zOffset)) ∧
    d.get? "zOffsetEnd" = some (.num (a.zOffsetEnd.getD o.base.zOffset)) ∧
    d.get? "heightStart" = some (.ofOpt (a.heightStart.or o.base.height)) ∧
    d.get? "heightEnd" = some (.ofOpt (a.heightEnd.or o.base.height)) := by
  refine ⟨?_, ?_, ?_, ?_, ?_, ?_, ?_, ?_, ?_⟩ <;> simp [Obj.repeat, lastRepeat, Dict.get?]
  · cases a.heightStart <;> cases o.base.height <;> simp [repeatHeight, Val.ofOpt]
  · cases a.heightEnd <;> cases o.base.height <;> simp [repeatHeight, Val.ofOpt]

/-- C40: the optional attributes appear iff given, with the given value; there are no others. -/
theorem C40_optional (o : Obj F) (len dist : F) (a : RepeatArgs F) :
    let d := lastRepeat (o.repeat len dist a)
    d.get? "widthStart" = a.widthStart.map Val.num ∧ d.get? "widthEnd" = a.widthEnd.map Val.num ∧
    d.get? "lengthStart" = a.lengthStart.map Val.num ∧
    d.get? "lengthEnd" = a.lengthEnd.map Val.num ∧
    d.get? "radiusStart" = a.radiusStart.map Val.num ∧
    d.get? "radiusEnd" = a.radiusEnd.map Val.num ∧
    d.keys ⊆ ["length", "distance", "s", "tStart", "tEnd", "heightStart", "heightEnd",
      "zOffsetStart", "zOffsetEnd", "widthStart", "widthEnd", "lengthStart", "lengthEnd",
      "radiusStart", "radiusEnd"] := by
  have hk : ∀ (k : String) (x : Option F), (attrIfSome k x).map Prod.fst ⊆ [k] := by
    intro k x; unfold attrIfSome; split <;> simp
  refine ⟨?_, ?_, ?_, ?_, ?_, ?_, ?_⟩
  rotate_left 6
  · intro k hm
    simp only [Obj.repeat, lastRepeat, Dict.keys, List.getLast?_append, List.getLast?_singleton,
      Option.some_or, Option.getD_some, List.map_append, List.mem_append] at hm
    rcases hm with (((((hm | hm) | hm) | hm) | hm) | hm) | hm
    · simp at hm ⊢; tauto
    all_goals
      have := hk _ _ hm
      simp at this ⊢; tauto
  all_goals
    simp [Obj.repeat, lastRepeat, Dict.get?_append, get?_attrIfSome, get?_attrIfSome_same, Dict.get?]

/-- C40, finding: without a height in the call and in the object, the required attributes
`heightStart` and `heightEnd` are emitted with the text `None`. -/
theorem C40_height_none (o : Obj F) (len dist : F) (h : o.base.height = none) :
    (lastRepeat (o.repeat len dist {})).get? "heightStart" = some .pyNone ∧
    (lastRepeat (o.repeat len dist {})).get? "heightEnd" = some .pyNone := by
  simp [Obj.repeat, lastRepeat, Dict.get?, repeatHeight, h, Val.ofOpt]

end

/-! ## A concrete history for C35 -/

/-- Two objects asking for the same id 7, on two roads: they end up with the ids 7 and 0. -/
example [PyFloat F] (roads : Nat → Road F) (h : ∀ k, (roads k).objects = [] ∧ (roads k).signals = [])
    (sigs : Store (Signal F)) (o : Obj F) (ho : o.base.id = some (.int 7)) :
    ∃ w : SOWorld F, Reach w ∧ (w.roads 0).objects = [0] ∧ (w.roads 1).objects = [1] ∧
      w.objId 0 = "7" ∧ w.objId 1 = "0" := by
  have h0 : Reach ⟨roads, ⟨⟨fun _ => o, 0⟩, sigs, []⟩⟩ := Reach.init roads _ h rfl
  have h1 := Reach.newObject _ o (Reach.newObject _ o h0)
  have h2 := Reach.addObject _ 0 [0] (by simp [Store.alloc]) h1
  have h3 := Reach.addObject _ 1 [1] (by simp [Store.alloc, SOWorld.setRoad, Road.addObject,
    SOState.updateObjId]) h2
  refine ⟨_, h3, ?_, ?_, ?_, ?_⟩
  · simp [SOWorld.setRoad, Road.addObject, h]
  · simp [SOWorld.setRoad, Road.addObject, h]
  · simp [SOWorld.setRoad, Road.addObject, SOWorld.objId, updateObj_objs, ho, Store.alloc, updateId,
      Dict.get?, optIdText, PyId.toStr]
    decide
  · have : strInt 7 = "7" := by decide
    simp [SOWorld.setRoad, Road.addObject, SOWorld.objId, updateObj_objs, ho, Store.alloc, updateId,
      Dict.get?, Dict.set, optIdText, PyId.toStr, SOState.updateObjId, Store.modify_cell, this]
    rw [freeCounter, dif_neg (by decide)]
    decide

end Pyodrx.Props
