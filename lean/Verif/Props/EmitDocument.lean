import Verif.Props.EmitGeometry
import Verif.Props.EmitLanes
import Verif.Props.EmitObjects

/-! # Property C59: what a reader sees of the whole document -/

namespace Pyodrx.Props
open Pyodrx Spec

variable {F : Type} [PyFloat F]

/-- A section as a reader should see it. -/
def shownSection (lanes : Store (Lane F)) (sec : LaneSection F) : RSection F :=
  ⟨sec.s, shownLanes lanes sec.left, shownLanes lanes [sec.center], shownLanes lanes sec.right⟩

/-- A road as a reader should see it, given how its geometries are seen. -/
def shownRoad (hp : Heap F) (r : Road F) (gs : List (RGeometry F)) : RRoad F :=
  { id := r.id.toStr, junction := r.roadType, length := r.planview.getTotalLength
    name := nonempty r.name, rule := nonempty r.rule, links := shownLinks r.links
    planView := gs, sections := r.lanesections.map (shownSection hp.lanes)
    signals := r.signals.map fun i => shownSignal (hp.so.sigs.cell i)
    objects := r.objects.map fun i => shownObject (hp.so.objs.cell i) }

/-- The parts of a road were made by the constructors: marks with a line have a width, signals have
their type. -/
structure GoodRoad (hp : Heap F) (r : Road F) : Prop where
  marks : ∀ sec ∈ r.lanesections, ∀ l ∈ sec.left ++ [sec.center] ++ sec.right,
    GoodMark (hp.lanes.cell l)
  signals : ∀ i ∈ r.signals, (hp.so.sigs.cell i).base.typ = .str (hp.so.sigs.cell i).type

omit [PyFloat F] in
theorem may_attrIfText (k : String) (o : Option String) :
    Dict.get? (attrIfText (F := F) k o) k = (nonempty o).map Val.str := by
  cases o with
  | none => rfl
  | some s =>
    simp only [attrIfText, nonempty, Option.bind_some]
    split <;> simp [Dict.get?]

omit [PyFloat F] in
theorem get?_attrIfText_ne (k k' : String) (o : Option String) (h : k ≠ k') :
    Dict.get? (attrIfText (F := F) k o) k' = none := by
  cases o with
  | none => rfl
  | some s =>
    simp only [attrIfText]
    split <;> simp [Dict.get?, h]

omit [PyFloat F] in
theorem readMany_of {α β : Type} (tag : String) (t' : String) (f : Xml F → Option β) (e : α → Xml F) (g : α → β)
    (as : List α) (h : ∀ a ∈ as, f (e a) = some (g a)) (attrs : Dict (Val F)) (before after : List (Xml F))
    (hb : ∀ c ∈ before, c.tag ≠ tag) (ha : ∀ c ∈ after, c.tag ≠ tag) :
    readMany f (.elem t' attrs (before ++ (if as.isEmpty then [] else
      [.elem tag [] (as.map e)]) ++ after)) tag = some (as.map g) := by
  have fb : before.filter (fun c => c.tag = tag) = [] := by
    rw [List.filter_eq_nil_iff]; intro c hc; simpa using hb c hc
  have fa : after.filter (fun c => c.tag = tag) = [] := by
    rw [List.filter_eq_nil_iff]; intro c hc; simpa using ha c hc
  unfold readMany childWith
  cases as with
  | nil => simp [fb, fa]
  | cons a as =>
    simp only [Xml.children_elem, List.filter_append, fb, fa, List.isEmpty_cons]
    simp only [Bool.false_eq_true, if_false, List.nil_append, List.append_nil, Xml.tag_elem,
      decide_true, List.filter_cons_of_pos, List.filter_nil, Option.bind_eq_bind, Option.bind_some]
    exact mapM_map_some e f g (a :: as) h

/-- C59: a reader of an emitted road finds its id, junction, length, name, rule, links, geometries,
lane sections, signals and objects, all as the user made them and in the order of the calls. -/
theorem C59_road (hp : Heap F) (r : Road F) (x : Xml F) (hx : r.getElement hp = .ok x)
    (hg : GoodRoad hp r) (gs : List (RGeometry F))
    (hgs : readPlanView (r.planview.getElement hp.geoms) = some gs) :
    readRoad x = some (shownRoad hp r gs) := by
  obtain ⟨l, hl, rfl⟩ := road_ok hx
  obtain ⟨cs, hcs, rfl⟩ := lanes_ok hl
  have hsec : cs.mapM readSection = some (r.lanesections.map (shownSection hp.lanes)) := by
    have hf := mapM_except_forall₂ _ _ hcs
    have hm := hg.marks
    clear hcs hl hx
    generalize r.lanesections = secs at hf hm
    induction hf with
    | nil => rfl
    | @cons sec c secs cs h1 _ ih =>
      rw [List.mapM_cons, C57_section hp.lanes sec c (hm sec (by simp)) h1,
        ih fun s hs => hm s (by simp [hs])]
      rfl
  have hattr : ∀ k, k ≠ "name" → k ≠ "rule" → Dict.get? (r.getAttributes (F := F)) k =
      Dict.get? [("id", Val.ofId r.id), ("junction", .int r.roadType),
        ("length", .num r.planview.getTotalLength)] k := by
    intro k h1 h2
    unfold Road.getAttributes
    rw [Dict.get?_append, Dict.get?_append, get?_attrIfText_ne _ _ _ (Ne.symm h1),
      get?_attrIfText_ne _ _ _ (Ne.symm h2)]
    rfl
  have hname : Dict.get? (r.getAttributes (F := F)) "name" = (nonempty r.name).map Val.str := by
    unfold Road.getAttributes
    rw [Dict.get?_append, Dict.get?_append, may_attrIfText, get?_attrIfText_ne _ _ _ (by decide)]
    cases nonempty r.name <;> simp [Dict.get?]
  have hrule : Dict.get? (r.getAttributes (F := F)) "rule" = (nonempty r.rule).map Val.str := by
    unfold Road.getAttributes
    rw [Dict.get?_append, Dict.get?_append, may_attrIfText, get?_attrIfText_ne _ _ _ (by decide)]
    cases nonempty r.rule <;> simp [Dict.get?]
  have hsig := readMany_of (F := F) "signals" "road" readSignal
    (fun i => (hp.so.sigs.cell i).getElement) (fun i => shownSignal (hp.so.sigs.cell i)) r.signals
    (fun i hi => C58_signal _ (hg.signals i hi)) r.getAttributes
    [Links.getElement r.links, r.planview.getElement hp.geoms, .elem "lanes" [] cs]
    (if r.objects.isEmpty then []
      else [.elem "objects" [] (r.objects.map fun i => (hp.so.objs.cell i).getElement)])
    (by simp [Links.getElement, PlanView.getElement])
    (by intro c hc; split at hc <;> simp at hc; subst hc; simp)
  have hobj := readMany_of (F := F) "objects" "road" readObject
    (fun i => (hp.so.objs.cell i).getElement) (fun i => shownObject (hp.so.objs.cell i)) r.objects
    (fun i hi => C58_object _) r.getAttributes
    ([Links.getElement r.links, r.planview.getElement hp.geoms, .elem "lanes" [] cs] ++
     (if r.signals.isEmpty then []
      else [.elem "signals" [] (r.signals.map fun i => (hp.so.sigs.cell i).getElement)]))
    []
    (by
      intro c hc
      rcases List.mem_append.mp hc with hc | hc
      · simp only [List.mem_cons, List.not_mem_nil, or_false] at hc
        rcases hc with rfl | rfl | rfl <;> simp [Links.getElement, PlanView.getElement]
      · split at hc <;> simp at hc; subst hc; simp)
    (by simp)
  rw [List.append_nil] at hobj
  generalize hX : (.elem "road" r.getAttributes
    ([Links.getElement r.links, r.planview.getElement hp.geoms, .elem "lanes" [] cs] ++
     (if r.signals.isEmpty then []
      else [.elem "signals" [] (r.signals.map fun i => (hp.so.sigs.cell i).getElement)]) ++
     (if r.objects.isEmpty then []
      else [.elem "objects" [] (r.objects.map fun i => (hp.so.objs.cell i).getElement)])) : Xml F) =
    X at hsig hobj hx ⊢
  have hlink : childWith X "link" = some (some (Links.getElement r.links)) := by
    rw [← hX]; unfold childWith
    cases r.signals <;> cases r.objects <;> simp [Links.getElement, PlanView.getElement]
  have hpv : childWith X "planView" = some (some (r.planview.getElement hp.geoms)) := by
    rw [← hX]; unfold childWith
    cases r.signals <;> cases r.objects <;> simp [Links.getElement, PlanView.getElement]
  have hls : childWith X "lanes" = some (some (.elem "lanes" [] cs)) := by
    rw [← hX]; unfold childWith
    cases r.signals <;> cases r.objects <;> simp [Links.getElement, PlanView.getElement]
  have hlinks : readLinks X = some (shownLinks r.links) := by
    unfold readLinks
    rw [hlink]
    exact mapM_map_some _ _ shownLink _ fun k _ => C55_link k
  have hat : X.attrs = r.getAttributes := by rw [← hX]; rfl
  have htag : X.tag = "road" := by rw [← hX]; rfl
  have h1 : X.attr "id" = some (.ofId r.id) := by
    rw [Xml.attr, hat, hattr _ (by decide) (by decide)]; simp [Dict.get?]
  have h2 : X.attr "junction" = some (.int r.roadType) := by
    rw [Xml.attr, hat, hattr _ (by decide) (by decide)]; simp [Dict.get?]
  have h3 : X.attr "length" = some (.num r.planview.getTotalLength) := by
    rw [Xml.attr, hat, hattr _ (by decide) (by decide)]; simp [Dict.get?]
  have h4 : X.attr "name" = (nonempty r.name).map Val.str := by rw [Xml.attr, hat, hname]
  have h5 : X.attr "rule" = (nonempty r.rule).map Val.str := by rw [Xml.attr, hat, hrule]
  unfold readRoad
  rw [if_pos htag, hpv, hls, need_of h1, need_of h2, need_of h3, may_text h4, may_text h5, hlinks,
    hsig, hobj]
  simp only [Option.bind_eq_bind, Option.bind_some, Xml.children_elem, hsec, hgs, textOf_ofId,
    intOf_int, numOf_num]
  rfl

/-- C59: a reader of an emitted document finds its name, its roads in order, and its junctions in
order, all as the user made them. -/
theorem C59_document (hp : Heap F) (date : String) (o : OpenDrive F) (x : Xml F)
    (h : o.getElement hp date = .ok x) (gs : Road F → List (RGeometry F))
    (hg : ∀ kv ∈ o.roads, GoodRoad hp kv.2 ∧
      readPlanView (kv.2.planview.getElement hp.geoms) = some (gs kv.2)) :
    readDocument x = some ⟨o.name, o.roads.map (fun kv => shownRoad hp kv.2 (gs kv.2)),
      o.junctions.map shownJunction⟩ := by
  unfold OpenDrive.getElement at h
  cases hr : o.roads.mapM (fun kv => kv.2.getElement hp) with
  | error e => rw [hr] at h; cases h
  | ok rs =>
    rw [hr] at h
    cases h
    have hf := roadsOk hp _ _ hr
    have htags : ∀ c ∈ rs, c.tag = "road" := by
      intro c hc
      clear hr
      generalize o.roads = d at hf hg
      induction hf with
      | nil => simp at hc
      | cons h1 _ ih =>
        rcases List.mem_cons.mp hc with rfl | hc
        · exact (C43_road hp _ _ h1).1
        · exact ih hc (fun kv hkv => hg kv (by simp [hkv]))
    have hroads : rs.mapM readRoad = some (o.roads.map fun kv => shownRoad hp kv.2 (gs kv.2)) := by
      clear hr htags
      generalize o.roads = d at hf hg
      induction hf with
      | nil => rfl
      | @cons kv c d rs h1 _ ih =>
        rw [List.mapM_cons, C59_road hp kv.2 c h1 (hg kv (by simp)).1 _ (hg kv (by simp)).2,
          ih fun kv hkv => hg kv (by simp [hkv])]
        rfl
    have hj : (o.junctions.map (Junction.getElement (F := F))).mapM readJunction =
        some (o.junctions.map shownJunction) := by
      apply mapM_map_some
      intro j _
      simp only [readJunction, Junction.getElement, Xml.tag_elem, if_true, Xml.children_elem]
      rw [mapM_map_some _ _ shownConnection _ (fun c _ => C56_connection c)]
      simp [need, Xml.attr, Dict.get?, textOf_str, textOf_ofId, shownJunction]
    have hjt : ∀ c ∈ o.junctions.map (Junction.getElement (F := F)), c.tag = "junction" := by
      intro c hc
      obtain ⟨j, -, rfl⟩ := List.mem_map.mp hc
      rfl
    have f1 : ∀ t, t ≠ "road" → rs.filter (fun c => c.tag = t) = [] := by
      intro t ht
      rw [List.filter_eq_nil_iff]
      intro c hc
      simp [htags c hc, Ne.symm ht]
    have f2 : rs.filter (fun c => c.tag = "road") = rs := by
      rw [List.filter_eq_self]
      intro c hc
      simp [htags c hc]
    have f3 : ∀ t, t ≠ "junction" →
        (o.junctions.map (Junction.getElement (F := F))).filter (fun c => c.tag = t) = [] := by
      intro t ht
      rw [List.filter_eq_nil_iff]
      intro c hc
      simp [hjt c hc, Ne.symm ht]
    have f4 : (o.junctions.map (Junction.getElement (F := F))).filter (fun c => c.tag = "junction")
        = o.junctions.map (Junction.getElement (F := F)) := by
      rw [List.filter_eq_self]
      intro c hc
      simp [hjt c hc]
    have fh : ∀ t, t ≠ "header" →
        [headerElement (F := F) o.name date].filter (fun c => c.tag = t) = [] := by
      intro t ht
      rw [List.filter_eq_nil_iff]
      intro c hc
      simp only [List.mem_singleton] at hc
      subst hc
      simp [headerElement, Ne.symm ht]
    simp only [readDocument, Xml.tag_elem, if_true, childWith, Xml.children_elem,
      List.filter_append, f1 "header" (by decide), f3 "header" (by decide), f1 "junction" (by decide),
      f2, f3 "road" (by decide), f4, fh "road" (by decide), fh "junction" (by decide),
      List.append_nil, List.nil_append, hroads, hj]
    simp [headerElement, need, Xml.attr, Dict.get?, textOf_str]

/-- C59: the header of the document has the name given, the date of writing and version 1.5. -/
theorem C59_header (hp : Heap F) (date : String) (o : OpenDrive F) (x : Xml F)
    (hx : o.getElement hp date = .ok x) :
    readHeader x = some ⟨o.name, "1", "5", date, "0.0", "0.0", "0.0", "0.0"⟩ := by
  unfold OpenDrive.getElement at hx
  cases hr : o.roads.mapM (fun kv => kv.2.getElement hp) with
  | error e => rw [hr] at hx; cases hx
  | ok rs =>
    rw [hr] at hx
    cases hx
    have htags : ∀ c ∈ rs, c.tag = "road" := by
      have hf := roadsOk hp _ _ hr
      intro c hc
      clear hr
      generalize o.roads = d at hf
      induction hf with
      | nil => simp at hc
      | cons h1 _ ih =>
        rcases List.mem_cons.mp hc with rfl | hc
        · exact (C43_road hp _ _ h1).1
        · exact ih hc
    have f1 : rs.filter (fun c => c.tag = "header") = [] := by
      rw [List.filter_eq_nil_iff]
      intro c hc
      simp [htags c hc]
    have f3 : (o.junctions.map (Junction.getElement (F := F))).filter (fun c => c.tag = "header") = [] := by
      rw [List.filter_eq_nil_iff]
      intro c hc
      obtain ⟨j, -, rfl⟩ := List.mem_map.mp hc
      simp [Junction.getElement]
    have f0 : [headerElement (F := F) o.name date].filter (fun c => c.tag = "header") =
        [headerElement o.name date] := by simp [headerElement]
    unfold readHeader childWith
    rw [Xml.children_elem, List.filter_append, List.filter_append, f0, f1, f3]
    rfl

end Pyodrx.Props
