import Verif.Proofs.XmlPretty
import Verif.Model.Write
import Verif.Spec.XmlNames

/-! # The elements that pyodrx emits have XML names -/

namespace Pyodrx
open XmlParser Spec

variable {F : Type}

/-- `WellNamed` for a tree before rendering -/
inductive Xml.Named : Xml F → Prop
  | elem (t : String) (as : Dict (Val F)) (cs : List (Xml F)) : isName t = true →
      (∀ k ∈ as.map Prod.fst, isName k = true) → (as.map Prod.fst).Nodup → (∀ c ∈ cs, Xml.Named c) →
      Xml.Named (.elem t as cs)

theorem render_elem (sh : F → String) (t as cs) : Xml.render sh (.elem t as cs) =
    .elem t (as.map fun p => (p.1, p.2.text sh)) (cs.map (Xml.render sh)) := by
  rw [Xml.render, attach_map cs (Xml.render sh)]

theorem Xml.Named.render {x : Xml F} (h : x.Named) (sh : F → String) : WellNamed (x.render sh) := by
  induction h with
  | elem t as cs h1 h2 h3 _ ih =>
    rw [render_elem]
    refine .elem _ _ _ h1 ?_ ?_ ?_
    · intro p hp
      obtain ⟨q, hq, rfl⟩ := List.mem_map.mp hp
      exact h2 _ (List.mem_map_of_mem hq)
    · rw [List.map_map]; exact h3
    · intro c hc
      obtain ⟨y, hy, rfl⟩ := List.mem_map.mp hc
      exact ih y hy

/-- attribute names that are literals, in a given order -/
theorem named_of_sublist {t : String} {as : Dict (Val F)} {cs : List (Xml F)} (ks : List String)
    (ht : isName t = true) (hk : (as.map Prod.fst).Sublist ks) (h1 : ∀ k ∈ ks, isName k = true)
    (h2 : ks.Nodup) (hc : ∀ c ∈ cs, c.Named) : Xml.Named (.elem t as cs) :=
  .elem _ _ _ ht (fun k hm => h1 k (hk.subset hm)) (h2.sublist hk) hc

theorem named_lit {t : String} {as : Dict (Val F)} {cs : List (Xml F)}
    (ht : isName t = true) (h1 : ∀ k ∈ as.map Prod.fst, isName k = true)
    (h2 : (as.map Prod.fst).Nodup) (hc : ∀ c ∈ cs, c.Named) : Xml.Named (.elem t as cs) :=
  .elem _ _ _ ht h1 h2 hc

theorem nodup_nil {α : Type} : ([] : List α).Nodup := List.nodup_nil

theorem map_named {α : Type} {l : List α} {f : α → Xml F} (h : ∀ x ∈ l, (f x).Named) :
    ∀ c ∈ l.map f, c.Named := by
  intro c hc
  obtain ⟨x, hx, rfl⟩ := List.mem_map.mp hc
  exact h x hx

/-- An element without attributes -/
theorem named_bare {t : String} {cs : List (Xml F)} (ht : isName t = true) (hc : ∀ c ∈ cs, c.Named) :
    Xml.Named (.elem t [] cs) := .elem _ _ _ ht (by simp) (by simp) hc

theorem Link.named (l : Link) : (l.getElement : Xml F).Named := by
  unfold Link.getElement
  refine named_of_sublist (if l.elementType.isSome then ["elementType", "elementId", "contactPoint"] ++ ["direction"]
    else ["id", "contactPoint", "direction"]) ?_ ?_ ?_ ?_ (by simp)
  · cases l.kind <;> decide
  · unfold Link.getAttributes
    cases l.elementType <;> cases l.contactPoint <;> simp
    all_goals split
    all_goals (try split)
    all_goals (try simp)
    all_goals decide
  · split <;> decide
  · split <;> decide

theorem Links.named (ls : List Link) : (Links.getElement ls : Xml F).Named :=
  named_bare (by decide) (map_named fun l _ => l.named)

theorem Connection.named (c : Connection) : (c.getElement : Xml F).Named := by
  unfold Connection.getElement
  refine named_of_sublist ["incomingRoad", "id", "contactPoint", "connectingRoad"] (by decide)
    (by simp) (by decide) (by decide) (map_named fun l _ => ?_)
  exact named_of_sublist ["from", "to"] (by decide) (by simp) (by decide) (by decide) (by simp)

theorem Junction.named (j : Junction) : (j.getElement : Xml F).Named :=
  named_of_sublist ["name", "id"] (by decide) (by simp) (by decide) (by decide)
    (map_named fun c _ => c.named)

theorem RoadLine.named (l : RoadLine F) : l.getElement.Named := by
  refine named_of_sublist ["length", "space", "tOffset", "width", "sOffset", "rule"] (by decide) ?_
    (by decide) (by decide) (by simp)
  cases l.rule <;> simp

theorem RoadMark.named (m : RoadMark F) : m.getElement.Named := by
  refine named_of_sublist ["sOffset", "type", "weight", "color", "height", "width", "laneChange"] (by decide) ?_
    (by decide) (by decide) ?_
  · cases m.width <;> cases m.laneChange <;> simp
  · cases m.line with
    | none => simp
    | some l =>
      intro c hc
      rw [List.mem_singleton.mp hc]
      refine named_of_sublist ["name", "width"] (by decide) (by simp) (by decide) (by decide) ?_
      intro d hd
      rw [List.mem_singleton.mp hd]
      exact l.named

theorem Lane.named {l : Lane F} {x : Xml F} (h : l.getElement = .ok x) : x.Named := by
  unfold Lane.getElement at h
  cases hi : l.laneId with
  | none => rw [hi] at h; cases h
  | some i =>
    rw [hi] at h
    cases h
    refine named_of_sublist ["id", "type", "level"] (by decide) (by simp) (by decide) (by decide) ?_
    intro c hc
    simp only [List.cons_append, List.nil_append, List.mem_cons] at hc
    rcases hc with rfl | rfl | hc
    · exact Links.named _
    · exact named_of_sublist ["a", "b", "c", "d", "sOffset"] (by decide) (by simp) (by decide) (by decide)
        (by simp)
    · cases hm : l.roadmark with
      | none => simp [hm] at hc
      | some m =>
        rw [hm] at hc
        rw [List.mem_singleton.mp hc]
        exact m.named

theorem mapM_named {α : Type} {f : α → Except PyErr (Xml F)} : ∀ {l : List α} {xs : List (Xml F)},
    l.mapM f = .ok xs → (∀ a ∈ l, ∀ x, f a = .ok x → x.Named) → ∀ x ∈ xs, x.Named := by
  intro l
  induction l with
  | nil => intro xs h _; cases h; simp
  | cons a l ih =>
    intro xs h hf
    rw [List.mapM_cons] at h
    cases ha : f a with
    | error e => rw [ha] at h; cases h
    | ok y =>
      rw [ha] at h
      cases hl : l.mapM f with
      | error e => rw [hl] at h; cases h
      | ok ys =>
        rw [hl] at h
        cases h
        intro x hx
        rcases List.mem_cons.mp hx with rfl | hx
        · exact hf a (by simp) _ ha
        · exact ih hl (fun b hb => hf b (by simp [hb])) x hx

theorem LaneSection.named {lanes : Store (Lane F)} {sec : LaneSection F} {x : Xml F}
    (h : sec.getElement lanes = .ok x) : x.Named := by
  unfold LaneSection.getElement at h
  cases hl : sec.left.mapM fun r => (lanes.cell r).getElement with
  | error e => rw [hl] at h; cases h
  | ok ls =>
  cases hc : (lanes.cell sec.center).getElement with
  | error e => rw [hl, hc] at h; cases h
  | ok c =>
  cases hr : sec.right.mapM fun r => (lanes.cell r).getElement with
  | error e => rw [hl, hc, hr] at h; cases h
  | ok rs =>
  rw [hl, hc, hr] at h
  cases h
  refine named_of_sublist ["s"] (by decide) (by simp) (by decide) (by decide) ?_
  intro y hy
  simp only [List.mem_append] at hy
  rcases hy with (hy | hy) | hy
  · by_cases he : sec.left.isEmpty
    · simp [he] at hy
    · rw [if_neg he] at hy
      rw [List.mem_singleton.mp hy]
      exact named_bare (by decide) (mapM_named hl fun a _ x hx => Lane.named hx)
  · rw [List.mem_singleton.mp hy]
    refine named_bare (by decide) ?_
    intro d hd
    rw [List.mem_singleton.mp hd]
    exact Lane.named hc
  · by_cases he : sec.right.isEmpty
    · simp [he] at hy
    · rw [if_neg he] at hy
      rw [List.mem_singleton.mp hy]
      exact named_bare (by decide) (mapM_named hr fun a _ x hx => Lane.named hx)

theorem Lanes.named {lanes : Store (Lane F)} {secs : List (LaneSection F)} {x : Xml F}
    (h : Lanes.getElement lanes secs = .ok x) : x.Named := by
  unfold Lanes.getElement at h
  cases hl : secs.mapM (LaneSection.getElement lanes) with
  | error e => rw [hl] at h; cases h
  | ok ls =>
    rw [hl] at h
    cases h
    exact named_bare (by decide) (mapM_named hl fun a _ x hx => LaneSection.named hx)

theorem Geom.named (g : Geom F) : g.getElement.Named := by
  cases g with
  | line _ => exact named_bare (by decide) (by simp)
  | spiral s =>
    exact named_of_sublist ["curvStart", "curvEnd"] (by decide) (by simp) (by decide) (by decide) (by simp)
  | arc a => exact named_of_sublist ["curvature"] (by decide) (by simp) (by decide) (by decide) (by simp)
  | poly p =>
    exact named_of_sublist ["aU", "bU", "cU", "dU", "aV", "bV", "cV", "dV", "pRange"] (by decide)
      (by simp) (by decide) (by decide) (by simp)

theorem AdjGeom.named (geoms : Store (Geom F)) (g : AdjGeom F) : (g.getElement geoms).Named := by
  refine named_of_sublist ["s", "x", "y", "hdg", "length"] (by decide) (by simp) (by decide) (by decide) ?_
  intro y hy
  rw [List.mem_singleton.mp hy]
  exact Geom.named _

theorem PlanView.named (geoms : Store (Geom F)) (pv : PlanView F) : (pv.getElement geoms).Named :=
  named_bare (by decide) (map_named fun a _ => AdjGeom.named geoms a)

/-! ## Signals and objects -/

/-- The names are names and none occurs twice. -/
def GoodKeys (d : Dict (Val F)) : Prop :=
  (∀ k ∈ d.map Prod.fst, isName k = true) ∧ (d.map Prod.fst).Nodup

theorem mem_set_keys {d : Dict (Val F)} {k k' : String} {v : Val F}
    (h : k' ∈ (d.set k v).map Prod.fst) : k' = k ∨ k' ∈ d.map Prod.fst := by
  induction d with
  | nil => simpa [Dict.set] using h
  | cons p d ih =>
    obtain ⟨a, b⟩ := p
    unfold Dict.set at h
    split at h
    · exact Or.inr (by simpa using h)
    · simp only [List.map_cons, List.mem_cons] at h ⊢
      rcases h with rfl | h
      · exact Or.inr (Or.inl rfl)
      · rcases ih h with h | h
        · exact Or.inl h
        · exact Or.inr (Or.inr h)

theorem GoodKeys.set {d : Dict (Val F)} (h : GoodKeys d) {k : String} (hk : isName k = true) (v : Val F) :
    GoodKeys (d.set k v) := by
  refine ⟨fun k' hk' => ?_, ?_⟩
  · rcases mem_set_keys hk' with rfl | h'
    · exact hk
    · exact h.1 k' h'
  · have h2 := h.2
    clear h
    induction d with
    | nil => simp [Dict.set]
    | cons p d ih =>
      obtain ⟨a, b⟩ := p
      unfold Dict.set
      rw [List.map_cons, List.nodup_cons] at h2
      split
      · rw [List.map_cons, List.nodup_cons]; exact h2
      · rw [List.map_cons, List.nodup_cons]
        refine ⟨fun hm => ?_, ih h2.2⟩
        rcases mem_set_keys hm with rfl | hm
        · exact absurd rfl ‹_›
        · exact h2.1 hm

variable [PyFloat F]

theorem attrIfNonzero_keys (k : String) (x : F) : ((attrIfNonzero k x).map Prod.fst).Sublist [k] := by
  unfold attrIfNonzero; split <;> simp

omit [PyFloat F] in
theorem attrIfSome_keys (k : String) (x : Option F) : ((attrIfSome k x).map Prod.fst).Sublist [k] := by
  unfold attrIfSome; split <;> simp

theorem commonAttributes_good (o : SOBase F) : GoodKeys o.commonAttributes := by
  have h : (o.commonAttributes.map Prod.fst).Sublist (["id", "s", "t", "subtype", "dynamic", "zOffset"] ++
      ["pitch"] ++ ["roll"] ++ ["width"] ++ ["height"] ++ ["name"] ++ ["type"] ++ ["orientation"]) := by
    unfold SOBase.commonAttributes
    simp only [List.map_append]
    refine ((((((((List.Sublist.append ?_ ?_).append ?_).append ?_).append ?_).append ?_)).append ?_).append ?_)
    · simp
    · exact attrIfNonzero_keys _ _
    · exact attrIfNonzero_keys _ _
    · exact attrIfSome_keys _ _
    · exact attrIfSome_keys _ _
    · cases o.name <;> simp
    · simp
    · simp
  exact ⟨fun k hk => (by decide : ∀ k ∈ (["id", "s", "t", "subtype", "dynamic", "zOffset"] ++
      ["pitch"] ++ ["roll"] ++ ["width"] ++ ["height"] ++ ["name"] ++ ["type"] ++ ["orientation"]),
      isName k = true) k (h.subset hk), (by decide : (["id", "s", "t", "subtype", "dynamic", "zOffset"] ++
      ["pitch"] ++ ["roll"] ++ ["width"] ++ ["height"] ++ ["name"] ++ ["type"] ++ ["orientation"]).Nodup).sublist h⟩

theorem Signal.named (g : Signal F) : g.getElement.Named := by
  have h : GoodKeys g.getAttributes := by
    unfold Signal.getAttributes
    have h1 := (((commonAttributes_good g.base).set (k := "country") (by decide)
      (.str (g.country.map Char.toUpper))).set (k := "type") (by decide) (.str g.type)).set
      (k := "subtype") (by decide) (.ofOptStr g.base.subtype)
    dsimp only
    have h2 := fun v => GoodKeys.set (k := "hOffset") h1 (by decide) v
    generalize (((g.base.commonAttributes.set "country" (.str (g.country.map Char.toUpper))).set "type"
      (.str g.type)).set "subtype" (.ofOptStr g.base.subtype)) = d at h1 h2
    have h3 : GoodKeys (if PyFloat.isZero g.hOffset then d else d.set "hOffset" (.num g.hOffset)) := by
      split
      · exact h1
      · exact h2 _
    generalize (if PyFloat.isZero g.hOffset then d else d.set "hOffset" (.num g.hOffset)) = d' at h3
    cases g.value with
    | none => exact h3
    | some v => exact (h3.set (k := "value") (by decide) _).set (k := "unit") (by decide) _
  exact .elem _ _ _ (by decide) h.1 h.2 (by simp)

theorem Obj.named (o : Obj F) (hr : RepeatsNamed o) : o.getElement.Named := by
  have h : GoodKeys o.getAttributes := by
    unfold Obj.getAttributes
    have h1 := commonAttributes_good o.base
    dsimp only
    have h2 : GoodKeys (match o.validLength with
        | some v => o.base.commonAttributes.set "validLength" (.num v) | none => o.base.commonAttributes) := by
      split
      · exact h1.set (k := "validLength") (by decide) _
      · exact h1
    have h3 := h2.set (k := "hdg") (by decide) (.num o.hdg)
    split
    · exact h3.set (k := "radius") (by decide) _
    · split
      · exact (h3.set (k := "length") (by decide) _).set (k := "width") (by decide) _
      · exact h3
  refine .elem _ _ _ (by decide) h.1 h.2 (map_named fun r hm => ?_)
  exact named_of_sublist repeatAttributes (by decide) (hr r hm).1 (by decide) (by decide) (by simp)

/-! ## Roads and the document -/

omit [PyFloat F] in
theorem attrIfText_keys (k : String) (x : Option String) :
    ((attrIfText k x : Dict (Val F)).map Prod.fst).Sublist [k] := by
  unfold attrIfText; split
  · split <;> simp
  · simp

theorem Road.named {hp : Heap F} {r : Road F} {x : Xml F}
    (ho : ∀ i ∈ r.objects, RepeatsNamed (hp.so.objs.cell i)) (h : r.getElement hp = .ok x) : x.Named := by
  unfold Road.getElement at h
  cases hl : Lanes.getElement hp.lanes r.lanesections with
  | error e => rw [hl] at h; cases h
  | ok ls =>
    rw [hl] at h
    cases h
    refine named_of_sublist (["name"] ++ ["rule"] ++ ["id", "junction", "length"]) (by decide) ?_ (by decide)
      (by decide) ?_
    · unfold Road.getAttributes
      simp only [List.map_append]
      exact ((attrIfText_keys _ _).append (attrIfText_keys _ _)).append (by simp)
    · intro y hy
      simp only [List.mem_append, List.mem_cons, List.not_mem_nil, or_false] at hy
      rcases hy with ((rfl | rfl | rfl) | hy) | hy
      · exact Links.named _
      · exact PlanView.named _ _
      · exact Lanes.named hl
      · by_cases he : r.signals.isEmpty
        · simp [he] at hy
        · rw [if_neg he] at hy
          rw [List.mem_singleton.mp hy]
          exact named_bare (by decide) (map_named fun i _ => Signal.named _)
      · by_cases he : r.objects.isEmpty
        · simp [he] at hy
        · rw [if_neg he] at hy
          rw [List.mem_singleton.mp hy]
          exact named_bare (by decide) (map_named fun i hi => Obj.named _ (ho i hi))

/-- every object that the document contains -/
theorem OpenDrive.named {hp : Heap F} {date : String} {o : OpenDrive F} {x : Xml F}
    (ho : ∀ kv ∈ o.roads, ∀ i ∈ kv.2.objects, RepeatsNamed (hp.so.objs.cell i))
    (h : o.getElement hp date = .ok x) : x.Named := by
  unfold OpenDrive.getElement at h
  cases hl : o.roads.mapM fun kv => kv.2.getElement hp with
  | error e => rw [hl] at h; cases h
  | ok rs =>
    rw [hl] at h
    cases h
    refine named_bare (by decide) ?_
    intro y hy
    simp only [List.mem_append, List.mem_singleton] at hy
    rcases hy with (rfl | hy) | hy
    · exact named_of_sublist ["name", "revMajor", "revMinor", "date", "north", "south", "east", "west"]
        (by decide) (by simp [headerElement]) (by decide) (by decide) (by simp)
    · exact mapM_named hl (fun kv hkv x hx => Road.named (ho kv hkv) hx) y hy
    · exact map_named (fun j _ => j.named) y hy

/-! ## Objects that pyodrx makes -/

theorem repeatsNamed_new (s t : F) (typ subtype id name dynamic zOffset orientation hdg pitch roll width length
    height radius validLength) : RepeatsNamed (Obj.new s t typ subtype id name dynamic zOffset orientation hdg
      pitch roll width length height radius validLength) := by
  unfold Obj.new RepeatsNamed
  dsimp only
  split
  · simp
  · split
    · simp
    · split <;> simp

theorem repeatsNamed_repeat {o : Obj F} (h : RepeatsNamed o) (len dist : F) (a : RepeatArgs F) :
    RepeatsNamed (o.repeat len dist a) := by
  intro r hr
  unfold Obj.repeat at hr
  dsimp only at hr
  rcases List.mem_append.mp hr with hr | hr
  · exact h r hr
  · rw [List.mem_singleton.mp hr]
    refine ⟨?_, ?_⟩
    · simp only [List.map_append]
      exact ((((((List.Sublist.append (l₂ := ["length", "distance", "s", "tStart", "tEnd", "heightStart",
        "heightEnd", "zOffsetStart", "zOffsetEnd"]) (by simp) (attrIfSome_keys _ _)).append
        (attrIfSome_keys _ _)).append (attrIfSome_keys _ _)).append (attrIfSome_keys _ _)).append
        (attrIfSome_keys _ _)).append (attrIfSome_keys _ _))
    · have hs : ∀ (k : String) (x : Option F), ∀ p ∈ attrIfSome k x, (∃ x, p.2 = Val.num x) ∨ p.2 = .pyNone := by
        intro k x p hp
        cases x with
        | none => cases hp
        | some v => rw [List.mem_singleton.mp hp]; exact .inl ⟨v, rfl⟩
      have hh : ∀ g v : Option F, (∃ x, repeatHeight g v = Val.num x) ∨ repeatHeight g v = .pyNone := by
        intro g v
        cases g with
        | none => cases v with
          | none => exact .inr rfl
          | some x => exact .inl ⟨x, rfl⟩
        | some x => cases v <;> exact .inl ⟨x, rfl⟩
      intro p hp
      simp only [List.mem_append] at hp
      rcases hp with (((((hp | hp) | hp) | hp) | hp) | hp) | hp
      · simp only [List.mem_cons, List.not_mem_nil, or_false] at hp
        rcases hp with rfl | rfl | rfl | rfl | rfl | rfl | rfl | rfl | rfl
        all_goals first | exact .inl ⟨_, rfl⟩ | exact hh _ _
      all_goals exact hs _ _ _ hp

end Pyodrx
