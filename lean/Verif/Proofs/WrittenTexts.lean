import Verif.Proofs.UserTexts
import Verif.Spec.WrittenTexts

/-! # The texts of the user are values of the emitted elements -/

namespace Pyodrx
open XmlParser Spec

variable {F : Type} {P : Val F → Prop}

theorem Xml.All.attrs {t : String} {as : Dict (Val F)} {cs : List (Xml F)} (h : Xml.All P (.elem t as cs)) : ∀ p ∈ as, P p.2 := by
  cases h; assumption

theorem Xml.All.children {t : String} {as : Dict (Val F)} {cs : List (Xml F)} (h : Xml.All P (.elem t as cs)) : ∀ c ∈ cs, c.All P := by
  cases h; assumption

theorem mem_set_here {d : Dict (Val F)} {k : String} {v : Val F} : (k, v) ∈ d.set k v := by
  induction d with
  | nil => simp [Dict.set]
  | cons q d ih =>
    obtain ⟨a, b⟩ := q
    unfold Dict.set
    split
    · next e => simp [e]
    · exact List.mem_cons_of_mem _ ih

theorem mem_set_other {d : Dict (Val F)} {k : String} {v : Val F} {p : String × Val F} (h : p ∈ d) (hk : p.1 ≠ k) : p ∈ d.set k v := by
  induction d with
  | nil => cases h
  | cons q d ih =>
    obtain ⟨a, b⟩ := q
    unfold Dict.set
    split
    · next e =>
      rcases List.mem_cons.mp h with rfl | h
      · exact absurd e hk
      · exact List.mem_cons_of_mem _ h
    · rcases List.mem_cons.mp h with rfl | h
      · exact List.mem_cons_self
      · exact List.mem_cons_of_mem _ (ih h)

theorem mapM_each {α : Type} {f : α → Except PyErr (Xml F)} : ∀ {l : List α} {xs : List (Xml F)},
    l.mapM f = .ok xs → ∀ a ∈ l, ∃ x ∈ xs, f a = .ok x := by
  intro l
  induction l with
  | nil => intro xs _ a ha; cases ha
  | cons a l ih =>
    intro xs h
    rw [List.mapM_cons] at h
    cases ha : f a with
    | error e => rw [ha] at h; cases h
    | ok y =>
      rw [ha] at h
      cases hl : l.mapM f with
      | error e => rw [hl] at h; cases h
      | ok ys =>
        rw [hl] at h
        cases h
        intro b hb
        rcases List.mem_cons.mp hb with rfl | hb
        · exact ⟨y, by simp, ha⟩
        · obtain ⟨x, hx, e⟩ := ih hl b hb
          exact ⟨x, by simp [hx], e⟩

/-- The property of the value is that of the text. -/
def TextOk (P : Val F → Prop) (t : String) : Prop := P (.str t) ∨ P (.str (t.map Char.toUpper))

theorem ofId_texts {i : PyId} (h : P (.ofId i)) : ∀ t ∈ idTexts i, TextOk P t := by
  cases i with
  | int i => intro t ht; cases ht
  | str s => intro t ht; rw [List.mem_singleton.mp ht]; exact .inl h

theorem ofOptStr_texts {o : Option String} (h : P (.ofOptStr o)) : ∀ t ∈ o.toList, TextOk P t := by
  cases o with
  | none => simp
  | some s => intro t ht; rw [List.mem_singleton.mp ht]; exact .inl h

theorem Link.texts {l : Link} (h : (l.getElement : Xml F).All P) : ∀ t ∈ idTexts l.elementId, TextOk P t := by
  have h := h.attrs
  unfold Link.getAttributes at h
  cases ht : l.elementType with
  | none => exact ofId_texts (h ("id", .ofId l.elementId) (by simp [ht]))
  | some t => exact ofId_texts (h ("elementId", .ofId l.elementId) (by simp [ht]))

theorem Links.texts {ls : List Link} (h : (Links.getElement ls : Xml F).All P) : ∀ t ∈ linkWritten ls, TextOk P t := by
  intro t ht
  obtain ⟨l, hl, ht⟩ := List.mem_flatMap.mp ht
  exact (Link.texts (h.children _ (List.mem_map.mpr ⟨l, hl, rfl⟩))) t ht

theorem Junction.texts {j : Junction} (h : (j.getElement : Xml F).All P) : ∀ t ∈ junctionTexts j, TextOk P t := by
  intro t ht
  simp only [junctionTexts, List.mem_append, List.mem_singleton] at ht
  rcases ht with (rfl | ht) | ht
  · exact .inl (h.attrs ("name", .str j.name) (by simp))
  · exact ofId_texts (h.attrs ("id", .ofId j.id) (by simp)) t ht
  · obtain ⟨c, hc, ht⟩ := List.mem_flatMap.mp ht
    have h := (h.children _ (List.mem_map.mpr ⟨c, hc, rfl⟩)).attrs
    rcases List.mem_append.mp ht with ht | ht
    · exact ofId_texts (h ("incomingRoad", .ofId c.incomingRoad) (by simp)) t ht
    · exact ofId_texts (h ("connectingRoad", .ofId c.connectingRoad) (by simp)) t ht

theorem Lane.texts {l : Lane F} {x : Xml F} (hx : l.getElement = .ok x) (h : x.All P) : ∀ t ∈ linkWritten l.links, TextOk P t := by
  unfold Lane.getElement at hx
  cases hi : l.laneId with
  | none => rw [hi] at hx; cases hx
  | some i =>
    rw [hi] at hx
    cases hx
    exact Links.texts (h.children _ (by simp))

theorem LaneSection.texts {lanes : Store (Lane F)} {sec : LaneSection F} {x : Xml F} (hx : sec.getElement lanes = .ok x) (h : x.All P) :
    ∀ t ∈ sectionWritten lanes sec, TextOk P t := by
  intro t ht
  obtain ⟨r, hr, ht⟩ := List.mem_flatMap.mp ht
  unfold LaneSection.getElement at hx
  cases hl : sec.left.mapM fun r => (lanes.cell r).getElement with
  | error e => rw [hl] at hx; cases hx
  | ok ls =>
  cases hc : (lanes.cell sec.center).getElement with
  | error e => rw [hl, hc] at hx; cases hx
  | ok c =>
  cases hrr : sec.right.mapM fun r => (lanes.cell r).getElement with
  | error e => rw [hl, hc, hrr] at hx; cases hx
  | ok rs =>
  rw [hl, hc, hrr] at hx
  cases hx
  have h := h.children
  simp only [List.mem_append, List.mem_singleton] at hr
  rcases hr with (hr | rfl) | hr
  · obtain ⟨y, hy, e⟩ := mapM_each hl r hr
    refine Lane.texts e ((h (.elem "left" [] ls) ?_).children y hy) t ht
    have : sec.left.isEmpty = false := by cases hs : sec.left <;> simp [hs] at hr ⊢
    simp [this]
  · exact Lane.texts hc ((h (.elem "center" [] [c]) (by simp)).children c (by simp)) t ht
  · obtain ⟨y, hy, e⟩ := mapM_each hrr r hr
    refine Lane.texts e ((h (.elem "right" [] rs) ?_).children y hy) t ht
    have : sec.right.isEmpty = false := by cases hs : sec.right <;> simp [hs] at hr ⊢
    simp [this]

theorem Geom.texts {g : Geom F} (h : g.getElement.All P) : ∀ t ∈ geomTexts g, TextOk P t := by
  cases g with
  | poly g => intro t ht; rw [List.mem_singleton.mp ht]; exact .inl (h.attrs ("pRange", .str g.prange) (by simp))
  | line _ => intro t ht; cases ht
  | spiral _ => intro t ht; cases ht
  | arc _ => intro t ht; cases ht

variable [PyFloat F]

theorem mem_common (b : SOBase F) : ("id", Val.ofOptId b.id) ∈ b.commonAttributes ∧ ("subtype", Val.ofOptStr b.subtype) ∈ b.commonAttributes ∧
    (∀ n, b.name = some n → ("name", Val.str n) ∈ b.commonAttributes) ∧
    ∀ s, b.typ = .str s → ("type", Val.str s) ∈ b.commonAttributes := by
  unfold SOBase.commonAttributes
  refine ⟨by simp, by simp, fun n hn => ?_, fun s hs => ?_⟩
  · simp [hn]
  · simp [hs]

theorem ofOptId_texts {i : Option PyId} (h : P (.ofOptId i)) : ∀ t ∈ (match i with | some i => idTexts i | none => []), TextOk P t := by
  cases i with
  | none => intro t ht; cases ht
  | some i => exact ofId_texts h

theorem Signal.texts {g : Signal F} (h : g.getElement.All P) : ∀ t ∈ signalWritten g, TextOk P t := by
  have h := h.attrs
  obtain ⟨c1, -, c3, -⟩ := mem_common g.base
  have key : ∀ p : String × Val F, p ∈ ((g.base.commonAttributes.set "country" (.str (g.country.map Char.toUpper))).set "type" (.str g.type)).set
      "subtype" (.ofOptStr g.base.subtype) → p.1 ≠ "hOffset" → p.1 ≠ "value" → p.1 ≠ "unit" → P p.2 := by
    intro p hp h1 h2 h3
    refine h p ?_
    unfold Signal.getAttributes
    dsimp only
    have : p ∈ (if PyFloat.isZero g.hOffset then ((g.base.commonAttributes.set "country" (.str (g.country.map Char.toUpper))).set "type" (.str g.type)).set
      "subtype" (.ofOptStr g.base.subtype) else (((g.base.commonAttributes.set "country" (.str (g.country.map Char.toUpper))).set "type" (.str g.type)).set
      "subtype" (.ofOptStr g.base.subtype)).set "hOffset" (.num g.hOffset)) := by
      split
      · exact hp
      · exact mem_set_other hp h1
    split
    · exact mem_set_other (mem_set_other this h2) h3
    · exact this
  have base : ∀ p : String × Val F, p ∈ g.base.commonAttributes → p.1 ≠ "country" → p.1 ≠ "type" → p.1 ≠ "subtype" → p.1 ≠ "hOffset" → p.1 ≠ "value" →
      p.1 ≠ "unit" → P p.2 := fun p hp h1 h2 h3 => key p (mem_set_other (mem_set_other (mem_set_other hp h1) h2) h3)
  intro t ht
  simp only [signalWritten, List.mem_append, List.mem_cons, List.not_mem_nil, or_false] at ht
  rcases ht with (((ht | ht) | ht) | rfl | rfl) | ht
  · exact ofOptId_texts (base _ c1 (by simp) (by simp) (by simp) (by simp) (by simp) (by simp)) t ht
  · exact ofOptStr_texts (key ("subtype", .ofOptStr g.base.subtype) mem_set_here (by simp) (by simp) (by simp)) t ht
  · exact .inl (base _ (c3 t (Option.mem_toList.mp ht)) (by simp) (by simp) (by simp) (by simp) (by simp) (by simp))
  · exact .inr (key ("country", .str (g.country.map Char.toUpper)) (mem_set_other (mem_set_other mem_set_here (by simp)) (by simp))
      (by simp) (by simp) (by simp))
  · exact .inl (key ("type", .str g.type) (mem_set_other mem_set_here (by simp)) (by simp) (by simp) (by simp))
  · cases hv : g.value with
    | none => rw [hv] at ht; cases ht
    | some v =>
      rw [hv] at ht
      refine ofOptStr_texts (h ("unit", .ofOptStr g.unit) ?_) t ht
      unfold Signal.getAttributes
      dsimp only
      rw [hv]
      exact mem_set_here

theorem Obj.texts {o : Obj F} (h : o.getElement.All P) : ∀ t ∈ baseTexts o.base, TextOk P t := by
  have h := h.attrs
  obtain ⟨c1, c2, c3, c4⟩ := mem_common o.base
  have key : ∀ p : String × Val F, p ∈ o.base.commonAttributes → p.1 ≠ "validLength" → p.1 ≠ "hdg" → p.1 ≠ "radius" → p.1 ≠ "length" →
      p.1 ≠ "width" → P p.2 := by
    intro p hp h1 h2 h3 h4 h5
    refine h p ?_
    unfold Obj.getAttributes
    dsimp only
    have h6 : p ∈ ((match o.validLength with
        | some v => o.base.commonAttributes.set "validLength" (.num v) | none => o.base.commonAttributes).set "hdg" (.num o.hdg)) := by
      refine mem_set_other ?_ h2
      split
      · exact mem_set_other hp h1
      · exact hp
    split
    · exact mem_set_other h6 h3
    · split
      · exact mem_set_other (mem_set_other h6 h4) h5
      · exact h6
  intro t ht
  simp only [baseTexts, List.mem_append] at ht
  rcases ht with ((ht | ht) | ht) | ht
  · exact ofOptId_texts (key _ c1 (by simp) (by simp) (by simp) (by simp) (by simp)) t ht
  · exact ofOptStr_texts (key _ c2 (by simp) (by simp) (by simp) (by simp) (by simp)) t ht
  · exact .inl (key _ (c3 t (Option.mem_toList.mp ht)) (by simp) (by simp) (by simp) (by simp) (by simp))
  · cases hty : o.base.typ with
    | obj _ => rw [hty] at ht; cases ht
    | str s =>
      rw [hty] at ht
      rw [List.mem_singleton.mp ht]
      exact .inl (key _ (c4 s hty) (by simp) (by simp) (by simp) (by simp) (by simp))

/-- The empty text is fine, it is not always written. -/
theorem attrIfText_texts {k : String} {x : Option String} (he : TextOk P "") (h : ∀ p ∈ (attrIfText k x : Dict (Val F)), P p.2) :
    ∀ t ∈ x.toList, TextOk P t := by
  cases x with
  | none => simp
  | some v =>
    intro t ht
    rw [List.mem_singleton.mp ht]
    by_cases hv : v = ""
    · rw [hv]; exact he
    · exact .inl (h (k, .str v) (by simp [attrIfText, hv]))

theorem Road.texts {hp : Heap F} {r : Road F} {x : Xml F} (he : TextOk P "") (hx : r.getElement hp = .ok x) (h : x.All P) :
    ∀ t ∈ roadWritten hp r, TextOk P t := by
  unfold Road.getElement at hx
  cases hl : Lanes.getElement hp.lanes r.lanesections with
  | error e => rw [hl] at hx; cases hx
  | ok ls =>
    rw [hl] at hx
    cases hx
    have ha := h.attrs
    have hc := h.children
    unfold Road.getAttributes at ha
    simp only [List.mem_append] at ha
    intro t ht
    simp only [roadWritten, List.mem_append] at ht
    rcases ht with ((((((ht | ht) | ht) | ht) | ht) | ht) | ht) | ht
    · exact attrIfText_texts he (fun p hp => ha p (.inl (.inl hp))) t ht
    · exact attrIfText_texts he (fun p hp => ha p (.inl (.inr hp))) t ht
    · exact ofId_texts (ha ("id", .ofId r.id) (.inr (by simp))) t ht
    · exact Links.texts (hc _ (by simp)) t ht
    · obtain ⟨g, hg, ht⟩ := List.mem_flatMap.mp ht
      have := (hc (r.planview.getElement hp.geoms) (by simp)).children _ (List.mem_map.mpr ⟨g, hg, rfl⟩)
      exact Geom.texts (this.children _ (by simp)) t ht
    · obtain ⟨sec, hsec, ht⟩ := List.mem_flatMap.mp ht
      have h2 := hc ls (by simp)
      unfold Lanes.getElement at hl
      cases hm : r.lanesections.mapM (LaneSection.getElement hp.lanes) with
      | error e => rw [hm] at hl; cases hl
      | ok cs =>
        rw [hm] at hl
        cases hl
        obtain ⟨y, hy, e⟩ := mapM_each hm sec hsec
        exact LaneSection.texts e (h2.children y hy) t ht
    · obtain ⟨i, hi, ht⟩ := List.mem_flatMap.mp ht
      have hne : r.signals.isEmpty = false := by cases hs : r.signals <;> simp [hs] at hi ⊢
      exact Signal.texts ((hc (.elem "signals" [] (r.signals.map fun i => (hp.so.sigs.cell i).getElement)) (by simp [hne])).children _
        (List.mem_map.mpr ⟨i, hi, rfl⟩)) t ht
    · obtain ⟨i, hi, ht⟩ := List.mem_flatMap.mp ht
      have hne : r.objects.isEmpty = false := by cases hs : r.objects <;> simp [hs] at hi ⊢
      exact Obj.texts ((hc (.elem "objects" [] (r.objects.map fun i => (hp.so.objs.cell i).getElement)) (by simp [hne])).children _
        (List.mem_map.mpr ⟨i, hi, rfl⟩)) t ht

theorem OpenDrive.texts {hp : Heap F} {date : String} {o : OpenDrive F} {x : Xml F} (he : TextOk P "")
    (hx : o.getElement hp date = .ok x) (h : x.All P) : ∀ t ∈ writtenTexts hp date o, TextOk P t := by
  unfold OpenDrive.getElement at hx
  cases hl : o.roads.mapM fun kv => kv.2.getElement hp with
  | error e => rw [hl] at hx; cases hx
  | ok rs =>
    rw [hl] at hx
    cases hx
    have hc := h.children
    intro t ht
    simp only [writtenTexts, List.mem_append, List.mem_cons, List.not_mem_nil, or_false] at ht
    rcases ht with ((rfl | rfl) | ht) | ht
    · have := (hc (headerElement o.name date) (by simp)).attrs
      exact .inl (this ("name", .str o.name) (by simp))
    · have := (hc (headerElement o.name t) (by simp)).attrs
      exact .inl (this ("date", .str t) (by simp))
    · obtain ⟨kv, hkv, ht⟩ := List.mem_flatMap.mp ht
      obtain ⟨y, hy, e⟩ := mapM_each hl kv hkv
      exact Road.texts he e (hc y (by simp [hy])) t ht
    · obtain ⟨j, hj, ht⟩ := List.mem_flatMap.mp ht
      exact Junction.texts (hc _ (by simp; exact .inr (.inr ⟨j, hj, rfl⟩))) t ht

end Pyodrx
