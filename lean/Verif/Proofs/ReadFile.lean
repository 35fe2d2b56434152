import Verif.Proofs.XmlNames
import Verif.Spec.ReadFile
import Std.Data.String.ToInt

/-! # Reading back the text of a file -/

namespace Pyodrx
open Spec

variable {F : Type}

theorem toInt_strInt (i : Int) : (strInt i).toInt? = some i := by
  unfold strInt Int.repr
  cases i with
  | ofNat n =>
    simp only
    rw [String.toInt?_eq_some_iff]
    exact .inl ⟨n, by simp, rfl⟩
  | negSucc n =>
    simp only
    rw [String.toInt?_eq_some_iff]
    refine .inr ⟨(n + 1).repr, rfl, n + 1, by simp, by omega⟩

/-- The value has the kind of its attribute. -/
def okVal (k : Kind) : Val F → Bool
  | .num _ => k = .number
  | .int _ => k ≠ .number
  | .str _ => k = .text
  | .pyNone => k ≠ .integer

/-- All attributes of the tree have values of their kind. -/
inductive Xml.Typed : Xml F → Prop
  | elem (t : String) (as : Dict (Val F)) (cs : List (Xml F)) :
      (∀ p ∈ as, okVal (kindOf t p.1) p.2 = true) → (∀ c ∈ cs, Xml.Typed c) → Xml.Typed (.elem t as cs)

/-- What is left of a value after printing and reading. -/
def canonVal (k : Kind) : Val F → Val F
  | .int i => if k = .text then .str (strInt i) else .int i
  | .pyNone => if k = .text then .str "None" else .pyNone
  | v => v

def Xml.canon : Xml F → Xml F
  | .elem t as cs => .elem t (as.map fun p => (p.1, canonVal (kindOf t p.1) p.2))
      (cs.attach.map fun ⟨c, _⟩ => c.canon)

theorem canon_elem (t as cs) : Xml.canon (F := F) (.elem t as cs) =
    .elem t (as.map fun p => (p.1, canonVal (kindOf t p.1) p.2)) (cs.map Xml.canon) := by
  rw [Xml.canon, attach_map cs Xml.canon]

theorem decode_elem (rd : String → Option F) (t as cs) : decode rd (.elem t as cs) =
    .elem t (as.map fun p => (p.1, decodeVal rd (kindOf t p.1) p.2)) (cs.map (decode rd)) := by
  rw [decode, attach_map cs (decode rd)]

theorem decode_text {sh : F → String} {rd : String → Option F} (h2 : rd "None" = none) (k : Kind) (v : Val F)
    (h1 : ∀ x, v = .num x → rd (sh x) = some x) (hv : okVal k v = true) :
    decodeVal rd k (v.text sh) = canonVal k v := by
  cases k <;> cases v <;> simp_all [okVal, decodeVal, Val.text, canonVal, toInt_strInt]

theorem decode_render {sh : F → String} {rd : String → Option F} (h2 : rd "None" = none) {x : Xml F}
    (hx : x.Typed) (h1 : ∀ v, Occurs (.num v) x → rd (sh v) = some v) : decode rd (x.render sh) = x.canon := by
  induction hx with
  | elem t as cs ha _ ih =>
    rw [render_elem, decode_elem, canon_elem, List.map_map, List.map_map]
    congr 1
    · apply List.map_congr_left
      intro p hp
      simp [decode_text h2 _ p.2 (fun x hx => h1 x (.here _ _ _ p.1 (hx ▸ hp))) (ha p hp)]
    · exact List.map_congr_left fun c hc => ih c hc fun v hv => h1 v (.child _ _ _ c hc hv)

/-! ## Readers see no difference -/

theorem canon_tag (x : Xml F) : x.canon.tag = x.tag := by cases x; rw [canon_elem]; rfl
theorem canon_children (x : Xml F) : x.canon.children = x.children.map Xml.canon := by
  cases x; rw [canon_elem]; rfl
theorem canon_attr (x : Xml F) (k : String) : x.canon.attr k = (x.attr k).map (canonVal (kindOf x.tag k)) := by
  cases x with
  | elem t as cs =>
    rw [canon_elem]
    simp only [Xml.attr, Xml.attrs, Xml.tag]
    induction as with
    | nil => rfl
    | cons p as ih =>
      obtain ⟨a, b⟩ := p
      simp only [List.map_cons, Dict.get?]
      split
      · next h => rw [h]; rfl
      · exact ih

theorem textOf_canon (k : Kind) (v : Val F) : textOf (canonVal k v) = textOf v := by
  cases k <;> cases v <;> rfl
theorem numOf_canon (k : Kind) (v : Val F) : numOf (canonVal k v) = numOf v := by
  cases k <;> cases v <;> rfl
theorem intOf_canon {k : Kind} (hk : k ≠ .text) (v : Val F) : intOf (canonVal k v) = intOf v := by
  cases k <;> cases v <;> first | rfl | exact absurd rfl hk
theorem enumOf_canon {β : Type} (table : List (String × β)) (k : Kind) (v : Val F) :
    enumOf table (canonVal k v) = enumOf table v := by rw [enumOf, textOf_canon, enumOf]
theorem readRange_canon (k : Kind) (v : Val F) : readRange (canonVal k v) = readRange v := by
  rw [readRange, textOf_canon, readRange]

theorem need_canon {β : Type} {f : Val F → Option β} (h : ∀ k v, f (canonVal k v) = f v) (x : Xml F) (k : String) :
    need f x.canon k = need f x k := by
  rw [need, canon_attr, need]
  cases x.attr k with
  | none => rfl
  | some v => exact h _ v
theorem may_canon {β : Type} {f : Val F → Option β} (h : ∀ k v, f (canonVal k v) = f v) (x : Xml F) (k : String) :
    may f x.canon k = may f x k := by
  rw [may, canon_attr, may]
  cases x.attr k with
  | none => rfl
  | some v => simp [h]
theorem needInt_canon (x : Xml F) (k : String) (hk : kindOf x.tag k ≠ .text) :
    need intOf x.canon k = need intOf x k := by
  rw [need, canon_attr, need]
  cases x.attr k with
  | none => rfl
  | some v => exact intOf_canon hk v

theorem childWith_canon (x : Xml F) (t : String) :
    childWith x.canon t = (childWith x t).map (Option.map Xml.canon) := by
  unfold childWith
  rw [canon_children, List.filter_map]
  have : ((fun c : Xml F => decide (c.tag = t)) ∘ Xml.canon) = fun c => decide (c.tag = t) := by
    funext c; simp [canon_tag]
  rw [this]
  cases x.children.filter (fun c => decide (c.tag = t)) with
  | nil => rfl
  | cons a l => cases l <;> rfl

theorem mapM_canon {β : Type} {f : Xml F → Option β} (h : ∀ x, f x.canon = f x) (l : List (Xml F)) :
    (l.map Xml.canon).mapM f = l.mapM f := by
  induction l with
  | nil => rfl
  | cons a l ih => rw [List.map_cons, List.mapM_cons, List.mapM_cons, h, ih]

theorem readLink_canon (x : Xml F) : readLink x.canon = readLink x := by
  simp only [readLink, need_canon textOf_canon, may_canon (enumOf_canon _), canon_tag]

theorem readLinks_canon (x : Xml F) : readLinks x.canon = readLinks x := by
  unfold readLinks
  rw [childWith_canon]
  cases childWith x "link" with
  | none => rfl
  | some c =>
    cases c with
    | none => rfl
    | some c =>
      simp only [Option.map_some, Option.bind_eq_bind, Option.bind_some]
      rw [canon_children, mapM_canon readLink_canon]

theorem readLaneLink_canon (x : Xml F) : readLaneLink x.canon = readLaneLink x := by
  unfold readLaneLink
  rw [canon_tag]
  split
  · next h =>
    rw [needInt_canon x "from" (by rw [h]; decide), needInt_canon x "to" (by rw [h]; decide)]
  · rfl

theorem readConnection_canon (x : Xml F) : readConnection x.canon = readConnection x := by
  unfold readConnection
  simp only [canon_tag, need_canon textOf_canon, need_canon (enumOf_canon _), canon_children,
    mapM_canon readLaneLink_canon]

theorem readJunction_canon (x : Xml F) : readJunction x.canon = readJunction x := by
  unfold readJunction
  simp only [canon_tag, need_canon textOf_canon, canon_children, mapM_canon readConnection_canon]

theorem readLine_canon (x : Xml F) : readLine x.canon = readLine x := by
  unfold readLine
  simp only [canon_tag, need_canon numOf_canon, may_canon (enumOf_canon _)]

theorem readMarkType_canon (x : Xml F) : readMarkType x.canon = readMarkType x := by
  unfold readMarkType
  simp only [need_canon numOf_canon, need_canon (enumOf_canon _), canon_children, mapM_canon readLine_canon]

theorem readMark_canon (x : Xml F) : readMark x.canon = readMark x := by
  unfold readMark
  rw [childWith_canon]
  simp only [need_canon numOf_canon, need_canon (enumOf_canon _), may_canon numOf_canon,
    may_canon (enumOf_canon _)]
  cases childWith x "type" with
  | none => rfl
  | some c =>
    cases c with
    | none => rfl
    | some c => simp only [Option.map_some, Option.bind_eq_bind, Option.bind_some, readMarkType_canon]

theorem readLane_canon (x : Xml F) : readLane x.canon = readLane x := by
  unfold readLane
  rw [canon_tag]
  split
  · next h =>
    rw [needInt_canon x "id" (by rw [h]; decide), childWith_canon, childWith_canon, readLinks_canon]
    simp only [need_canon (enumOf_canon _)]
    cases childWith x "width" with
    | none => rfl
    | some w =>
      cases w with
      | none => rfl
      | some w =>
        simp only [Option.map_some, Option.bind_eq_bind, Option.bind_some, need_canon numOf_canon]
        cases childWith x "roadMark" with
        | none => rfl
        | some m =>
          cases m with
          | none => rfl
          | some m => simp only [Option.map_some, Option.bind_some, readMark_canon]
  · rfl

theorem readSide_canon (x : Xml F) (t : String) : readSide x.canon t = readSide x t := by
  unfold readSide
  rw [childWith_canon]
  cases childWith x t with
  | none => rfl
  | some c =>
    cases c with
    | none => rfl
    | some c =>
      simp only [Option.map_some, Option.bind_eq_bind, Option.bind_some, canon_children,
        mapM_canon readLane_canon]

theorem readSection_canon (x : Xml F) : readSection x.canon = readSection x := by
  unfold readSection
  simp only [canon_tag, need_canon numOf_canon, readSide_canon]

theorem readPlaced_canon (x : Xml F) : readPlaced x.canon = readPlaced x := by
  unfold readPlaced
  simp only [need_canon numOf_canon, need_canon textOf_canon, need_canon (enumOf_canon _),
    may_canon numOf_canon, may_canon textOf_canon]

theorem readSignal_canon (x : Xml F) : readSignal x.canon = readSignal x := by
  unfold readSignal
  simp only [canon_tag, readPlaced_canon, need_canon textOf_canon, may_canon numOf_canon,
    may_canon textOf_canon]

theorem readCurve_canon (x : Xml F) : readCurve x.canon = readCurve x := by
  unfold readCurve
  simp only [canon_tag, need_canon numOf_canon, need_canon readRange_canon]

theorem readGeometry_canon (x : Xml F) : readGeometry x.canon = readGeometry x := by
  unfold readGeometry
  rw [canon_children]
  cases x.children with
  | nil => rfl
  | cons c l =>
    cases l with
    | nil => simp only [List.map_cons, List.map_nil, canon_tag, need_canon numOf_canon, readCurve_canon]
    | cons _ _ => rfl

theorem readPlanView_canon (x : Xml F) : readPlanView x.canon = readPlanView x := by
  unfold readPlanView
  simp only [canon_tag, canon_children, mapM_canon readGeometry_canon]

/-- The repeats of an object hold no ids or texts, only numbers. -/
def NumbersOnly (x : Xml F) : Prop := ∀ c ∈ x.children, c.tag = "repeat" → c.canon.attrs = c.attrs

theorem readObject_canon (x : Xml F) (hx : NumbersOnly x) : readObject x.canon = readObject x := by
  have h : (x.children.map Xml.canon).mapM (fun c => if c.tag = "repeat" then some c.attrs else none) =
      x.children.mapM fun c => if c.tag = "repeat" then some c.attrs else none := by
    have hx' : ∀ c ∈ x.children, c.tag = "repeat" → c.canon.attrs = c.attrs := hx
    generalize x.children = l at hx'
    induction l with
    | nil => rfl
    | cons a l ih =>
      rw [List.map_cons, List.mapM_cons, List.mapM_cons, ih (fun c hc => hx' c (by simp [hc])), canon_tag]
      split
      · next h => rw [hx' a (by simp) h]
      · rfl
  unfold readObject
  simp only [canon_tag, readPlaced_canon, need_canon numOf_canon, may_canon numOf_canon, canon_children, h]

/-- every object of the road has numbers only in its repeats -/
def RoadNumbers (x : Xml F) : Prop :=
  ∀ c ∈ x.children, c.tag = "objects" → ∀ d ∈ c.children, NumbersOnly d

theorem readMany_canon {β : Type} {f : Xml F → Option β} (x : Xml F) (t : String)
    (h : ∀ c ∈ x.children, c.tag = t → ∀ d ∈ c.children, f d.canon = f d) :
    readMany f x.canon t = readMany f x t := by
  unfold readMany
  rw [childWith_canon]
  cases hc : childWith x t with
  | none => rfl
  | some c =>
    cases c with
    | none => rfl
    | some c =>
      simp only [Option.map_some, Option.bind_eq_bind, Option.bind_some, canon_children]
      have hm : c ∈ x.children.filter (fun c => decide (c.tag = t)) := by
        unfold childWith at hc
        split at hc
        · cases hc
        · next h => cases hc; rw [h]; simp
        · cases hc
      rw [List.mem_filter] at hm
      have h' := h c hm.1 (by simpa using hm.2)
      generalize c.children = l at h'
      induction l with
      | nil => rfl
      | cons a l ih =>
        rw [List.map_cons, List.mapM_cons, List.mapM_cons, h' a (by simp), ih fun d hd => h' d (by simp [hd])]

theorem readRoad_canon (x : Xml F) (hx : RoadNumbers x) : readRoad x.canon = readRoad x := by
  unfold readRoad
  rw [canon_tag]
  split
  · next h =>
    rw [needInt_canon x "junction" (by rw [h]; decide), childWith_canon, childWith_canon, readLinks_canon,
      readMany_canon x "signals" fun _ _ _ d _ => readSignal_canon d,
      readMany_canon x "objects" fun c hc ht d hd => readObject_canon d (hx c hc ht d hd)]
    simp only [need_canon textOf_canon, need_canon numOf_canon, may_canon textOf_canon]
    cases childWith x "planView" with
    | none => rfl
    | some pv =>
      cases pv with
      | none => rfl
      | some pv =>
        simp only [Option.map_some, Option.bind_eq_bind, Option.bind_some, readPlanView_canon]
        cases childWith x "lanes" with
        | none => rfl
        | some l =>
          cases l with
          | none => rfl
          | some l => simp only [Option.map_some, Option.bind_some, canon_children, mapM_canon readSection_canon]
  · rfl

theorem readDocument_canon (x : Xml F) (hx : ∀ c ∈ x.children, c.tag = "road" → RoadNumbers c) :
    readDocument x.canon = readDocument x := by
  have hf : ∀ t, (x.canon.children.filter fun c => decide (c.tag = t)) =
      (x.children.filter fun c => decide (c.tag = t)).map Xml.canon := by
    intro t
    rw [canon_children, List.filter_map]
    congr 1
    apply List.filter_congr
    intro c _
    simp [canon_tag]
  have hr : ((x.children.filter fun c => decide (c.tag = "road")).map Xml.canon).mapM readRoad =
      (x.children.filter fun c => decide (c.tag = "road")).mapM readRoad := by
    have h' : ∀ c ∈ x.children.filter fun c => decide (c.tag = "road"), RoadNumbers c := by
      intro c hc
      rw [List.mem_filter] at hc
      exact hx c hc.1 (by simpa using hc.2)
    generalize (x.children.filter fun c => decide (c.tag = "road")) = l at h'
    induction l with
    | nil => rfl
    | cons a l ih =>
      rw [List.map_cons, List.mapM_cons, List.mapM_cons, readRoad_canon a (h' a (by simp)),
        ih fun d hd => h' d (by simp [hd])]
  unfold readDocument
  rw [canon_tag, childWith_canon, hf, hf, hr, mapM_canon readJunction_canon]
  cases childWith x "header" with
  | none => rfl
  | some h =>
    cases h with
    | none => rfl
    | some h => simp only [Option.map_some, Option.bind_eq_bind, Option.bind_some, need_canon textOf_canon]

/-! ## Emitted trees are typed -/

/-- all attributes have values of their kind -/
def okAttrs (t : String) (as : Dict (Val F)) : Bool := as.all fun p => okVal (kindOf t p.1) p.2

theorem typed_lit {t : String} {as : Dict (Val F)} {cs : List (Xml F)} (h : okAttrs t as = true)
    (hc : ∀ c ∈ cs, c.Typed) : Xml.Typed (.elem t as cs) :=
  .elem _ _ _ (by simpa [okAttrs] using h) hc

theorem map_typed {α : Type} {l : List α} {f : α → Xml F} (h : ∀ x ∈ l, (f x).Typed) :
    ∀ c ∈ l.map f, c.Typed := by
  intro c hc
  obtain ⟨x, hx, rfl⟩ := List.mem_map.mp hc
  exact h x hx

theorem okAttrs_append {t : String} {a b : Dict (Val F)} :
    okAttrs t (a ++ b) = (okAttrs t a && okAttrs t b) := by simp [okAttrs]

theorem Link.typed (l : Link) : (l.getElement : Xml F).Typed := by
  unfold Link.getElement
  refine typed_lit ?_ (by simp)
  unfold Link.getAttributes
  cases l.kind <;> cases l.elementType <;> cases l.contactPoint <;> cases l.elementId <;> cases l.direction <;> rfl

theorem Links.typed (ls : List Link) : (Links.getElement ls : Xml F).Typed :=
  typed_lit rfl (map_typed fun l _ => l.typed)

theorem Connection.typed (c : Connection) : (c.getElement : Xml F).Typed := by
  unfold Connection.getElement
  refine typed_lit ?_ (map_typed fun l _ => typed_lit rfl (by simp))
  cases c.incomingRoad <;> cases c.connectingRoad <;> cases c.id <;> rfl

theorem Junction.typed (j : Junction) : (j.getElement : Xml F).Typed := by
  unfold Junction.getElement
  refine typed_lit ?_ (map_typed fun c _ => c.typed)
  cases j.id <;> rfl

theorem RoadLine.typed (l : RoadLine F) : l.getElement.Typed := by
  unfold RoadLine.getElement
  refine typed_lit ?_ (by simp)
  cases l.rule <;> rfl

theorem RoadMark.typed (m : RoadMark F) : m.getElement.Typed := by
  unfold RoadMark.getElement
  refine typed_lit ?_ ?_
  · cases m.width <;> cases m.laneChange <;> rfl
  · cases m.line with
    | none => simp
    | some l =>
      intro c hc
      rw [List.mem_singleton.mp hc]
      refine typed_lit ?_ ?_
      · cases m.width <;> rfl
      · intro d hd
        rw [List.mem_singleton.mp hd]
        exact l.typed

theorem Lane.typed {l : Lane F} {x : Xml F} (h : l.getElement = .ok x) : x.Typed := by
  unfold Lane.getElement at h
  cases hi : l.laneId with
  | none => rw [hi] at h; cases h
  | some i =>
    rw [hi] at h
    cases h
    refine typed_lit rfl ?_
    intro c hc
    simp only [List.cons_append, List.nil_append, List.mem_cons] at hc
    rcases hc with rfl | rfl | hc
    · exact Links.typed _
    · exact typed_lit rfl (by simp)
    · cases hm : l.roadmark with
      | none => simp [hm] at hc
      | some m =>
        rw [hm] at hc
        rw [List.mem_singleton.mp hc]
        exact m.typed

theorem mapM_typed {α : Type} {P : Xml F → Prop} {f : α → Except PyErr (Xml F)} : ∀ {l : List α} {xs : List (Xml F)},
    l.mapM f = .ok xs → (∀ a ∈ l, ∀ x, f a = .ok x → P x) → ∀ x ∈ xs, P x := by
  intro l
  induction l with
  | nil => intro xs h _; cases h; simp
  | cons a l ih =>
    intro xs h hf
    rw [List.mapM_cons] at h
    cases ha : f a with
    | error e => rw [ha] at h; cases h
    | ok y =>
      rw [ha] at h
      cases hl : l.mapM f with
      | error e => rw [hl] at h; cases h
      | ok ys =>
        rw [hl] at h
        cases h
        intro x hx
        rcases List.mem_cons.mp hx with rfl | hx
        · exact hf a (by simp) _ ha
        · exact ih hl (fun b hb => hf b (by simp [hb])) x hx

theorem LaneSection.typed {lanes : Store (Lane F)} {sec : LaneSection F} {x : Xml F}
    (h : sec.getElement lanes = .ok x) : x.Typed := by
  unfold LaneSection.getElement at h
  cases hl : sec.left.mapM fun r => (lanes.cell r).getElement with
  | error e => rw [hl] at h; cases h
  | ok ls =>
  cases hc : (lanes.cell sec.center).getElement with
  | error e => rw [hl, hc] at h; cases h
  | ok c =>
  cases hr : sec.right.mapM fun r => (lanes.cell r).getElement with
  | error e => rw [hl, hc, hr] at h; cases h
  | ok rs =>
  rw [hl, hc, hr] at h
  cases h
  refine typed_lit rfl ?_
  intro y hy
  simp only [List.mem_append] at hy
  rcases hy with (hy | hy) | hy
  · by_cases he : sec.left.isEmpty
    · simp [he] at hy
    · rw [if_neg he] at hy
      rw [List.mem_singleton.mp hy]
      exact typed_lit rfl (mapM_typed hl fun a _ x hx => Lane.typed hx)
  · rw [List.mem_singleton.mp hy]
    refine typed_lit rfl ?_
    intro d hd
    rw [List.mem_singleton.mp hd]
    exact Lane.typed hc
  · by_cases he : sec.right.isEmpty
    · simp [he] at hy
    · rw [if_neg he] at hy
      rw [List.mem_singleton.mp hy]
      exact typed_lit rfl (mapM_typed hr fun a _ x hx => Lane.typed hx)

theorem Lanes.typed {lanes : Store (Lane F)} {secs : List (LaneSection F)} {x : Xml F}
    (h : Lanes.getElement lanes secs = .ok x) : x.Typed := by
  unfold Lanes.getElement at h
  cases hl : secs.mapM (LaneSection.getElement lanes) with
  | error e => rw [hl] at h; cases h
  | ok ls =>
    rw [hl] at h
    cases h
    exact typed_lit rfl (mapM_typed hl fun a _ x hx => LaneSection.typed hx)

theorem Geom.typed (g : Geom F) : g.getElement.Typed := by
  cases g with
  | line _ => exact typed_lit rfl (by simp)
  | spiral s => exact typed_lit rfl (by simp)
  | arc a => exact typed_lit rfl (by simp)
  | poly p => exact typed_lit rfl (by simp)

theorem AdjGeom.typed (geoms : Store (Geom F)) (g : AdjGeom F) : (g.getElement geoms).Typed := by
  refine typed_lit ?_ ?_
  · cases g.s <;> cases g.length <;> rfl
  intro y hy
  rw [List.mem_singleton.mp hy]
  exact Geom.typed _

theorem PlanView.typed (geoms : Store (Geom F)) (pv : PlanView F) : (pv.getElement geoms).Typed :=
  typed_lit rfl (map_typed fun a _ => AdjGeom.typed geoms a)

theorem okAttrs_set {t : String} {d : Dict (Val F)} (h : okAttrs t d = true) {k : String} {v : Val F}
    (hk : okVal (kindOf t k) v = true) : okAttrs t (d.set k v) = true := by
  induction d with
  | nil => simpa [Dict.set, okAttrs] using hk
  | cons p d ih =>
    obtain ⟨a, b⟩ := p
    simp only [okAttrs, List.all_cons, Bool.and_eq_true] at h
    unfold Dict.set
    split
    · next he => simp only [okAttrs, List.all_cons, Bool.and_eq_true]; exact ⟨he ▸ hk, h.2⟩
    · simp only [okAttrs, List.all_cons, Bool.and_eq_true]; exact ⟨h.1, ih h.2⟩

theorem okAttrs_some {t k : String} (hk : kindOf t k = .number) (x : Option F) :
    okAttrs t (attrIfSome k x) = true := by
  cases x <;> simp [attrIfSome, okAttrs, okVal, hk]

variable [PyFloat F]

theorem okAttrs_nonzero {t k : String} (hk : kindOf t k = .number) (x : F) :
    okAttrs t (attrIfNonzero k x) = true := by
  unfold attrIfNonzero; split <;> simp [okAttrs, okVal, hk]

theorem common_typed (o : SOBase F) (t : String) (ht : t = "signal" ∨ t = "object") :
    okAttrs t o.commonAttributes = true := by
  unfold SOBase.commonAttributes
  simp only [okAttrs_append, Bool.and_eq_true]
  rcases ht with rfl | rfl
  all_goals
    refine ⟨⟨⟨⟨⟨⟨⟨?_, okAttrs_nonzero (by decide) _⟩, okAttrs_nonzero (by decide) _⟩, okAttrs_some (by decide) _⟩,
      okAttrs_some (by decide) _⟩, ?_⟩, ?_⟩, ?_⟩
    · cases o.subtype <;> (cases o.id with | none => rfl | some i => cases i <;> rfl)
    · cases o.name <;> rfl
    · cases o.typ <;> rfl
    · cases o.orientation <;> rfl

theorem Signal.typed (g : Signal F) : g.getElement.Typed := by
  have h : okAttrs "signal" g.getAttributes = true := by
    unfold Signal.getAttributes
    have h1 : okAttrs "signal" (((g.base.commonAttributes.set "country" (.str (g.country.map Char.toUpper))).set "type"
        (.str g.type)).set "subtype" (.ofOptStr g.base.subtype)) = true := by
      refine okAttrs_set (okAttrs_set (okAttrs_set (common_typed g.base _ (.inl rfl)) rfl) rfl) ?_
      cases g.base.subtype <;> rfl
    dsimp only
    generalize (((g.base.commonAttributes.set "country" (.str (g.country.map Char.toUpper))).set "type"
      (.str g.type)).set "subtype" (.ofOptStr g.base.subtype)) = d at h1
    have h3 : okAttrs "signal" (if PyFloat.isZero g.hOffset then d else d.set "hOffset" (.num g.hOffset)) = true := by
      split
      · exact h1
      · exact okAttrs_set h1 rfl
    generalize (if PyFloat.isZero g.hOffset then d else d.set "hOffset" (.num g.hOffset)) = d' at h3
    cases g.value with
    | none => exact h3
    | some v =>
      refine okAttrs_set (okAttrs_set h3 rfl) ?_
      cases g.unit <;> rfl
  exact typed_lit h (by simp)

omit [PyFloat F] in
theorem repeat_number {k : String} (h : k ∈ repeatAttributes) : kindOf "repeat" k = .number :=
  (by decide : ∀ k ∈ repeatAttributes, kindOf "repeat" k = .number) k h

theorem Obj.typed (o : Obj F) (hr : RepeatsNamed o) : o.getElement.Typed := by
  have h : okAttrs "object" o.getAttributes = true := by
    unfold Obj.getAttributes
    have h1 := common_typed o.base "object" (.inr rfl)
    dsimp only
    have h2 : okAttrs "object" (match o.validLength with
        | some v => o.base.commonAttributes.set "validLength" (.num v) | none => o.base.commonAttributes) = true := by
      split
      · exact okAttrs_set h1 rfl
      · exact h1
    have h3 := okAttrs_set (k := "hdg") (v := .num o.hdg) h2 rfl
    split
    · exact okAttrs_set h3 rfl
    · split
      · exact okAttrs_set (okAttrs_set h3 rfl) rfl
      · exact h3
  refine typed_lit h (map_typed fun r hm => .elem _ _ _ ?_ (by simp))
  intro p hp
  rw [repeat_number ((hr r hm).1.subset (List.mem_map_of_mem hp))]
  rcases (hr r hm).2 p hp with ⟨x, hx⟩ | hx <;> rw [hx] <;> rfl

theorem Obj.numbers (o : Obj F) (hr : RepeatsNamed o) : NumbersOnly o.getElement := by
  intro c hc _
  obtain ⟨r, hm, rfl⟩ := List.mem_map.mp (show c ∈ o.repeats.map fun r => Xml.elem "repeat" r [] from hc)
  rw [canon_elem]
  refine (List.map_congr_left (g := id) ?_).trans (List.map_id _)
  intro p hp
  rw [repeat_number ((hr r hm).1.subset (List.mem_map_of_mem hp))]
  rcases (hr r hm).2 p hp with ⟨x, hx⟩ | hx
  · exact Prod.ext rfl (by rw [hx]; exact hx.symm)
  · exact Prod.ext rfl (by rw [hx]; exact hx.symm)

theorem Road.typed {hp : Heap F} {r : Road F} {x : Xml F}
    (ho : ∀ i ∈ r.objects, RepeatsNamed (hp.so.objs.cell i)) (h : r.getElement hp = .ok x) :
    x.Typed ∧ RoadNumbers x := by
  unfold Road.getElement at h
  cases hl : Lanes.getElement hp.lanes r.lanesections with
  | error e => rw [hl] at h; cases h
  | ok ls =>
    rw [hl] at h
    cases h
    refine ⟨typed_lit ?_ ?_, ?_⟩
    · unfold Road.getAttributes
      have ht : ∀ k, kindOf "road" k = .text → ∀ s, okAttrs "road" (attrIfText (F := F) k s) = true := by
        intro k hk s
        cases s with
        | none => rfl
        | some s => simp only [attrIfText]; split <;> simp [okAttrs, okVal, hk]
      simp only [okAttrs_append, Bool.and_eq_true]
      refine ⟨⟨ht _ (by decide) _, ht _ (by decide) _⟩, ?_⟩
      cases r.id <;> rfl
    · intro y hy
      simp only [List.mem_append, List.mem_cons, List.not_mem_nil, or_false] at hy
      rcases hy with ((rfl | rfl | rfl) | hy) | hy
      · exact Links.typed _
      · exact PlanView.typed _ _
      · exact Lanes.typed hl
      · by_cases he : r.signals.isEmpty
        · simp [he] at hy
        · rw [if_neg he] at hy
          rw [List.mem_singleton.mp hy]
          exact typed_lit rfl (map_typed fun i _ => Signal.typed _)
      · by_cases he : r.objects.isEmpty
        · simp [he] at hy
        · rw [if_neg he] at hy
          rw [List.mem_singleton.mp hy]
          exact typed_lit rfl (map_typed fun i hi => Obj.typed _ (ho i hi))
    · intro y hy hty
      rw [Xml.children_elem] at hy
      simp only [List.mem_append, List.mem_cons, List.not_mem_nil, or_false] at hy
      rcases hy with ((rfl | rfl | rfl) | hy) | hy
      · exact absurd (show "link" = "objects" from hty) (by decide)
      · exact absurd (show "planView" = "objects" from hty) (by decide)
      · have : y.tag = "lanes" := by
          unfold Lanes.getElement at hl
          cases hm : r.lanesections.mapM (LaneSection.getElement hp.lanes) with
          | error e => rw [hm] at hl; cases hl
          | ok cs => rw [hm] at hl; cases hl; rfl
        exact absurd (this.symm.trans hty) (by decide)
      · by_cases he : r.signals.isEmpty
        · simp [he] at hy
        · rw [if_neg he] at hy
          rw [List.mem_singleton.mp hy] at hty
          exact absurd (show "signals" = "objects" from hty) (by decide)
      · by_cases he : r.objects.isEmpty
        · simp [he] at hy
        · rw [if_neg he] at hy
          rw [List.mem_singleton.mp hy]
          intro d hd
          obtain ⟨i, hi, rfl⟩ := List.mem_map.mp (show d ∈ r.objects.map _ from hd)
          exact Obj.numbers _ (ho i hi)

theorem OpenDrive.typed {hp : Heap F} {date : String} {o : OpenDrive F} {x : Xml F}
    (ho : ∀ kv ∈ o.roads, ∀ i ∈ kv.2.objects, RepeatsNamed (hp.so.objs.cell i))
    (h : o.getElement hp date = .ok x) :
    x.Typed ∧ ∀ c ∈ x.children, c.tag = "road" → RoadNumbers c := by
  unfold OpenDrive.getElement at h
  cases hl : o.roads.mapM fun kv => kv.2.getElement hp with
  | error e => rw [hl] at h; cases h
  | ok rs =>
    rw [hl] at h
    cases h
    have hall : ∀ y ∈ rs, y.Typed ∧ RoadNumbers y :=
      mapM_typed hl fun kv hkv x hx => Road.typed (ho kv hkv) hx
    refine ⟨typed_lit rfl ?_, ?_⟩
    · intro y hy
      simp only [List.mem_append, List.mem_singleton] at hy
      rcases hy with (rfl | hy) | hy
      · exact typed_lit rfl (by simp)
      · exact (hall y hy).1
      · exact map_typed (fun j _ => j.typed) y hy
    · intro y hy hty
      rw [Xml.children_elem] at hy
      simp only [List.mem_append, List.mem_singleton] at hy
      rcases hy with (rfl | hy) | hy
      · exact absurd (show "header" = "road" from hty) (by decide)
      · exact (hall y hy).2
      · obtain ⟨j, _, rfl⟩ := List.mem_map.mp hy
        exact absurd (show "junction" = "road" from hty) (by decide)

end Pyodrx
