import Verif.Proofs.XmlNames
import Mathlib.Tactic.Tauto
import Verif.Spec.WrittenTexts

/-! # The values of the emitted elements -/

namespace Pyodrx
open XmlParser Spec

variable {F : Type}

/-- All values of the tree have the property. -/
inductive Xml.All (P : Val F → Prop) : Xml F → Prop
  | elem (t : String) (as : Dict (Val F)) (cs : List (Xml F)) : (∀ p ∈ as, P p.2) → (∀ c ∈ cs, Xml.All P c) →
      Xml.All P (.elem t as cs)

/-- Visible ASCII characters and the space -/
def printable (s : String) : Bool := s.toList.all fun c => 32 ≤ c.toNat && c.toNat < 127

/-- Numbers, integers, `None` and the fixed texts have the property. -/
structure FixedOk (P : Val F → Prop) : Prop where
  num : ∀ x, P (.num x)
  int : ∀ i, P (.int i)
  pyNone : P .pyNone
  lit : ∀ s, printable s = true → P (.str s)
  upper : ∀ s, P (.str s) → P (.str (s.map Char.toUpper))

variable {P : Val F → Prop} (hP : FixedOk P)

theorem map_all {α : Type} {l : List α} {f : α → Xml F} (h : ∀ x ∈ l, (f x).All P) :
    ∀ c ∈ l.map f, c.All P := by
  intro c hc
  obtain ⟨x, hx, rfl⟩ := List.mem_map.mp hc
  exact h x hx

theorem mapM_all {α : Type} {f : α → Except PyErr (Xml F)} : ∀ {l : List α} {xs : List (Xml F)},
    l.mapM f = .ok xs → (∀ a ∈ l, ∀ x, f a = .ok x → x.All P) → ∀ x ∈ xs, x.All P := by
  intro l
  induction l with
  | nil => intro xs h _; cases h; simp
  | cons a l ih =>
    intro xs h hf
    rw [List.mapM_cons] at h
    cases ha : f a with
    | error e => rw [ha] at h; cases h
    | ok y =>
      rw [ha] at h
      cases hl : l.mapM f with
      | error e => rw [hl] at h; cases h
      | ok ys =>
        rw [hl] at h
        cases h
        intro x hx
        rcases List.mem_cons.mp hx with rfl | hx
        · exact hf a (by simp) _ ha
        · exact ih hl (fun b hb => hf b (by simp [hb])) x hx

theorem all_bare {t : String} {cs : List (Xml F)} (hc : ∀ c ∈ cs, c.All P) : Xml.All P (.elem t [] cs) :=
  .elem _ _ _ (by simp) hc

theorem all_set {d : Dict (Val F)} {k : String} {v : Val F} (hd : ∀ p ∈ d, P p.2) (hv : P v) :
    ∀ p ∈ d.set k v, P p.2 := by
  induction d with
  | nil => simpa [Dict.set] using hv
  | cons q d ih =>
    obtain ⟨a, b⟩ := q
    unfold Dict.set
    split
    · intro p hp
      rcases List.mem_cons.mp hp with rfl | hp
      · exact hv
      · exact hd p (by simp [hp])
    · intro p hp
      rcases List.mem_cons.mp hp with rfl | hp
      · exact hd _ (by simp)
      · exact ih (fun p hp => hd p (by simp [hp])) p hp

include hP

theorem all_ofOpt (x : Option F) : P (.ofOpt x) := by
  cases x
  · exact hP.pyNone
  · exact hP.num _

theorem all_ofId {i : PyId} (h : ∀ s ∈ idTexts i, P (.str s)) : P (.ofId i) := by
  cases i with
  | int i => exact hP.int i
  | str s => exact h s (by simp [idTexts])

theorem all_ofOptStr {o : Option String} (h : ∀ s ∈ o.toList, P (.str s)) : P (.ofOptStr o) := by
  cases o with
  | none => exact hP.pyNone
  | some s => exact h s (by simp)

theorem Link.all (l : Link) (h : ∀ s ∈ idTexts l.elementId, P (.str s)) : (l.getElement : Xml F).All P := by
  have h1 := all_ofId hP h
  refine .elem _ _ _ ?_ (by simp)
  intro p hp
  unfold Link.getAttributes at hp
  rcases List.mem_append.mp hp with hp | hp
  · cases ht : l.elementType with
    | none => rw [ht] at hp; rw [List.mem_singleton.mp hp]; exact h1
    | some t =>
      rw [ht] at hp
      simp only [List.mem_cons, List.not_mem_nil, or_false] at hp
      rcases hp with rfl | rfl
      · exact hP.lit _ (by cases t <;> decide +kernel)
      · exact h1
  · cases hc : l.contactPoint with
    | some c =>
      rw [hc] at hp
      rw [List.mem_singleton.mp hp]
      exact hP.lit _ (by cases c <;> decide +kernel)
    | none =>
      rw [hc] at hp
      dsimp only at hp
      split at hp
      · cases hd : l.direction with
        | none => rw [hd] at hp; cases hp
        | some d =>
          rw [hd] at hp
          rw [List.mem_singleton.mp hp]
          exact hP.lit _ (by cases d <;> decide +kernel)
      · cases hp

theorem Links.all (ls : List Link) (h : ∀ s ∈ linkWritten ls, P (.str s)) : (Links.getElement ls : Xml F).All P :=
  all_bare (map_all fun l hl => l.all hP fun s hs => h s (List.mem_flatMap.mpr ⟨l, hl, hs⟩))

theorem Connection.all (c : Connection) (h : ∀ s ∈ idTexts c.incomingRoad ++ idTexts c.connectingRoad, P (.str s)) :
    (c.getElement : Xml F).All P := by
  have h1 := all_ofId (P := P) hP (i := c.incomingRoad) fun s hs => h s (by simp [hs])
  have h2 := all_ofId (P := P) hP (i := c.connectingRoad) fun s hs => h s (by simp [hs])
  refine .elem _ _ _ ?_ (map_all fun l _ => .elem _ _ _ ?_ (by simp))
  · intro p hp
    simp only [List.mem_cons, List.not_mem_nil, or_false] at hp
    rcases hp with rfl | rfl | rfl | rfl
    · exact h1
    · cases c.id
      · exact hP.pyNone
      · exact hP.int _
    · exact hP.lit _ (by cases c.contactPoint <;> decide +kernel)
    · exact h2
  · intro p hp
    simp only [List.mem_cons, List.not_mem_nil, or_false] at hp
    rcases hp with rfl | rfl <;> exact hP.int _

theorem Junction.all (j : Junction) (h : ∀ s ∈ junctionTexts j, P (.str s)) : (j.getElement : Xml F).All P := by
  refine .elem _ _ _ ?_ (map_all fun c hc => c.all hP fun s hs => h s ?_)
  · intro p hp
    simp only [List.mem_cons, List.not_mem_nil, or_false] at hp
    rcases hp with rfl | rfl
    · exact h _ (by simp [junctionTexts])
    · exact all_ofId hP fun s hs => h s (by simp [junctionTexts, hs])
  · exact List.mem_append_right _ (List.mem_flatMap.mpr ⟨c, hc, hs⟩)

theorem RoadLine.all (l : RoadLine F) : l.getElement.All P := by
  refine .elem _ _ _ ?_ (by simp)
  intro p hp
  simp only [List.mem_append, List.mem_cons, List.not_mem_nil, or_false] at hp
  rcases hp with (rfl | rfl | rfl | rfl | rfl) | hp
  · exact hP.num _
  · exact hP.num _
  · exact hP.num _
  · exact hP.num _
  · exact hP.num _
  · cases hr : l.rule with
    | none => rw [hr] at hp; cases hp
    | some r =>
      rw [hr] at hp
      rw [List.mem_singleton.mp hp]
      exact hP.lit _ (by cases r <;> decide +kernel)

theorem RoadMark.all (m : RoadMark F) : m.getElement.All P := by
  have ht : P (.str (enum2strName m.markingType.name)) := hP.lit _ (by cases m.markingType <;> decide +kernel)
  refine .elem _ _ _ ?_ ?_
  · intro p hp
    simp only [List.mem_append, List.mem_cons, List.not_mem_nil, or_false] at hp
    rcases hp with ((rfl | rfl | rfl | rfl | rfl) | hp) | hp
    · exact hP.num _
    · exact ht
    · exact hP.lit _ (by cases m.markingWeight <;> decide +kernel)
    · exact hP.lit _ (by cases m.color <;> decide +kernel)
    · exact hP.num _
    · cases hw : m.width with
      | none => rw [hw] at hp; cases hp
      | some w => rw [hw] at hp; rw [List.mem_singleton.mp hp]; exact hP.num _
    · cases hw : m.laneChange with
      | none => rw [hw] at hp; cases hp
      | some w => rw [hw] at hp; rw [List.mem_singleton.mp hp]; exact hP.lit _ (by cases w <;> decide +kernel)
  · cases hl : m.line with
    | none => simp
    | some l =>
      intro c hc
      rw [List.mem_singleton.mp hc]
      refine .elem _ _ _ ?_ ?_
      · intro p hp
        simp only [List.mem_cons, List.not_mem_nil, or_false] at hp
        rcases hp with rfl | rfl
        · exact ht
        · exact all_ofOpt hP _
      · intro d hd
        rw [List.mem_singleton.mp hd]
        exact l.all hP

theorem Lane.all {l : Lane F} {x : Xml F} (ht : ∀ s ∈ linkWritten l.links, P (.str s)) (h : l.getElement = .ok x) :
    x.All P := by
  unfold Lane.getElement at h
  cases hi : l.laneId with
  | none => rw [hi] at h; cases h
  | some i =>
    rw [hi] at h
    cases h
    refine .elem _ _ _ ?_ ?_
    · intro p hp
      simp only [List.mem_cons, List.not_mem_nil, or_false] at hp
      rcases hp with rfl | rfl | rfl
      · exact hP.int _
      · exact hP.lit _ (by cases l.laneType <;> decide +kernel)
      · exact hP.lit _ (by decide)
    · intro c hc
      simp only [List.cons_append, List.nil_append, List.mem_cons] at hc
      rcases hc with rfl | rfl | hc
      · exact Links.all hP _ ht
      · refine .elem _ _ _ ?_ (by simp)
        intro p hp
        simp only [List.mem_cons, List.not_mem_nil, or_false] at hp
        rcases hp with rfl | rfl | rfl | rfl | rfl <;> exact hP.num _
      · cases hm : l.roadmark with
        | none => simp [hm] at hc
        | some m =>
          rw [hm] at hc
          rw [List.mem_singleton.mp hc]
          exact m.all hP

theorem LaneSection.all {lanes : Store (Lane F)} {sec : LaneSection F} {x : Xml F}
    (ht : ∀ s ∈ sectionWritten lanes sec, P (.str s)) (h : sec.getElement lanes = .ok x) : x.All P := by
  have hl' : ∀ r ∈ sec.left ++ [sec.center] ++ sec.right, ∀ x, (lanes.cell r).getElement = .ok x → x.All P :=
    fun r hr x hx => Lane.all hP (fun s hs => ht s (List.mem_flatMap.mpr ⟨r, hr, hs⟩)) hx
  unfold LaneSection.getElement at h
  cases hl : sec.left.mapM fun r => (lanes.cell r).getElement with
  | error e => rw [hl] at h; cases h
  | ok ls =>
  cases hc : (lanes.cell sec.center).getElement with
  | error e => rw [hl, hc] at h; cases h
  | ok c =>
  cases hr : sec.right.mapM fun r => (lanes.cell r).getElement with
  | error e => rw [hl, hc, hr] at h; cases h
  | ok rs =>
  rw [hl, hc, hr] at h
  cases h
  refine .elem _ _ _ ?_ ?_
  · intro p hp
    rw [List.mem_singleton.mp hp]; exact hP.num _
  intro y hy
  simp only [List.mem_append] at hy
  rcases hy with (hy | hy) | hy
  · by_cases he : sec.left.isEmpty
    · simp [he] at hy
    · rw [if_neg he] at hy
      rw [List.mem_singleton.mp hy]
      exact all_bare (mapM_all hl fun a ha x hx => hl' a (by simp [ha]) x hx)
  · rw [List.mem_singleton.mp hy]
    refine all_bare ?_
    intro d hd
    rw [List.mem_singleton.mp hd]
    exact hl' _ (by simp) _ hc
  · by_cases he : sec.right.isEmpty
    · simp [he] at hy
    · rw [if_neg he] at hy
      rw [List.mem_singleton.mp hy]
      exact all_bare (mapM_all hr fun a ha x hx => hl' a (by simp [ha]) x hx)

theorem Lanes.all {lanes : Store (Lane F)} {secs : List (LaneSection F)} {x : Xml F}
    (ht : ∀ s ∈ secs.flatMap (sectionWritten lanes), P (.str s)) (h : Lanes.getElement lanes secs = .ok x) :
    x.All P := by
  unfold Lanes.getElement at h
  cases hl : secs.mapM (LaneSection.getElement lanes) with
  | error e => rw [hl] at h; cases h
  | ok ls =>
    rw [hl] at h
    cases h
    exact all_bare (mapM_all hl fun a ha x hx =>
      LaneSection.all hP (fun s hs => ht s (List.mem_flatMap.mpr ⟨a, ha, hs⟩)) hx)

theorem Geom.all (g : Geom F) (h : ∀ s ∈ geomTexts g, P (.str s)) : g.getElement.All P := by
  cases g with
  | line _ => exact all_bare (by simp)
  | spiral s =>
    refine .elem _ _ _ ?_ (by simp)
    intro p hp
    simp only [List.mem_cons, List.not_mem_nil, or_false] at hp
    rcases hp with rfl | rfl <;> exact hP.num _
  | arc a =>
    refine .elem _ _ _ ?_ (by simp)
    intro p hp
    rw [List.mem_singleton.mp hp]; exact hP.num _
  | poly g =>
    refine .elem _ _ _ ?_ (by simp)
    intro p hp
    simp only [List.mem_cons, List.not_mem_nil, or_false] at hp
    rcases hp with rfl | rfl | rfl | rfl | rfl | rfl | rfl | rfl | rfl
    all_goals first | exact hP.num _ | exact h _ (by simp [geomTexts])

theorem AdjGeom.all (geoms : Store (Geom F)) (g : AdjGeom F) (h : ∀ s ∈ geomTexts (geoms.cell g.geom), P (.str s)) :
    (g.getElement geoms).All P := by
  refine .elem _ _ _ ?_ ?_
  · intro p hp
    simp only [List.mem_cons, List.not_mem_nil, or_false] at hp
    rcases hp with rfl | rfl | rfl | rfl | rfl
    · exact all_ofOpt hP _
    · exact hP.num _
    · exact hP.num _
    · exact hP.num _
    · exact all_ofOpt hP _
  · intro y hy
    rw [List.mem_singleton.mp hy]
    exact Geom.all hP _ h

theorem attrIfSome_all (k : String) (x : Option F) : ∀ p ∈ attrIfSome k x, P p.2 := by
  intro p hp
  cases x with
  | none => cases hp
  | some v => rw [List.mem_singleton.mp hp]; exact hP.num _

theorem attrIfText_all (k : String) (x : Option String) (h : ∀ s ∈ x.toList, P (.str s)) :
    ∀ p ∈ (attrIfText k x : Dict (Val F)), P p.2 := by
  intro p hp
  cases x with
  | none => cases hp
  | some v =>
    unfold attrIfText at hp
    dsimp only at hp
    split at hp
    · cases hp
    · rw [List.mem_singleton.mp hp]; exact h v (by simp)

variable [PyFloat F]

theorem attrIfNonzero_all (k : String) (x : F) : ∀ p ∈ attrIfNonzero k x, P p.2 := by
  intro p hp
  unfold attrIfNonzero at hp
  split at hp
  · cases hp
  · rw [List.mem_singleton.mp hp]; exact hP.num _

theorem commonAttributes_all (b : SOBase F) (h : ∀ s ∈ baseTexts b, P (.str s)) :
    ∀ p ∈ b.commonAttributes, P p.2 := by
  intro p hp
  unfold SOBase.commonAttributes at hp
  simp only [List.mem_append] at hp
  rcases hp with ((((((hp | hp) | hp) | hp) | hp) | hp) | hp) | hp
  · simp only [List.mem_cons, List.not_mem_nil, or_false] at hp
    rcases hp with rfl | rfl | rfl | rfl | rfl | rfl
    · cases hi : b.id with
      | none => exact hP.pyNone
      | some i => exact all_ofId hP fun s hs => h s (by simp [baseTexts, hi, hs])
    · exact hP.num _
    · exact hP.num _
    · exact all_ofOptStr hP fun s hs => h s (by simp [baseTexts, Option.mem_toList.mp hs])
    · exact hP.lit _ (by cases b.dynamic <;> decide +kernel)
    · exact hP.num _
  · exact attrIfNonzero_all hP _ _ p hp
  · exact attrIfNonzero_all hP _ _ p hp
  · exact attrIfSome_all hP _ _ p hp
  · exact attrIfSome_all hP _ _ p hp
  · cases hn : b.name with
    | none => rw [hn] at hp; cases hp
    | some n => rw [hn] at hp; rw [List.mem_singleton.mp hp]; exact h n (by simp [baseTexts, hn])
  · rw [List.mem_singleton.mp hp]
    cases ht : b.typ with
    | obj t => exact hP.lit _ (by cases t <;> decide +kernel)
    | str s => exact h s (by simp [baseTexts, ht])
  · rw [List.mem_singleton.mp hp]
    cases b.orientation <;> exact hP.lit _ (by decide +kernel)

theorem Signal.all (g : Signal F) (hty : ∀ s, g.base.typ = .str s → P (.str s)) (h : ∀ s ∈ signalWritten g, P (.str s)) : g.getElement.All P := by
  refine .elem _ _ _ ?_ (by simp)
  have h0 := commonAttributes_all hP g.base fun s hs => by
    simp only [baseTexts, List.mem_append] at hs
    rcases hs with ((hs | hs) | hs) | hs
    · exact h s (List.mem_append_left _ (List.mem_append_left _ (List.mem_append_left _ (List.mem_append_left _ hs))))
    · exact h s (List.mem_append_left _ (List.mem_append_left _ (List.mem_append_left _ (List.mem_append_right _ hs))))
    · exact h s (List.mem_append_left _ (List.mem_append_left _ (List.mem_append_right _ hs)))
    · cases ht : g.base.typ with
      | obj _ => rw [ht] at hs; cases hs
      | str s' => rw [ht] at hs; rw [List.mem_singleton.mp hs]; exact hty _ ht
  have hsub : P (.ofOptStr g.base.subtype) :=
    all_ofOptStr hP fun s hs => h s (by simp [signalWritten, Option.mem_toList.mp hs])
  have h1 := all_set (k := "subtype") (all_set (k := "type") (all_set (k := "country") h0
    (hP.upper _ (h g.country (by simp [signalWritten])))) (h g.type (by simp [signalWritten]))) hsub
  unfold Signal.getAttributes
  dsimp only
  generalize (((g.base.commonAttributes.set "country" (.str (g.country.map Char.toUpper))).set "type"
    (.str g.type)).set "subtype" (.ofOptStr g.base.subtype)) = d at h1
  have h2 : ∀ p ∈ (if PyFloat.isZero g.hOffset then d else d.set "hOffset" (.num g.hOffset)), P p.2 := by
    split
    · exact h1
    · exact all_set h1 (hP.num _)
  generalize (if PyFloat.isZero g.hOffset then d else d.set "hOffset" (.num g.hOffset)) = d' at h2
  cases hv : g.value with
  | none => exact h2
  | some v =>
    exact all_set (all_set h2 (hP.num _))
      (all_ofOptStr hP fun s hs => h s (by simp [signalWritten, hv, Option.mem_toList.mp hs]))

theorem Obj.all (o : Obj F) (hr : RepeatsNamed o) (h : ∀ s ∈ baseTexts o.base, P (.str s)) : o.getElement.All P := by
  have h0 := commonAttributes_all hP o.base h
  refine .elem _ _ _ ?_ (map_all fun r hm => .elem _ _ _ ?_ (by simp))
  · unfold Obj.getAttributes
    dsimp only
    have h2 : ∀ p ∈ (match o.validLength with
        | some v => o.base.commonAttributes.set "validLength" (.num v) | none => o.base.commonAttributes), P p.2 := by
      split
      · exact all_set h0 (hP.num _)
      · exact h0
    have h3 := all_set (k := "hdg") h2 (hP.num o.hdg)
    split
    · exact all_set h3 (hP.num _)
    · split
      · exact all_set (all_set h3 (hP.num _)) (hP.num _)
      · exact h3
  · intro p hp
    rcases (hr r hm).2 p hp with ⟨x, e⟩ | e <;> rw [e]
    · exact hP.num x
    · exact hP.pyNone

theorem Road.all {hp : Heap F} {r : Road F} {x : Xml F}
    (ho : ∀ i ∈ r.objects, RepeatsNamed (hp.so.objs.cell i))
    (hty : ∀ i ∈ r.signals, ∀ s, (hp.so.sigs.cell i).base.typ = .str s → P (.str s)) (ht : ∀ s ∈ roadWritten hp r, P (.str s))
    (h : r.getElement hp = .ok x) : x.All P := by
  have m : ∀ {l : List String}, (∀ s ∈ l, s ∈ roadWritten hp r) → ∀ s ∈ l, P (.str s) := fun hl s hs => ht s (hl s hs)
  unfold Road.getElement at h
  cases hl : Lanes.getElement hp.lanes r.lanesections with
  | error e => rw [hl] at h; cases h
  | ok ls =>
    rw [hl] at h
    cases h
    unfold roadWritten at ht m
    simp only [List.mem_append] at ht m
    refine .elem _ _ _ ?_ ?_
    · intro p hp'
      unfold Road.getAttributes at hp'
      simp only [List.mem_append, List.mem_cons, List.not_mem_nil, or_false] at hp'
      rcases hp' with (hp' | hp') | rfl | rfl | rfl
      · exact attrIfText_all hP _ _ (m fun s hs => by simp only [hs, true_or]) p hp'
      · exact attrIfText_all hP _ _ (m fun s hs => by simp only [hs, true_or, or_true]) p hp'
      · exact all_ofId hP (m fun s hs => by simp only [hs, true_or, or_true])
      · exact hP.int _
      · exact hP.num _
    · intro y hy
      simp only [List.mem_append, List.mem_cons, List.not_mem_nil, or_false] at hy
      rcases hy with ((rfl | rfl | rfl) | hy) | hy
      · exact Links.all hP _ (m fun s hs => by simp only [hs, true_or, or_true])
      · refine all_bare (map_all fun a ha => AdjGeom.all hP _ a (m fun s hs => ?_))
        have := List.mem_flatMap (f := fun g : AdjGeom F => geomTexts (hp.geoms.cell g.geom)).mpr ⟨a, ha, hs⟩
        simp only [this, true_or, or_true]
      · exact Lanes.all hP (m fun s hs => by simp only [hs, true_or, or_true]) hl
      · by_cases he : r.signals.isEmpty
        · simp [he] at hy
        · rw [if_neg he] at hy
          rw [List.mem_singleton.mp hy]
          refine all_bare (map_all fun i hi => Signal.all hP _ (hty i hi) (m fun s hs => ?_))
          have := List.mem_flatMap (f := fun i => signalWritten (hp.so.sigs.cell i)).mpr ⟨i, hi, hs⟩
          simp only [this, true_or, or_true]
      · by_cases he : r.objects.isEmpty
        · simp [he] at hy
        · rw [if_neg he] at hy
          rw [List.mem_singleton.mp hy]
          refine all_bare (map_all fun i hi => Obj.all hP _ (ho i hi) (m fun s hs => ?_))
          have := List.mem_flatMap (f := fun i => baseTexts (hp.so.objs.cell i).base).mpr ⟨i, hi, hs⟩
          simp only [this, or_true]

theorem OpenDrive.all_written {hp : Heap F} {date : String} {o : OpenDrive F} {x : Xml F}
    (ho : ∀ kv ∈ o.roads, ∀ i ∈ kv.2.objects, RepeatsNamed (hp.so.objs.cell i))
    (hty : ∀ kv ∈ o.roads, ∀ i ∈ kv.2.signals, ∀ s, (hp.so.sigs.cell i).base.typ = .str s → P (.str s))
    (ht : ∀ s ∈ writtenTexts hp date o, P (.str s)) (h : o.getElement hp date = .ok x) : x.All P := by
  unfold OpenDrive.getElement at h
  cases hl : o.roads.mapM fun kv => kv.2.getElement hp with
  | error e => rw [hl] at h; cases h
  | ok rs =>
    rw [hl] at h
    cases h
    unfold writtenTexts at ht
    simp only [List.mem_append] at ht
    refine all_bare ?_
    intro y hy
    simp only [List.mem_append, List.mem_singleton] at hy
    rcases hy with (rfl | hy) | hy
    · refine .elem _ _ _ ?_ (by simp)
      intro p hp'
      simp only [List.mem_cons, List.not_mem_nil, or_false] at hp'
      rcases hp' with rfl | rfl | rfl | rfl | rfl | rfl | rfl | rfl
      · exact ht _ (by simp)
      · exact hP.lit _ (by decide)
      · exact hP.lit _ (by decide)
      · exact ht _ (by simp)
      all_goals exact hP.lit _ (by decide)
    · exact mapM_all hl (fun kv hkv x hx => Road.all hP (ho kv hkv) (hty kv hkv)
        (fun s hs => ht s (.inl (.inr (List.mem_flatMap.mpr ⟨kv, hkv, hs⟩)))) hx) y hy
    · exact map_all (fun j hj => j.all hP fun s hs => ht s (.inr (List.mem_flatMap.mpr ⟨j, hj, hs⟩))) y hy

omit hP [PyFloat F] in
theorem written_user {hp : Heap F} {date : String} {o : OpenDrive F} {s : String} (h : s ∈ writtenTexts hp date o) :
    s ∈ userTexts hp date o := by
  have link : ∀ {ls : List Link} {s}, s ∈ linkWritten ls → s ∈ linkTexts ls := fun hs => by
    obtain ⟨l, hl, hs⟩ := List.mem_flatMap.mp hs
    exact List.mem_flatMap.mpr ⟨l, (List.mem_filter.mp hl).1, hs⟩
  have sig : ∀ {g : Signal F} {s}, s ∈ signalWritten g → s ∈ signalTexts g := fun {g s} hs => by
    rcases List.mem_append.mp hs with hs | hs
    · rcases List.mem_append.mp hs with hs | hs
      · exact List.mem_append_left _ (List.mem_append_left _ (List.mem_append_left _ hs))
      · exact List.mem_append_left _ (List.mem_append_right _ hs)
    · cases hv : g.value with
      | none => rw [hv] at hs; cases hs
      | some v => rw [hv] at hs; exact List.mem_append_right _ hs
  simp only [writtenTexts, userTexts, List.mem_append] at h ⊢
  rcases h with (h | h) | h
  · exact .inl (.inl h)
  · obtain ⟨kv, hkv, h⟩ := List.mem_flatMap.mp h
    refine .inl (.inr (List.mem_flatMap.mpr ⟨kv, hkv, ?_⟩))
    simp only [roadWritten, roadTexts, List.mem_append] at h ⊢
    rcases h with ((((((h | h) | h) | h) | h) | h) | h) | h
    · tauto
    · tauto
    · tauto
    · have := link h; tauto
    · tauto
    · obtain ⟨sec, hsec, h⟩ := List.mem_flatMap.mp h
      obtain ⟨l, hl, h⟩ := List.mem_flatMap.mp h
      have : s ∈ kv.2.lanesections.flatMap (sectionTexts hp.lanes) :=
        List.mem_flatMap.mpr ⟨sec, hsec, List.mem_flatMap.mpr ⟨l, hl, link h⟩⟩
      tauto
    · obtain ⟨i, hi, h⟩ := List.mem_flatMap.mp h
      have : s ∈ kv.2.signals.flatMap (fun i => signalTexts (hp.so.sigs.cell i)) := List.mem_flatMap.mpr ⟨i, hi, sig h⟩
      tauto
    · tauto
  · exact .inr h

theorem OpenDrive.all {hp : Heap F} {date : String} {o : OpenDrive F} {x : Xml F}
    (ho : ∀ kv ∈ o.roads, ∀ i ∈ kv.2.objects, RepeatsNamed (hp.so.objs.cell i))
    (ht : ∀ s ∈ userTexts hp date o, P (.str s)) (h : o.getElement hp date = .ok x) : x.All P := by
  refine OpenDrive.all_written hP ho (fun kv hkv i hi s hs => ht s ?_) (fun s hs => ht s (written_user hs)) h
  refine List.mem_append_left _ (List.mem_append_right _ (List.mem_flatMap.mpr ⟨kv, hkv, ?_⟩))
  have : s ∈ kv.2.signals.flatMap (fun i => signalTexts (hp.so.sigs.cell i)) :=
    List.mem_flatMap.mpr ⟨i, hi, by simp [signalTexts, baseTexts, hs]⟩
  simp only [roadTexts, List.mem_append]
  tauto

end Pyodrx
