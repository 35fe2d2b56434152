import Verif.Spec.SessionAdjust
import Verif.Props.SessionRoads
import Verif.Props.SessionNumbers
import Verif.Props.FloatNetwork
import Verif.Props.NetworkLinks

/-! # C92: when `adjust_roads_and_lanes` returns, in programs of calls -/

namespace Pyodrx.Props
open Pyodrx Pyodrx.Spec PyFloat

variable {R : Rounding}

theorem keepFirst_head {α : Type} [DecidableEq α] (l : List α) : (keepFirst l).head? = l.head? := by
  cases l <;> rfl

/-- A geometry object is the one that was made, before `adjust_roads_and_lanes`. -/
theorem geometry_program (p : List (Call (Fl R))) (hp : Proper p) (ho : ∀ o, .adjust o ∉ p) (s : Session (Fl R)) :
    ∀ v g, .geometry v g ∈ p → (runCalls p s).2.geoms.cell v = g := by
  have := invariant_program (fun done s => (∀ o, .adjust o ∉ done) → ∀ v g, .geometry v g ∈ done → s.geoms.cell v = g)
    (fun done c s h hu hc hm hno v g hv => by
      rcases List.mem_append.mp hv with hv1 | hv
      · have h0 := h (fun o ho => hno o (List.mem_append_left _ ho)) v g hv1
        have ht : ¬ Touches c (.geometry v) := by
          intro ht
          cases c <;> simp [Touches] at ht
          case geometry v' g' =>
            subst ht
            exact hm (.geometry v) rfl ⟨_, hv1, rfl⟩
          case adjust o => exact hno o (by simp)
        exact (show s.geoms.cell v = _ from step_frame c s _ ht).symm.trans h0
      · rw [← List.mem_singleton.mp hv]
        simp [Call.step, Call.run, Store.put]) p hp s (by simp)
  exact this ho

/-- The roads of the network that a drawing program leaves are those of its calls. -/
theorem drawn_road (p : List (Call (Fl R))) (hd : Drawing p) (s : Session (Fl R)) (o : Nat) (name : String)
    (ho : .openDrive o name ∈ p) {k : String} {r : Road (Fl R)}
    (hr : (worldOf (runCalls p s).2 o).net.roads.get? k = some r) :
    ∃ v i pv l t n ru, .addRoad o v ∈ p ∧ .road v i pv l t n ru ∈ p ∧ i.toStr = k ∧ r.id = i ∧ r.roadType = t ∧
      r.planview = (runCalls p s).2.planviews.cell pv ∧
      r.lanesections = ((runCalls p s).2.lanesObjs.cell l).map (runCalls p s).2.sections.cell ∧ LinksAre v p r := by
  obtain ⟨v, hv, rfl⟩ := worldOf_get hr
  obtain ⟨name', roads, h1, h2, h3, h4⟩ := odrIs_program p hd.proper s o ⟨_, ho, rfl⟩
  obtain ⟨k1, k2⟩ := (idsInv_program p hd.proper s).keys o ⟨_, ho, rfl⟩
  obtain ⟨m1, m2⟩ := k2 _ hv
  have hr := roadIs_program p hd.proper s v m1
  rw [h2] at hv k1
  have hg := h4 k
  rw [Dict.mem_get? k1 hv] at hg
  obtain ⟨a, b, e, -, -⟩ := filter_getLast hg.symm
  have hmem : v ∈ roadCalls o p := by rw [e]; simp
  exact ⟨v, _, _, _, _, _, _, roadCalls_mem.mp hmem, hr.made, m2, rfl, rfl, rfl, rfl,
    hr.links.of_eq rfl rfl rfl rfl rfl rfl rfl rfl rfl rfl⟩

theorem linksAre_mem {F : Type} {v : Nat} {p : List (Call F)} {r : Road F} (h : LinksAre v p r) {l : Link}
    (hl : r.predecessor = some l ∨ r.successor = some l) :
    ∃ x, x.1 = l ∧ (x ∈ predecessorCalls v p ∨ x ∈ successorCalls v p) := by
  rcases hl with hl | hl
  · rw [h.pred, Option.map_eq_some_iff] at hl
    obtain ⟨x, h1, h2⟩ := hl
    exact ⟨x, h2, .inl (List.mem_of_mem_head? h1)⟩
  · rw [h.succ, Option.map_eq_some_iff] at hl
    obtain ⟨x, h1, h2⟩ := hl
    exact ⟨x, h2, .inr (List.mem_of_mem_head? h1)⟩

/-- The network that a linked drawing program leaves is well linked, with usable geometries. -/
theorem program_linked (p : List (Call (Fl R))) (hd : Drawing p) (s : Session (Fl R)) (hs : Blank s) (o : Nat) (name : String)
    (ho : .openDrive o name ∈ p) (hl : LinkedProgram p o) :
    WellLinked (worldOf (runCalls p s).2 o).net ∧ UsableRoads (worldOf (runCalls p s).2 o).net := by
  obtain ⟨n1, n2, n3, n4, n5⟩ := C88_drawn p hd s hs o name ho
  have inv := inv_drawing p hd hs
  have adds : ∀ {v i pv l t n ru}, .addRoad o v ∈ p → .road v i pv l t n ru ∈ p → AddsRoad p o v i t :=
    fun h1 h2 => ⟨h1, _, _, _, _, h2⟩
  refine ⟨⟨?_, n1, ?_, ?_, ?_, ?_, ?_⟩, ?_⟩
  · intro e
    obtain ⟨v, hv⟩ := hl.adds
    obtain ⟨i, pv, l, t, n, ru, h1, -⟩ := inv.roads v (inv.puts o v hv).2
    have := (n5 _).mpr ⟨v, i, pv, l, t, n, ru, h1, hv, rfl⟩
    rw [e] at this
    simp [Dict.keys] at this
  · exact fun k r hr => ⟨(n2 k r hr).fields.2.2.2.2, (n2 k r hr).fields.2.2.1⟩
  · intro k r lk hr hlk
    obtain ⟨v, i, pv, l, t, n, ru, a1, a2, -, -, -, -, -, a3⟩ := drawn_road p hd s o name ho hr
    obtain ⟨x, rfl, hx⟩ := linksAre_mem a3 hlk
    obtain ⟨w, j, u, ⟨b1, pv', l', n', ru', b2⟩, b3⟩ := hl.resolvable v i t x (adds a1 a2) hx
    exact (n5 _).mpr ⟨w, j, pv', l', u, n', ru', b2, b1, b3⟩
  · intro k r lk hr hlk
    obtain ⟨v, i, pv, l, t, n, ru, a1, a2, -, -, -, -, -, a3⟩ := drawn_road p hd s o name ho hr
    obtain ⟨x, rfl, hx⟩ := linksAre_mem a3 hlk
    exact hl.contacts v i t x (adds a1 a2) hx
  · intro k r lk hr ht hlk
    obtain ⟨v, i, pv, l, t, n, ru, a1, a2, -, -, e, -, -, a3⟩ := drawn_road p hd s o name ho hr
    obtain ⟨x, rfl, hx⟩ := linksAre_mem a3 hlk
    obtain ⟨c1, c2⟩ := hl.connecting v i t x (adds a1 a2) (by rw [← e]; exact ht) hx
    refine ⟨c1, fun r' hr' => ?_⟩
    obtain ⟨v', i', pv', l', t', n', ru', b1, b2, b3, -, e', -⟩ := drawn_road p hd s o name ho hr'
    rw [e']
    exact c2 v' i' t' (adds b1 b2) b3
  · intro k r hr ha
    obtain ⟨v, i, pv, l, t, n, ru, a1, a2, a3, -, e, e2, -⟩ := drawn_road p hd s o name ho hr
    rw [e]
    rcases ha with ⟨r', hr', hf⟩ | ⟨-, hh⟩
    · rw [hr] at hr'
      cases hr'
      obtain ⟨x, y, h, pv0, g1, g2, g3⟩ := inv.pvs pv (inv.plans _ _ _ _ _ _ _ a2)
      rw [e2, g3, addEach_eq] at hf
      rcases hd.poses _ _ _ _ g1 with ⟨q1, q2, q3⟩ | ⟨rfl, rfl, rfl⟩
      · obtain ⟨x, rfl⟩ := Option.isSome_iff_exists.mp q1
        obtain ⟨y, rfl⟩ := Option.isSome_iff_exists.mp q2
        obtain ⟨h, rfl⟩ := Option.isSome_iff_exists.mp q3
        exact hl.posed v i pv l t n ru x y h a1 a2 g1
      · cases g2
        cases hf
    · obtain ⟨name', roads, h1, h2, h3, h4⟩ := odrIs_program p hd.proper s o ⟨_, ho, rfl⟩
      rw [worldOf_keys, h2, h3, keepFirst_head, List.head?_map, Option.map_eq_some_iff] at hh
      obtain ⟨v0, f1, f2⟩ := hh
      have hv0 := roadCalls_mem.mp (List.mem_of_mem_head? f1)
      have m0 := (roadIs_program p hd.proper s v0 (inv.puts o v0 hv0).2).made
      have := hl.ids v i t v0 _ _ (adds a1 a2) (adds hv0 m0) (a3.trans f2.symm)
      subst this
      exact hl.first v i t f1 (adds a1 a2)
  · intro k r hr
    obtain ⟨v, i, pv, l, t, n, ru, a1, a2, a3, -, e, e2, -⟩ := drawn_road p hd s o name ho hr
    refine ⟨fun g hg => ?_, .inl (n2 k r hr).fields.2.1⟩
    obtain ⟨x, y, h, pv0, g1, g2, g3⟩ := inv.pvs pv (inv.plans _ _ _ _ _ _ _ a2)
    obtain ⟨e3, -⟩ := newFl_eq x y h pv0 g2
    rw [e2, g3, addEach_eq] at hg
    simp only [e3, List.nil_append, List.mem_map] at hg
    obtain ⟨c, hc, rfl⟩ := hg
    have hcall := geomCalls_mem hc
    obtain ⟨-, hu⟩ := num_program p hd.proper s
    obtain ⟨d, hd1, hd2⟩ := hu _ hcall _ (.inr rfl)
    cases d <;> simp [Makes] at hd2
    case geometry v' g =>
      have hg' := geometry_program p hd.proper hd.once s v' g hd1
      have : (worldOf (runCalls p s).2 o).net.geoms.cell c.1 = g := by rw [hd2]; exact hg'
      rw [this]
      exact hl.usable _ _ hd1

/-- The network that a drawing program leaves has the added road under its id. -/
theorem added_road (p : List (Call (Fl R))) (hd : Drawing p) (s : Session (Fl R)) (hs : Blank s) (o : Nat) (name : String)
    (ho : .openDrive o name ∈ p) (hl : LinkedProgram p o) {v : Nat} {i : PyId} {pv l : Nat} {t : Int} {n : Option String}
    {ru : Option String} (h1 : .addRoad o v ∈ p) (h2 : .road v i pv l t n ru ∈ p) :
    ∃ r, (worldOf (runCalls p s).2 o).net.roads.get? i.toStr = some r ∧ r.id = i ∧ r.roadType = t ∧
      r.planview = (runCalls p s).2.planviews.cell pv ∧
      r.lanesections = ((runCalls p s).2.lanesObjs.cell l).map (runCalls p s).2.sections.cell ∧ LinksAre v p r := by
  obtain ⟨-, -, -, -, n5⟩ := C88_drawn p hd s hs o name ho
  obtain ⟨r, hr⟩ := Option.isSome_iff_exists.mp ((Dict.get?_isSome _ _).mpr ((n5 _).mpr ⟨v, i, pv, l, t, n, ru, h2, h1, rfl⟩))
  obtain ⟨v', i', pv', l', t', n', ru', a1, a2, a3, a⟩ := drawn_road p hd s o name ho hr
  have := hl.ids _ _ _ _ _ _ ⟨a1, _, _, _, _, a2⟩ ⟨h1, _, _, _, _, h2⟩ a3
  subst this
  have := made_once hd.proper (x := .road v') h2 a2 rfl rfl
  cases this
  exact ⟨r, hr, a⟩

theorem linksAre_linkCall {v : Nat} {p : List (Call (Fl R))} {r : Road (Fl R)} (h : LinksAre v p r) (e : ContactPoint) :
    linkAt r e = linkCall v p e := by
  cases e
  · exact h.pred
  · exact h.succ

/-- A PlanView is fixed exactly if it was made with a pose. -/
theorem fixed_posed (p : List (Call (Fl R))) (hd : Drawing p) (s : Session (Fl R)) (hs : Blank s) {v : Nat} {i : PyId} {pv l : Nat}
    {t : Int} {n : Option String} {ru : Option String} (h2 : .road v i pv l t n ru ∈ p) :
    ((runCalls p s).2.planviews.cell pv).fixed = true ↔ Posed p v := by
  have inv := inv_drawing p hd hs
  obtain ⟨x, y, h, pv0, g1, g2, g3⟩ := inv.pvs pv (inv.plans _ _ _ _ _ _ _ h2)
  rw [g3, addEach_eq]
  constructor
  · intro hf
    rcases hd.poses _ _ _ _ g1 with ⟨q1, q2, q3⟩ | ⟨rfl, rfl, rfl⟩
    · obtain ⟨x, rfl⟩ := Option.isSome_iff_exists.mp q1
      obtain ⟨y, rfl⟩ := Option.isSome_iff_exists.mp q2
      obtain ⟨h, rfl⟩ := Option.isSome_iff_exists.mp q3
      exact ⟨_, _, _, _, _, _, _, _, _, h2, g1⟩
    · cases g2
      cases hf
  · rintro ⟨i', pv', l', t', n', ru', x', y', h', k1, k2⟩
    have := made_once hd.proper (x := .road v) h2 k1 rfl rfl
    cases this
    have := made_once hd.proper (x := .planView pv) g1 k2 rfl rfl
    cases this
    cases g2
    rfl

/-- The anchors of the program are those of its network. -/
theorem anchor_iff (p : List (Call (Fl R))) (hd : Drawing p) (s : Session (Fl R)) (hs : Blank s) (o : Nat) (name : String)
    (ho : .openDrive o name ∈ p) (hl : LinkedProgram p o) {v : Nat} {i : PyId} {t : Int} (hv : AddsRoad p o v i t) :
    Anchor (worldOf (runCalls p s).2 o).net.roads i.toStr ↔ AnchorRoad p o v := by
  have inv := inv_drawing p hd hs
  have heads : ∀ {v i t}, AddsRoad p o v i t → ((worldOf (runCalls p s).2 o).net.roads.keys.head? = some i.toStr ↔
      (roadCalls o p).head? = some v) := by
    intro v i t hv
    obtain ⟨name', roads, h1, h2, h3, h4⟩ := odrIs_program p hd.proper s o ⟨_, ho, rfl⟩
    rw [worldOf_keys, h2, h3, keepFirst_head, List.head?_map, Option.map_eq_some_iff]
    constructor
    · rintro ⟨v0, f1, f2⟩
      have hv0 := roadCalls_mem.mp (List.mem_of_mem_head? f1)
      have m0 := (roadIs_program p hd.proper s v0 (inv.puts o v0 hv0).2).made
      have := hl.ids _ _ _ _ _ _ hv ⟨hv0, _, _, _, _, m0⟩ f2.symm
      rw [this]; exact f1
    · intro f1
      obtain ⟨a1, pv, l, n, ru, a2⟩ := hv
      have m0 := (roadIs_program p hd.proper s v (inv.puts o v a1).2).made
      have := made_once hd.proper (x := .road v) a2 m0 rfl rfl
      injection this with _ e
      exact ⟨v, f1, by rw [e]; rfl⟩
  have nofix : (∀ k' r, (worldOf (runCalls p s).2 o).net.roads.get? k' = some r → r.planview.fixed = false) ↔
      ∀ w, .addRoad o w ∈ p → ¬ Posed p w := by
    constructor
    · intro h w hw hpos
      obtain ⟨i, pv, l, t, n, ru, h1, -⟩ := inv.roads w (inv.puts o w hw).2
      obtain ⟨r, b1, -, -, b4, -⟩ := added_road p hd s hs o name ho hl hw h1
      have := h _ _ b1
      rw [b4, (fixed_posed p hd s hs h1).mpr hpos] at this
      cases this
    · intro h k r hr
      obtain ⟨v', i', pv', l', t', n', ru', a1, a2, -, -, -, a4, -⟩ := drawn_road p hd s o name ho hr
      rw [a4, Bool.eq_false_iff]
      exact fun hf => h _ a1 ((fixed_posed p hd s hs a2).mp hf)
  unfold Anchor AnchorRoad
  rw [nofix, heads hv]
  obtain ⟨a1, pv, l, n, ru, a2⟩ := hv
  obtain ⟨r, b1, -, -, b4, -⟩ := added_road p hd s hs o name ho hl a1 a2
  constructor
  · rintro (⟨r', hr', hf⟩ | h)
    · rw [b1] at hr'
      cases hr'
      rw [b4] at hf
      exact ⟨a1, .inl ((fixed_posed p hd s hs a2).mp hf)⟩
    · exact ⟨a1, .inr h⟩
  · rintro ⟨-, h | h⟩
    · exact .inl ⟨r, b1, by rw [b4]; exact (fixed_posed p hd s hs a2).mpr h⟩
    · exact .inr h

/-- The added roads that are reached in the program are those reached in its network. -/
theorem reached_iff (p : List (Call (Fl R))) (hd : Drawing p) (s : Session (Fl R)) (hs : Blank s) (o : Nat) (name : String)
    (ho : .openDrive o name ∈ p) (hl : LinkedProgram p o) {v : Nat} {i : PyId} {t : Int} (hv : AddsRoad p o v i t) :
    Reachable (worldOf (runCalls p s).2 o).net.roads i.toStr ↔ ReachedRoad p o v := by
  obtain ⟨hw, -⟩ := program_linked p hd s hs o name ho hl
  have inv := inv_drawing p hd hs
  have anch : ∀ {v i t}, AddsRoad p o v i t → (Anchor (worldOf (runCalls p s).2 o).net.roads i.toStr ↔ AnchorRoad p o v) :=
    fun hv => anchor_iff p hd s hs o name ho hl hv
  -- every key is the id of an added road
  have road : ∀ {k r}, (worldOf (runCalls p s).2 o).net.roads.get? k = some r → ∃ v i t, AddsRoad p o v i t ∧ i.toStr = k ∧
      r.roadType = t ∧ ∀ e, linkAt r e = linkCall v p e := by
    intro k r hr
    obtain ⟨v', i', pv', l', t', n', ru', a1, a2, a3, -, a5, -, -, a4⟩ := drawn_road p hd s o name ho hr
    exact ⟨v', i', t', ⟨a1, _, _, _, _, a2⟩, a3, a5, linksAre_linkCall a4⟩
  have road' : ∀ {v i t}, AddsRoad p o v i t → ∃ r, (worldOf (runCalls p s).2 o).net.roads.get? i.toStr = some r ∧
      r.roadType = t ∧ ∀ e, linkAt r e = linkCall v p e := by
    rintro v i t ⟨a1, pv, l, n, ru, a2⟩
    obtain ⟨r, b1, -, b3, -, -, b4⟩ := added_road p hd s hs o name ho hl a1 a2
    exact ⟨r, b1, b3, linksAre_linkCall b4⟩
  constructor
  · intro h
    generalize hk : i.toStr = k at h
    induction h generalizing v i t with
    | anchor h => subst hk; exact .anchor ((anch hv).mp h)
    | @step k nb e e' hp _ ih =>
      have own : ∀ {r l e}, (worldOf (runCalls p s).2 o).net.roads.get? k = some r → linkAt r e = some l →
          l.elementType ≠ some .junction → nb = l.elementId.toStr → ReachedRoad p o v := by
        intro r l e hr hlk ht hn
        obtain ⟨v', i', t', c1, c2, -, c3⟩ := road hr
        have := hl.ids _ _ _ _ _ _ c1 hv (c2.trans hk.symm)
        subst this
        have hk' := hw.resolvable k r l hr (by cases e; exacts [.inl hlk, .inr hlk])
        obtain ⟨r', hr'⟩ := Option.isSome_iff_exists.mp ((Dict.get?_isSome _ _).mpr hk')
        obtain ⟨w, j, u, d1, d2, -⟩ := road hr'
        exact .own hv d1 ((c3 e).symm.trans hlk) ht d2.symm (ih d1 (d2.trans hn.symm))
      have conn : ∀ {r l e}, (worldOf (runCalls p s).2 o).net.roads.get? nb = some r → r.roadType ≠ -1 → linkAt r e = some l →
          k = l.elementId.toStr → ReachedRoad p o v := by
        intro r l e hr ht hlk hn
        obtain ⟨w, j, u, d1, d2, d3, d4⟩ := road hr
        exact .connecting hv d1 (d3 ▸ ht) ((d4 e).symm.trans hlk) (hn.symm.trans hk.symm) (ih d1 d2)
      cases hp with
      | pred hr hlk ht hc => exact own (e := .start) hr hlk ht rfl
      | succ hr hlk ht hc => exact own (e := .end) hr hlk ht rfl
      | connPred hr ht hlk => exact conn (e := .start) hr ht hlk rfl
      | connSucc hr ht hlk => exact conn (e := .end) hr ht hlk rfl
  · intro h
    induction h generalizing i t with
    | anchor h => exact .anchor ((anch hv).mpr h)
    | @own v w i' j t' u e l h1 h2 h3 h4 h5 _ ih =>
      obtain ⟨r, c1, -, c3⟩ := road' hv
      have hlk := (c3 e).trans h3
      obtain ⟨cp, hc⟩ := Option.ne_none_iff_exists'.mp (hw.contacts _ r l c1 (by cases e; exacts [.inl hlk, .inr hlk]) h4)
      refine .step (nb := l.elementId.toStr) (e := e) (e' := cp) ?_ (h5 ▸ ih h2)
      cases e
      · exact .pred c1 hlk h4 hc
      · exact .succ c1 hlk h4 hc
    | @connecting v w i' j t' u e l h1 h2 h3 h4 h5 _ ih =>
      obtain ⟨r, c1, c2, c3⟩ := road' h2
      have hlk := (c3 e).trans h4
      have : i'.toStr = i.toStr := by
        obtain ⟨_, pv, l, n, ru, a2⟩ := h1
        obtain ⟨_, pv', l', n', ru', a2'⟩ := hv
        have := made_once hd.proper (x := .road v) a2 a2' rfl rfl
        injection this with _ e
        rw [e]
      refine .step (nb := j.toStr) (e := l.contactPoint.getD .end) (e' := e) ?_ (ih h2)
      rw [← this, ← h5]
      cases e
      · exact .connPred c1 (c2 ▸ h3) hlk
      · exact .connSucc c1 (c2 ▸ h3) hlk

/-- The lanes that fit in the program fit in its network. -/
theorem program_linkable (p : List (Call (Fl R))) (hd : Drawing p) (s : Session (Fl R)) (hs : Blank s) (o : Nat) (name : String)
    (ho : .openDrive o name ∈ p) (hl : LinkedProgram p o) (hf : FittingLanes p o) :
    Linkable (worldOf (runCalls p s).2 o).net.roads (worldOf (runCalls p s).2 o).lanes := by
  obtain ⟨hw, -⟩ := program_linked p hd s hs o name ho hl
  obtain ⟨hn, hu⟩ := num_program p hd.proper s
  obtain ⟨s1, s2⟩ := C89_sections p hd.proper s
  have road : ∀ {k r}, (worldOf (runCalls p s).2 o).net.roads.get? k = some r → ∃ v l, AddsLanes p o v r.id l r.roadType ∧
      r.id.toStr = k ∧ (∀ e, linkAt r e = linkCall v p e) ∧
      ∀ e sec, sectionCall l p e = some sec → sectionAt r e = some ((runCalls p s).2.sections.cell sec) ∧
        Numbered (runCalls p s).2.laneObjs ((runCalls p s).2.sections.cell sec) ∧
        ((runCalls p s).2.sections.cell sec).left = leftCalls sec p ∧ ((runCalls p s).2.sections.cell sec).right = rightCalls sec p := by
    intro k r hr
    obtain ⟨v, i, pv, l, t, n, ru, a1, a2, a3, rfl, rfl, -, a6, a7⟩ := drawn_road p hd s o name ho hr
    refine ⟨v, l, ⟨a1, _, _, _, a2⟩, a3, linksAre_linkCall a7, fun e sec hsec => ?_⟩
    have hl1 : (.lanes l : Call (Fl R)) ∈ p := by
      obtain ⟨d, hd1, hd2⟩ := hu _ a2 (.lanes l) (.inr rfl)
      cases d <;> simp [Makes] at hd2
      subst hd2; exact hd1
    rw [s2 l hl1] at a6
    have hmem : sec ∈ sectionCalls l p := by
      cases e
      · exact List.mem_of_mem_head? hsec
      · exact List.mem_of_mem_getLast? hsec
    have hsm : ∃ sc ce, (.laneSection sec sc ce : Call (Fl R)) ∈ p := by
      obtain ⟨c, hc, hc'⟩ := List.mem_filterMap.mp hmem
      cases c <;> simp at hc'
      case addLanesection x sec' lk =>
        obtain ⟨rfl, rfl⟩ := hc'
        obtain ⟨d, hd1, hd2⟩ := hu _ hc (.laneSection sec') (.inr (.inl rfl))
        cases d <;> simp [Makes] at hd2
        subst hd2; exact ⟨_, _, hd1⟩
    obtain ⟨sc, ce, hsm⟩ := hsm
    obtain ⟨-, -, e3, e4⟩ := s1 sec sc ce hsm
    refine ⟨?_, ⟨fun j x hx => ?_, fun j x hx => ?_⟩, e3, e4⟩
    · cases e
      · simp only [sectionAt, a6, List.head?_map]
        simp only [sectionCall] at hsec
        rw [hsec]; rfl
      · simp only [sectionAt, a6, List.getLast?_map]
        simp only [sectionCall] at hsec
        rw [hsec]; rfl
    · have hx' := List.mem_of_getElem? hx
      rw [e3] at hx'
      exact (C89_numbered p hd.proper s sec sc ce hsm j x
        (hf.once v _ l _ sec x ⟨a1, _, _, _, a2⟩ hmem (List.mem_append_left _ hx'))).1 hx
    · have hx' := List.mem_of_getElem? hx
      rw [e4] at hx'
      exact (C89_numbered p hd.proper s sec sc ce hsm j x
        (hf.once v _ l _ sec x ⟨a1, _, _, _, a2⟩ hmem (List.mem_append_right _ hx'))).2 hx
  refine ⟨?_, ?_, ?_, ?_⟩
  · intro k1 k2 a b hne ha hb ta tb hfol
    obtain ⟨v, l, c1, c2, c3, c4⟩ := road ha
    obtain ⟨w, m, d1, d2, d3, d4⟩ := road hb
    obtain ⟨⟨la, f1, f2, f3⟩, lb, g1, g2, g3⟩ := hfol
    have hvw : v ≠ w := by
      rintro rfl
      obtain ⟨-, _, _, _, x1⟩ := c1
      obtain ⟨-, _, _, _, x2⟩ := d1
      have := made_once hd.proper (x := .road v) x1 x2 rfl rfl
      injection this with _ e
      exact hne (by rw [← c2, ← d2, e])
    obtain ⟨j1, j2, sa, sb, last, j3, j4, j5, j6, j7, j8, j9⟩ := hf.joints v a.id l w b.id m la lb hvw (ta ▸ c1) (tb ▸ d1)
      ((c3 .end).symm.trans f1) f2 f3 ((d3 .start).symm.trans g1) g2 g3
    obtain ⟨u1, u2, u3, u4⟩ := c4 _ _ j3
    obtain ⟨w1, w2, w3, w4⟩ := d4 _ _ j4
    obtain ⟨x1, x2, x3, x4⟩ := d4 _ _ j5
    refine ⟨_, _, _, ⟨ta, tb, ⟨⟨la, f1, f2, f3⟩, lb, g1, g2, g3⟩, fun l' hl' => ?_, fun l' hl' => ?_, u1, w1, x1, u2⟩, w2, ?_, ?_⟩
    · rw [f1] at hl'; cases hl'; exact j1
    · exact j2 l' ((d3 .end).symm.trans hl')
    · rw [SameCounts, u3, u4, w3, w4]
      exact ⟨le_antisymm j6.1 j7.1, le_antisymm j6.2 j7.2⟩
    · rw [SameCounts, u3, u4, x3, x4]
      exact ⟨le_antisymm j8.1 j9.1, le_antisymm j8.2 j9.2⟩
  · intro k c hc tc
    obtain ⟨v, l, ⟨c0, _, _, _, c1⟩, c2, c3, c4⟩ := road hc
    obtain ⟨a, b, e1, e2, e3⟩ := hf.ends v _ _ ⟨c0, _, _, _, _, c1⟩ tc
    exact ⟨a, b, (c3 .start).trans e1, (c3 .end).trans e2, e3⟩
  · intro k1 k2 c r hc hr tc ⟨l, h1, h2⟩
    obtain ⟨-, h3⟩ := hw.connecting k1 c l hc tc h1
    obtain ⟨w, m, d1, d2, -⟩ := road hr
    rw [h2, d2] at h3
    exact h3 r hr
  · intro k1 k2 c r e l hc hr tc hlk hid
    obtain ⟨v, lv, c1, c2, c3, c4⟩ := road hc
    obtain ⟨w, m, d1, d2, d3, d4⟩ := road hr
    obtain ⟨own, used, touching, e1, e2, e3, e4, e5⟩ := hf.lanes v _ lv _ w _ m _ e l c1 tc d1 ((c3 e).symm.trans hlk) hid
    obtain ⟨u1, u2, u3, u4⟩ := c4 _ _ e1
    obtain ⟨w1, w2, w3, w4⟩ := d4 _ _ e2
    obtain ⟨x1, x2, x3, x4⟩ := d4 _ _ e3
    refine ⟨_, _, _, u1, w1, x1, w2, x2, ?_⟩
    rw [u3, u4, w3, w4, x3, x4]
    exact ⟨e4.1, e4.2, e5.1, e5.2⟩

/-- The same about the network that the program leaves. -/
theorem returns_net (p : List (Call (Fl R))) (hd : Drawing p) (s : Session (Fl R)) (hs : Blank s) (o : Nat) (name : String)
    (ho : .openDrive o name ∈ p) (hl : LinkedProgram p o)
    (hlanes : Linkable (worldOf (runCalls p s).2 o).net.roads (worldOf (runCalls p s).2 o).lanes) :
    (((Call.adjust o).step (runCalls p s).2).1 = none ↔
      ∀ k ∈ (worldOf (runCalls p s).2 o).net.roads.keys, Reachable (worldOf (runCalls p s).2 o).net.roads k) ∧
    (¬ (∀ k ∈ (worldOf (runCalls p s).2 o).net.roads.keys, Reachable (worldOf (runCalls p s).2 o).net.roads k) →
      ((Call.adjust o).step (runCalls p s).2).1 = some .undefinedRoadNetwork) := by
  obtain ⟨hw, hu⟩ := program_linked p hd s hs o name ho hl
  obtain ⟨n1, -, -, own, -⟩ := C88_drawn p hd s hs o name ho
  rw [worldOf_keys] at n1
  have hv := adjust_values _ o n1 own
  have yes : (∀ k ∈ (worldOf (runCalls p s).2 o).net.roads.keys, Reachable (worldOf (runCalls p s).2 o).net.roads k) →
      ((Call.adjust o).step (runCalls p s).2).1 = none := by
    intro h
    obtain ⟨net', h1⟩ := (C69_succeeds_iff _ hw hu).mpr h
    obtain ⟨lanes', h2, -⟩ := C30_all_links _ net' _ hw.nodup hw.fresh h1 hlanes
    simp only [Call.step, Call.run]
    cases ha : Session.adjust o (runCalls p s).2 with
    | ok u s2 => rfl
    | error e s2 =>
      rw [ha] at hv
      have h2 : World.adjustRoadsAndLanes (worldOf (runCalls p s).2 o) = .ok () ⟨net', lanes'⟩ := h2
      rw [h2] at hv
      exact absurd hv.1 (by simp)
  have no : ¬ (∀ k ∈ (worldOf (runCalls p s).2 o).net.roads.keys, Reachable (worldOf (runCalls p s).2 o).net.roads k) →
      ((Call.adjust o).step (runCalls p s).2).1 = some .undefinedRoadNetwork := by
    intro h
    obtain ⟨net', h1⟩ := C69_otherwise _ hw hu h
    have h2 : World.adjustRoadsAndLanes (worldOf (runCalls p s).2 o) = .error .undefinedRoadNetwork ⟨net', (worldOf (runCalls p s).2 o).lanes⟩ := by
      unfold World.adjustRoadsAndLanes
      simp only [h1]
    simp only [Call.step, Call.run]
    cases ha : Session.adjust o (runCalls p s).2 with
    | ok u s2 =>
      rw [ha, h2] at hv
      exact absurd hv.1 (by simp)
    | error e s2 =>
      rw [ha, h2] at hv
      have := hv.1
      simp only [EStateM.Result.error.injEq] at this
      rw [← this.1]
  refine ⟨⟨fun h => ?_, yes⟩, no⟩
  by_contra hn
  rw [no hn] at h
  cases h

/-- C92: a drawing program whose roads and lanes fit together, with its calls in any order, is followed by `adjust_roads_and_lanes`:
this returns normally exactly if every added road is reached from an anchor by declared links, and otherwise raises
UndefinedRoadNetwork, never anything else. -/
theorem C92_returns (p : List (Call (Fl R))) (hd : Drawing p) (s : Session (Fl R)) (hs : Blank s) (o : Nat) (name : String)
    (ho : .openDrive o name ∈ p) (hl : LinkedProgram p o) (hf : FittingLanes p o) :
    (((Call.adjust o).step (runCalls p s).2).1 = none ↔ ∀ v, .addRoad o v ∈ p → ReachedRoad p o v) ∧
    (¬ (∀ v, .addRoad o v ∈ p → ReachedRoad p o v) →
      ((Call.adjust o).step (runCalls p s).2).1 = some .undefinedRoadNetwork) := by
  have key : (∀ k ∈ (worldOf (runCalls p s).2 o).net.roads.keys, Reachable (worldOf (runCalls p s).2 o).net.roads k) ↔
      ∀ v, .addRoad o v ∈ p → ReachedRoad p o v := by
    obtain ⟨-, -, -, -, n5⟩ := C88_drawn p hd s hs o name ho
    constructor
    · intro h v hv
      obtain ⟨i, pv, l, t, n, ru, h1, -⟩ := (inv_drawing p hd hs).roads v ((inv_drawing p hd hs).puts o v hv).2
      exact (reached_iff p hd s hs o name ho hl ⟨hv, _, _, _, _, h1⟩).mp (h _ ((n5 _).mpr ⟨v, i, pv, l, t, n, ru, h1, hv, rfl⟩))
    · intro h k hk
      obtain ⟨v, i, pv, l, t, n, ru, h1, h2, rfl⟩ := (n5 k).mp hk
      exact (reached_iff p hd s hs o name ho hl ⟨h2, _, _, _, _, h1⟩).mpr (h v h2)
  have := returns_net p hd s hs o name ho hl (program_linkable p hd s hs o name ho hl hf)
  rwa [key] at this

end Pyodrx.Props
