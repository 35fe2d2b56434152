import Verif.Spec.SessionLinks
import Verif.Props.SessionAdjust
import Verif.Props.NetworkLinks

/-! # C95: lane links after `adjust_roads_and_lanes`, in programs of calls -/

namespace Pyodrx.Props
open Pyodrx Pyodrx.Spec PyFloat

variable {R : Rounding}

theorem leftCalls_append' {F : Type} (v : Nat) (p q : List (Call F)) : leftCalls v (p ++ q) = leftCalls v p ++ leftCalls v q :=
  List.filterMap_append
theorem rightCalls_append' {F : Type} (v : Nat) (p q : List (Call F)) : rightCalls v (p ++ q) = rightCalls v p ++ rightCalls v q :=
  List.filterMap_append

/-- How often a lane is put into sections, over all sections. -/
theorem puts_count {F : Type} (x : Nat) (secs : List Nat) (hn : secs.Nodup) (p : List (Call F)) :
    (secs.map fun sec => (leftCalls sec p ++ rightCalls sec p).count x).sum ≤ (puts x p).length := by
  induction p with
  | nil => simp [leftCalls, rightCalls, puts]
  | cons c p ih =>
    have e : (secs.map fun sec => (leftCalls sec (c :: p) ++ rightCalls sec (c :: p)).count x).sum =
        (secs.map fun sec => (leftCalls sec [c] ++ rightCalls sec [c]).count x).sum +
          (secs.map fun sec => (leftCalls sec p ++ rightCalls sec p).count x).sum := by
      rw [← List.sum_map_add]
      congr 1
      refine List.map_congr_left fun sec _ => ?_
      rw [show c :: p = [c] ++ p from rfl, leftCalls_append', rightCalls_append']
      simp only [List.count_append]
      omega
    rw [e, show puts x (c :: p) = puts x [c] ++ puts x p from by
      rw [show c :: p = [c] ++ p from rfl]; exact List.filter_append .., List.length_append]
    refine Nat.add_le_add ?_ ih
    have one : ∀ sec0 : Nat, (secs.map fun sec => if sec0 = sec then 1 else 0).sum ≤ 1 := by
      intro sec0
      have : (secs.map fun sec => if sec0 = sec then 1 else 0).sum = secs.count sec0 := by
        clear hn e ih
        induction secs with
        | nil => rfl
        | cons a l ih =>
          simp only [List.map_cons, List.sum_cons, List.count_cons, ih]
          by_cases h : sec0 = a
          · simp [h]; omega
          · have : ¬ a = sec0 := fun e => h e.symm
            simp [h, this]
      rw [this]
      exact List.nodup_iff_count_le_one.mp hn _
    have nil : (∀ sec, leftCalls sec [c] = [] ∧ rightCalls sec [c] = []) →
        (secs.map fun sec => (leftCalls sec [c] ++ rightCalls sec [c]).count x).sum ≤ (puts x [c]).length := by
      intro h
      have : (secs.map fun sec => (leftCalls sec [c] ++ rightCalls sec [c]).count x) = secs.map fun _ => 0 :=
        List.map_congr_left fun sec _ => by rw [(h sec).1, (h sec).2]; rfl
      rw [this]
      simp
    cases c with
    | addLeftLane sec0 y =>
      by_cases h : y = x
      · subst h
        have : (secs.map fun sec => (leftCalls sec [.addLeftLane (F := F) sec0 y] ++ rightCalls sec [.addLeftLane (F := F) sec0 y]).count y) =
            secs.map fun sec => if sec0 = sec then 1 else 0 := List.map_congr_left fun sec _ => by
          by_cases hs : sec0 = sec <;> simp [leftCalls, rightCalls, hs]
        rw [this]
        simpa [puts] using one sec0
      · have : (secs.map fun sec => (leftCalls sec [.addLeftLane (F := F) sec0 y] ++ rightCalls sec [.addLeftLane (F := F) sec0 y]).count x) =
            secs.map fun _ => 0 := List.map_congr_left fun sec _ => by
          by_cases hs : sec0 = sec <;> simp [leftCalls, rightCalls, hs, h]
        rw [this]
        simp
    | addRightLane sec0 y =>
      by_cases h : y = x
      · subst h
        have : (secs.map fun sec => (leftCalls sec [.addRightLane (F := F) sec0 y] ++ rightCalls sec [.addRightLane (F := F) sec0 y]).count y) =
            secs.map fun sec => if sec0 = sec then 1 else 0 := List.map_congr_left fun sec _ => by
          by_cases hs : sec0 = sec <;> simp [leftCalls, rightCalls, hs]
        rw [this]
        simpa [puts] using one sec0
      · have : (secs.map fun sec => (leftCalls sec [.addRightLane (F := F) sec0 y] ++ rightCalls sec [.addRightLane (F := F) sec0 y]).count x) =
            secs.map fun _ => 0 := List.map_congr_left fun sec _ => by
          by_cases hs : sec0 = sec <;> simp [leftCalls, rightCalls, hs, h]
        rw [this]
        simp
    | _ => exact nil fun sec => ⟨rfl, rfl⟩

/-- A lane that is put into one place is in one section, once. -/
theorem puts_nodup {F : Type} {p : List (Call F)} {sec : Nat} (h : ∀ x ∈ leftCalls sec p ++ rightCalls sec p, (puts x p).length = 1) :
    (leftCalls sec p ++ rightCalls sec p).Nodup := by
  rw [List.nodup_iff_count_le_one]
  intro x
  by_cases hx : x ∈ leftCalls sec p ++ rightCalls sec p
  · have := puts_count x [sec] (by simp) p
    rw [h x hx] at this
    simpa using this
  · rw [List.count_eq_zero.mpr hx]; omega

theorem puts_section {F : Type} {p : List (Call F)} {x sec sec' : Nat} (h : (puts x p).length = 1)
    (h1 : x ∈ leftCalls sec p ++ rightCalls sec p) (h2 : x ∈ leftCalls sec' p ++ rightCalls sec' p) : sec = sec' := by
  by_contra hne
  have := puts_count x [sec, sec'] (by simp [hne]) p
  have a1 := List.one_le_count_iff.mpr h1
  have a2 := List.one_le_count_iff.mpr h2
  simp only [List.map_cons, List.map_nil, List.sum_cons, List.sum_nil] at this
  omega

/-- How often a section is added, to all `Lanes` objects. -/
theorem sections_count (sec : Nat) (p : List (Call (Fl R))) (l : Nat) : (sectionCalls l p).count sec ≤
    (sectionPuts sec p).length := by
  induction p with
  | nil => simp [sectionCalls, sectionPuts]
  | cons c p ih =>
    cases c with
    | addLanesection x s ls =>
      by_cases h1 : x = l <;> by_cases h2 : s = sec <;> simp_all [sectionCalls, sectionPuts]
      omega
    | _ => simpa [sectionCalls, sectionPuts] using ih

theorem sections_lanes (sec : Nat) (p : List (Call (Fl R))) {l l' : Nat} (hne : l ≠ l') :
    (sectionCalls l p).count sec + (sectionCalls l' p).count sec ≤
    (sectionPuts sec p).length := by
  induction p with
  | nil => simp [sectionCalls, sectionPuts]
  | cons c p ih =>
    cases c with
    | addLanesection x s ls =>
      by_cases h2 : s = sec
      · by_cases h1 : x = l
        · have h3 : ¬ x = l' := fun h => hne (h1.symm.trans h)
          simp_all [sectionCalls, sectionPuts]; omega
        · by_cases h3 : x = l' <;> simp_all [sectionCalls, sectionPuts] <;> omega
      · by_cases h1 : x = l <;> by_cases h3 : x = l' <;> simp_all [sectionCalls, sectionPuts]
    | _ => simpa [sectionCalls, sectionPuts] using ih

/-- A road of the network, its sections and lanes are those of the calls. -/
structure RoadOf (p : List (Call (Fl R))) (s : Session (Fl R)) (o v l : Nat) (k : String) (r : Road (Fl R)) : Prop where
  adds : AddsLanes p o v r.id l r.roadType
  key : r.id.toStr = k
  links : ∀ e, linkAt r e = linkCall v p e
  offsets : ∀ e, laneOffsetAt r e = offsetCall v p e
  sections : r.lanesections = (sectionCalls l p).map (runCalls p s).2.sections.cell
  lanes : ∀ sec ∈ sectionCalls l p, ((runCalls p s).2.sections.cell sec).left = leftCalls sec p ∧
    ((runCalls p s).2.sections.cell sec).right = rightCalls sec p ∧
    Numbered (runCalls p s).2.laneObjs ((runCalls p s).2.sections.cell sec)

theorem RoadOf.at {p : List (Call (Fl R))} {s : Session (Fl R)} {o v l : Nat} {k : String} {r : Road (Fl R)} (h : RoadOf p s o v l k r)
    (e : ContactPoint) : sectionAt r e = (sectionCall l p e).map (runCalls p s).2.sections.cell := by
  cases e
  · simp only [sectionAt, sectionCall, h.sections, List.head?_map]
  · simp only [sectionAt, sectionCall, h.sections, List.getLast?_map]

theorem sectionCall_mem {p : List (Call (Fl R))} {l sec : Nat} {e : ContactPoint} (h : sectionCall l p e = some sec) :
    sec ∈ sectionCalls l p := by
  cases e
  · exact List.mem_of_mem_head? h
  · exact List.mem_of_mem_getLast? h

/-- The sections of a `Lanes` object of an added road are as the calls say. -/
theorem roadOf_lanes (p : List (Call (Fl R))) (hd : Drawing p) (s : Session (Fl R)) (o : Nat) (hf : FittingLanes p o)
    {v : Nat} {i : PyId} {pv l : Nat} {t : Int} {n ru : Option String} (a1 : .addRoad o v ∈ p) (a2 : .road v i pv l t n ru ∈ p) :
    (runCalls p s).2.lanesObjs.cell l = sectionCalls l p ∧
    ∀ sec ∈ sectionCalls l p, ((runCalls p s).2.sections.cell sec).left = leftCalls sec p ∧
    ((runCalls p s).2.sections.cell sec).right = rightCalls sec p ∧
    Numbered (runCalls p s).2.laneObjs ((runCalls p s).2.sections.cell sec) := by
  obtain ⟨hn, hu⟩ := num_program p hd.proper s
  obtain ⟨s1, s2⟩ := C89_sections p hd.proper s
  have hl1 : (.lanes l : Call (Fl R)) ∈ p := by
    obtain ⟨d, hd1, hd2⟩ := hu _ a2 (.lanes l) (.inr rfl)
    cases d <;> simp [Makes] at hd2
    subst hd2; exact hd1
  refine ⟨s2 l hl1, fun sec hmem => ?_⟩
  have hsm : ∃ sc ce, (.laneSection sec sc ce : Call (Fl R)) ∈ p := by
    obtain ⟨c, hc, hc'⟩ := List.mem_filterMap.mp hmem
    cases c <;> simp at hc'
    case addLanesection x sec' lk =>
      obtain ⟨rfl, rfl⟩ := hc'
      obtain ⟨d, hd1, hd2⟩ := hu _ hc (.laneSection sec') (.inr (.inl rfl))
      cases d <;> simp [Makes] at hd2
      subst hd2; exact ⟨_, _, hd1⟩
  obtain ⟨sc, ce, hsm⟩ := hsm
  obtain ⟨-, -, e3, e4⟩ := s1 sec sc ce hsm
  refine ⟨e3, e4, ⟨fun j x hx => ?_, fun j x hx => ?_⟩⟩
  · have hx' := List.mem_of_getElem? hx
    rw [e3] at hx'
    exact (C89_numbered p hd.proper s sec sc ce hsm j x
      (hf.once v _ l _ sec x ⟨a1, _, _, _, a2⟩ hmem (List.mem_append_left _ hx'))).1 hx
  · have hx' := List.mem_of_getElem? hx
    rw [e4] at hx'
    exact (C89_numbered p hd.proper s sec sc ce hsm j x
      (hf.once v _ l _ sec x ⟨a1, _, _, _, a2⟩ hmem (List.mem_append_right _ hx'))).2 hx

theorem linksAre_offset {v : Nat} {p : List (Call (Fl R))} {r : Road (Fl R)} (h : LinksAre v p r) (e : ContactPoint) :
    laneOffsetAt r e = offsetCall v p e := by
  cases e
  · exact h.predOff
  · exact h.succOff

theorem world_road (p : List (Call (Fl R))) (s : Session (Fl R)) (o : Nat) (h : LaidOut p o)
    {k : String} {r : Road (Fl R)} (hr : (worldOf (runCalls p s).2 o).net.roads.get? k = some r) : ∃ v l, RoadOf p s o v l k r := by
  obtain ⟨name, ho⟩ := h.document
  obtain ⟨v, i, pv, l, t, n, ru, a1, a2, a3, rfl, rfl, -, a6, a7⟩ := drawn_road p h.drawing s o name ho hr
  obtain ⟨b1, b2⟩ := roadOf_lanes p h.drawing s o h.fitting a1 a2
  exact ⟨v, l, ⟨a1, _, _, _, a2⟩, a3, linksAre_linkCall a7, linksAre_offset a7, by rw [a6, b1], b2⟩

theorem road_world (p : List (Call (Fl R))) (s : Session (Fl R)) (hs : Blank s) (o : Nat) (h : LaidOut p o)
    {v : Nat} {i : PyId} {l : Nat} {t : Int} (hv : AddsLanes p o v i l t) :
    ∃ r, (worldOf (runCalls p s).2 o).net.roads.get? i.toStr = some r ∧ r.id = i ∧ r.roadType = t ∧ RoadOf p s o v l i.toStr r := by
  obtain ⟨name, ho⟩ := h.document
  obtain ⟨a1, pv, n, ru, a2⟩ := hv
  obtain ⟨r, b1, rfl, rfl, -, b5, b6⟩ := added_road p h.drawing s hs o name ho h.linked a1 a2
  obtain ⟨c1, c2⟩ := roadOf_lanes p h.drawing s o h.fitting a1 a2
  exact ⟨r, b1, rfl, rfl, ⟨a1, _, _, _, a2⟩, rfl, linksAre_linkCall b6, linksAre_offset b6, by rw [b5, c1], c2⟩

theorem RoadOf.unique {p : List (Call (Fl R))} (hd : Drawing p) {s : Session (Fl R)} {o v l l' : Nat} {k k' : String} {r r' : Road (Fl R)}
    (h : RoadOf p s o v l k r) (h' : RoadOf p s o v l' k' r') : k = k' := by
  obtain ⟨-, _, _, _, x1⟩ := h.adds
  obtain ⟨-, _, _, _, x2⟩ := h'.adds
  have := made_once hd.proper (x := .road v) x1 x2 rfl rfl
  injection this with _ e
  rw [← h.key, ← h'.key, e]

theorem index_unique {α : Type} [DecidableEq α] {c : α} : ∀ {l : List α} {i j : Nat}, l.count c ≤ 1 → l[i]? = some c → l[j]? = some c →
    i = j := by
  intro l
  induction l with
  | nil => intro i j _ h; simp at h
  | cons a l ih =>
    intro i j hc hi hj
    have no : ∀ {n}, a = c → l[n]? = some c → False := fun e h => by
      have := List.one_le_count_iff.mpr (List.mem_of_getElem? h)
      subst e
      rw [List.count_cons_self] at hc
      omega
    match i, j with
    | 0, 0 => rfl
    | 0, j + 1 =>
      simp at hi hj
      exact (no hi hj).elim
    | i + 1, 0 =>
      simp at hi hj
      exact (no hj hi).elim
    | i + 1, j + 1 =>
      simp at hi hj
      rw [ih (le_trans (List.count_le_count_cons) hc) hi hj]

/-- No lane of the network is in two places. -/
theorem program_unshared (p : List (Call (Fl R))) (s : Session (Fl R)) (o : Nat) (h : LaidOut p o) :
    Unshared (worldOf (runCalls p s).2 o).net.roads := by
  have once : ∀ {v l k r}, RoadOf p s o v l k r → ∀ sec ∈ sectionCalls l p, ∀ x ∈ leftCalls sec p ++ rightCalls sec p,
      (puts x p).length = 1 := fun h' sec hs x hx => h.fitting.once _ _ _ _ sec x h'.adds hs hx
  refine ⟨fun k r sec hr hsec => ?_, fun k k' r r' i j sec sec' x hr hr' h1 h2 hx hx' => ?_⟩
  · obtain ⟨v, l, hv⟩ := world_road p s o h hr
    rw [hv.sections, List.mem_map] at hsec
    obtain ⟨c, hc, rfl⟩ := hsec
    obtain ⟨e1, e2, -⟩ := hv.lanes c hc
    rw [e1, e2]
    exact puts_nodup (once hv c hc)
  · obtain ⟨v, l, hv⟩ := world_road p s o h hr
    obtain ⟨w, m, hw⟩ := world_road p s o h hr'
    rw [hv.sections, List.getElem?_map, Option.map_eq_some_iff] at h1
    rw [hw.sections, List.getElem?_map, Option.map_eq_some_iff] at h2
    obtain ⟨c, hc, rfl⟩ := h1
    obtain ⟨d, hd, rfl⟩ := h2
    have hcm := List.mem_of_getElem? hc
    have hdm := List.mem_of_getElem? hd
    obtain ⟨e1, e2, -⟩ := hv.lanes c hcm
    obtain ⟨f1, f2, -⟩ := hw.lanes d hdm
    rw [e1, e2] at hx
    rw [f1, f2] at hx'
    have hcd := puts_section (once hv c hcm x hx) hx hx'
    subst hcd
    have hone := h.own.sections v _ l _ c hv.adds hcm
    have hlm : l = m := by
      by_contra hne
      have := sections_lanes c p hne
      have a1 := List.one_le_count_iff.mpr hcm
      have a2 := List.one_le_count_iff.mpr hdm
      omega
    subst hlm
    have hvw := h.own.lanes v _ l _ w _ _ hv.adds hw.adds
    subst hvw
    refine ⟨hv.unique h.drawing hw, ?_⟩
    have hcount := sections_count c p l
    rw [hone] at hcount
    exact index_unique hcount hc hd

/-- The lanes before and after `adjust_roads_and_lanes`. -/
theorem program_run (p : List (Call (Fl R))) (s : Session (Fl R)) (hs : Blank s) (o : Nat) (h : LaidOut p o) :
    ∃ net', Linked (worldOf (runCalls p s).2 o).net net' (runCalls p s).2.laneObjs ((Call.adjust o).step (runCalls p s).2).2.laneObjs := by
  obtain ⟨name, ho⟩ := h.document
  obtain ⟨hw, hu⟩ := program_linked p h.drawing s hs o name ho h.linked
  have hfit := program_linkable p h.drawing s hs o name ho h.linked h.fitting
  obtain ⟨n1, -, -, own, -⟩ := C88_drawn p h.drawing s hs o name ho
  rw [worldOf_keys] at n1
  have hv := adjust_values _ o n1 own
  have hret := (C92_returns p h.drawing s hs o name ho h.linked h.fitting).1.mpr h.reached
  simp only [Call.step, Call.run] at hret ⊢
  cases ha : Session.adjust o (runCalls p s).2 with
  | error e s2 => rw [ha] at hret; cases hret
  | ok u s2 =>
    rw [ha] at hv
    refine ⟨(worldOf s2 o).net, hw.nodup, hw.fresh, fun k r hr => ?_, hfit, program_unshared p s o h, hv.1⟩
    obtain ⟨v, l, hr'⟩ := world_road p s o h hr
    exact hr'.key

theorem lane_of {p : List (Call (Fl R))} {s : Session (Fl R)} {o v l : Nat} {k : String} {r : Road (Fl R)} (h : RoadOf p s o v l k r)
    {e : ContactPoint} {sec : Nat} (hs : sectionCall l p e = some sec) (i x : Nat) :
    sectionAt r e = some ((runCalls p s).2.sections.cell sec) ∧
    ((leftCalls sec p)[i]? = some x → x ∈ ((runCalls p s).2.sections.cell sec).left ++ ((runCalls p s).2.sections.cell sec).right ∧
      ((runCalls p s).2.laneObjs.cell x).laneId = some ((i : Int) + 1)) ∧
    ((rightCalls sec p)[i]? = some x → x ∈ ((runCalls p s).2.sections.cell sec).left ++ ((runCalls p s).2.sections.cell sec).right ∧
      ((runCalls p s).2.laneObjs.cell x).laneId = some (-((i : Int) + 1))) := by
  obtain ⟨e1, e2, e3⟩ := h.lanes sec (sectionCall_mem hs)
  refine ⟨by rw [h.at, hs]; rfl, fun hx => ⟨?_, ?_⟩, fun hx => ⟨?_, ?_⟩⟩
  · exact List.mem_append_left _ (e1 ▸ List.mem_of_getElem? hx)
  · exact e3.1 i x (e1.symm ▸ hx)
  · exact List.mem_append_right _ (e2 ▸ List.mem_of_getElem? hx)
  · exact e3.2 i x (e2.symm ▸ hx)

/-- C95: in a program whose calls are in any order, where two normal roads are declared to follow each other, `adjust_roads_and_lanes`
gives the i-th lane on each side of the last section of the first road one successor link, to its number, and the i-th lane of the
first section of the second road one predecessor link. -/
theorem C95_joint (p : List (Call (Fl R))) (s : Session (Fl R)) (hs : Blank s) (o : Nat) (h : LaidOut p o)
    (v w : Nat) (i j : PyId) (l m : Nat) (hne : v ≠ w) (hv : AddsLanes p o v i l (-1)) (hw : AddsLanes p o w j m (-1))
    (hc : Consecutive p v i w j) (sa sb : Nat) (ha : sectionCall l p .end = some sa) (hb : sectionCall m p .start = some sb) (n x : Nat) :
    let new := newLinks (runCalls p s).2.laneObjs ((Call.adjust o).step (runCalls p s).2).2.laneObjs
    ((leftCalls sa p)[n]? = some x → new x .successor = [laneLink .successor ((n : Int) + 1)]) ∧
    ((rightCalls sa p)[n]? = some x → new x .successor = [laneLink .successor (-((n : Int) + 1))]) ∧
    ((leftCalls sb p)[n]? = some x → new x .predecessor = [laneLink .predecessor ((n : Int) + 1)]) ∧
    ((rightCalls sb p)[n]? = some x → new x .predecessor = [laneLink .predecessor (-((n : Int) + 1))]) := by
  obtain ⟨net', hL⟩ := program_run p s hs o h
  obtain ⟨a, a1, rfl, a3, a4⟩ := road_world p s hs o h hv
  obtain ⟨b, b1, rfl, b3, b4⟩ := road_world p s hs o h hw
  have hk : a.id.toStr ≠ b.id.toStr := by
    obtain ⟨x1, _, _, _, x2⟩ := hv
    obtain ⟨y1, _, _, _, y2⟩ := hw
    exact fun e => hne (h.linked.ids v _ _ w _ _ ⟨x1, _, _, _, _, x2⟩ ⟨y1, _, _, _, _, y2⟩ e)
  have hf : Follows a b := by
    obtain ⟨⟨la, c1, c2, c3⟩, lb, d1, d2, d3⟩ := hc
    exact ⟨⟨la, (a4.links .end).trans c1, c2, c3⟩, lb, (b4.links .start).trans d1, d2, d3⟩
  obtain ⟨e1, e2, e3⟩ := lane_of a4 ha n x
  obtain ⟨f1, f2, f3⟩ := lane_of b4 hb n x
  have hsucc := C30_successor_link _ net' _ _ hL _ _ a b hk a1 b1 a3 b3 hf _ e1 x
  have hpred := C30_predecessor_link _ net' _ _ hL _ _ a b hk a1 b1 a3 b3 hf _ f1 x
  refine ⟨fun hx => ?_, fun hx => ?_, fun hx => ?_, fun hx => ?_⟩
  · obtain ⟨m1, m2⟩ := e2 hx
    obtain ⟨id, q1, q2⟩ := hsucc m1
    rw [m2] at q1; cases q1; exact q2
  · obtain ⟨m1, m2⟩ := e3 hx
    obtain ⟨id, q1, q2⟩ := hsucc m1
    rw [m2] at q1; cases q1; exact q2
  · obtain ⟨m1, m2⟩ := f2 hx
    obtain ⟨id, q1, q2⟩ := hpred m1
    rw [m2] at q1; cases q1; exact q2
  · obtain ⟨m1, m2⟩ := f3 hx
    obtain ⟨id, q1, q2⟩ := hpred m1
    rw [m2] at q1; cases q1; exact q2

/-- C95: at the end `e` of a connecting road, linked to another road, the i-th lane on each side gets one link, to the number of the i-th
lane of the same side, with the sign of the direction and shifted by the lane offset that was declared. -/
theorem C95_connecting (p : List (Call (Fl R))) (s : Session (Fl R)) (hs : Blank s) (o : Nat) (h : LaidOut p o)
    (v w : Nat) (i j : PyId) (l m : Nat) (t u : Int) (ht : t ≠ -1) (hv : AddsLanes p o v i l t) (hw : AddsLanes p o w j m u)
    (e : ContactPoint) (a : Link) (ha : linkCall v p e = some a) (hj : a.elementId = j)
    (sec : Nat) (hsec : sectionCall l p e = some sec) (n x : Nat) :
    let new := newLinks (runCalls p s).2.laneObjs ((Call.adjust o).step (runCalls p s).2).2.laneObjs
    ((leftCalls sec p)[n]? = some x →
      new x (kindAt e) = [laneLink (kindAt e) (directionSign e a.contactPoint * ((n : Int) + 1) + offsetCall v p e)]) ∧
    ((rightCalls sec p)[n]? = some x →
      new x (kindAt e) = [laneLink (kindAt e) (directionSign e a.contactPoint * -((n : Int) + 1) + offsetCall v p e)]) := by
  obtain ⟨net', hL⟩ := program_run p s hs o h
  obtain ⟨c, c1, rfl, rfl, c4⟩ := road_world p s hs o h hv
  obtain ⟨r, r1, rfl, rfl, r4⟩ := road_world p s hs o h hw
  obtain ⟨own, used, touching, -, -, t3, -, -⟩ := h.fitting.lanes v _ l _ w _ m _ e a hv ht hw ha hj
  obtain ⟨e1, e2, e3⟩ := lane_of c4 hsec n x
  obtain ⟨own1, own2, -⟩ := c4.lanes sec (sectionCall_mem hsec)
  obtain ⟨-, -, num⟩ := r4.lanes touching (sectionCall_mem t3)
  have hnod := (program_unshared p s o h).within _ c _ c1 (by
    rw [c4.sections]; exact List.mem_map_of_mem (sectionCall_mem hsec) : (runCalls p s).2.sections.cell sec ∈ c.lanesections)
  have key := C30_connecting_link _ net' _ _ hL _ _ c r c1 r1 ht e a ((c4.links e).trans ha) hj _ _ e1
    (show sectionAt r (a.contactPoint.getD .end) = some ((runCalls p s).2.sections.cell touching) by rw [r4.at, t3]; rfl) x
  have off := c4.offsets e
  have nod := List.nodup_append.mp hnod
  refine ⟨fun hx => ?_, fun hx => ?_⟩
  · obtain ⟨i', q, id, hq, q1, q2⟩ := key (e2 hx).1
    have hx' : ((runCalls p s).2.sections.cell sec).left[n]? = some x := own1 ▸ hx
    rcases hq with ⟨k1, k2⟩ | ⟨k1, k2⟩
    · have : i' = n := index_unique (List.nodup_iff_count_le_one.mp nod.1 x) k1 hx'
      subst this
      rw [num.1 i' q k2] at q1
      cases q1
      rw [q2, off]
    · exact absurd rfl (nod.2.2 x (List.mem_of_getElem? hx') x (List.mem_of_getElem? k1))
  · obtain ⟨i', q, id, hq, q1, q2⟩ := key (e3 hx).1
    have hx' : ((runCalls p s).2.sections.cell sec).right[n]? = some x := own2 ▸ hx
    rcases hq with ⟨k1, k2⟩ | ⟨k1, k2⟩
    · exact absurd rfl (nod.2.2 x (List.mem_of_getElem? k1) x (List.mem_of_getElem? hx'))
    · have : i' = n := index_unique (List.nodup_iff_count_le_one.mp nod.2.1 x) k1 hx'
      subst this
      rw [num.2 i' q k2] at q1
      cases q1
      rw [q2, off]

/-- C95: no other links are made: a lane that gets a link of a kind was added to the section at that end of an added road, which is a
normal road and declared to follow, or be followed by, another one, or is a connecting road and linked to another one there. -/
theorem C95_no_others (p : List (Call (Fl R))) (s : Session (Fl R)) (hs : Blank s) (o : Nat) (h : LaidOut p o) (x : Nat) (K : LinkKind)
    (hx : newLinks (runCalls p s).2.laneObjs ((Call.adjust o).step (runCalls p s).2).2.laneObjs x K ≠ []) :
    ∃ e v i l t w j m sec, K = kindAt e ∧ v ≠ w ∧ AddsLanes p o v i l t ∧ AddsLanes p o w j m (-1) ∧ sectionCall l p e = some sec ∧
      x ∈ leftCalls sec p ++ rightCalls sec p ∧
      ((t = -1 ∧ e = .end ∧ Consecutive p v i w j) ∨ (t = -1 ∧ e = .start ∧ Consecutive p w j v i) ∨
        (t ≠ -1 ∧ ∃ a, linkCall v p e = some a ∧ a.elementId = j)) := by
  obtain ⟨net', hL⟩ := program_run p s hs o h
  obtain ⟨e, k1, k2, a, b, sec, h1, h2, h3, h4, h5, h6, h7, h8⟩ := C30_no_other_links _ net' _ _ hL x K hx
  obtain ⟨v, l, hv⟩ := world_road p s o h h3
  obtain ⟨w, m, hw⟩ := world_road p s o h h4
  rw [hv.at, Option.map_eq_some_iff] at h6
  obtain ⟨c, hc, rfl⟩ := h6
  obtain ⟨e1, e2, -⟩ := hv.lanes c (sectionCall_mem hc)
  rw [e1, e2] at h7
  refine ⟨e, v, a.id, l, a.roadType, w, b.id, m, c, h1, ?_, hv.adds, h5 ▸ hw.adds, hc, h7, ?_⟩
  · rintro rfl
    exact h2 (hv.unique h.drawing hw)
  · have follow : ∀ {a b : Road (Fl R)} {v l w m k k'}, RoadOf p s o v l k a → RoadOf p s o w m k' b → Follows a b →
        Consecutive p v a.id w b.id := by
      rintro a b v l w m k k' ha hb ⟨⟨la, c1, c2, c3⟩, lb, d1, d2, d3⟩
      exact ⟨⟨la, (ha.links .end).symm.trans c1, c2, c3⟩, lb, (hb.links .start).symm.trans d1, d2, d3⟩
    rcases h8 with ⟨t1, t2, t3⟩ | ⟨t1, t2, t3⟩ | ⟨t1, lk, t2, t3⟩
    · exact .inl ⟨t1, t2, follow hv hw t3⟩
    · exact .inr (.inl ⟨t1, t2, follow hw hv t3⟩)
    · exact .inr (.inr ⟨t1, lk, (hv.links e).symm.trans t2, t3⟩)

/-- C95: whatever links a lane had it keeps, before the new ones, and nothing else about it changes. -/
theorem C95_kept (p : List (Call (Fl R))) (s : Session (Fl R)) (hs : Blank s) (o : Nat) (h : LaidOut p o) (x : Nat) :
    let before := (runCalls p s).2.laneObjs.cell x
    ∃ new, ((Call.adjust o).step (runCalls p s).2).2.laneObjs.cell x = { before with links := before.links ++ new } := by
  obtain ⟨net', hL⟩ := program_run p s hs o h
  have hrun := hL.run
  unfold World.adjustRoadsAndLanes at hrun
  cases ha : Net.adjustStartpoints (worldOf (runCalls p s).2 o).net with
  | error e n => rw [ha] at hrun; cases hrun
  | ok u n =>
    obtain ⟨lanes', h1, -, h3⟩ := C30_all_links _ n _ hL.nodup hL.fresh ha hL.fit
    rw [hL.run] at h1
    cases h1
    obtain ⟨new, h4, -⟩ := h3 x
    exact ⟨new, h4⟩

end Pyodrx.Props
