import Verif.Proofs.ProgramJunction
import Verif.Props.UserTexts

/-! # The texts in the document of a program -/

namespace Pyodrx
open Spec Props

/-- A geometry that can be read has a known range. -/
theorem geomTexts_of_read {geoms : Store (Geom ℝ)} {g : AdjGeom ℝ} {x : RGeometry ℝ}
    (h : readGeometry (g.getElement geoms) = some x) : ∀ s ∈ geomTexts (geoms.cell g.geom), s = "normalized" ∨ s = "arcLength" := by
  intro s hs
  rw [AdjGeom.getElement, readGeometry] at h
  simp only [Xml.children_elem, Xml.tag_elem, if_true] at h
  cases hc : readCurve (geoms.cell g.geom).getElement with
  | none => simp [hc] at h
  | some y =>
    revert hs
    cases hk : geoms.cell g.geom with
    | poly q =>
      rw [geomTexts, List.mem_singleton]
      rintro rfl
      rw [hk] at hc
      by_contra hne
      push Not at hne
      simp [readCurve, Geom.getElement, need, readRange, Xml.attr, Dict.get?, numOf_num, textOf_str, hne.1, hne.2] at hc
    | _ => simp [geomTexts]

theorem dueAt_int {roads : Dict (Road ℝ)} {lanes : Store (Lane ℝ)} {x : Nat} {l : Link} (h : l ∈ dueAt roads lanes x) :
    ∃ i, l.elementId = .str (strInt i) := by
  have key : ∀ {k s n} {a b : List Nat} {y : Nat × Link}, y ∈ toward lanes k s n a b → ∃ i, y.2.elementId = .str (strInt i) := by
    intro k s n a b y hy
    obtain ⟨z, -, rfl⟩ := List.mem_map.mp hy
    exact ⟨_, rfl⟩
  have conn : ∀ {a b e} {y : Nat × Link}, y ∈ connectionLinks lanes a b e → ∃ i, y.2.elementId = .str (strInt i) := by
    intro a b e y hy
    unfold connectionLinks at hy
    split at hy
    · split at hy
      · split at hy
        · rcases List.mem_append.mp hy with hy | hy <;> exact key hy
        · cases hy
      · cases hy
    · cases hy
  obtain ⟨k, -, hk⟩ := List.mem_flatMap.mp h
  split at hk
  · obtain ⟨y, hy, rfl⟩ := List.mem_map.mp hk
    rw [List.mem_filter] at hy
    rcases List.mem_append.mp hy.1 with hy | hy
    · split at hy
      · unfold jointLinks at hy
        split at hy
        · simp only [List.mem_append] at hy
          rcases hy with (hy | hy) | hy | hy <;> exact key hy
        · cases hy
      · cases hy
    · split at hy
      · rcases List.mem_append.mp hy with hy | hy <;> exact conn hy
      · cases hy
  · cases hk


theorem mapM_some_mem {α β : Type} {f : α → Option β} {l : List α} {ys : List β} (h : l.mapM f = some ys) {a : α} (ha : a ∈ l) :
    ∃ b, f a = some b := by
  induction l generalizing ys with
  | nil => cases ha
  | cons x l ih =>
    rw [List.mapM_cons] at h
    cases hx : f x with
    | none => simp [hx] at h
    | some y =>
      cases hl : l.mapM f with
      | none => simp [hx, hl] at h
      | some ys' =>
        rcases List.mem_cons.mp ha with rfl | ha
        · exact ⟨y, hx⟩
        · exact ih hl ha

section
variable {calls : List (RoadCall ℝ)} {L : List (CallEnd × CallEnd)} {st st' : GenState ℝ} {roads : List (Road ℝ)}
  {w' : World ℝ} {name date : String} {so : SOState ℝ} {js : List Junction} {doc : RDocument ℝ}

theorem idTexts_int {i : PyId} {n : Int} (h : i = .int n) : idTexts i = [] := by subst h; rfl

/-- A junction of `create_junction` contains only texts chosen by the library. -/
theorem Finished.created_texts (h : Finished calls L st st' roads w' name date so js doc) {j : JunctionCall} {x : Junction}
    (hjm : JunctionSound calls j) (hx : MadeJunction calls roads j x) {s : String} (hs : s ∈ junctionTexts x) :
    printable s = true := by
  obtain ⟨m1, m2, m3, m4⟩ := hx
  simp only [junctionTexts, m1, idTexts_int m2, List.append_nil, List.mem_append, List.mem_singleton] at hs
  rcases hs with rfl | hs
  · decide
  · obtain ⟨cn, hcn, hs⟩ := List.mem_flatMap.mp hs
    obtain ⟨t, ht⟩ := List.mem_iff_getElem?.mp hcn
    obtain ⟨htl, -⟩ := List.getElem?_eq_some_iff.mp ht
    have hi : t / 2 < j.connecting.length := by omega
    obtain ⟨c, hc, -⟩ := hjm.connecting _ (List.getElem_mem hi)
    obtain ⟨r, hr, hb⟩ := h.prepared.at hc
    obtain ⟨c1, c2, k1, k2, k3, k4⟩ := m4 (t / 2) _ r (List.getElem?_eq_getElem hi) hr
    have key : ∀ {e id}, ConnectionAt r e id cn → False := by
      intro e id hcon
      obtain ⟨l, sec, q1, -, q2, -⟩ := hcon.incoming
      have q3 : idTexts cn.incomingRoad = [] := by
        rw [q2]
        rw [hb.link] at q1
        obtain ⟨y, -, rfl⟩ := Option.map_eq_some_iff.mp q1
        rfl
      rw [q3, idTexts_int (hcon.connecting.trans hb.id)] at hs
      cases hs
    rcases Nat.mod_two_eq_zero_or_one t with h2 | h2
    · have : 2 * (t / 2) = t := by omega
      rw [this] at k1
      rw [ht] at k1; cases k1
      exact (key k3).elim
    · have : 2 * (t / 2) + 1 = t := by omega
      rw [this] at k2
      rw [ht] at k2; cases k2
      exact (key k4).elim

/-- Apart from the name of the document and the date it contains only names and numbers chosen by the library. -/
theorem Finished.texts (h : Finished calls L st st' roads w' name date so js doc) {js0 : List AnyJunction}
    (hj : ∀ j ∈ js0, AnySound calls j) (hm : List.Forall₂ (MadeAny calls roads) js0 js) {s : String}
    (hs : s ∈ userTexts ⟨w'.net.geoms, w'.lanes, so⟩ date ⟨name, w'.net.roads, js⟩) :
    s ∈ name :: date :: js0.flatMap AnyJunction.texts ∨ printable s = true := by
  have hd := h.prepared.drawn h.sound
  have hadj := adjustRoadsAndLanes_net h.written.run
  have hkeys : w'.net.roads.keys = (netOf roads st').roads.keys := (C18_placed_once _ w'.net hd.nodup hd.fresh hadj).1
  have hnd : w'.net.roads.keys.Nodup := by rw [hkeys]; exact hd.nodup
  rw [userTexts, List.mem_append, List.mem_append] at hs
  rcases hs with (hs | hs) | hs
  · simp only [List.mem_cons, List.not_mem_nil, or_false] at hs
    exact .inl (by rcases hs with rfl | rfl <;> simp)
  · refine .inr ?_
    obtain ⟨kv, hkv, hs⟩ := List.mem_flatMap.mp hs
    obtain ⟨r0, h0, e, -⟩ := hd.read hadj (Dict.mem_get? hnd hkv)
    obtain ⟨c, hc, -, hb⟩ := h.prepared.get h.sound h0
    have e1 : kv.2.name = none := by rw [e]; exact hb.empty.2.2.1
    have e2 : kv.2.rule = none := by rw [e]; exact hb.empty.2.2.2
    have e3 : kv.2.id = .int c.id := by rw [e]; exact hb.id
    have e4 : kv.2.signals = [] := by rw [e]; exact hb.empty.2.1
    have e5 : kv.2.objects = [] := by rw [e]; exact hb.empty.1
    have e6 : linkTexts kv.2.links = [] := by
      rw [e]
      show linkTexts r0.links = []
      rw [hb.links, hb.link, hb.link]
      cases c.link .start <;> cases c.link .end <;> rfl
    simp only [roadTexts, e1, e2, idTexts_int e3, e4, e5, e6, Option.toList_none, List.nil_append, List.flatMap_nil,
      List.append_nil, List.mem_append] at hs
    rcases hs with hs | hs
    · obtain ⟨g, hg, hs⟩ := List.mem_flatMap.mp hs
      obtain ⟨element, he, hdoc⟩ := h.written.read
      obtain ⟨gs, hgs, -⟩ := document_read he h.written.good hdoc
      have hgs := hgs kv hkv
      rw [readPlanView, PlanView.getElement, Xml.tag_elem, if_pos rfl, Xml.children_elem] at hgs
      obtain ⟨x, hx⟩ := mapM_some_mem hgs (List.mem_map_of_mem hg)
      rcases geomTexts_of_read hx s hs with rfl | rfl <;> decide
    · obtain ⟨sec, hsec, hs⟩ := List.mem_flatMap.mp hs
      obtain ⟨x, hx, hs⟩ := List.mem_flatMap.mp hs
      obtain ⟨l, hl, hs⟩ := List.mem_flatMap.mp hs
      obtain ⟨lanes', h1, -, h3⟩ := C30_all_links (netOf roads st') w'.net st'.lanes hd.nodup hd.fresh hadj
        (h.prepared.linkable h.sound)
      have hw : w' = ⟨w'.net, lanes'⟩ := by
        have := h.written.run.symm.trans h1
        injection this
      obtain ⟨new, hcell, hp⟩ := h3 x
      have hlanes : w'.lanes = lanes' := by rw [hw]
      have hinner : ∀ l ∈ (st'.lanes.cell x).links, ∃ i, l.elementId = .str (strInt i) := by
        rw [e] at hsec
        change sec ∈ r0.lanesections at hsec
        rw [List.mem_append, List.mem_append, List.mem_singleton, or_right_comm, ← List.mem_append] at hx
        rcases hx with hx | rfl
        · obtain ⟨j, hj⟩ := List.mem_iff_getElem?.mp hsec
          obtain ⟨i, hi⟩ := laneOf_of_mem hj hx
          obtain ⟨lc, -, b2⟩ := hb.lane _ x hi
          intro l hl
          rw [b2] at hl
          simp only [withLinks, LaneCall.placed, Lane.setLaneId, LaneCall.lane_links, List.nil_append] at hl
          obtain ⟨p, -, hl⟩ := List.mem_flatMap.mp hl
          rw [List.mem_append] at hl
          rcases hl with hl | hl <;> split at hl <;> first | cases hl; done | skip
          · rw [List.mem_singleton] at hl; exact ⟨_, by rw [hl]; rfl⟩
          · rw [List.mem_singleton] at hl; exact ⟨_, by rw [hl]; rfl⟩
        · intro l hl
          rw [hb.center _ hsec] at hl
          simp [LaneCall.placed, Lane.setLaneId, LaneCall.lane_links] at hl
      change l ∈ (w'.lanes.cell x).links at hl
      rw [hlanes, hcell] at hl
      change l ∈ (st'.lanes.cell x).links ++ new at hl
      have hid : ∃ i, l.elementId = .str (strInt i) := by
        rcases List.mem_append.mp hl with hl | hl
        · exact hinner l hl
        · exact dueAt_int (hp.mem_iff.mp hl)
      obtain ⟨i, hi⟩ := hid
      rw [hi] at hs
      obtain rfl := List.mem_singleton.mp hs
      exact printable_strInt i
  · obtain ⟨x, hx, hs⟩ := List.mem_flatMap.mp hs
    change x ∈ js at hx
    obtain ⟨m, hm'⟩ := List.mem_iff_getElem?.mp hx
    obtain ⟨hlt, rfl⟩ := List.getElem?_eq_some_iff.mp hm'
    have hlen := hm.length_eq
    have hlt0 : m < js0.length := by omega
    have hx := hm.get hlt0 hlt
    have hj0 := List.getElem_mem hlt0
    have hj := hj _ hj0
    simp only [List.get_eq_getElem] at hx
    generalize js[m] = x at hx hs
    generalize js0[m] = j at hx hj hj0
    cases j with
    | create j => exact .inr (h.created_texts hj hx hs)
    | drawn j =>
      obtain rfl : x = j.make := hx
      obtain ⟨m1, m2, m3⟩ := j.make_eq
      refine .inl ?_
      simp only [junctionTexts, m1, idTexts_int m2, m3, List.append_nil, List.mem_append, List.mem_singleton] at hs
      rcases hs with rfl | hs
      · exact List.mem_cons_of_mem _ (List.mem_cons_of_mem _ (List.mem_flatMap.mpr ⟨_, hj0, by simp [AnyJunction.texts]⟩))
      · obtain ⟨cn, hcn, hs⟩ := List.mem_flatMap.mp hs
        obtain ⟨i, hi, rfl⟩ := List.mem_mapIdx.mp hcn
        rw [ConnectionCall.make_eq] at hs
        unfold Connection.setId at hs
        split at hs <;> cases hs

end

end Pyodrx
