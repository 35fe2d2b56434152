import Verif.Proofs.ProgramRun

/-! # The document of a program that fits together -/

namespace Pyodrx
open Spec Props

section
variable {c d : RoadCall ℝ} {a b : RRoad ℝ}

theorem mem_lane_ids {nl nr : Nat} {i : Int} : i ∈ (List.range nl).map (fun m : Nat => (m : Int) + 1) ++
    (List.range nr).map (fun m : Nat => -((m : Int) + 1)) ↔ 0 < i ∧ i ≤ nl ∨ i < 0 ∧ -i ≤ nr := by
  simp only [List.mem_append, List.mem_map, List.mem_range]
  constructor
  · rintro (⟨m, hm, rfl⟩ | ⟨m, hm, rfl⟩) <;> omega
  · rintro (⟨h1, h2⟩ | ⟨h1, h2⟩)
    · exact .inl ⟨(i - 1).toNat, by omega, by omega⟩
    · exact .inr ⟨(-i - 1).toNat, by omega, by omega⟩

theorem shape_len (k : RCurve ℝ) (u : ℝ) : (k.shape u).len = u := by cases k <;> rfl

theorem chained_length {l : List (RGeometry ℝ)} : ∀ {s u : ℝ} {p q : Pose ℝ}, Chained s p l u q →
    u = s + (l.map fun g => g.length).sum := by
  induction l with
  | nil => intro s u p q h; simp [h.1]
  | cons g l ih =>
    intro s u p q h
    rw [ih h.2.2, List.map_cons, List.sum_cons]
    ring

theorem _root_.Pyodrx.Spec.ShowsRoad.length (h : ShowsRoad c a) : a.length = c.length := by
  obtain ⟨p, q, hc⟩ := h.oneLine
  rw [chained_length hc, zero_add, RoadCall.length]
  have := congrArg (List.map fun o : Option Shape => (o.map Shape.len).getD 0) h.curves
  simp only [List.map_map, Function.comp_def, Option.map_some, Option.getD_some, shape_len] at this
  rw [this]

theorem _root_.Pyodrx.Spec.ShowsRoad.stationAt (h : ShowsRoad c a) (e : ContactPoint) : a.stationAt e = c.stationAt e := by
  cases e
  · rfl
  · exact h.length

theorem _root_.Pyodrx.Spec.ShowsRoad.sectionAt (h : ShowsRoad c a) (e : ContactPoint) :
    a.sectionAt e = none ∧ c.sectionAt e = none ∨ ∃ s x, a.sectionAt e = some x ∧ c.sectionAt e = some s ∧
      ShowsSection c.center s x := by
  have hlen := h.sections.length_eq
  have key : ∃ j : Nat, a.sectionAt e = a.sections[j]? ∧ c.sectionAt e = c.sections[j]? := by
    cases e
    · exact ⟨0, List.head?_eq_getElem?, List.head?_eq_getElem?⟩
    · refine ⟨c.sections.length - 1, ?_, List.getLast?_eq_getElem?⟩
      rw [hlen]
      exact List.getLast?_eq_getElem?
  obtain ⟨j, h1, h2⟩ := key
  rw [h1, h2]
  by_cases hj : j < c.sections.length
  · have hj' : j < a.sections.length := by omega
    exact .inr ⟨_, _, List.getElem?_eq_getElem hj', List.getElem?_eq_getElem hj, h.sections.get hj hj'⟩
  · exact .inl ⟨List.getElem?_eq_none (by omega), List.getElem?_eq_none (by omega)⟩

theorem _root_.Pyodrx.Spec.ShowsLane.widthAt {k : LaneCall ℝ} {l : RLane ℝ} (h : ShowsLane k l) (u : ℝ) : l.widthAt u = k.widthAt u := by
  obtain ⟨h1, h2, h3, h4, h5⟩ := h.width
  rw [RLane.widthAt, LaneCall.widthAt, h1, h2, h3, h4, h5]

/-- The lanes of a section of the document. -/
theorem _root_.Pyodrx.Spec.ShowsSection.lane {k : LaneCall ℝ} {s : SectionCall ℝ} {x : RSection ℝ} (h : ShowsSection k s x) :
    (∀ l ∈ x.left ++ x.right, ∃ lc, s.lane l.id = some lc ∧ ShowsLane lc l) ∧
    ∀ i lc, s.lane i = some lc → ∃ l ∈ x.left ++ x.right, l.id = i ∧ ShowsLane lc l := by
  have hl := h.left.length_eq
  have hr := h.right.length_eq
  have idl : ∀ (m : Nat) (hm : m < x.left.length), x.left[m].id = (m : Int) + 1 := by
    intro m hm
    have := congrArg (fun l => l[m]?) h.leftIds
    simpa [hm, hl] using this
  have idr : ∀ (m : Nat) (hm : m < x.right.length), x.right[m].id = -((m : Int) + 1) := by
    intro m hm
    have := congrArg (fun l => l[m]?) h.rightIds
    simpa [hm, hr] using this
  constructor
  · intro l hmem
    rcases List.mem_append.mp hmem with hmem | hmem
    · obtain ⟨m, hm, rfl⟩ := List.mem_iff_getElem.mp hmem
      have hm' : m < s.left.length := by omega
      refine ⟨s.left[m], ?_, h.left.get hm' hm⟩
      rw [idl m hm, SectionCall.lane, if_pos (by omega), ← List.getElem?_eq_getElem hm']
      congr 1
      omega
    · obtain ⟨m, hm, rfl⟩ := List.mem_iff_getElem.mp hmem
      have hm' : m < s.right.length := by omega
      refine ⟨s.right[m], ?_, h.right.get hm' hm⟩
      rw [idr m hm, SectionCall.lane, if_neg (by omega), if_pos (by omega), ← List.getElem?_eq_getElem hm']
      congr 1
      omega
  · intro i lc hlc
    unfold SectionCall.lane at hlc
    split at hlc
    · obtain ⟨hm, rfl⟩ := List.getElem?_eq_some_iff.mp hlc
      have hm' : (i - 1).toNat < x.left.length := by omega
      exact ⟨x.left[(i - 1).toNat], List.mem_append_left _ (List.getElem_mem _), by rw [idl _ hm']; omega, h.left.get hm hm'⟩
    · split at hlc
      · obtain ⟨hm, rfl⟩ := List.getElem?_eq_some_iff.mp hlc
        have hm' : (-i - 1).toNat < x.right.length := by omega
        exact ⟨x.right[(-i - 1).toNat], List.mem_append_right _ (List.getElem_mem _), by rw [idr _ hm']; omega, h.right.get hm hm'⟩
      · cases hlc

/-- The document shows the lanes, at each end, with the widths that were ordered. -/
theorem _root_.Pyodrx.Spec.ShowsRoad.hasLane (h : ShowsRoad c a) {e : ContactPoint} {i : Int} {w : ℝ} :
    a.HasLane e i w ↔ c.HasLane e i w := by
  rcases h.sectionAt e with ⟨h1, h2⟩ | ⟨s, x, h1, h2, h3⟩
  · simp [RRoad.HasLane, RoadCall.HasLane, h1, h2]
  · have hst : a.stationAt e - x.s = c.stationAt e - s.s := by rw [h.stationAt, h3.s]
    constructor
    · rintro ⟨x', q1, l, q2, rfl, rfl⟩
      rw [h1] at q1; cases q1
      obtain ⟨lc, q3, q4⟩ := h3.lane.1 l q2
      exact ⟨s, lc, h2, q3, by rw [q4.widthAt, hst]⟩
    · rintro ⟨s', lc, q1, q2, rfl⟩
      rw [h2] at q1; cases q1
      obtain ⟨l, q3, q4, q5⟩ := h3.lane.2 i lc q2
      exact ⟨x, h1, l, q3, q4, by rw [q5.widthAt, hst]⟩

theorem linkTag_injective {e e' : ContactPoint} (h : linkTag e = linkTag e') : e = e' := by
  cases e <;> cases e' <;> first | rfl | (simp [linkTag] at h)

theorem _root_.Pyodrx.Spec.ShowsRoad.mem_links (h : ShowsRoad c a) {l : RLink} :
    l ∈ a.links ↔ ∃ e x, c.link e = some x ∧ l = x.shown e := by
  rw [h.links, List.mem_append, Option.mem_toList, Option.mem_toList, Option.map_eq_some_iff, Option.map_eq_some_iff]
  constructor
  · rintro (⟨x, h1, rfl⟩ | ⟨x, h1, rfl⟩)
    · exact ⟨.start, x, h1, rfl⟩
    · exact ⟨.end, x, h1, rfl⟩
  · rintro ⟨e, x, h1, rfl⟩
    cases e
    · exact .inl ⟨x, h1, rfl⟩
    · exact .inr ⟨x, h1, rfl⟩

theorem _root_.Pyodrx.Spec.ShowsRoad.names (ha : ShowsRoad c a) (hb : ShowsRoad d b) {e e' : ContactPoint} :
    a.Names e b e' ↔ ∃ n, c.Joins e d.id e' n := by
  constructor
  · rintro ⟨l, hl, h1, h2, h3, h4⟩
    obtain ⟨e2, x, hx, rfl⟩ := ha.mem_links.mp hl
    have := linkTag_injective h1
    subst this
    obtain ⟨t, k, cp, n⟩ := x
    have ht : t = .road := by
      cases t
      · rfl
      · exact absurd rfl h2
    have hk : k = d.id := strInt_injective (h3.trans hb.id)
    have hcp : cp = some e' := h4
    subst ht hk hcp
    exact ⟨n, hx⟩
  · rintro ⟨n, hn⟩
    exact ⟨_, ha.mem_links.mpr ⟨e, _, hn, rfl⟩, rfl, by simp [LinkCall.shown], by rw [hb.id]; rfl, rfl⟩

end

section
variable {calls : List (RoadCall ℝ)} {L : List (CallEnd × CallEnd)} {st st' : GenState ℝ} {roads : List (Road ℝ)}
  {w' : World ℝ} {name date : String} {so : SOState ℝ} {js : List Junction} {doc : RDocument ℝ}

/-- Links are due only for lanes of the sections at the ends of roads. -/
theorem dueAt_lane {roads : Dict (Road ℝ)} {lanes : Store (Lane ℝ)} {x : Nat} {l : Link} (h : l ∈ dueAt roads lanes x) :
    ∃ k r e s, roads.get? k = some r ∧ Spec.sectionAt r e = some s ∧ x ∈ s.left ++ s.right := by
  obtain ⟨k, hk, hl⟩ := List.mem_flatMap.mp h
  split at hl
  · rename_i a b ha hb
    obtain ⟨⟨y, m⟩, hy, rfl⟩ := List.mem_map.mp hl
    obtain ⟨hy', hx⟩ := List.mem_filter.mp hy
    have hx : y = x := by simpa using hx
    subst hx
    rcases mem_dueLinks hy' with ⟨-, -, -, ⟨-, s, s1, s2⟩ | ⟨-, s, s1, s2⟩⟩ | ⟨-, -, e, lk, s, -, -, -, s1, s2⟩
    · exact ⟨_, _, _, s, ha, s1, s2⟩
    · exact ⟨_, _, _, s, hb, s1, s2⟩
    · exact ⟨_, _, _, s, ha, s1, s2⟩
  · cases hl

/-- The run of a program together with its document. -/
structure Finished (calls : List (RoadCall ℝ)) (L : List (CallEnd × CallEnd)) (st st' : GenState ℝ) (roads : List (Road ℝ))
    (w' : World ℝ) (name date : String) (so : SOState ℝ) (js : List Junction) (doc : RDocument ℝ) : Prop where
  prepared : Prepared calls st st' roads
  sound : Sound calls L
  cells : ∀ x, ∃ new, w'.lanes.cell x = { st'.lanes.cell x with links := (st'.lanes.cell x).links ++ new }
  written : Written ⟨netOf roads st', st'.lanes⟩ w' (piecesOf (netOf roads st')) ⟨name, w'.net.roads, js⟩
        ⟨w'.net.geoms, w'.lanes, so⟩ date doc

theorem shown_road (h : Finished calls L st st' roads w' name date so js doc) {c : RoadCall ℝ} (hc : c ∈ calls)
    {r : Road ℝ} (hr : w'.net.roads.get? (strInt c.id) = some r) {gs : List (RGeometry ℝ)}
    (hgs : readPlanView (r.planview.getElement w'.net.geoms) = some gs) :
    ShowsRoad c (shownRoad ⟨w'.net.geoms, w'.lanes, so⟩ r gs) := by
  have hd := h.prepared.drawn h.sound
  have hadj := adjustRoadsAndLanes_net h.written.run
  obtain ⟨r0, h0, e, -, h1⟩ := hd.read_shapes hadj hr
  obtain ⟨c', hc', hid, hb⟩ := h.prepared.get h.sound h0
  obtain rfl := h.sound.same hc hc' (strInt_injective hid)
  obtain ⟨q1, q2, p0, q, q3, q4, q5⟩ := h1 gs hgs
  have hsec : r.lanesections = r0.lanesections := by rw [e]
  refine ⟨?_, ?_, ?_, ⟨p0, q, q5⟩, ?_, ?_⟩
  · show r.id.toStr = _
    rw [e]
    show r0.id.toStr = _
    rw [hb.id]; rfl
  · show r.roadType = _
    rw [e]; exact hb.type
  · show (gs.map fun g => some (g.curve.shape g.length)) = _
    obtain ⟨refs, e1, e2, -⟩ := hb.plan
    have hp : piecesOf (netOf roads st') (strInt c.id) = refs.map fun g =>
        ⟨g, (shapeOf (st'.geoms.cell g)).getD (.ofHeading (fun _ => 0) 0), none⟩ := by
      rw [piecesOf, h0]
      simp only [e1]; rfl
    have : (gs.map fun g => some (g.curve.shape g.length)) = (gs.map fun g => g.curve.shape g.length).map some := by
      simp [Function.comp_def]
    rw [this, q1, hp, ← e2]
    simp only [List.map_map]
    refine List.map_congr_left fun g hg => ?_
    have hmem : st'.geoms.cell g ∈ c.geometry := by rw [← e2]; exact List.mem_map_of_mem hg
    obtain ⟨s, hsh⟩ := Option.isSome_iff_exists.mp ((h.sound.geometry c hc).2 _ hmem).2.1
    simp [Function.comp_def, hsh]
  · show shownLinks r.links = _
    have hl : r.links = r0.links := by rw [e]
    rw [hl, hb.links, hb.link, hb.link]
    cases h1 : c.link .start <;> cases h2 : c.link .end <;>
      simp only [RoadCall.link] at h1 h2 <;>
      simp [h1, h2, shownLinks, shownLink, LinkCall.toLink, LinkCall.shown, kindAt, LinkKind.text, linkTag, PyId.toStr]
  · show List.Forall₂ _ _ (r.lanesections.map (shownSection w'.lanes))
    rw [hsec, List.forall₂_map_right_iff, List.forall₂_iff_get]
    refine ⟨hb.shape.length_eq, fun j h1 h2 => ?_⟩
    obtain ⟨f1, f2, f3⟩ := hb.shape.get h1 h2
    simp only [List.get_eq_getElem] at f1 f2 f3 ⊢
    have hj : r0.lanesections[j]? = some r0.lanesections[j] := List.getElem?_eq_getElem h2
    have hmem := List.getElem_mem h2
    generalize r0.lanesections[j] = sec at hj hmem f1 f2 f3 ⊢
    have hsj : c.sections[j]? = some c.sections[j] := List.getElem?_eq_getElem h1
    generalize c.sections[j] = s at hsj f1 f2 f3 ⊢
    obtain ⟨n1, n2⟩ := hb.numbered hmem
    have shows : ∀ {l : LaneCall ℝ} {x : Nat} {i : Int} {new : List Link}, st'.lanes.cell x = withLinks (l.placed i) new →
        ∀ id, ShowsLane l (shownLane (w'.lanes.cell x) id) := by
      intro l x i new hx id
      obtain ⟨new', hn⟩ := h.cells x
      rw [hn, hx]
      have : ∀ l : LaneCall ℝ, l.lane.laneType = l.type ∧ l.lane.a = l.a ∧ l.lane.b = l.b ∧ l.lane.c = l.c ∧ l.lane.d = l.d ∧
          l.lane.soffset = l.soffset ∧ l.lane.roadmark = l.mark := by
        intro l
        unfold LaneCall.lane
        split
        · rename_i hm; rw [hm]; exact ⟨rfl, rfl, rfl, rfl, rfl, rfl, rfl⟩
        · rename_i m hm; rw [hm]; exact ⟨rfl, rfl, rfl, rfl, rfl, rfl, rfl⟩
      obtain ⟨t1, t2, t3, t4, t5, t6, t7⟩ := this l
      exact ⟨t1, ⟨t2, t3, t4, t5, t6⟩, congrArg (Option.map shownMark) t7⟩
    have idOf : ∀ x, (w'.lanes.cell x).laneId = (st'.lanes.cell x).laneId := by
      intro x
      obtain ⟨new', hn⟩ := h.cells x
      rw [hn]
    have laneAt : ∀ i x, sectionLane sec i = some x → ∃ l, s.lane i = some l ∧ ∀ id, ShowsLane l (shownLane (w'.lanes.cell x) id) := by
      intro i x hx
      obtain ⟨l, l1, l2⟩ := hb.lane (j, i) x (by rw [laneOf_eq, hj]; exact hx)
      refine ⟨l, ?_, shows l2⟩
      rw [RoadCall.lane, hsj] at l1
      exact l1
    refine ⟨f1, ?_, ?_, ?_, ?_, ?_⟩
    · show List.Forall₂ _ _ (shownLanes w'.lanes sec.left)
      unfold shownLanes
      rw [List.forall₂_map_right_iff, List.forall₂_iff_get]
      refine ⟨f2.symm, fun m g1 g2 => ?_⟩
      obtain ⟨l, l1, l2⟩ := laneAt ((m : Int) + 1) sec.left[m] (by
        rw [sectionLane, if_pos (by omega), ← List.getElem?_eq_getElem g2]
        congr 1
        omega)
      rw [SectionCall.lane, if_pos (by omega), show ((m : Int) + 1 - 1).toNat = m by omega, List.getElem?_eq_getElem g1] at l1
      cases l1
      exact l2 _
    · show List.Forall₂ _ _ (shownLanes w'.lanes sec.right)
      unfold shownLanes
      rw [List.forall₂_map_right_iff, List.forall₂_iff_get]
      refine ⟨f3.symm, fun m g1 g2 => ?_⟩
      obtain ⟨l, l1, l2⟩ := laneAt (-((m : Int) + 1)) sec.right[m] (by
        rw [sectionLane, if_neg (by omega), if_pos (by omega), ← List.getElem?_eq_getElem g2]
        congr 1
        omega)
      rw [SectionCall.lane, if_neg (by omega), if_pos (by omega), show (-(-((m : Int) + 1)) - 1).toNat = m by omega,
        List.getElem?_eq_getElem g1] at l1
      cases l1
      exact l2 _
    · apply List.ext_getElem (by simp [shownSection, shownLanes, f2])
      intro i h1 h2
      have hi : i < sec.left.length := by simpa [shownSection, shownLanes] using h1
      have := n1 i sec.left[i] (List.getElem?_eq_getElem hi)
      simp [shownSection, shownLanes, shownLane, idOf, this]
    · apply List.ext_getElem (by simp [shownSection, shownLanes, f3])
      intro i h1 h2
      have hi : i < sec.right.length := by simpa [shownSection, shownLanes] using h1
      have := n2 i sec.right[i] (List.getElem?_eq_getElem hi)
      simp [shownSection, shownLanes, shownLane, idOf, this]
    · have hcen : st'.lanes.cell sec.center = withLinks (c.center.placed 0) [] := by
        rw [withLinks_nil]; exact hb.center sec hmem
      refine ⟨shownLane (w'.lanes.cell sec.center) ((w'.lanes.cell sec.center).laneId.getD 0), rfl, ?_, ?_, shows hcen _⟩
      · simp [shownLane, idOf, hcen, withLinks, LaneCall.placed, Lane.setLaneId]
      · obtain ⟨new, t1, t2, -⟩ := h.written.cell sec.center
        have hnew : new = [] := by
          rw [List.eq_nil_iff_forall_not_mem]
          intro l hl
          obtain ⟨k, r', e', s', u1, u2, u3⟩ := dueAt_lane (t2.mem_iff.mp hl)
          obtain ⟨c', hc', -, hb'⟩ := h.prepared.get h.sound u1
          have hs' : s' ∈ r'.lanesections := by
            cases e'
            · exact List.mem_of_head? u2
            · exact List.mem_of_getLast? u2
          obtain ⟨jj, hjj⟩ := List.mem_iff_getElem?.mp hs'
          obtain ⟨i, hi⟩ := laneOf_of_mem hjj u3
          obtain ⟨lc, l1, l2⟩ := hb'.lane _ _ hi
          rw [hcen] at l2
          have : (0 : Int) = i := Option.some.inj (congrArg Lane.laneId l2)
          subst this
          rw [laneOf_eq, hjj] at hi
          simp [sectionLane] at hi
        show shownLinks (w'.lanes.cell sec.center).links = []
        rw [t1, hnew]
        show shownLinks ((st'.lanes.cell sec.center).links ++ []) = []
        rw [hcen, List.append_nil]
        simp [withLinks, LaneCall.placed, Lane.setLaneId, LaneCall.lane_links, shownLinks]

theorem Finished.shown (h : Finished calls L st st' roads w' name date so js doc) :
    List.Forall₂ ShowsRoad calls doc.roads ∧ ∀ c ∈ calls, ∀ a ∈ doc.roads, a.id = strInt c.id → Begins calls c.id →
      a.poseAt .start = some (c.start.getD ⟨0, 0, 0⟩) := by
  have hd := h.prepared.drawn h.sound
  have hadj := adjustRoadsAndLanes_net h.written.run
  have hkeys : w'.net.roads.keys = (calls.map (·.id)).map strInt :=
    (C18_placed_once _ w'.net hd.nodup hd.fresh hadj).1.trans (h.prepared.keys h.sound)
  have hnd : w'.net.roads.keys.Nodup := by rw [hkeys]; exact h.sound.ids.map strInt_injective
  obtain ⟨element, he, hdoc⟩ := h.written.read
  obtain ⟨gs, hgs, rfl⟩ := document_read he h.written.good hdoc
  have hk : w'.net.roads.map (·.1) = calls.map fun c => strInt c.id := by
    have := hkeys
    rw [Dict.keys] at this
    rw [this, List.map_map]; rfl
  have hlen : w'.net.roads.length = calls.length := by simpa using congrArg List.length hk
  have hi : ∀ (i : Nat) (h1 : i < calls.length) (h2 : i < w'.net.roads.length),
      w'.net.roads.get? (strInt calls[i].id) = some w'.net.roads[i].2 := by
    intro i h1 h2
    have : w'.net.roads[i].1 = strInt calls[i].id := by
      have := congrArg (fun l => l[i]?) hk
      simpa [h1, h2] using this
    rw [← this]
    exact Dict.mem_get? hnd (List.getElem_mem h2)
  constructor
  · rw [List.forall₂_iff_get]
    refine ⟨by simp [hlen], fun i h1 h2 => ?_⟩
    have h3 : i < w'.net.roads.length := by omega
    simp only [List.get_eq_getElem, List.getElem_map]
    exact shown_road h (List.getElem_mem h1) (hi i h1 h3) (hgs _ (List.getElem_mem h3))
  · intro c hc a ha hid hB
    obtain ⟨kv, hkv, rfl⟩ := List.mem_map.mp ha
    obtain ⟨i, h2, rfl⟩ := List.mem_iff_getElem.mp hkv
    have h1 : i < calls.length := by rw [← hlen]; exact h2
    have hget := hi i h1 h2
    obtain rfl : calls[i] = c := by
      refine h.sound.same (List.getElem_mem h1) hc (strInt_injective ?_)
      rw [← hid]
      exact (shown_road h (List.getElem_mem h1) hget (hgs _ hkv)).id.symm
    rw [hd.pose hadj (hp := ⟨w'.net.geoms, w'.lanes, so⟩) rfl hgs hget .start]
    have hA : Anchor (netOf roads st').roads (strInt calls[i].id) := (h.prepared.anchor h.sound _).mpr hB
    obtain ⟨r, hr, hb⟩ := h.prepared.find h.sound hc
    obtain ⟨g, s, k1, k2⟩ := startpoints_anchor hd.nodup hd.fresh hadj hA hr
    rw [hget] at k2
    injection k2 with k2
    rw [k2]
    show s.pv.start = _
    rw [(adjustGeometries_gen k1).start]
    obtain ⟨refs, e1, -⟩ := hb.plan
    simp [e1, startView]

theorem Finished.call (h : Finished calls L st st' roads w' name date so js doc) {a : RRoad ℝ} (ha : a ∈ doc.roads) :
    ∃ c ∈ calls, ShowsRoad c a := by
  obtain ⟨i, hi⟩ := List.mem_iff_getElem?.mp ha
  have h2 := h.shown.1
  have hlen := h2.length_eq
  obtain ⟨hi', rfl⟩ := List.getElem?_eq_some_iff.mp hi
  exact ⟨_, List.getElem_mem _, h2.get (i := i) (by omega) hi'⟩

theorem Finished.same (h : Finished calls L st st' roads w' name date so js doc) {c : RoadCall ℝ} (hc : c ∈ calls)
    {a : RRoad ℝ} (ha : a ∈ doc.roads) (hid : a.id = strInt c.id) : ShowsRoad c a := by
  obtain ⟨c', hc', hs⟩ := h.call ha
  rwa [h.sound.same hc hc' (strInt_injective (hid.symm.trans hs.id))]

theorem Finished.offset (h : Finished calls L st st' roads w' name date so js doc) {c : RoadCall ℝ} (hc : c ∈ calls)
    (e : ContactPoint) : declaredOffset (netOf roads st').roads (strInt c.id) e = c.offsetAt e := by
  obtain ⟨r, hr, hb⟩ := h.prepared.find h.sound hc
  rw [declaredOffset, hr]
  exact hb.offset e

theorem _root_.Pyodrx.Spec.Sound.normal_offset (hs : Sound calls L) {c : RoadCall ℝ} (hc : c ∈ calls) (ht : c.roadType = -1)
    (e : ContactPoint) : c.offsetAt e = 0 := by
  rw [RoadCall.offsetAt]
  cases hl : c.link e with
  | none => rfl
  | some l => exact (hs.normal c hc ht e l hl).1

theorem Joins.offset {c : RoadCall ℝ} {e e' : ContactPoint} {k n : Int} (h : c.Joins e k e' n) : c.offsetAt e = n := by
  have h : c.link e = _ := h
  rw [RoadCall.offsetAt, h]; rfl

/-- The other road at a joint is a normal one. -/
theorem _root_.Pyodrx.Spec.Sound.other (hs : Sound calls L) {c d : RoadCall ℝ} (hc : c ∈ calls) (hd : d ∈ calls)
    {e e' : ContactPoint} {n : Int} (h : c.Joins e d.id e' n) : d.roadType = -1 := by
  by_cases ht : c.roadType = -1
  · exact (hs.normal c hc ht e _ h).2 rfl d hd rfl
  · exact (hs.lanes c hc ht e _ e' n h d hd rfl).1

/-- The entry of a road in the list of joints is unique. -/
theorem _root_.Pyodrx.Spec.Sound.entry (hs : Sound calls L) {x y : CallEnd × CallEnd} (hx : x ∈ L) (hy : y ∈ L)
    (h : x.1.1 = y.1.1) : x = y := List.inj_on_of_nodup_map hs.once hx hy h

/-- The joints lead outwards: in no direction back. -/
theorem _root_.Pyodrx.Spec.Sound.one_way (hs : Sound calls L) {k k' : Int} {e e' f f' : ContactPoint}
    (h : ((k, e), (k', e')) ∈ L) (h' : ((k', f), (k, f')) ∈ L) : False := by
  have pos : ∀ (i : Nat) (x y : CallEnd × CallEnd), L[i]? = some x → y ∈ L → y.1.1 = x.2.1 → ∃ j, j < i ∧ L[j]? = some y := by
    intro i x y hi hy hxy
    rcases hs.outwards i x.1 x.2 hi with hh | ⟨j, hj, z, hz, hz'⟩
    · exfalso
      have h1 := (hs.all _).mp (List.mem_map_of_mem hy)
      rw [hxy] at h1
      exact h1.2 hh
    · obtain rfl := hs.entry hy (List.mem_of_getElem? hz) (hxy.trans hz'.symm)
      exact ⟨j, hj, hz⟩
  obtain ⟨i, hi⟩ := List.mem_iff_getElem?.mp h
  obtain ⟨j, hj, hj'⟩ := pos i _ _ hi h' rfl
  obtain ⟨m, hm, hm'⟩ := pos j _ _ hj' h rfl
  have hnd : (L.map (·.1.1)).Nodup := hs.once
  have hnd' : L.Nodup := List.Nodup.of_map _ hnd
  have : i = m := by
    obtain ⟨i1, i2⟩ := List.getElem?_eq_some_iff.mp hi
    obtain ⟨m1, m2⟩ := List.getElem?_eq_some_iff.mp hm'
    exact (List.Nodup.getElem_inj_iff hnd').mp (i2.trans m2.symm)
  omega

theorem Finished.tree_meets (h : Finished calls L st st' roads w' name date so js doc) {c d : RoadCall ℝ} (hc : c ∈ calls)
    {a b : RRoad ℝ} (ha : a ∈ doc.roads) (hb : b ∈ doc.roads) (sa : ShowsRoad c a)
    (sb : ShowsRoad d b) {e e' : ContactPoint} (hl : ((c.id, e), (d.id, e')) ∈ L) : ∃ p q, a.poseAt e = some p ∧
      b.poseAt e' = some q ∧ Meets (c.offsetAt e) e p e' q := by
  obtain ⟨element, he, hdoc⟩ := h.written.read
  obtain ⟨-, p, q, h1, h2, h3⟩ := C75_document _ w' _ (h.prepared.drawn h.sound) (keyed L) (h.prepared.tree h.sound)
    h.written.run _ _ date h.written.roads h.written.geoms h.written.good element he doc hdoc a ha b hb e e' (by
      rw [sa.id, sb.id]; exact mem_keyed.mpr hl)
  refine ⟨p, q, h1, h2, ?_⟩
  rw [sa.id] at h3
  rwa [← h.offset hc]

theorem Finished.meets (h : Finished calls L st st' roads w' name date so js doc) {c d : RoadCall ℝ} (hc : c ∈ calls)
    (hd : d ∈ calls) {a b : RRoad ℝ} (ha : a ∈ doc.roads) (hb : b ∈ doc.roads) (sa : ShowsRoad c a)
    (sb : ShowsRoad d b) {e e' : ContactPoint} {n : Int} (hj : c.Joins e d.id e' n) : ∃ p q, a.poseAt e = some p ∧
      b.poseAt e' = some q ∧ Meets n e p e' q := by
  have hs := h.sound
  have hoff := Joins.offset hj
  rcases hs.complete c hc e _ e' n hj with hl | hl
  · rw [← hoff]
    exact h.tree_meets hc ha hb sa sb hl
  · obtain ⟨q, p, h1, h2, h3⟩ := h.tree_meets hd hb ha sb sa hl
    rw [hs.normal_offset hd (hs.other hc hd hj)] at h3
    have hn : n = 0 := by
      by_contra hn
      have ht : c.roadType ≠ -1 := by
        intro ht
        exact hn (hoff ▸ hs.normal_offset hc ht e)
      have hl' := (hs.offset c hc ht e _ e' n hj hn).2.2.2
      exact hs.one_way hl hl'
    subst hn
    exact ⟨p, q, h2, h1, meets_zero_symm h3⟩

theorem _root_.Pyodrx.Spec.Sound.no_self (hs : Sound calls L) {c : RoadCall ℝ} (hc : c ∈ calls) {e e' : ContactPoint} {n : Int}
    (h : c.Joins e c.id e' n) : False := by
  rcases hs.complete c hc e _ e' n h with hl | hl <;> exact hs.one_way hl hl

/-- The lanes at a joint of lanes: the target exists. -/
theorem _root_.Pyodrx.Spec.Sound.target (hs : Sound calls L) {c d : RoadCall ℝ} (hc : c ∈ calls) (hd : d ∈ calls)
    {e e' : ContactPoint} {n : Int} (h : LanesJoin c e d e' n) {i : Int} {w : ℝ} (hi : c.HasLane e i w) :
    ∃ w', d.HasLane e' (turnSign e e' * i + n) w' ∧ (n = 0 → w' = w) := by
  obtain ⟨hj, hcase⟩ := h
  by_cases ht : c.roadType = -1
  · obtain ⟨td, hne, m, hm⟩ := hcase.resolve_left (fun h => h ht)
    have hn : n = 0 := (hs.normal c hc ht e _ hj).1
    subst hn
    have eq : d.HasLane e' i w := by
      cases e <;> cases e' <;> first | exact absurd rfl hne | skip
      · obtain ⟨-, -, h1, -⟩ := hs.joint d hd c hc _ _ _ _ td ht hm hj
        exact (h1 i w).mpr hi
      · obtain ⟨-, -, h1, -⟩ := hs.joint c hc d hd _ _ _ _ ht td hj hm
        exact (h1 i w).mp hi
    refine ⟨w, ?_, fun _ => rfl⟩
    rw [turnSign, if_neg hne]
    simpa using eq
  · exact ((hs.lanes c hc ht e _ e' n hj d hd rfl).2 i w hi).2

theorem Finished.touch (h : Finished calls L st st' roads w' name date so js doc) {c d : RoadCall ℝ} (hc : c ∈ calls)
    (hd : d ∈ calls) {a b : RRoad ℝ} (ha : a ∈ doc.roads) (hb : b ∈ doc.roads) (sa : ShowsRoad c a)
    (sb : ShowsRoad d b) {e e' : ContactPoint} {n : Int} (hj : LanesJoin c e d e' n) {i : Int} {w : ℝ} (hi : c.HasLane e i w) :
    Touch a e i b e' (turnSign e e' * i + n) := by
  obtain ⟨p, q, hp, hq, hm⟩ := h.meets hc hd ha hb sa sb hj.1
  by_cases hn : n = 0
  · subst hn
    rw [add_zero]
    refine touch_of_meets hp hq hm (h.written.counted ha e) (h.written.counted hb e') ?_ (sa.hasLane.mpr hi)
    intro j v hv
    obtain ⟨v', h1, h2⟩ := h.sound.target hc hd hj (sa.hasLane.mp hv)
    rw [h2 rfl, add_zero] at h1
    exact sb.hasLane.mpr h1
  · have ht : c.roadType ≠ -1 := fun ht => hn (h.sound.normal c hc ht e _ hj.1).1
    obtain ⟨o1, o2, o3, -⟩ := h.sound.offset c hc ht e _ e' n hj.1 hn
    obtain ⟨w', hw', -⟩ := h.sound.target hc hd hj hi
    refine (touch_offset hp hq hm (h.written.counted ha e) (h.written.counted hb e') (w := 3) (by norm_num)
      (fun j v hv => (o2 j v (sa.hasLane.mp hv)).1) (fun j v hv => o3 d hd rfl j v (sb.hasLane.mp hv))
      (sa.hasLane.mpr hi)).mpr ⟨⟨w', sb.hasLane.mpr hw'⟩, .inr ⟨rfl, by rw [turnSign, if_neg o1], (o2 i w hi).2⟩⟩

theorem Finished.lanes (h : Finished calls L st st' roads w' name date so js doc) {c d : RoadCall ℝ} (hc : c ∈ calls)
    (hd : d ∈ calls) {a b : RRoad ℝ} (ha : a ∈ doc.roads) (hb : b ∈ doc.roads) (sa : ShowsRoad c a)
    (sb : ShowsRoad d b) {e e' : ContactPoint} {n : Int} (hj : LanesJoin c e d e' n) {s : RSection ℝ}
    (hs : a.sectionAt e = some s) {x : RLane ℝ} (hx : x ∈ s.left ++ s.right) :
    x.linksTo (linkTag e) = [readLaneLinkTo (linkTag e) (turnSign e e' * x.id + n)] := by
  obtain ⟨l, hl⟩ := C74_every_lane _ _ _ _ _ _ _ h.written a b ha hb e e' ((sa.names sb).mpr ⟨n, hj.1⟩) (by
    rcases hj.2 with h1 | ⟨h1, h2, h3⟩
    · exact .inl (by rw [sa.junction]; exact h1)
    · refine .inr ⟨by rw [sb.junction]; exact h1, (sb.names sa).mpr h3, h2, fun hid => ?_⟩
      rw [sa.id, sb.id] at hid
      obtain rfl := h.sound.same hc hd (strInt_injective hid)
      exact h.sound.no_self hc hj.1) s hs x hx
  have hmem : l ∈ x.links ∧ l.tag = linkTag e := by
    have : l ∈ x.links.filter (·.tag = linkTag e) := by rw [hl]; simp
    simpa using List.mem_filter.mp this
  obtain ⟨b2, e2', q3, q4, q5, -, q6⟩ := h.written.lane_link ha hs hx hmem.1 hmem.2
  obtain ⟨d2, hd2, sb2⟩ := h.call q3
  obtain ⟨n2, hj2⟩ := (sa.names sb2).mp q4
  have : c.link e = _ := hj2
  have e0 : c.link e = _ := hj.1
  rw [e0] at this
  simp only [Option.some.injEq, LinkCall.mk.injEq, true_and] at this
  obtain ⟨-, rfl, rfl⟩ := this
  have hshift : linkShift (netOf roads st').roads a e = n := by
    rw [linkShift, sa.junction, sa.id, h.offset hc, Joins.offset hj.1]
    split
    · rename_i ht
      exact ((h.sound.normal c hc ht e _ hj.1).1).symm
    · rfl
  rw [RLane.linksTo, hl, q6, q5, hshift]
  rfl

theorem shownLinks_inner (c : RoadCall ℝ) (n : LaneName) : shownLinks (innerOf c.laneLinks n) = c.innerLinks n := by
  have e1 : ∀ i, shownLinks [laneLink .successor i] = [readLaneLinkTo (linkTag .end) i] := fun _ => rfl
  have e2 : ∀ i, shownLinks [laneLink .predecessor i] = [readLaneLinkTo (linkTag .start) i] := fun _ => rfl
  have app : ∀ l m, shownLinks (l ++ m) = shownLinks l ++ shownLinks m := by simp [shownLinks]
  rw [innerOf, RoadCall.innerLinks]
  induction c.laneLinks with
  | nil => rfl
  | cons l ls ih =>
    rw [List.flatMap_cons, List.flatMap_cons, app, ih, app]
    congr 2
    · split
      · exact e1 _
      · rfl
    · split
      · exact e2 _
      · rfl

/-- What the document of a finished program shows. -/
theorem Finished.shows (h : Finished calls L st st' roads w' name date so js doc) : Shows calls L doc := by
  refine ⟨h.shown.1, h.shown.2, ?_, ?_, ?_⟩
  · intro c hc d hd a ha b hb ia ib e e' n hj
    exact h.meets hc hd ha hb (h.same hc ha ia) (h.same hd hb ib) hj
  · intro c hc d hd a ha b hb ia ib e e' n hj s hs x hx
    have sa := h.same hc ha ia
    have sb := h.same hd hb ib
    refine ⟨h.lanes hc hd ha hb sa sb hj hs hx, ?_⟩
    exact h.touch hc hd ha hb sa sb hj (sa.hasLane.mp ⟨s, hs, x, hx, rfl, rfl⟩)
  · intro c hc a ha ia j s hj x hx
    obtain ⟨gs, g1, g2⟩ := h.written.mem_roads
    obtain ⟨k, a', a0, ha', ha0, ea, rfl⟩ := g1 _ ha
    have hsecs : a'.lanesections = a0.lanesections := by rw [ea]
    have hj : (a'.lanesections.map (shownSection w'.lanes))[j]? = some s := hj
    rw [List.getElem?_map, Option.map_eq_some_iff] at hj
    obtain ⟨sec, hsec, rfl⟩ := hj
    rw [hsecs] at hsec
    have hx0 := hx
    obtain ⟨y, hy, rfl⟩ := mem_shownSection.mp hx
    obtain ⟨c', hc', hid, hb⟩ := h.prepared.get h.sound ha0
    have sa := h.same hc ha ia
    have hcc : c' = c := by
      refine h.sound.same hc' hc (strInt_injective ?_)
      rw [← ia]
      show _ = a'.id.toStr
      rw [ea]
      show _ = a0.id.toStr
      rw [hb.id]; rfl
    subst hcc
    obtain ⟨i, hi⟩ := laneOf_of_mem hsec hy
    obtain ⟨lc, -, hcell⟩ := hb.lane _ y hi
    obtain ⟨new, t1, t2, t3⟩ := h.written.cell y
    have t1 : w'.lanes.cell y = { st'.lanes.cell y with links := (st'.lanes.cell y).links ++ new } := t1
    have hidy : (w'.lanes.cell y).laneId.getD 0 = i := by rw [t1, hcell]; rfl
    have hlinks : (w'.lanes.cell y).links = innerOf c'.laneLinks (j, i) ++ new := by
      rw [t1, hcell]
      simp [withLinks, LaneCall.placed, Lane.setLaneId, LaneCall.lane_links]
    refine ⟨shownLinks new, ?_, ?_⟩
    · show shownLinks (w'.lanes.cell y).links = c'.innerLinks (j, (w'.lanes.cell y).laneId.getD 0) ++ _
      rw [hlinks, hidy, ← shownLinks_inner]
      simp [shownLinks]
    · intro l hl
      obtain ⟨m, hm, rfl⟩ := List.mem_map.mp hl
      have hm := (List.mem_filter.mp hm).1
      obtain ⟨e, q1, q2⟩ := h.written.new_link ha0 (List.mem_of_getElem? hsec) hy (t3 m hm)
      have hs : (shownRoad ⟨w'.net.geoms, w'.lanes, so⟩ a' (gs a')).sectionAt e = some (shownSection w'.lanes sec) := by
        rw [shown_sectionAt]
        have : Spec.sectionAt a' e = Spec.sectionAt a0 e := by cases e <;> simp [Spec.sectionAt, hsecs]
        rw [this, q1]; rfl
      have htag : (shownLink m).tag = linkTag e := by
        show m.kind.text = _
        rw [q2]; cases e <;> rfl
      obtain ⟨b, e', b1, b2, -, b4, -⟩ := h.written.lane_link ha hs hx0 (l := shownLink m) (by
        show shownLink m ∈ shownLinks (w'.lanes.cell y).links
        rw [hlinks]
        have : shownLinks (innerOf c'.laneLinks (j, i) ++ new) = shownLinks (innerOf c'.laneLinks (j, i)) ++ shownLinks new := by
          simp [shownLinks]
        rw [this]
        exact List.mem_append_right _ hl) htag
      obtain ⟨d, hd, sb⟩ := h.call b1
      obtain ⟨n, hn⟩ := (sa.names sb).mp b2
      refine ⟨d, hd, e, e', n, ?_, ⟨hn, ?_⟩, htag⟩
      · have hlen : (shownRoad ⟨w'.net.geoms, w'.lanes, so⟩ a' (gs a')).sections.length = a0.lanesections.length := by
          rw [← hsecs]; exact List.length_map _
        have hat : a0.lanesections[if e = .start then 0 else a0.lanesections.length - 1]? = some sec := by
          cases e
          · rw [if_pos rfl, ← List.head?_eq_getElem?]; exact q1
          · rw [if_neg (by decide), ← List.getLast?_eq_getElem?]; exact q1
        obtain ⟨i2, hi2⟩ := laneOf_of_mem hat hy
        rw [hlen]
        exact congrArg Prod.fst (hb.distinct _ _ _ hi hi2)
      rcases b4 with q6 | ⟨u1, u2, u3⟩
      · exact .inl (by rw [← sa.junction]; exact q6)
      · exact .inr ⟨by rw [← sb.junction]; exact u1, u2, (sb.names sa).mp u3⟩

end

end Pyodrx
