import Verif.Proofs.Touch
import Verif.Props.NetworkLinks
import Verif.Props.NoLoops

/-! # C74: linked lanes touch -/

namespace Pyodrx.Props
open Pyodrx Spec

variable {F : Type}

theorem directionSign_turnSign (e e' : ContactPoint) : directionSign e (some e') = turnSign e e' := by
  cases e <;> cases e' <;> rfl

/-- Lanes at the same place of numbered sections have the same number. -/
theorem same_number {lanes : Store (Lane F)} {s t : LaneSection F} (hs : Numbered lanes s) (ht : Numbered lanes t)
    {i x q : Nat} (h : s.left[i]? = some x ∧ t.left[i]? = some q ∨ s.right[i]? = some x ∧ t.right[i]? = some q) :
    (lanes.cell x).laneId = (lanes.cell q).laneId := by
  rcases h with ⟨h1, h2⟩ | ⟨h1, h2⟩
  · rw [hs.1 i x h1, ht.1 i q h2]
  · rw [hs.2 i x h1, ht.2 i q h2]

/-- Where the lane links of a network lead. -/
theorem lane_link_target [PyFloat F] {net net' : Net F} {lanes lanes' : Store (Lane F)}
    (h : Linked net net' lanes lanes') (hd : Directed net.roads)
    (hnum : ∀ k r s, net.roads.get? k = some r → s ∈ r.lanesections → Numbered lanes s)
    {ka : String} {a : Road F} (ha : net.roads.get? ka = some a) {sec : LaneSection F} (hsec : sec ∈ a.lanesections)
    {x : Nat} (hx : x ∈ sec.left ++ sec.right) {K : LinkKind} {l : Link} (hl : l ∈ newLinks lanes lanes' x K) :
    ∃ e kb b lk e' i, sectionAt a e = some sec ∧ net.roads.get? kb = some b ∧ linkAt a e = some lk ∧
      lk.elementId = b.id ∧ lk.elementType ≠ some .junction ∧ lk.contactPoint = some e' ∧
      (lanes.cell x).laneId = some i ∧
      l = laneLink (kindAt e) (turnSign e e' * i + if a.roadType = -1 then 0 else laneOffsetAt a e) ∧
      (a.roadType ≠ -1 ∨ b.roadType = -1 ∧ e ≠ e' ∧ ∃ m, linkAt b e' = some m ∧ m.elementType = some .road ∧
        m.elementId = a.id ∧ m.contactPoint = some e) := by
  obtain ⟨e, k1, k2, a', b, sec', rfl, hne, g1, g2, g3, g4, g5, g6⟩ :=
    C30_no_other_links net net' lanes lanes' h x K (List.ne_nil_of_mem hl)
  obtain ⟨i, hi⟩ := List.getElem?_of_mem hsec
  obtain ⟨rfl, hij⟩ := h.unshared.between _ _ _ _ i _ _ _ x ha g1 hi (sectionAt_index g4).2 hx g5
  rw [ha] at g1; cases g1
  have : sec = sec' := by
    have := (sectionAt_index g4).2
    rw [← hij, hi] at this
    exact Option.some.inj this
  subst this
  rcases g6 with ⟨t1, rfl, hf⟩ | ⟨t1, rfl, hf⟩ | ⟨t1, lk, hlk, hid⟩
  · obtain ⟨id, h1, h2⟩ := C30_successor_link net net' lanes lanes' h ka k2 a b hne ha g2 t1 g3 hf sec g4 x g5
    obtain ⟨lk, l1, l2, l3⟩ := hf.succ
    obtain ⟨sa, sb, last, hj, _⟩ := h.fit.joints ka k2 a b hne ha g2 t1 g3 hf
    rw [show kindAt .end = .successor from rfl, h2, List.mem_singleton] at hl
    obtain ⟨m, m1, m2, m3⟩ := hf.pred
    exact ⟨.end, k2, b, lk, .start, id, g4, g2, l1, l3, by rw [l2]; simp, hj.contact lk l1, h1, by
      rw [hl]; simp [kindAt, turnSign, t1], .inr ⟨g3, by simp, m, m1, m2, m3, hd.follows _ _ _ _ ha g2 t1 g3 hf m m1⟩⟩
  · obtain ⟨id, h1, h2⟩ := C30_predecessor_link net net' lanes lanes' h k2 ka b a (Ne.symm hne) g2 ha g3 t1 hf sec g4 x g5
    obtain ⟨lk, l1, l2, l3⟩ := hf.pred
    rw [show kindAt .start = .predecessor from rfl, h2, List.mem_singleton] at hl
    obtain ⟨m, m1, m2, m3⟩ := hf.succ
    obtain ⟨sa, sb, last, hj, _⟩ := h.fit.joints k2 ka b a (Ne.symm hne) g2 ha g3 t1 hf
    exact ⟨.start, k2, b, lk, .end, id, g4, g2, l1, l3, by rw [l2]; simp, hd.follows _ _ _ _ g2 ha g3 t1 hf lk l1, h1, by
      rw [hl]; simp [kindAt, turnSign, t1], .inr ⟨g3, by simp, m, m1, m2, m3, hj.contact m m1⟩⟩
  · obtain ⟨j1, e', j2⟩ := hd.connecting ka a e lk ha t1 hlk
    obtain ⟨cs, us, ts, e1, e2, e3, _⟩ := h.fit.lanes ka k2 a b e lk ha g2 t1 hlk hid
    rw [g4] at e1; cases e1
    obtain ⟨i, q, id, q1, q2, q3⟩ :=
      C30_connecting_link net net' lanes lanes' h ka k2 a b ha g2 t1 e lk hlk hid sec ts g4 e3 x hx
    have hx' : (lanes.cell x).laneId = some id := by
      rw [← q2]
      exact same_number (hnum ka a sec ha hsec) (hnum k2 b ts g2 (sectionAt_index e3).1) q1
    rw [q3, List.mem_singleton, j2, directionSign_turnSign] at hl
    exact ⟨e, k2, b, lk, e', id, g4, g2, hlk, hid, j1, j2, hx', by rw [hl, if_neg t1], .inl t1⟩

theorem shown_sectionAt (hp : Heap ℝ) (r : Road ℝ) (gs : List (RGeometry ℝ)) (e : ContactPoint) :
    (shownRoad hp r gs).sectionAt e = (sectionAt r e).map (shownSection hp.lanes) := by
  cases e <;> simp [RRoad.sectionAt, sectionAt, shownRoad]

theorem linkTag_kindAt (e : ContactPoint) : linkTag e = (kindAt e).text := by cases e <;> rfl

/-- A lane as it is shown. -/
theorem mem_shownSection {lanes : Store (Lane F)} {sec : LaneSection F} {y : RLane F} :
    y ∈ (shownSection lanes sec).left ++ (shownSection lanes sec).right ↔
      ∃ x ∈ sec.left ++ sec.right, y = shownLane (lanes.cell x) ((lanes.cell x).laneId.getD 0) := by
  simp only [shownSection, shownLanes, ← List.map_append, List.mem_map, eq_comm]

theorem number_cases {lanes : Store (Lane F)} {sec : LaneSection F} (h : Numbered lanes sec) {x : Nat}
    (hx : x ∈ sec.left ++ sec.right) : (∃ i : Nat, i < sec.left.length ∧ (lanes.cell x).laneId = some ((i : Int) + 1)) ∨
      ∃ i : Nat, i < sec.right.length ∧ (lanes.cell x).laneId = some (-((i : Int) + 1)) := by
  rcases List.mem_append.mp hx with hx | hx
  · obtain ⟨i, hi⟩ := List.getElem?_of_mem hx
    exact .inl ⟨i, (List.getElem?_eq_some_iff.mp hi).1, h.1 i x hi⟩
  · obtain ⟨i, hi⟩ := List.getElem?_of_mem hx
    exact .inr ⟨i, (List.getElem?_eq_some_iff.mp hi).1, h.2 i x hi⟩

/-- Numbered sections are shown as counted ones. -/
theorem counted_of_numbered {hp : Heap ℝ} {r : Road ℝ} {gs : List (RGeometry ℝ)}
    (h : ∀ s ∈ r.lanesections, Numbered hp.lanes s) (e : ContactPoint) : (shownRoad hp r gs).Counted e := by
  intro s hs
  rw [shown_sectionAt] at hs
  obtain ⟨sec, hsec, rfl⟩ := Option.map_eq_some_iff.mp hs
  have hn := h sec (sectionAt_index hsec).1
  have hl : (shownSection hp.lanes sec).left.map (·.id) = (List.range sec.left.length).map fun (i : Nat) => (i : Int) + 1 := by
    apply List.ext_getElem (by simp [shownSection, shownLanes])
    intro i h1 h2
    have hi : i < sec.left.length := by simpa [shownSection, shownLanes] using h1
    have := hn.1 i sec.left[i] (List.getElem?_eq_getElem hi)
    simp [shownSection, shownLanes, shownLane, this]
  have hr : (shownSection hp.lanes sec).right.map (·.id) = (List.range sec.right.length).map fun (i : Nat) => -((i : Int) + 1) := by
    apply List.ext_getElem (by simp [shownSection, shownLanes])
    intro i h1 h2
    have hi : i < sec.right.length := by simpa [shownSection, shownLanes] using h1
    have := hn.2 i sec.right[i] (List.getElem?_eq_getElem hi)
    simp [shownSection, shownLanes, shownLane, this]
  refine ⟨?_, ?_⟩
  · rw [List.map_append, hl, hr, List.nodup_append]
    refine ⟨List.Nodup.map (fun a b h => by simpa using h) List.nodup_range,
      List.Nodup.map (fun a b h => by simpa using h) List.nodup_range, ?_⟩
    simp only [List.mem_map, List.mem_range]
    rintro _ ⟨i, _, rfl⟩ _ ⟨j, _, rfl⟩
    omega
  · intro y hy
    have hmem : y.id ∈ ((shownSection hp.lanes sec).left ++ (shownSection hp.lanes sec).right).map (·.id) :=
      List.mem_map_of_mem hy
    rw [List.map_append, hl, hr, List.mem_append] at hmem
    have key : ∀ i : Int, i ∈ ((shownSection hp.lanes sec).left ++ (shownSection hp.lanes sec).right).map (·.id) →
        ∃ m ∈ (shownSection hp.lanes sec).left ++ (shownSection hp.lanes sec).right, m.id = i := by
      intro i hi
      obtain ⟨m, hm, rfl⟩ := List.mem_map.mp hi
      exact ⟨m, hm, rfl⟩
    rw [List.map_append, hl, hr] at key
    simp only [List.mem_map, List.mem_range] at hmem
    rcases hmem with ⟨j, hj, hj'⟩ | ⟨j, hj, hj'⟩
    · refine ⟨by omega, fun i hi => ?_⟩
      have : 0 < i ∧ i < y.id := by omega
      exact key i (List.mem_append_left _ (List.mem_map.mpr ⟨(i - 1).toNat, List.mem_range.mpr (by omega), by omega⟩))
    · refine ⟨by omega, fun i hi => ?_⟩
      have : y.id < i ∧ i < 0 := by omega
      exact key i (List.mem_append_right _ (List.mem_map.mpr ⟨(-i - 1).toNat, List.mem_range.mpr (by omega), by omega⟩))

/-- The document `doc` is what one reads of the OpenDrive object `o` after `adjust_roads_and_lanes` on the roads `w` that a
user has drawn: without loops, with lane counts that fit, with sections numbered by `add_left_lane` and `add_right_lane`
(C32), with lanes that had links only inside their road (as a `LaneLinker` sets them), and with links as `add_predecessor`
and `add_successor` leave them (C24). -/
structure Written (w w' : World ℝ) (pcs : String → List Piece) (o : OpenDrive ℝ) (hp : Heap ℝ) (date : String)
    (doc : RDocument ℝ) : Prop where
  drawn : DrawnNet w.net pcs
  noLoops : NoLoops w.net.roads
  links : ∀ k r l, w.net.roads.get? k = some r → l ∈ r.links →
      (l.kind = .predecessor → r.predecessor = some l) ∧ (l.kind = .successor → r.successor = some l)
  fit : Linkable w.net.roads w.lanes
  unshared : Unshared w.net.roads
  directed : Directed w.net.roads
  numbered : ∀ k r s, w.net.roads.get? k = some r → s ∈ r.lanesections → Numbered w.lanes s
  inner : ∀ k r e s, w.net.roads.get? k = some r → sectionAt r e = some s →
    ∀ x ∈ s.left ++ s.right, ∀ l ∈ (w.lanes.cell x).links, l.kind ≠ kindAt e
  run : World.adjustRoadsAndLanes w = .ok () w'
  roads : o.roads = w'.net.roads
  geoms : hp.geoms = w'.net.geoms
  lanes : hp.lanes = w'.lanes
  good : ∀ kv ∈ o.roads, GoodRoad hp kv.2
  read : ∃ element, o.getElement hp date = .ok element ∧ readDocument element = some doc

section
variable {w w' : World ℝ} {pcs : String → List Piece} {o : OpenDrive ℝ} {hp : Heap ℝ} {date : String} {doc : RDocument ℝ}

theorem Written.linked (h : Written w w' pcs o hp date doc) : Linked w.net w'.net w.lanes w'.lanes :=
  ⟨h.drawn.nodup, h.drawn.fresh, fun k r hr => (h.drawn.drawn k r hr).id, h.fit, h.unshared, h.run⟩

theorem Written.laneId (h : Written w w' pcs o hp date doc) (x : Nat) :
    (w'.lanes.cell x).laneId = (w.lanes.cell x).laneId := by
  obtain ⟨lanes', hrun, _, hcell⟩ := C30_all_links w.net w'.net w.lanes h.drawn.nodup h.drawn.fresh
    (adjustRoadsAndLanes_net h.run) h.fit
  rw [show (⟨w.net, w.lanes⟩ : World ℝ) = w from rfl, h.run] at hrun
  injection hrun with _ hrun
  obtain ⟨new, hc, _⟩ := hcell x
  rw [hrun, hc]

/-- The roads of the document. -/
theorem Written.mem_roads (h : Written w w' pcs o hp date doc) : ∃ gs : Road ℝ → List (RGeometry ℝ),
    (∀ ra ∈ doc.roads, ∃ k a a0, w'.net.roads.get? k = some a ∧ w.net.roads.get? k = some a0 ∧
      a = { a0 with planview := a.planview } ∧ ra = shownRoad hp a (gs a)) ∧
    ∀ k a, w'.net.roads.get? k = some a → shownRoad hp a (gs a) ∈ doc.roads := by
  obtain ⟨element, he, hdoc⟩ := h.read
  have hadj := adjustRoadsAndLanes_net h.run
  obtain ⟨gs, hgs, rfl⟩ := document_read he h.good hdoc
  have hkeys : w'.net.roads.keys = w.net.roads.keys := (C18_placed_once w.net w'.net h.drawn.nodup h.drawn.fresh hadj).1
  have hnd : w'.net.roads.keys.Nodup := by rw [hkeys]; exact h.drawn.nodup
  refine ⟨gs, fun ra hra => ?_, fun k a ha => ?_⟩
  · obtain ⟨⟨k, a⟩, hk, rfl⟩ := List.mem_map.mp hra
    rw [h.roads] at hk
    have ha : w'.net.roads.get? k = some a := Dict.mem_get? hnd hk
    obtain ⟨a0, ha0, ea, _⟩ := h.drawn.read hadj ha
    exact ⟨k, a, a0, ha, ha0, ea, rfl⟩
  · refine List.mem_map.mpr ⟨(k, a), ?_, rfl⟩
    rw [h.roads]
    exact Dict.get?_some_mem ha

theorem Written.counted (h : Written w w' pcs o hp date doc) {ra : RRoad ℝ} (hra : ra ∈ doc.roads) (e : ContactPoint) :
    ra.Counted e := by
  obtain ⟨gs, h1, _⟩ := h.mem_roads
  obtain ⟨k, a, a0, ha, ha0, ea, rfl⟩ := h1 ra hra
  refine counted_of_numbered (fun s hs => ?_) e
  have hs : s ∈ a0.lanesections := by rw [ea] at hs; exact hs
  rw [h.lanes]
  obtain ⟨n1, n2⟩ := h.numbered k a0 s ha0 hs
  exact ⟨fun i x hi => (h.laneId x).trans (n1 i x hi), fun i x hi => (h.laneId x).trans (n2 i x hi)⟩

/-- Linked road ends meet. -/
theorem Written.meets (h : Written w w' pcs o hp date doc) {a b : RRoad ℝ} (ha : a ∈ doc.roads) (hb : b ∈ doc.roads)
    {e e' : ContactPoint} (hn : a.Names e b e') : ∃ p q, a.poseAt e = some p ∧ b.poseAt e' = some q ∧
        (Meets (declaredOffset w.net.roads a.id e) e p e' q ∨ Meets (declaredOffset w.net.roads b.id e') e' q e p) := by
  obtain ⟨element, he, hdoc⟩ := h.read
  exact C71_document w w' pcs h.drawn h.noLoops h.links h.run o hp date h.roads h.geoms h.good element he doc hdoc
    a ha b hb e e' (.inl hn)

/-- The link by which a road names another one. -/
theorem Written.names (h : Written w w' pcs o hp date doc) {k k' : String} {c c' c0 d0 : Road ℝ} {e e' : ContactPoint}
    {g g' : List (RGeometry ℝ)} (hc : w.net.roads.get? k = some c0) (hd : w.net.roads.get? k' = some d0)
    (ec : c = { c0 with planview := c.planview }) (ed : c' = { d0 with planview := c'.planview })
    (hn : (shownRoad hp c g).Names e (shownRoad hp c' g') e') :
    ∃ l, linkAt c0 e = some l ∧ l.elementType = some .road ∧ l.elementId = d0.id ∧ l.contactPoint = some e' := by
  obtain ⟨l', hl', g1, g2, g3, g4⟩ := hn
  obtain ⟨l, hl, rfl⟩ := List.mem_map.mp hl'
  have hl := (List.mem_filter.mp hl).1
  have hm : l ∈ c0.links := by rw [ec] at hl; exact hl
  have hk : l.kind = kindAt e := by
    have g1 : l.kind.text = linkTag e := g1
    cases e <;> cases hk : l.kind <;> rw [hk] at g1 <;> first | rfl | simp [LinkKind.text, linkTag] at g1
  have hat : linkAt c0 e = some l := by
    obtain ⟨l1, l2⟩ := h.links k c0 l hc hm
    cases e
    · exact l1 hk
    · exact l2 hk
  obtain ⟨n1, k2, r2, n2, n3⟩ := h.directed.named k c0 e l hc hat g2
  refine ⟨l, hat, n1, ?_, g4⟩
  have g3 : l.elementId.toStr = c'.id.toStr := g3
  rw [n3, ed] at g3
  have e1 := (h.drawn.drawn _ _ n2).id
  have e2 := (h.drawn.drawn _ _ hd).id
  have : k2 = k' := by rw [← e1, ← e2]; exact g3
  rw [this, hd] at n2
  cases n2
  exact n3

theorem meets_zero_symm {e e' : ContactPoint} {p q : Pose ℝ} (h : Meets 0 e' q e p) : Meets 0 e p e' q := by
  obtain ⟨m1, m2, n, m3⟩ := h
  refine ⟨?_, ?_, -n - 1, ?_⟩
  · simpa using m1.symm
  · simpa using m2.symm
  · push_cast; linarith

/-- The offset in the lane links at an end of a road: only connecting roads have one. -/
def linkShift (roads : Dict (Road ℝ)) (a : RRoad ℝ) (e : ContactPoint) : Int :=
  if a.junction = -1 then 0 else declaredOffset roads a.id e

/-- The links of a lane after the run. -/
theorem Written.cell (h : Written w w' pcs o hp date doc) (x : Nat) : ∃ new,
    w'.lanes.cell x = { w.lanes.cell x with links := (w.lanes.cell x).links ++ new } ∧
    new.Perm (dueAt w.net.roads w.lanes x) ∧ ∀ m ∈ new, m ∈ newLinks w.lanes w'.lanes x m.kind := by
  obtain ⟨lanes', hrun, _, hcell⟩ := C30_all_links w.net w'.net w.lanes h.drawn.nodup h.drawn.fresh
    (adjustRoadsAndLanes_net h.run) h.fit
  rw [show (⟨w.net, w.lanes⟩ : World ℝ) = w from rfl, h.run] at hrun
  injection hrun with _ hrun
  obtain ⟨new, hc, hp⟩ := hcell x
  refine ⟨new, by rw [hrun, hc], hp, fun m hm => ?_⟩
  rw [hrun]
  simp [newLinks, hc, hm]

/-- New links are in the sections at the ends of a road. -/
theorem Written.new_link (h : Written w w' pcs o hp date doc) {k : String} {a : Road ℝ} (ha : w.net.roads.get? k = some a)
    {sec : LaneSection ℝ} (hsec : sec ∈ a.lanesections) {x : Nat} (hx : x ∈ sec.left ++ sec.right) {K : LinkKind} {m : Link}
    (hm : m ∈ newLinks w.lanes w'.lanes x K) : ∃ e, sectionAt a e = some sec ∧ m.kind = kindAt e := by
  obtain ⟨e, kb, b0, lk, e', i, q1, q2, q3, q4, q5, q6, q7, rfl, q8⟩ :=
    lane_link_target h.linked h.directed h.numbered ha hsec hx hm
  exact ⟨e, q1, rfl⟩

/-- Where a lane link of the document leads. -/
theorem Written.lane_link (h : Written w w' pcs o hp date doc) {a : RRoad ℝ} (ha : a ∈ doc.roads) {e : ContactPoint}
    {s : RSection ℝ} (hs : a.sectionAt e = some s) {x : RLane ℝ} (hx : x ∈ s.left ++ s.right) {l : RLink} (hl : l ∈ x.links)
    (ht : l.tag = linkTag e) : ∃ b e', b ∈ doc.roads ∧ a.Names e b e' ∧
      l.id = strInt (turnSign e e' * x.id + linkShift w.net.roads a e) ∧
      (a.junction ≠ -1 ∨ b.junction = -1 ∧ e ≠ e' ∧ b.Names e' a e) ∧ l = ⟨linkTag e, l.id, none, none, none⟩ := by
  obtain ⟨gs, h1, h2⟩ := h.mem_roads
  obtain ⟨ka, a, a0, ha, ha0, ea, rfl⟩ := h1 _ ha
  have hadj := adjustRoadsAndLanes_net h.run
  have hkeys : w'.net.roads.keys = w.net.roads.keys := (C18_placed_once w.net w'.net h.drawn.nodup h.drawn.fresh hadj).1
  have hsecs : a.lanesections = a0.lanesections := by rw [ea]
  rw [shown_sectionAt] at hs
  obtain ⟨sec, hsec, rfl⟩ := Option.map_eq_some_iff.mp hs
  have hsec0 : sectionAt a0 e = some sec := by
    rw [← hsec]; cases e <;> simp [sectionAt, hsecs]
  obtain ⟨x, hx', rfl⟩ := mem_shownSection.mp hx
  obtain ⟨m, hm, rfl⟩ := List.mem_map.mp hl
  have hm : m ∈ (w'.lanes.cell x).links := by
    rw [← h.lanes]; exact (List.mem_filter.mp hm).1
  have hkind : m.kind = kindAt e := by
    have ht : m.kind.text = linkTag e := ht
    cases e <;> cases hk : m.kind <;> rw [hk] at ht <;> first | rfl | simp [LinkKind.text, linkTag] at ht
  have hmnew : m ∈ newLinks w.lanes w'.lanes x m.kind := by
    obtain ⟨new, c1, -, c3⟩ := h.cell x
    rw [c1] at hm
    rcases List.mem_append.mp hm with hm | hm
    · exact absurd hkind (h.inner _ _ _ _ ha0 hsec0 x hx' m hm)
    · exact c3 m hm
  obtain ⟨e2, kb, b0, lk, e', i, q1, q2, q3, q4, q5, q6, q7, rfl, q8⟩ :=
    lane_link_target h.linked h.directed h.numbered ha0 (sectionAt_index hsec0).1 hx' hmnew
  obtain rfl : e = e2 := by
    have : kindAt e2 = kindAt e := hkind
    cases e <;> cases e2 <;> first | rfl | cases this
  have hkb : kb ∈ w'.net.roads.keys := by rw [hkeys]; exact mem_keys q2
  rw [← Dict.get?_isSome, Option.isSome_iff_exists] at hkb
  obtain ⟨b, hb⟩ := hkb
  obtain ⟨b0', hb0, eb, _⟩ := h.drawn.read hadj hb
  rw [q2] at hb0; cases hb0
  have hid : (shownLane (hp.lanes.cell x) ((hp.lanes.cell x).laneId.getD 0)).id = i := by
    show (hp.lanes.cell x).laneId.getD 0 = i
    rw [h.lanes, h.laneId, q7]; rfl
  have names : ∀ {c d c0 d0 : Road ℝ} {k : String} {e e' : ContactPoint} {lk : Link},
      w.net.roads.get? k = some c0 → c = { c0 with planview := c.planview } → d = { d0 with planview := d.planview } →
      linkAt c0 e = some lk → lk.elementType ≠ some .junction → lk.elementId = d0.id → lk.contactPoint = some e' →
      (shownRoad hp c (gs c)).Names e (shownRoad hp d (gs d)) e' := by
    intro c d c0 d0 k e e' lk hc ec ed q3 q5 q4 q6
    have hin : lk ∈ c0.links ∧ lk.kind = kindAt e := by
      cases e
      · exact (h.drawn.drawn _ _ hc).pred lk q3
      · exact (h.drawn.drawn _ _ hc).succ lk q3
    refine ⟨shownLink lk, ?_, ?_, q5, ?_, q6⟩
    · refine List.mem_map.mpr ⟨lk, ?_, rfl⟩
      rw [ec, List.mem_filter]
      exact ⟨hin.1, by rw [hin.2]; cases e <;> rfl⟩
    · rw [linkTag_kindAt, ← hin.2]; rfl
    · show lk.elementId.toStr = d.id.toStr
      rw [q4, ed]
  refine ⟨_, e', h2 kb b hb, names ha0 ea eb q3 q5 q4 q6, ?_, ?_, by
    rw [linkTag_kindAt]; simp [shownLink, laneLink]⟩
  · rw [hid]
    have hs : linkShift w.net.roads (shownRoad hp a (gs a)) e = if a0.roadType = -1 then 0 else laneOffsetAt a0 e := by
      have h1 : (shownRoad hp a (gs a)).junction = a0.roadType := by show a.roadType = _; rw [ea]
      have h2 : (shownRoad hp a (gs a)).id = ka := by
        show a.id.toStr = _; rw [ea]; exact (h.drawn.drawn _ _ ha0).id
      rw [linkShift, declaredOffset, h1, h2, ha0]
      cases e <;> rfl
    rw [hs]
    rfl
  · rcases q8 with q8 | ⟨b1, b2, m, m1, m2, m3, m4⟩
    · exact .inl (by rw [show (shownRoad hp a (gs a)).junction = a.roadType from rfl, ea]; exact q8)
    · refine .inr ⟨?_, b2, names q2 eb ea m1 (by rw [m2]; simp) m3 m4⟩
      rw [show (shownRoad hp b (gs b)).junction = b.roadType from rfl, eb]; exact b1

end

/-- C74: the lane links of a document without loops and without lane offsets lead where the road goes: a reader who
follows the link of any lane comes to a lane of the linked road that is physically the continuation of the first one,
with the same inner and the same outer edge, if linked roads have corresponding lanes of equal width where they meet. -/
theorem C74_document (w w' : World ℝ) (pcs : String → List Piece) (o : OpenDrive ℝ) (hp : Heap ℝ) (date : String)
    (doc : RDocument ℝ) (h : Written w w' pcs o hp date doc)
    (hz : ∀ k r, w.net.roads.get? k = some r → r.laneOffsetPred = 0 ∧ r.laneOffsetSuc = 0)
    (hagree : ∀ a ∈ doc.roads, ∀ b ∈ doc.roads, ∀ e e', a.Names e b e' → CrossSectionsAgree a e b e') :
    ∀ a ∈ doc.roads, ∀ e s, a.sectionAt e = some s → ∀ x ∈ s.left ++ s.right, ∀ l ∈ x.links, l.tag = linkTag e →
      ∃ b e' j, b ∈ doc.roads ∧ a.Names e b e' ∧ l.id = strInt j ∧ Touch a e x.id b e' j := by
  intro a ha e s q1 x hx l hl q2
  obtain ⟨b, e', q3, q4, q5, -⟩ := h.lane_link ha q1 hx hl q2
  have off : ∀ k e, declaredOffset w.net.roads k e = 0 := by
    intro k e
    unfold declaredOffset
    split
    · rename_i r hr
      cases e
      · exact (hz _ _ hr).1
      · exact (hz _ _ hr).2
    · rfl
  have shift : linkShift w.net.roads a e = 0 := by
    unfold linkShift
    split
    · rfl
    · exact off a.id e
  obtain ⟨p, q, hpp, hqq, hm⟩ := h.meets ha q3 q4
  rw [off, off] at hm
  rw [shift, add_zero] at q5
  exact ⟨b, e', _, q3, q4, q5, touch_of_meets hpp hqq (hm.elim id meets_zero_symm) (h.counted ha e)
    (h.counted q3 e') (hagree a ha b q3 e e' q4) ⟨s, q1, x, hx, rfl, rfl⟩⟩

/-- C74: and there are such links: every lane at an end of a connecting road that is linked to a road, and at the common
end of two normal roads that name each other, one being before the other, has exactly one link there. -/
theorem C74_every_lane (w w' : World ℝ) (pcs : String → List Piece) (o : OpenDrive ℝ) (hp : Heap ℝ) (date : String)
    (doc : RDocument ℝ) (h : Written w w' pcs o hp date doc) (a b : RRoad ℝ) (ha : a ∈ doc.roads) (hb : b ∈ doc.roads)
    (e e' : ContactPoint) (hab : a.Names e b e')
    (hcase : a.junction ≠ -1 ∨ b.junction = -1 ∧ b.Names e' a e ∧ e ≠ e' ∧ a.id ≠ b.id)
    (s : RSection ℝ) (hs : a.sectionAt e = some s) (x : RLane ℝ) (hx : x ∈ s.left ++ s.right) :
    ∃ l, x.links.filter (·.tag = linkTag e) = [l] := by
  obtain ⟨gs, h1, h2⟩ := h.mem_roads
  obtain ⟨ka, a, a0, ha', ha0, ea, rfl⟩ := h1 _ ha
  obtain ⟨kb, b, b0, hb', hb0, eb, rfl⟩ := h1 _ hb
  have hsecs : a.lanesections = a0.lanesections := by rw [ea]
  rw [shown_sectionAt] at hs
  obtain ⟨sec, hsec, rfl⟩ := Option.map_eq_some_iff.mp hs
  have hsec0 : sectionAt a0 e = some sec := by
    rw [← hsec]; cases e <;> simp [sectionAt, hsecs]
  obtain ⟨x, hx', rfl⟩ := mem_shownSection.mp hx
  have ta : (shownRoad hp a (gs a)).junction = a0.roadType := by show a.roadType = _; rw [ea]
  have tb : (shownRoad hp b (gs b)).junction = b0.roadType := by show b.roadType = _; rw [eb]
  have hone : ∃ l, newLinks w.lanes w'.lanes x (kindAt e) = [l] := by
    obtain ⟨l, l1, l2, l3, _⟩ := h.names ha0 hb0 ea eb hab
    by_cases hj : a0.roadType = -1
    · rw [ta] at hcase
      obtain ⟨c1, c2, c3, c4⟩ := hcase.resolve_left (fun h => h hj)
      rw [tb] at c1
      obtain ⟨m, m1, m2, m3, _⟩ := h.names hb0 ha0 eb ea c2
      have hne : ka ≠ kb := by
        rintro rfl
        rw [ha0] at hb0; cases hb0
        refine c4 ?_
        show a.id.toStr = b.id.toStr
        rw [ea, eb]
      cases e <;> cases e' <;> first | exact absurd rfl c3 | skip
      · obtain ⟨id, _, q⟩ := C30_predecessor_link _ _ _ _ h.linked kb ka b0 a0 (Ne.symm hne) hb0 ha0 c1 hj
          ⟨⟨m, m1, m2, m3⟩, ⟨l, l1, l2, l3⟩⟩ sec hsec0 x hx'
        exact ⟨_, q⟩
      · obtain ⟨id, _, q⟩ := C30_successor_link _ _ _ _ h.linked ka kb a0 b0 hne ha0 hb0 hj c1
          ⟨⟨l, l1, l2, l3⟩, ⟨m, m1, m2, m3⟩⟩ sec hsec0 x hx'
        exact ⟨_, q⟩
    · obtain ⟨cs, us, ts, e1, e2, e3, _⟩ := h.fit.lanes ka kb a0 b0 e l ha0 hb0 hj l1 l3
      rw [hsec0] at e1; cases e1
      obtain ⟨i, q, id, _, _, q3⟩ :=
        C30_connecting_link _ _ _ _ h.linked ka kb a0 b0 ha0 hb0 hj e l l1 l3 sec ts hsec0 e3 x hx'
      exact ⟨_, q3⟩
  obtain ⟨l, hl⟩ := hone
  refine ⟨shownLink l, ?_⟩
  show ((shownLinks (hp.lanes.cell x).links).filter (·.tag = linkTag e)) = _
  have hall : (w'.lanes.cell x).links.filter (·.kind = kindAt e) = [l] := by
    obtain ⟨new, c1, -⟩ := h.cell x
    rw [← hl, newLinks, c1]
    simp only [List.drop_left, List.filter_append]
    rw [List.filter_eq_nil_iff.mpr fun m hm => by simpa using h.inner _ _ _ _ ha0 hsec0 x hx' m hm, List.nil_append]
  replace hl := hall
  rw [h.lanes, shownLinks, List.filter_map, List.filter_filter]
  rw [show ((w'.lanes.cell x).links.filter fun a => ((fun y : RLink => decide (y.tag = linkTag e)) ∘ shownLink) a && decide (a.kind ≠ .pyNone)) = [l] from ?_]
  · rfl
  · rw [← hl]
    refine List.filter_congr fun y _ => ?_
    cases e <;> cases hk : y.kind <;> simp [shownLink, hk, LinkKind.text, linkTag, kindAt]

/-- C74: and no lane gets links elsewhere: links appear only in the sections at the ends of a road, a predecessor at the
start, a successor at the end (here for lanes that had no links before). -/
theorem C74_no_others (w w' : World ℝ) (pcs : String → List Piece) (o : OpenDrive ℝ) (hp : Heap ℝ) (date : String)
    (doc : RDocument ℝ) (h : Written w w' pcs o hp date doc)
    (hun : ∀ k r s, w.net.roads.get? k = some r → s ∈ r.lanesections → ∀ x ∈ s.left ++ s.right, (w.lanes.cell x).links = []) :
    ∀ a ∈ doc.roads, ∀ s ∈ a.sections, ∀ x ∈ s.left ++ s.right, ∀ l ∈ x.links, ∃ e, a.sectionAt e = some s ∧ l.tag = linkTag e := by
  intro a ha s hs x hx l hl
  obtain ⟨gs, h1, h2⟩ := h.mem_roads
  obtain ⟨ka, a, a0, ha, ha0, ea, rfl⟩ := h1 _ ha
  have hsecs : a.lanesections = a0.lanesections := by rw [ea]
  obtain ⟨sec, hsec, rfl⟩ := List.mem_map.mp hs
  obtain ⟨x, hx', rfl⟩ := mem_shownSection.mp hx
  rw [hsecs] at hsec
  obtain ⟨m, hm, rfl⟩ := List.mem_map.mp hl
  have hm : m ∈ (w'.lanes.cell x).links := by
    rw [← h.lanes]; exact (List.mem_filter.mp hm).1
  obtain ⟨new, c1, -, c3⟩ := h.cell x
  rw [c1, hun _ _ _ ha0 hsec x hx'] at hm
  obtain ⟨e, q1, q2⟩ := h.new_link ha0 hsec hx' (c3 m hm)
  refine ⟨e, ?_, ?_⟩
  · rw [shown_sectionAt, show sectionAt a e = sectionAt a0 e by cases e <;> simp [sectionAt, hsecs], q1]; rfl
  · rw [linkTag_kindAt, ← q2]; rfl

/-- C74 (finding): with a lane offset `n`, the lane link of a connecting road with lanes of one width leads to the lane that
is there only if the width is 3 (it is hard-coded), the offset does not lead across the reference line of the other road,
and the driving directions agree (or if `n` is zero). If also the offset is the one by which the road was placed, and the
lane exists, it is the lane that is there. -/
theorem C74_offset (w w' : World ℝ) (pcs : String → List Piece) (o : OpenDrive ℝ) (hp : Heap ℝ) (date : String)
    (doc : RDocument ℝ) (h : Written w w' pcs o hp date doc) (width : ℝ) (hw : 0 < width)
    (hall : ∀ a ∈ doc.roads, ∀ e, a.AllWide e width)
    (hz : ∀ k r, w.net.roads.get? k = some r → r.roadType = -1 → r.laneOffsetPred = 0 ∧ r.laneOffsetSuc = 0) :
    ∀ a ∈ doc.roads, a.junction ≠ -1 → ∀ e s, a.sectionAt e = some s → ∀ x ∈ s.left ++ s.right, ∀ l ∈ x.links,
      l.tag = linkTag e → ∃ b e' n, b ∈ doc.roads ∧ a.Names e b e' ∧
        n = declaredOffset w.net.roads a.id e ∧ l.id = strInt (turnSign e e' * x.id + n) ∧
        (Touch a e x.id b e' (turnSign e e' * x.id + n) →
          n = 0 ∨ width = 3 ∧ turnSign e e' = 1 ∧ (0 < x.id ↔ 0 < x.id + n)) ∧
        (∀ p q, a.poseAt e = some p → b.poseAt e' = some q → Meets n e p e' q →
          b.HasLane e' (turnSign e e' * x.id + n) width → n = 0 ∨ width = 3 ∧ turnSign e e' = 1 ∧ (0 < x.id ↔ 0 < x.id + n) →
          Touch a e x.id b e' (turnSign e e' * x.id + n)) := by
  intro a ha hj e s q1 x hx l hl q2
  obtain ⟨b, e', q3, q4, q5, -⟩ := h.lane_link ha q1 hx hl q2
  rw [linkShift, if_neg hj] at q5
  have hx' : a.HasLane e x.id _ := ⟨s, q1, x, hx, rfl, rfl⟩
  refine ⟨b, e', _, q3, q4, rfl, q5, fun ht => ?_, fun p q hpp hqq hm hlane hc =>
    (touch_offset hpp hqq hm (h.counted ha e) (h.counted q3 e') hw (hall a ha e) (hall b q3 e') hx').mpr ⟨⟨_, hlane⟩, hc⟩⟩
  obtain ⟨p, q, hpp, hqq, hm⟩ := h.meets ha q3 q4
  rcases hm with hm | hm
  · exact ((touch_offset hpp hqq hm (h.counted ha e) (h.counted q3 e') hw (hall a ha e) (hall b q3 e') hx').mp ht).2
  · have hb : declaredOffset w.net.roads b.id e' = 0 := by
      obtain ⟨gs, h1, _⟩ := h.mem_roads
      obtain ⟨ka, a, a0, ha', ha0, ea, rfl⟩ := h1 _ ha
      obtain ⟨kb, b, b0, hb', hb0, eb, rfl⟩ := h1 _ q3
      obtain ⟨l, l1, l2, l3, _⟩ := h.names ha0 hb0 ea eb q4
      have hn : b0.roadType = -1 := by
        refine h.fit.normal ka kb a0 b0 ha0 hb0 ?_ ⟨l, ?_, l3⟩
        · have : a.roadType ≠ -1 := hj
          rw [ea] at this
          exact this
        · cases e
          · exact .inl l1
          · exact .inr l1
      have hid : (shownRoad hp b (gs b)).id = kb := by
        show b.id.toStr = _; rw [eb]; exact (h.drawn.drawn _ _ hb0).id
      rw [declaredOffset, hid, hb0]
      cases e'
      · exact (hz kb b0 hb0 hn).1
      · exact (hz kb b0 hb0 hn).2
    rw [hb] at hm
    exact .inl (touch_no_shift hpp hqq (meets_zero_symm hm) (h.counted ha e) (h.counted q3 e') hw (hall a ha e)
      (hall b q3 e') hx' ht)

/-! ## Non-vacuity: the network of four roads of `Props/NetworkLinks.lean` -/

theorem exLaneNet_noLoops : NoLoops exLaneNet.roads := by
  have e1 : strInt 1 = "1" := by decide
  have e2 : strInt 2 = "2" := by decide
  have e4 : strInt 4 = "4" := by decide
  have hk : exLaneNet.roads.keys = ["1", "2", "3", "4"] := rfl
  refine ⟨[(("2", .start), ("1", .end)), (("3", .start), ("2", .end)), (("4", .start), ("3", .end))],
    ["2", "3", "4"], ?_, by decide, ?_, by simp⟩
  · intro k e nb e' hp
    cases hp with
    | pred hr hl ht hc =>
      rcases exLaneNet_get hr with ⟨rfl, rfl⟩ | ⟨rfl, rfl⟩ | ⟨rfl, rfl⟩ | ⟨rfl, rfl⟩ <;> cases hl <;> cases hc <;>
        simp [PyId.toStr, e1, e2]
    | succ hr hl ht hc =>
      rcases exLaneNet_get hr with ⟨rfl, rfl⟩ | ⟨rfl, rfl⟩ | ⟨rfl, rfl⟩ | ⟨rfl, rfl⟩ <;> cases hl <;> cases hc <;>
        simp [PyId.toStr, e2, e4]
    | connPred hr ht hl =>
      rcases exLaneNet_get hr with ⟨rfl, rfl⟩ | ⟨rfl, rfl⟩ | ⟨rfl, rfl⟩ | ⟨rfl, rfl⟩ <;> cases hl <;>
        first | exact absurd rfl ht | simp [PyId.toStr, e2]
    | connSucc hr ht hl =>
      rcases exLaneNet_get hr with ⟨rfl, rfl⟩ | ⟨rfl, rfl⟩ | ⟨rfl, rfl⟩ | ⟨rfl, rfl⟩ <;> cases hl <;>
        first | exact absurd rfl ht | simp [PyId.toStr, e4]
  · intro k hk'
    rw [hk]
    refine ⟨by simp only [List.mem_cons, List.not_mem_nil, or_false] at hk' ⊢; tauto, ?_⟩
    rintro (⟨r, h, hf⟩ | ⟨_, h⟩)
    · rcases exLaneNet_get h with ⟨_, rfl⟩ | ⟨_, rfl⟩ | ⟨_, rfl⟩ | ⟨_, rfl⟩ <;> cases hf
    · rw [hk] at h
      cases h
      revert hk'
      decide

theorem exLaneNet_directed : Directed exLaneNet.roads := by
  refine ⟨?_, ?_, ?_⟩
  · intro k r e l hr hl ht
    rcases exLaneNet_get hr with ⟨rfl, rfl⟩ | ⟨rfl, rfl⟩ | ⟨rfl, rfl⟩ | ⟨rfl, rfl⟩ <;> cases e <;> cases hl <;>
      first | exact absurd rfl ht | skip
    · exact ⟨rfl, "2", exLR2, rfl, rfl⟩
    · exact ⟨rfl, "1", exLR1, rfl, rfl⟩
    · exact ⟨rfl, "2", exLR2, rfl, rfl⟩
    · exact ⟨rfl, "4", exLR4, rfl, rfl⟩
  · intro k c e l hc ht hl
    rcases exLaneNet_get hc with ⟨rfl, rfl⟩ | ⟨rfl, rfl⟩ | ⟨rfl, rfl⟩ | ⟨rfl, rfl⟩ <;> first | exact absurd rfl ht | skip
    cases e <;> cases hl
    · exact ⟨by simp, .end, rfl⟩
    · exact ⟨by simp, .start, rfl⟩
  · intro k1 k2 a b ha hb ta tb hf l hl
    obtain ⟨m, m1, m2, m3⟩ := hf.pred
    rcases exLaneNet_get hb with ⟨rfl, rfl⟩ | ⟨rfl, rfl⟩ | ⟨rfl, rfl⟩ | ⟨rfl, rfl⟩ <;> cases hl <;> cases m1 <;>
      first | rfl | cases m2

theorem exLaneNet_written (so : SOState ℝ) : ∃ w' doc, Written ⟨exLaneNet, exLanes⟩ w' exLanePieces
    ⟨"doc", w'.net.roads, []⟩ ⟨w'.net.geoms, w'.lanes, so⟩ "today" doc ∧
      ∀ x, (w'.lanes.cell x).laneId = some (exLaneNo x) ∧ (w'.lanes.cell x).a = 3 ∧ (w'.lanes.cell x).b = 0 ∧
        (w'.lanes.cell x).c = 0 ∧ (w'.lanes.cell x).d = 0 := by
  obtain ⟨⟨net', lanes'⟩, element, doc, h, he, hdoc, _⟩ := exLaneNet_read so
  have hadj := adjustRoadsAndLanes_net h
  obtain ⟨lanes'', h', _, hc⟩ := C30_all_links exLaneNet net' exLanes exLaneNet_wellFormed.nodup
    exLaneNet_fresh hadj exLaneNet_linkable
  rw [h] at h'
  cases h'
  refine ⟨_, doc, ⟨exLaneNet_drawn, exLaneNet_noLoops, ?_, exLaneNet_linkable, exLaneNet_unshared, exLaneNet_directed, ?_,
    fun _ _ _ _ _ _ _ _ l hl => absurd hl (by simp [exLanes, Lane.new]), h, rfl, rfl, rfl, ?_, element, he, hdoc⟩, fun x => ?_⟩
  · intro k r l hr hl
    rcases exLaneNet_get hr with ⟨rfl, rfl⟩ | ⟨rfl, rfl⟩ | ⟨rfl, rfl⟩ | ⟨rfl, rfl⟩ <;>
      simp only [exLR1, exLR2, exLR3, exLR4, exLaneRoad, Option.toList, List.append_nil, List.nil_append,
        List.cons_append, List.mem_cons, List.not_mem_nil, or_false] at hl
    all_goals
      first
      | (subst hl; exact ⟨fun h => (by first | rfl | (cases h)), fun h => (by first | rfl | (cases h))⟩)
      | (rcases hl with rfl | rfl <;> exact ⟨fun h => (by first | rfl | (cases h)), fun h => (by first | rfl | (cases h))⟩)
  · intro k r s hr hs
    rcases exLaneNet_get hr with ⟨rfl, rfl⟩ | ⟨rfl, rfl⟩ | ⟨rfl, rfl⟩ | ⟨rfl, rfl⟩ <;>
      simp only [exLR1, exLR2, exLR3, exLR4, exLaneRoad, Road.new, List.mem_singleton] at hs <;> subst hs
    · exact exNum1
    · exact exNum2
    · exact exNum3
    · exact exNum4
  · intro kv hkv
    have hkeys : net'.roads.keys = exLaneNet.roads.keys :=
      (C18_placed_once exLaneNet net' exLaneNet_wellFormed.nodup exLaneNet_fresh hadj).1
    have hnd : net'.roads.keys.Nodup := by rw [hkeys]; exact exLaneNet_wellFormed.nodup
    obtain ⟨r0, h0, e, _⟩ := exLaneNet_drawn.read hadj (Dict.mem_get? hnd hkv)
    refine ⟨fun sec _ l _ m hm => ?_, fun i hi => ?_⟩
    · obtain ⟨new, e, _⟩ := hc l
      rw [show (Heap.lanes ⟨net'.geoms, lanes', so⟩) = lanes' from rfl, e] at hm
      cases hm
    · rw [e] at hi
      rcases exLaneNet_get h0 with ⟨_, rfl⟩ | ⟨_, rfl⟩ | ⟨_, rfl⟩ | ⟨_, rfl⟩ <;> cases hi
  · obtain ⟨new, e, _⟩ := hc x
    simp only [e]
    exact ⟨rfl, rfl, rfl, rfl, rfl⟩

/-- In the example all hypotheses of `C74_document` hold, and every lane of the connecting road 3 has a link at its start:
it leads into the lane of road 2 that has the same edges. -/
theorem exLaneNet_touch (so : SOState ℝ) : ∃ w' doc, Written ⟨exLaneNet, exLanes⟩ w' exLanePieces
    ⟨"doc", w'.net.roads, []⟩ ⟨w'.net.geoms, w'.lanes, so⟩ "today" doc ∧
    (∀ a ∈ doc.roads, ∀ b ∈ doc.roads, ∀ e e', a.Names e b e' → CrossSectionsAgree a e b e') ∧
    (∀ a ∈ doc.roads, ∀ e, a.AllWide e 3) ∧
    ∃ a ∈ doc.roads, ∃ b ∈ doc.roads, ∃ s, a.id = "3" ∧ b.id = "2" ∧ a.sectionAt .start = some s ∧
      a.Names .start b .end ∧ s.left.length = 1 ∧ s.right.length = 1 := by
  obtain ⟨w', doc, h, hc⟩ := exLaneNet_written so
  have has : ∀ {a : Road ℝ} {g : List (RGeometry ℝ)} {e i v},
      (shownRoad ⟨w'.net.geoms, w'.lanes, so⟩ a g).HasLane e i v ↔
        v = 3 ∧ ∃ sec, sectionAt a e = some sec ∧ ∃ x ∈ sec.left ++ sec.right, exLaneNo x = i := by
    intro a g e i v
    have hw : ∀ x u, (shownLane (w'.lanes.cell x) ((w'.lanes.cell x).laneId.getD 0)).widthAt u = 3 := by
      intro x u
      obtain ⟨h1, h2, h3, h4, h5⟩ := hc x
      simp [RLane.widthAt, shownLane, h2, h3, h4, h5]
    have hi : ∀ x, (shownLane (w'.lanes.cell x) ((w'.lanes.cell x).laneId.getD 0)).id = exLaneNo x := by
      intro x
      simp [shownLane, (hc x).1]
    constructor
    · rintro ⟨s, hs, y, hy, rfl, rfl⟩
      rw [shown_sectionAt] at hs
      obtain ⟨sec, hsec, rfl⟩ := Option.map_eq_some_iff.mp hs
      obtain ⟨x, hx, rfl⟩ := mem_shownSection.mp hy
      exact ⟨hw _ _, sec, hsec, x, hx, (hi x).symm⟩
    · rintro ⟨rfl, sec, hsec, x, hx, rfl⟩
      refine ⟨_, by rw [shown_sectionAt, hsec]; rfl, _, mem_shownSection.mpr ⟨x, hx, rfl⟩, hi x, hw _ _⟩
  have hsec : ∀ {a a0 : Road ℝ} (e : ContactPoint), a = { a0 with planview := a.planview } →
      sectionAt a e = sectionAt a0 e := by
    intro a a0 e ea
    rw [ea]
    cases e <;> rfl
  obtain ⟨gs, m1, m2⟩ := h.mem_roads
  refine ⟨w', doc, h, ?_, ?_, ?_⟩
  · intro a ha b hb e e' hn
    obtain ⟨ka, a, a0, ha', ha0, ea, rfl⟩ := m1 _ ha
    obtain ⟨kb, b, b0, hb', hb0, eb, rfl⟩ := m1 _ hb
    obtain ⟨l, l1, l2, l3, l4⟩ := h.names ha0 hb0 ea eb hn
    intro i v hi
    rw [has, hsec _ ea] at hi
    rw [has, hsec _ eb]
    obtain ⟨rfl, sec, hs, x, hx, rfl⟩ := hi
    have s1 : ∀ e, sectionAt exLR1 e = some (exSec [11, 13] [12]) := by intro e; cases e <;> rfl
    have s2 : ∀ e, sectionAt exLR2 e = some (exSec [21, 23] [22]) := by intro e; cases e <;> rfl
    have s3 : ∀ e, sectionAt exLR3 e = some (exSec [31] [32]) := by intro e; cases e <;> rfl
    have s4 : ∀ e, sectionAt exLR4 e = some (exSec [41, 43] [42]) := by intro e; cases e <;> rfl
    refine ⟨rfl, ?_⟩
    rcases exLaneNet_get ha0 with ⟨rfl, rfl⟩ | ⟨rfl, rfl⟩ | ⟨rfl, rfl⟩ | ⟨rfl, rfl⟩ <;> cases e <;> cases l1 <;>
      cases l4 <;> (try cases l2) <;>
      rcases exLaneNet_get hb0 with ⟨rfl, rfl⟩ | ⟨rfl, rfl⟩ | ⟨rfl, rfl⟩ | ⟨rfl, rfl⟩ <;> cases l3 <;>
      simp only [s1, s2, s3, s4, Option.some.injEq] at hs ⊢ <;> subst hs <;> refine ⟨_, rfl, ?_⟩ <;>
      simp only [exSec, List.cons_append, List.nil_append, List.mem_cons, List.not_mem_nil, or_false] at hx ⊢ <;>
      rcases hx with rfl | rfl | rfl <;>
      simp only [exists_eq_or_imp, exists_eq_left] <;> decide
  · intro a ha e i v hv
    obtain ⟨ka, a, a0, ha', ha0, ea, rfl⟩ := m1 _ ha
    exact (has.mp hv).1
  · have hkeys : w'.net.roads.keys = exLaneNet.roads.keys := (C18_placed_once exLaneNet w'.net exLaneNet_wellFormed.nodup
      exLaneNet_fresh (adjustRoadsAndLanes_net h.run)).1
    have get : ∀ k r0, exLaneNet.roads.get? k = some r0 → ∃ r, w'.net.roads.get? k = some r ∧
        r = { r0 with planview := r.planview } := by
      intro k r0 hr
      have hk : k ∈ w'.net.roads.keys := by rw [hkeys]; exact mem_keys hr
      rw [← Dict.get?_isSome, Option.isSome_iff_exists] at hk
      obtain ⟨r, hr'⟩ := hk
      obtain ⟨r1, h1, e1, _⟩ := exLaneNet_drawn.read (adjustRoadsAndLanes_net h.run) hr'
      rw [hr] at h1
      cases h1
      exact ⟨r, hr', e1⟩
    obtain ⟨a, ha, ea⟩ := get "3" exLR3 rfl
    obtain ⟨b, hb, eb⟩ := get "2" exLR2 rfl
    have e2 : strInt 2 = "2" := by decide
    have e3 : strInt 3 = "3" := by decide
    refine ⟨_, m2 _ _ ha, _, m2 _ _ hb, shownSection w'.lanes (exSec [31] [32]), ?_, ?_, ?_, ?_, rfl, rfl⟩
    · show a.id.toStr = _
      rw [ea]; exact e3
    · show b.id.toStr = _
      rw [eb]; exact e2
    · rw [shown_sectionAt, hsec _ ea]; rfl
    · refine ⟨shownLink ⟨.predecessor, .int 2, some .road, some .end, none⟩, ?_, rfl, by simp [shownLink], ?_, rfl⟩
      · refine List.mem_map.mpr ⟨_, ?_, rfl⟩
        rw [ea]
        simp [exLR3, exLaneRoad]
      · show strInt 2 = b.id.toStr
        rw [eb]; rfl

end Pyodrx.Props
