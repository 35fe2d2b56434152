import Verif.Proofs.LaneLinks
import Verif.Props.Lane
import Verif.Spec.Shown

/-! # C25-C30: lane links between roads -/

namespace Pyodrx.Props
open Pyodrx Spec

variable {F : Type}

/-! ## C25 -/

/-- Distinct lane objects on the two sides of both sections. -/
theorem joint_gains {lanes : Store (Lane F)} {la lb ra rb : List Nat} {fl fr : Nat → Int}
    {sk : LinkKind}
    (hl : la.length = lb.length) (hr : ra.length = rb.length)
    (hd : (la ++ ra ++ lb ++ rb).Nodup) (hal : ∀ i r, la[i]? = some r → laneNo lanes r = fl i)
    (har : ∀ i r, ra[i]? = some r → laneNo lanes r = fr i) :
    let lanes' := applyLog (pairLog .successor sk (laneNo lanes) (laneNo lanes) la lb ++
      pairLog .successor sk (laneNo lanes) (laneNo lanes) ra rb) lanes
    Gains lanes lanes' .successor la fl ∧ Gains lanes lanes' .successor ra fr ∧
    Gains lanes lanes' sk lb fl ∧ Gains lanes lanes' sk rb fr ∧
    Untouched lanes lanes' (la ++ ra ++ lb ++ rb) := by
  intro lanes'
  have hL : (la ++ lb).Nodup := by
    refine hd.sublist ?_
    simp only [List.append_assoc]
    refine (List.Sublist.refl _).append ?_
    exact (List.sublist_append_of_sublist_right (List.sublist_append_left lb rb))
  have hR : (ra ++ rb).Nodup := by
    refine hd.sublist ?_
    simp only [List.append_assoc]
    refine List.sublist_append_of_sublist_right ((List.Sublist.refl _).append ?_)
    exact List.sublist_append_right lb rb
  simp only [List.nodup_append, List.mem_append] at hd
  obtain ⟨⟨⟨_, _, d1⟩, _, d2⟩, _, d3⟩ := hd
  have corr : ∀ (xs ys : List Nat), xs.length = ys.length → ∀ (i r : Nat), xs[i]? = some r →
      ∃ s, ys[i]? = some s := by
    intro xs ys he i r h
    have : i < xs.length := (List.getElem?_eq_some_iff.mp h).1
    exact ⟨ys[i], List.getElem?_eq_getElem (by omega)⟩
  refine ⟨?_, ?_, ?_, ?_, applyLog_next _ _, ?_⟩
  · intro i r h
    obtain ⟨s, hs⟩ := corr _ _ hl i r h
    have m1 : r ∈ la := List.mem_of_getElem? h
    rw [applyLog_cell, logAt_append, (logAt_pair _ _ _ _ la lb i r s hL h hs).1,
      logAt_pair_none (fun h => d1 r m1 r h rfl) (fun h => d3 r (.inl (.inl m1)) r h rfl), hal i r h]
    simp
  · intro i r h
    obtain ⟨s, hs⟩ := corr _ _ hr i r h
    have m1 : r ∈ ra := List.mem_of_getElem? h
    rw [applyLog_cell, logAt_append, (logAt_pair _ _ _ _ ra rb i r s hR h hs).1,
      logAt_pair_none (fun h => d1 r h r m1 rfl) (fun h => d2 r (.inr m1) r h rfl), har i r h]
    simp
  · intro i r h
    obtain ⟨s, hs⟩ := corr _ _ hl.symm i r h
    have m1 : r ∈ lb := List.mem_of_getElem? h
    rw [applyLog_cell, logAt_append, (logAt_pair _ _ _ _ la lb i s r hL hs h).2,
      logAt_pair_none (fun h => d2 r (.inr h) r m1 rfl) (fun h => d3 r (.inr m1) r h rfl), hal i s hs]
    simp
  · intro i r h
    obtain ⟨s, hs⟩ := corr _ _ hr.symm i r h
    have m1 : r ∈ rb := List.mem_of_getElem? h
    rw [applyLog_cell, logAt_append, (logAt_pair _ _ _ _ ra rb i s r hR hs h).2,
      logAt_pair_none (fun h => d3 r (.inl (.inl h)) r m1 rfl) (fun h => d3 r (.inr h) r m1 rfl),
      har i s hs]
    simp
  · intro r h
    simp only [List.mem_append, not_or] at h
    rw [applyLog_cell, logAt_append, logAt_pair_none h.1.1.1 h.1.2, logAt_pair_none h.1.1.2 h.2]
    simp

theorem laneNo_eq {lanes : Store (Lane F)} {r : Nat} {i : Int}
    (h : (lanes.cell r).laneId = some i) : laneNo lanes r = i := by simp [laneNo, h]

/-- C25: at a joint of two normal roads with distinct lanes and equal lane counts,
`create_lane_links`, in either argument order, gives the i-th lane (from the centre) on each side of
the end of the first road a successor link to the number of the i-th lane on the same side of the
start of the second road, and that lane a predecessor link back; nothing else changes. The lane
numbers are those of both sections (`hnb`). -/
theorem C25_links (a b : Road F) (sa sb last : LaneSection F) (lanes : Store (Lane F))
    (h : Joint a b sa sb last lanes) (hnb : Numbered lanes sb)
    (hc : SameCounts sa sb) (hc2 : SameCounts sa last)
    (hd : (sa.left ++ sa.right ++ sb.left ++ sb.right).Nodup) :
    ∃ lanes', createLaneLinks a b lanes = .ok () lanes' ∧ createLaneLinks b a lanes = .ok () lanes' ∧
      GainsTo lanes lanes' .successor sa.left sb.left ∧
      GainsTo lanes lanes' .successor sa.right sb.right ∧
      GainsTo lanes lanes' .predecessor sb.left sa.left ∧
      GainsTo lanes lanes' .predecessor sb.right sa.right ∧
      Untouched lanes lanes' (sa.left ++ sa.right ++ sb.left ++ sb.right) := by
  have hrun := (h.run.2 hc2.1 (Nat.le_of_eq hc.1)).2 hc2.2 (Nat.le_of_eq hc.2)
  obtain ⟨g1, g2, g3, g4, g5⟩ := joint_gains (lanes := lanes) (fl := fun i => (i : Int) + 1)
    (fr := fun i => -((i : Int) + 1)) hc.1 hc.2 hd
    (fun i r hi => laneNo_eq (h.numA.1 i r hi)) (fun i r hi => laneNo_eq (h.numA.2 i r hi))
  exact ⟨_, by rw [h.create.1]; exact hrun, by rw [h.create.2]; exact hrun,
    ⟨hc.1, fun i r q hr hq => ⟨_, hnb.1 i q hq, g1 i r hr⟩⟩,
    ⟨hc.2, fun i r q hr hq => ⟨_, hnb.2 i q hq, g2 i r hr⟩⟩,
    ⟨hc.1.symm, fun i r q hr hq => ⟨_, h.numA.1 i q hq, g3 i r hr⟩⟩,
    ⟨hc.2.symm, fun i r q hr hq => ⟨_, h.numA.2 i q hq, g4 i r hr⟩⟩, g5⟩

/-- C25 (violation): two roads that form a ring, each the successor of the other. The lanes at the
ends of both roads get successor links, but no lane gets a predecessor link. -/
theorem C25_two_road_ring (a b : Road F) (sa sb : LaneSection F) (lanes : Store (Lane F))
    (ha : a.roadType = -1) (hb : b.roadType = -1) (h1 : Follows a b) (h2 : Follows b a)
    (hca : ∀ l, a.successor = some l → l.contactPoint = some .start)
    (hcb : ∀ l, b.successor = some l → l.contactPoint = some .start)
    (hsa : sectionAt a .end = some sa) (hsb : sectionAt b .end = some sb)
    (hn : Numbered lanes sa) (hc : SameCounts sa sb)
    (hd : (sa.left ++ sa.right ++ sb.left ++ sb.right).Nodup) :
    ∃ lanes', createLaneLinks a b lanes = .ok () lanes' ∧
      Gains lanes lanes' .successor sa.left (fun i => (i : Int) + 1) ∧
      Gains lanes lanes' .successor sa.right (fun i => -((i : Int) + 1)) ∧
      Gains lanes lanes' .successor sb.left (fun i => (i : Int) + 1) ∧
      Gains lanes lanes' .successor sb.right (fun i => -((i : Int) + 1)) ∧
      Untouched lanes lanes' (sa.left ++ sa.right ++ sb.left ++ sb.right) := by
  obtain ⟨l, p1, _, p3⟩ := h1.succ
  obtain ⟨m, q1, _, q3⟩ := h2.succ
  have hrun := ((linksRoads_run (lanes := lanes) (related_pre hb p1 p3 (hca l p1))
    (related_pre ha q1 q3 (hcb m q1)) hsa (secAt_last hsb) hsb hn).2 hc.1 (Nat.le_of_eq hc.1)).2 hc.2
    (Nat.le_of_eq hc.2)
  have hgains := joint_gains (lanes := lanes) (fl := fun i => (i : Int) + 1) (sk := .successor)
    (fr := fun i => -((i : Int) + 1)) hc.1 hc.2 hd
    (fun i r hi => laneNo_eq (hn.1 i r hi)) (fun i r hi => laneNo_eq (hn.2 i r hi))
  have e : createLaneLinks a b lanes = createLinksRoads a b lanes := by
    simp [createLaneLinks, ha, hb, (consecutive_iff a b).mpr h1]
  exact ⟨_, by rw [e]; exact hrun, hgains⟩

/-- C25 (violation): ids of junctions and roads are confused: road `b` follows road `a`, and leads
into a *junction* that has the same id as `a`. Then the lanes at the end of `b` get successor links to
lanes of `a`, and no lane of `b` gets a predecessor link. -/
theorem C25_junction_id_collision (a b : Road F) (sa sb : LaneSection F) (lanes : Store (Lane F))
    (ha : a.roadType = -1) (hb : b.roadType = -1) (h1 : Follows a b)
    (m : Link) (hm : b.successor = some m) (_hj : m.elementType = some .junction)
    (hmi : m.elementId = a.id)
    (hca : ∀ l, a.successor = some l → l.contactPoint = some .start)
    (hsa : sectionAt a .end = some sa) (hsb : sectionAt b .end = some sb)
    (hn : Numbered lanes sa) (hc : SameCounts sa sb)
    (hd : (sa.left ++ sa.right ++ sb.left ++ sb.right).Nodup) :
    ∃ lanes', createLaneLinks a b lanes = .ok () lanes' ∧
      Gains lanes lanes' .successor sa.left (fun i => (i : Int) + 1) ∧
      Gains lanes lanes' .successor sa.right (fun i => -((i : Int) + 1)) ∧
      Gains lanes lanes' .successor sb.left (fun i => (i : Int) + 1) ∧
      Gains lanes lanes' .successor sb.right (fun i => -((i : Int) + 1)) ∧
      Untouched lanes lanes' (sa.left ++ sa.right ++ sb.left ++ sb.right) := by
  obtain ⟨l, p1, _, p3⟩ := h1.succ
  have hrel : ∃ sg, getRelatedLanesection b a = .ok ⟨.successor, sg, some (-1)⟩ := by
    simp [getRelatedLanesection, ha, relatedOwn, hm, hmi]
  obtain ⟨sg, hrel⟩ := hrel
  have hrun := ((linksRoads_run (lanes := lanes) (related_pre hb p1 p3 (hca l p1))
    hrel hsa (secAt_last hsb) hsb hn).2 hc.1 (Nat.le_of_eq hc.1)).2 hc.2
    (Nat.le_of_eq hc.2)
  have hgains := joint_gains (lanes := lanes) (fl := fun i => (i : Int) + 1) (sk := .successor)
    (fr := fun i => -((i : Int) + 1)) hc.1 hc.2 hd
    (fun i r hi => laneNo_eq (hn.1 i r hi)) (fun i r hi => laneNo_eq (hn.2 i r hi))
  have e : createLaneLinks a b lanes = createLinksRoads a b lanes := by
    simp [createLaneLinks, ha, hb, (consecutive_iff a b).mpr h1]
  exact ⟨_, by rw [e]; exact hrun, hgains⟩

/-! ## C26 -/

/-- C26: `create_lane_links` raises `NotSameAmountOfLanesError` at a joint exactly if the last
section of the first road and the *last* section of the second road have different numbers of lanes
on some side, provided the sections that touch would not already run out of left lanes. -/
theorem C26_raises_iff (a b : Road F) (sa sb last : LaneSection F) (lanes : Store (Lane F))
    (h : Joint a b sa sb last lanes)
    (hle : sa.left.length = last.left.length → sa.left.length ≤ sb.left.length)
    (hle2 : SameCounts sa last → sa.right.length ≤ sb.right.length) :
    (∃ lanes', createLaneLinks a b lanes = .error .notSameAmountOfLanesError lanes') ↔
      ¬ SameCounts sa last := by
  rw [h.create.1]
  by_cases c1 : sa.left.length = last.left.length
  · by_cases c2 : sa.right.length = last.right.length
    · rw [(h.run.2 c1 (hle c1)).2 c2 (hle2 ⟨c1, c2⟩)]
      simp [SameCounts, c1, c2]
    · rw [(h.run.2 c1 (hle c1)).1 c2]
      simp [SameCounts, c2]
  · rw [h.run.1 c1]
    simp [SameCounts, c1]

/-- C26: for roads with a single section: exactly if the touching sections have different numbers of
lanes. Otherwise the call returns normally. -/
theorem C26_single_section (a b : Road F) (sa sb : LaneSection F) (lanes : Store (Lane F))
    (h : Joint a b sa sb sb lanes) :
    ((∃ lanes', createLaneLinks a b lanes = .error .notSameAmountOfLanesError lanes') ↔
      ¬ SameCounts sa sb) ∧
    ((∃ lanes', createLaneLinks a b lanes = .ok () lanes') ↔ SameCounts sa sb) := by
  refine ⟨C26_raises_iff a b sa sb sb lanes h Nat.le_of_eq (fun h => Nat.le_of_eq h.2), ?_⟩
  rw [h.create.1]
  by_cases c1 : sa.left.length = sb.left.length
  · by_cases c2 : sa.right.length = sb.right.length
    · rw [(h.run.2 c1 (Nat.le_of_eq c1)).2 c2 (Nat.le_of_eq c2)]
      simp [SameCounts, c1, c2]
    · rw [(h.run.2 c1 (Nat.le_of_eq c1)).1 c2]
      simp [SameCounts, c2]
  · rw [h.run.1 c1]
    simp [SameCounts, c1]

/-- C26 (violation): if only the numbers of right lanes differ, the left lanes have been linked when
the exception is raised; after catching it and correcting the roads, a second call links them twice. -/
theorem C26_partial_effect (a b : Road F) (sa sb : LaneSection F) (lanes : Store (Lane F))
    (h : Joint a b sa sb sb lanes) (hl : sa.left.length = sb.left.length)
    (hr : sa.right.length ≠ sb.right.length) (hd : (sa.left ++ sb.left).Nodup) :
    ∃ lanes', createLaneLinks a b lanes = .error .notSameAmountOfLanesError lanes' ∧
      Gains lanes lanes' .successor sa.left (fun i => (i : Int) + 1) ∧
      Gains lanes lanes' .predecessor sb.left (fun i => (i : Int) + 1) ∧
      Untouched lanes lanes' (sa.left ++ sb.left) := by
  have hrun := (h.run.2 hl (Nat.le_of_eq hl)).1 hr
  obtain ⟨g1, _, g3, _, g5⟩ := joint_gains (lanes := lanes) (fl := fun i => (i : Int) + 1)
    (ra := []) (rb := []) (fr := fun _ => 0) hl rfl (by simpa using hd)
    (fun i r hi => laneNo_eq (h.numA.1 i r hi)) (fun i r hi => by simp at hi)
  have e : pairLog .successor .predecessor (laneNo lanes) (laneNo lanes) [] [] = [] := rfl
  rw [e, List.append_nil] at g1 g3 g5
  exact ⟨_, by rw [h.create.1]; exact hrun, g1, g3, by simpa using g5⟩

/-- C26 (violation): with several sections the wrong section of the second road is compared: if the
sections that touch agree but the last section of the second road has another number of lanes on
the left, the call raises and links nothing. -/
theorem C26_wrong_section (a b : Road F) (sa sb last : LaneSection F) (lanes : Store (Lane F))
    (h : Joint a b sa sb last lanes) (_hc : SameCounts sa sb)
    (hne : last.left.length ≠ sb.left.length) :
    createLaneLinks a b lanes = .error .notSameAmountOfLanesError lanes := by
  rw [h.create.1]
  exact h.run.1 (fun e => hne (by rw [← e, _hc.1]))

/-! ## C27 -/

/-- C27: two normal roads that do not follow each other are left alone. -/
theorem C27_normal_roads (a b : Road F) (lanes : Store (Lane F)) (ha : a.roadType = -1)
    (hb : b.roadType = -1) (h1 : ¬ Follows a b) (h2 : ¬ Follows b a) :
    createLaneLinks a b lanes = .ok () lanes := by
  have e1 : areRoadsConsecutive a b = false := by rw [← Bool.not_eq_true, consecutive_iff]; exact h1
  have e2 : areRoadsConsecutive b a = false := by rw [← Bool.not_eq_true, consecutive_iff]; exact h2
  simp [createLaneLinks, ha, hb, e1, e2, pure_eq]

theorem relatedOwn_none {a b : Road F} (h : ¬ LinksTo a b) : relatedOwn a b = ⟨.pyNone, none, none⟩ := by
  have e : relatedOwn.predBranch a b = ⟨.pyNone, none, none⟩ := by
    unfold relatedOwn.predBranch
    cases hp : a.predecessor with
    | none => rfl
    | some l =>
      have : l.elementId ≠ b.id := fun e => h ⟨l, .inl hp, e⟩
      simp [this]
  unfold relatedOwn
  cases hs : a.successor with
  | none => exact e
  | some l =>
    have : l.elementId ≠ b.id := fun e => h ⟨l, .inr hs, e⟩
    simp [this, e]

/-- A road is not a connecting road, or it has both a predecessor and a successor. -/
def BothEnds (r : Road F) : Prop :=
  r.roadType ≠ -1 → (∃ p, r.predecessor = some p) ∧ (∃ s, r.successor = some s)

theorem getRelated_ok {a b : Road F} (hb : BothEnds b) :
    ∃ rel, getRelatedLanesection a b = .ok rel := by
  unfold getRelatedLanesection
  by_cases h : b.roadType = -1
  · simp [h]
  · obtain ⟨⟨p, hp⟩, ⟨s, hs⟩⟩ := hb h
    simp only [ne_eq, h, not_false_eq_true, if_true, hp, hs]
    split
    · exact ⟨_, rfl⟩
    · split <;> exact ⟨_, rfl⟩

theorem getRelated_none {a b : Road F} (hb : BothEnds b) (h1 : ¬ LinksTo a b) (h2 : ¬ LinksTo b a) :
    getRelatedLanesection a b = .ok ⟨.pyNone, none, none⟩ := by
  unfold getRelatedLanesection
  rw [relatedOwn_none h1]
  by_cases h : b.roadType = -1
  · simp [h]
  · obtain ⟨⟨p, hp⟩, ⟨s, hs⟩⟩ := hb h
    have e1 : p.elementId ≠ a.id := fun e => h2 ⟨p, .inl hp, e⟩
    have e2 : s.elementId ≠ a.id := fun e => h2 ⟨s, .inr hs, e⟩
    simp [h, hp, hs, e1, e2]

/-- C27: no lane links are made, and nothing is raised, for any two roads, normal or connecting,
that are not linked to each other, if connecting roads have a predecessor and a successor. -/
theorem C27_unlinked (a b : Road F) (lanes : Store (Lane F)) (ha : BothEnds a) (hb : BothEnds b)
    (h1 : ¬ LinksTo a b) (h2 : ¬ LinksTo b a) : createLaneLinks a b lanes = .ok () lanes := by
  have nf1 : ¬ Follows a b := fun ⟨⟨l, q1, _, q3⟩, _⟩ => h1 ⟨l, .inr q1, q3⟩
  have nf2 : ¬ Follows b a := fun ⟨⟨l, q1, _, q3⟩, _⟩ => h2 ⟨l, .inr q1, q3⟩
  have conn : ∀ c r : Road F, BothEnds c → BothEnds r → ¬ LinksTo c r → ¬ LinksTo r c →
      createLinksConnectingRoad c r lanes = .ok () lanes := by
    intro c r hc hr q1 q2
    unfold createLinksConnectingRoad
    rw [getRelated_none hr q1 q2, bind_of_ok (liftExcept_of_ok _), getRelated_none hc q2 q1,
      bind_of_ok (liftExcept_of_ok _)]
    rfl
  by_cases ta : a.roadType = -1
  · by_cases tb : b.roadType = -1
    · exact C27_normal_roads a b lanes ta tb nf1 nf2
    · have : createLaneLinks a b lanes = createLinksConnectingRoad b a lanes := by
        simp [createLaneLinks, ta, tb]
      rw [this]; exact conn b a hb ha h2 h1
  · have : createLaneLinks a b lanes = createLinksConnectingRoad a b lanes := by
      simp [createLaneLinks, ta]
    rw [this]; exact conn a b ha hb h1 h2

/-! Links of the type `None` -/

/-- After `m`, whether it raises or not, every lane shows the links it showed before, and differs in its links
only. -/
private def KeepsShown {α : Type} (m : EStateM PyErr (Store (Lane F)) α) : Prop :=
  ∀ lanes, ∃ lanes', ((∃ a, m lanes = .ok a lanes') ∨ (∃ e, m lanes = .error e lanes')) ∧
    ∀ x, shownLinks (lanes'.cell x).links = shownLinks (lanes.cell x).links ∧
      ∃ new, lanes'.cell x = { lanes.cell x with links := (lanes.cell x).links ++ new }

private theorem keeps_still {α : Type} {m : EStateM PyErr (Store (Lane F)) α}
    (h : ∀ s, (∃ a, m s = .ok a s) ∨ (∃ e, m s = .error e s)) : KeepsShown m :=
  fun s => ⟨s, h s, fun _ => ⟨rfl, [], by simp⟩⟩

private theorem keeps_bind {α β : Type} {m : EStateM PyErr (Store (Lane F)) α}
    {f : α → EStateM PyErr (Store (Lane F)) β} (h : KeepsShown m) (hf : ∀ a, KeepsShown (f a)) :
    KeepsShown (m >>= f) := by
  intro s
  obtain ⟨s₁, h1, h2⟩ := h s
  rcases h1 with ⟨a, h1⟩ | ⟨e, h1⟩
  · obtain ⟨s₂, h3, h4⟩ := hf a s₁
    refine ⟨s₂, ?_, fun x => ⟨(h4 x).1.trans (h2 x).1, ?_⟩⟩
    · rw [bind_of_ok h1]; exact h3
    · obtain ⟨n1, e1⟩ := (h2 x).2
      obtain ⟨n2, e2⟩ := (h4 x).2
      exact ⟨n1 ++ n2, by rw [e2, e1]; simp⟩
  · exact ⟨s₁, .inr ⟨e, bind_of_error h1⟩, h2⟩

private theorem keeps_pure {α : Type} (a : α) :
    KeepsShown (pure a : EStateM PyErr (Store (Lane F)) α) := keeps_still fun s => .inl ⟨a, rfl⟩

private theorem keeps_lift {α : Type} (x : Except PyErr α) :
    KeepsShown (liftExcept x : EStateM PyErr (Store (Lane F)) α) :=
  keeps_still fun s => by cases x; exacts [.inr ⟨_, rfl⟩, .inl ⟨_, rfl⟩]

private theorem keeps_orRaise {α : Type} (e : PyErr) (x : Option α) :
    KeepsShown (orRaise e x : EStateM PyErr (Store (Lane F)) α) :=
  keeps_still fun s => by cases x; exacts [.inr ⟨_, rfl⟩, .inl ⟨_, rfl⟩]

private theorem keeps_add (r : Nat) (id : Int) :
    KeepsShown (addLaneLink r .pyNone id : EStateM PyErr (Store (Lane F)) Unit) := by
  intro s
  refine ⟨_, .inl ⟨_, addLaneLink_eq ..⟩, fun x => ?_⟩
  rw [applyLog_cell, logAt_cons]
  refine ⟨?_, _, rfl⟩
  split <;> simp [shownLinks, List.filter_append, laneLink]

private theorem keeps_loop (sign : Option Int) (op os : Int) (rs cs : List Nat) :
    ∀ n i, KeepsShown (connectingLoop (F := F) .pyNone sign op os rs cs i n) := by
  intro n
  induction n with
  | zero => intro i; exact keeps_pure _
  | succ n ih =>
    intro i
    refine keeps_bind ?_ fun _ => ih _
    refine keeps_bind (keeps_orRaise _ _) fun rl => keeps_bind (keeps_still fun s => ?_) fun a =>
      keeps_bind (keeps_orRaise _ _) fun cl => keeps_add _ _
    unfold laneIdTimes
    split
    · exact .inl ⟨_, rfl⟩
    · exact .inr ⟨_, rfl⟩

/-- C27: a connecting road without a link to the other road gets no link that anybody can see, whatever the
other road is: also if the other road is a connecting road that has a link to the first one, and also if the
call raises. The lanes of the first road can only get links of the type `None`, which are not printed. -/
theorem C27_one_sided (c r : Road F) (lanes : Store (Lane F)) (hc : c.roadType ≠ -1)
    (h : ¬ LinksTo c r) :
    ∃ lanes', (createLaneLinks c r lanes = .ok () lanes' ∨
        ∃ e, createLaneLinks c r lanes = .error e lanes') ∧
      ∀ x, shownLinks (lanes'.cell x).links = shownLinks (lanes.cell x).links ∧
        ∃ new, lanes'.cell x = { lanes.cell x with links := (lanes.cell x).links ++ new } := by
  have hk : ∀ rel, getRelatedLanesection c r = .ok rel → rel.linktype = .pyNone := by
    intro rel hrel
    unfold getRelatedLanesection at hrel
    rw [relatedOwn_none h] at hrel
    revert hrel
    (repeat' split) <;> intro hrel <;> first | cases hrel; done | (cases hrel; rfl)
  have key : KeepsShown (createLinksConnectingRoad c r) := by
    unfold createLinksConnectingRoad
    cases hr : getRelatedLanesection c r with
    | error e => exact keeps_still fun s => .inr ⟨e, rfl⟩
    | ok rel =>
      have hrel := hk rel hr
      show KeepsShown (liftExcept (getRelatedLanesection r c) >>= _)
      refine keeps_bind (keeps_lift _) fun rel2 => ?_
      rw [hrel]
      split
      · exact keeps_pure _
      · refine keeps_bind (keeps_lift _) fun csec => ?_
        have right : KeepsShown (F := F) (if csec.right.isEmpty = false then do
              let rsec ← liftExcept (secAt r rel2.sec)
              connectingLoop LinkKind.pyNone rel.sign c.laneOffsetPred c.laneOffsetSuc rsec.right csec.right 0
                csec.right.length
            else pure ()) := by
          split
          · exact keeps_bind (keeps_lift _) fun rsec => keeps_loop _ _ _ _ _ _ _
          · exact keeps_pure _
        dsimp only
        split
        · refine keeps_bind (keeps_lift _) fun cnt => ?_
          split
          · exact right
          · exact keeps_bind (keeps_lift _) fun rsec => keeps_bind (keeps_loop _ _ _ _ _ _ _) fun _ => right
        · exact right
  obtain ⟨l', h1, h2⟩ := key lanes
  refine ⟨l', ?_, h2⟩
  rw [createLaneLinks, if_neg (by simp [hc]), if_pos hc]
  rcases h1 with ⟨a, h1⟩ | h1
  · exact .inl h1
  · exact .inr h1

/-- C27 (violation): a connecting road without predecessor makes `create_lane_links` with any normal
road raise `AttributeError`, even if the two have nothing to do with each other. -/
theorem C27_missing_end (c r : Road F) (lanes : Store (Lane F)) (hc : c.roadType ≠ -1)
    (hr : r.roadType = -1) (hp : c.predecessor = none) :
    createLaneLinks c r lanes = .error .attributeError lanes ∧
    createLaneLinks r c lanes = .error .attributeError lanes := by
  have e : createLinksConnectingRoad c r lanes = .error .attributeError lanes := by
    unfold createLinksConnectingRoad
    have e1 : getRelatedLanesection c r = .ok (relatedOwn c r) := by
      simp [getRelatedLanesection, hr]
    have e2 : getRelatedLanesection r c = .error .attributeError := by
      simp [getRelatedLanesection, hc, hp]
    rw [e1, bind_of_ok (liftExcept_of_ok _), e2]
    rfl
  simp [createLaneLinks, hc, hr, e]

/-- C27 (violation): ids are compared as Python values: if the successor link of road `a` names road
`b` as the text "2" while the id of `b` is the number 2, `b` is found when the roads are placed (by
`str`) but the lanes are not linked. -/
theorem C27_id_types (a b : Road F) (lanes : Store (Lane F)) (ha : a.roadType = -1)
    (hb : b.roadType = -1) (l : Link) (hl : a.successor = some l) (i : Int)
    (hid : l.elementId = .str (strInt i)) (hbi : b.id = .int i) (h2 : ¬ Follows b a) :
    l.elementId.toStr = b.id.toStr ∧ createLaneLinks a b lanes = .ok () lanes := by
  refine ⟨by rw [hid, hbi]; rfl, C27_normal_roads a b lanes ha hb ?_ h2⟩
  rintro ⟨⟨l', q1, _, q3⟩, _⟩
  rw [hl] at q1; cases q1
  rw [hid, hbi] at q3; cases q3

/-! ## C28 -/

theorem attached_run {c r : Road F} {e : ContactPoint} {l : Link} (h : Attached c r e l)
    {csec rsec : LaneSection F} {lanes : Store (Lane F)} (hc : sectionAt c e = some csec)
    (hr : sectionAt r e = some rsec) (hnum : Numbered lanes rsec) :
    (csec.left.length ≤ rsec.left.length → csec.right.length ≤ rsec.right.length →
      createLinksConnectingRoad c r lanes = .ok () (applyLog
        (connLog (kindAt e) (directionSign e l.contactPoint) (laneOffsetAt c e) lanes csec.left
          rsec.left ++
         connLog (kindAt e) (directionSign e l.contactPoint) (laneOffsetAt c e) lanes
          csec.right rsec.right) lanes)) ∧
    (rsec.left.length < csec.left.length ∨ rsec.right.length < csec.right.length →
      ∃ lanes', createLinksConnectingRoad c r lanes = .error .indexError lanes') := by
  obtain ⟨h1, rel, h2, h3⟩ := attached_related h
  have he : (if kindAt e = .predecessor then c.laneOffsetPred else c.laneOffsetSuc) =
      laneOffsetAt c e := by cases e <;> simp [kindAt, laneOffsetAt]
  have := conn_run (lanes := lanes) h1 h2 (secAt_end c e hc) (by rw [h3]; exact secAt_end c e hc)
    (by rw [h3]; exact secAt_end r e hr) hnum
  rwa [he] at this

/-- C29: a connecting road attached with its end `e` to a normal road with any number of sections:
the links of C28, made with the first section of the normal road if `e` is the start and with its
last section if `e` is the end - whatever the contact point. -/
theorem C29_links (c r : Road F) (e : ContactPoint) (l : Link) (h : Attached c r e l)
    (csec rsec : LaneSection F) (lanes : Store (Lane F)) (hc : sectionAt c e = some csec)
    (hr : sectionAt r e = some rsec) (hnum : Numbered lanes rsec)
    (hl : csec.left.length ≤ rsec.left.length) (hrt : csec.right.length ≤ rsec.right.length)
    (hd : (csec.left ++ csec.right).Nodup) :
    ∃ lanes', createLaneLinks c r lanes = .ok () lanes' ∧ createLaneLinks r c lanes = .ok () lanes' ∧
      Gains lanes lanes' (kindAt e) csec.left
        (fun i => directionSign e l.contactPoint * ((i : Int) + 1) + laneOffsetAt c e) ∧
      Gains lanes lanes' (kindAt e) csec.right
        (fun i => directionSign e l.contactPoint * -((i : Int) + 1) + laneOffsetAt c e) ∧
      Untouched lanes lanes' (csec.left ++ csec.right) := by
  have hrun := (attached_run h hc hr hnum).1 hl hrt
  rw [List.nodup_append] at hd
  obtain ⟨d1, d2, d3⟩ := hd
  refine ⟨_, by rw [(attached_create h).1]; exact hrun, by rw [(attached_create h).2]; exact hrun,
    ?_, ?_, applyLog_next _ _, ?_⟩
  · intro i p hp
    have hi : i < rsec.left.length := by
      have := (List.getElem?_eq_some_iff.mp hp).1; omega
    have hq := List.getElem?_eq_getElem hi
    have hm : p ∈ csec.left := List.mem_of_getElem? hp
    rw [applyLog_cell, logAt_append, logAt_conn _ _ _ _ _ _ i p _ d1 hp hq,
      logAt_conn_none (fun h => d3 p hm p h rfl), laneNo_eq (hnum.1 i _ hq), Int.mul_comm]
    simp
  · intro i p hp
    have hi : i < rsec.right.length := by
      have := (List.getElem?_eq_some_iff.mp hp).1; omega
    have hq := List.getElem?_eq_getElem hi
    have hm : p ∈ csec.right := List.mem_of_getElem? hp
    rw [applyLog_cell, logAt_append, logAt_conn _ _ _ _ _ _ i p _ d2 hp hq,
      logAt_conn_none (fun h => d3 p h p hm rfl), laneNo_eq (hnum.2 i _ hq), Int.mul_comm]
    simp
  · intro p hp
    simp only [List.mem_append, not_or] at hp
    rw [applyLog_cell, logAt_append, logAt_conn_none hp.1, logAt_conn_none hp.2]
    simp

/-- C28: a connecting road attached with its end `e` to a normal road with a single section that has
at least as many lanes on each side: `create_lane_links`, in either argument order, gives the i-th
lane of each side of the connecting road (in its section at `e`) exactly one link, of the kind of
that end, to the number of the i-th lane of the same side of the normal road, times the direction
sign, plus the lane offset given with the link. Nothing else changes, in particular no lane of the
normal road. -/
theorem C28_links (c r : Road F) (e : ContactPoint) (l : Link) (h : Attached c r e l)
    (csec rsec : LaneSection F) (lanes : Store (Lane F)) (hc : sectionAt c e = some csec)
    (hr : r.lanesections = [rsec]) (hnum : Numbered lanes rsec)
    (hl : csec.left.length ≤ rsec.left.length) (hrt : csec.right.length ≤ rsec.right.length)
    (hd : (csec.left ++ csec.right).Nodup) :
    ∃ lanes', createLaneLinks c r lanes = .ok () lanes' ∧ createLaneLinks r c lanes = .ok () lanes' ∧
      Gains lanes lanes' (kindAt e) csec.left
        (fun i => directionSign e l.contactPoint * ((i : Int) + 1) + laneOffsetAt c e) ∧
      Gains lanes lanes' (kindAt e) csec.right
        (fun i => directionSign e l.contactPoint * -((i : Int) + 1) + laneOffsetAt c e) ∧
      Untouched lanes lanes' (csec.left ++ csec.right) :=
  C29_links c r e l h csec rsec lanes hc (by cases e <;> simp [sectionAt, hr]) hnum hl hrt hd

/-- C28: if the lane offset is zero and the normal road has equally many lanes on both sides, every
new link of the connecting road names a lane that exists on the normal road. -/
theorem C28_existing_lane (c r : Road F) (e : ContactPoint) (l : Link) (h : Attached c r e l)
    (csec rsec : LaneSection F) (lanes : Store (Lane F)) (hc : sectionAt c e = some csec)
    (hr : r.lanesections = [rsec]) (hnum : Numbered lanes rsec)
    (hl : csec.left.length ≤ rsec.left.length) (hrt : csec.right.length ≤ rsec.right.length)
    (hd : (csec.left ++ csec.right).Nodup) (hoff : laneOffsetAt c e = 0)
    (heq : rsec.left.length = rsec.right.length) :
    ∃ lanes', createLaneLinks c r lanes = .ok () lanes' ∧
      ∀ p ∈ csec.left ++ csec.right, ∃ id q,
        lanes'.cell p = { lanes.cell p with
          links := (lanes.cell p).links ++ [laneLink (kindAt e) id] } ∧
        q ∈ rsec.left ++ rsec.right ∧ (lanes.cell q).laneId = some id := by
  obtain ⟨lanes', h1, _, h2, h3, _⟩ := C28_links c r e l h csec rsec lanes hc hr hnum hl hrt hd
  refine ⟨lanes', h1, fun p hp => ?_⟩
  have hsign : directionSign e l.contactPoint = 1 ∨ directionSign e l.contactPoint = -1 := by
    unfold directionSign
    split <;> simp
  have exi : ∀ i : Nat, i < rsec.left.length → ∀ s : Int, s = 1 ∨ s = -1 →
      ∃ q ∈ rsec.left ++ rsec.right, (lanes.cell q).laneId = some (s * ((i : Int) + 1)) := by
    intro i hi s hs
    rcases hs with rfl | rfl
    · exact ⟨rsec.left[i], by simp, by
        rw [hnum.1 i _ (List.getElem?_eq_getElem hi)]; simp⟩
    · have hi2 : i < rsec.right.length := by omega
      exact ⟨rsec.right[i], by simp, by
        rw [hnum.2 i _ (List.getElem?_eq_getElem hi2)]; simp⟩
  rw [List.mem_append] at hp
  rcases hp with hp | hp
  · obtain ⟨i, hi⟩ := List.getElem?_of_mem hp
    have := (List.getElem?_eq_some_iff.mp hi).1
    obtain ⟨q, hq, hid⟩ := exi i (by omega) _ hsign
    exact ⟨_, q, h2 i p hi, hq, by rw [hid, hoff]; simp⟩
  · obtain ⟨i, hi⟩ := List.getElem?_of_mem hp
    have := (List.getElem?_eq_some_iff.mp hi).1
    obtain ⟨q, hq, hid⟩ := exi i (by omega) (-directionSign e l.contactPoint)
      (by rcases hsign with e | e <;> rw [e] <;> simp)
    exact ⟨_, q, h3 i p hi, hq, by rw [hid, hoff]; simp [Int.neg_mul, Int.mul_neg]⟩

/-- C28: too few lanes on a side of the normal road are reported as an `IndexError`, not as
`NotSameAmountOfLanesError`. -/
theorem C28_too_few_lanes (c r : Road F) (e : ContactPoint) (l : Link) (h : Attached c r e l)
    (csec rsec : LaneSection F) (lanes : Store (Lane F)) (hc : sectionAt c e = some csec)
    (hr : r.lanesections = [rsec]) (hnum : Numbered lanes rsec)
    (hlt : rsec.left.length < csec.left.length ∨ rsec.right.length < csec.right.length) :
    ∃ lanes', createLaneLinks c r lanes = .error .indexError lanes' := by
  have hrs : sectionAt r e = some rsec := by cases e <;> simp [sectionAt, hr]
  rw [(attached_create h).1]
  exact (attached_run h hc hrs hnum).2 hlt

/-- C28 (violation): with a lane offset the linked number need not be a lane: with offset -1, kept
direction and a left lane, the innermost left lane of the connecting road is linked to the centre
lane 0, which is not a lane to drive on. -/
theorem C28_offset_names_center (c r : Road F) (e : ContactPoint) (l : Link) (h : Attached c r e l)
    (csec rsec : LaneSection F) (lanes : Store (Lane F)) (hc : sectionAt c e = some csec)
    (hr : r.lanesections = [rsec]) (hnum : Numbered lanes rsec)
    (hl : csec.left.length ≤ rsec.left.length) (hrt : csec.right.length ≤ rsec.right.length)
    (hd : (csec.left ++ csec.right).Nodup) (hoff : laneOffsetAt c e = -1)
    (hs : directionSign e l.contactPoint = 1) (p : Nat) (hp : csec.left[0]? = some p) :
    ∃ lanes', createLaneLinks c r lanes = .ok () lanes' ∧
      (lanes'.cell p).links = (lanes.cell p).links ++ [laneLink (kindAt e) 0] := by
  obtain ⟨lanes', h1, _, h2, _⟩ := C28_links c r e l h csec rsec lanes hc hr hnum hl hrt hd
  refine ⟨lanes', h1, ?_⟩
  rw [h2 0 p hp, hoff, hs]
  simp

/-- C28 (violation): a connecting road whose two ends are both linked to the same road (a turning
loop) gets successor links only, never a predecessor link. -/
theorem C28_loop (c r : Road F) (p s : Link) (csec rsec : LaneSection F) (lanes : Store (Lane F))
    (hct : c.roadType ≠ -1) (hrt : r.roadType = -1) (hp : c.predecessor = some p)
    (hs : c.successor = some s) (hpi : p.elementId = r.id) (hsi : s.elementId = r.id)
    (hc : c.lanesections = [csec]) (hr : r.lanesections = [rsec]) (hnum : Numbered lanes rsec)
    (hle : csec.left.length ≤ rsec.left.length) (hle2 : csec.right.length ≤ rsec.right.length) :
    ∃ lanes', createLaneLinks c r lanes = .ok () lanes' ∧
      ∀ x, ∃ new, (lanes'.cell x).links = (lanes.cell x).links ++ new ∧
        ∀ k ∈ new, k.kind = .successor := by
  have h1 : getRelatedLanesection c r =
      .ok ⟨.successor, some (if s.contactPoint = some .start then 1 else -1), some (-1)⟩ := by
    simp [getRelatedLanesection, hrt, relatedOwn, hs, hsi]
  obtain ⟨rel, h2, h3⟩ : ∃ rel, getRelatedLanesection r c = .ok rel ∧ rel.sec = some 0 := by
    simp [getRelatedLanesection, hct, hp, hpi]
  have hrun := (conn_run (lanes := lanes) h1 h2 (secAt_last (s := csec) (by simp [hc]))
    (by rw [h3]; exact secAt_first (by simp [hc])) (by rw [h3]; exact secAt_first (by simp [hr]))
    hnum).1 hle hle2
  refine ⟨_, by rw [createLaneLinks, if_neg (by simp [hct]), if_pos hct]; exact hrun, fun x => ⟨_, by rw [applyLog_cell], ?_⟩⟩
  intro k hk
  simp only [logAt, List.mem_map, List.mem_filter, List.mem_append] at hk
  obtain ⟨y, ⟨hy, _⟩, rfl⟩ := hk
  rcases hy with hy | hy <;>
  · simp only [connLog, List.mem_map] at hy
    obtain ⟨z, _, rfl⟩ := hy
    rfl

/-! ## C29 -/

/-- C29: which lane section of the normal road is used depends only on the end of the *connecting*
road: the first section at its start, the last section at its end, whatever the contact point. If
that section has enough lanes, links are made as in C28, otherwise the call raises `IndexError`; the
other sections of the normal road do not matter. -/
theorem C29_section_used (c r : Road F) (e : ContactPoint) (l : Link) (h : Attached c r e l)
    (csec rsec : LaneSection F) (lanes : Store (Lane F)) (hc : sectionAt c e = some csec)
    (hr : sectionAt r e = some rsec) (hnum : Numbered lanes rsec) :
    ((∃ lanes', createLaneLinks c r lanes = .ok () lanes') ↔
      csec.left.length ≤ rsec.left.length ∧ csec.right.length ≤ rsec.right.length) ∧
    ((∃ lanes', createLaneLinks c r lanes = .error .indexError lanes') ↔
      rsec.left.length < csec.left.length ∨ rsec.right.length < csec.right.length) := by
  rw [(attached_create h).1]
  by_cases hle : csec.left.length ≤ rsec.left.length ∧ csec.right.length ≤ rsec.right.length
  · rw [(attached_run h hc hr hnum).1 hle.1 hle.2]
    refine ⟨⟨fun _ => hle, fun _ => ⟨_, rfl⟩⟩, ?_⟩
    constructor
    · rintro ⟨_, h⟩; cases h
    · intro h; omega
  · have hlt : rsec.left.length < csec.left.length ∨ rsec.right.length < csec.right.length := by
      omega
    obtain ⟨l', hl'⟩ := (attached_run h hc hr hnum).2 hlt
    rw [hl']
    refine ⟨⟨?_, fun h => absurd h hle⟩, ⟨fun _ => hlt, fun _ => ⟨l', rfl⟩⟩⟩
    rintro ⟨_, h⟩
    cases h

/-- C29 (violation): the connecting road starts at the *end* of a normal road whose last section
(the one that touches it) has enough lanes, but whose first section has fewer: `IndexError`. -/
theorem C29_wrong_section (c r : Road F) (l : Link) (h : Attached c r .start l)
    (_hcp : l.contactPoint = some .end) (csec first touching : LaneSection F)
    (lanes : Store (Lane F)) (hc : sectionAt c .start = some csec)
    (hf : sectionAt r .start = some first) (_ht : sectionAt r .end = some touching)
    (_hok : csec.left.length ≤ touching.left.length ∧ csec.right.length ≤ touching.right.length)
    (hbad : first.right.length < csec.right.length) (hnum : Numbered lanes first) :
    ∃ lanes', createLaneLinks c r lanes = .error .indexError lanes' :=
  (C29_section_used c r .start l h csec first lanes hc hf hnum).2.mpr (.inr hbad)

end Pyodrx.Props
