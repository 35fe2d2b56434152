import Verif.Props.NetworkLinks

/-! # C78: two connecting roads that follow one another inside a junction -/

namespace Pyodrx.Props
open Pyodrx Spec

variable {F : Type}

/-- The links made by one run of the loops of `_create_links_connecting_road`. -/
theorem connLog_gains {lanes : Store (Lane F)} {k : LinkKind} {s off : Int}
    {csec rsec : LaneSection F} (hnum : Numbered lanes rsec)
    (hl : csec.left.length ≤ rsec.left.length) (hrt : csec.right.length ≤ rsec.right.length)
    (hd : (csec.left ++ csec.right).Nodup) :
    let lanes' := applyLog (connLog k s off lanes csec.left rsec.left ++
      connLog k s off lanes csec.right rsec.right) lanes
    Gains lanes lanes' k csec.left (fun i => s * ((i : Int) + 1) + off) ∧
    Gains lanes lanes' k csec.right (fun i => s * -((i : Int) + 1) + off) ∧
    Untouched lanes lanes' (csec.left ++ csec.right) := by
  intro lanes'
  rw [List.nodup_append] at hd
  obtain ⟨d1, d2, d3⟩ := hd
  refine ⟨?_, ?_, applyLog_next _ _, ?_⟩
  · intro i p hp
    have hi : i < rsec.left.length := by
      have := (List.getElem?_eq_some_iff.mp hp).1; omega
    have hq := List.getElem?_eq_getElem hi
    have hm : p ∈ csec.left := List.mem_of_getElem? hp
    rw [applyLog_cell, logAt_append, logAt_conn _ _ _ _ _ _ i p _ d1 hp hq,
      logAt_conn_none (fun h => d3 p hm p h rfl), laneNo_eq (hnum.1 i _ hq), Int.mul_comm]
    simp
  · intro i p hp
    have hi : i < rsec.right.length := by
      have := (List.getElem?_eq_some_iff.mp hp).1; omega
    have hq := List.getElem?_eq_getElem hi
    have hm : p ∈ csec.right := List.mem_of_getElem? hp
    rw [applyLog_cell, logAt_append, logAt_conn _ _ _ _ _ _ i p _ d2 hp hq,
      logAt_conn_none (fun h => d3 p h p hm rfl), laneNo_eq (hnum.2 i _ hq), Int.mul_comm]
    simp
  · intro p hp
    simp only [List.mem_append, not_or] at hp
    rw [applyLog_cell, logAt_append, logAt_conn_none hp.1, logAt_conn_none hp.2]
    simp

/-- Two roads inside junctions, the second one attached with its start to the end of the first one;
the links at the other ends of the two roads lead elsewhere. Both links of the joint say so: the successor link of the first road has the contact
point start, the predecessor link of the second road the contact point end. -/
structure FollowsInside (a b : Road F) : Prop where
  first : a.roadType ≠ -1
  second : b.roadType ≠ -1
  succ : ∃ l, a.successor = some l ∧ l.elementId = b.id ∧ l.contactPoint = some .start
  pred : ∃ l, b.predecessor = some l ∧ l.elementId = a.id ∧ l.contactPoint = some .end
  start : ∃ l, a.predecessor = some l ∧ l.elementId ≠ b.id
  theEnd : ∃ l, b.successor = some l ∧ l.elementId ≠ a.id

theorem FollowsInside.related {a b : Road F} (h : FollowsInside a b) :
    getRelatedLanesection a b = .ok ⟨.successor, some 1, some 0⟩ ∧
    getRelatedLanesection b a = .ok ⟨.predecessor, some (-1), some (-1)⟩ := by
  obtain ⟨l, l1, l2, l3⟩ := h.succ
  obtain ⟨m, m1, m2, m3⟩ := h.pred
  obtain ⟨p, p1, p2⟩ := h.start
  obtain ⟨s, s1, s2⟩ := h.theEnd
  constructor
  · simp [getRelatedLanesection, h.second, m1, m2, relatedOwn, l1, l2]
  · simp [getRelatedLanesection, h.first, p1, p2, l1, l2, relatedOwn, s1, s2, relatedOwn.predBranch,
      m1, m2]

/-- C78: called with the first road first, `create_lane_links` gives the lanes of the *first* road
the right successor links: the i-th lane of each side is linked to the number of the i-th lane of
that side of the second road (plus the offset given with the successor link), lanes keep their
direction. No lane of the second road gets a link, although it starts at the first road. -/
theorem C78_forward (a b : Road F) (h : FollowsInside a b) (asec bsec : LaneSection F)
    (lanes : Store (Lane F)) (ha : a.lanesections = [asec]) (hb : b.lanesections = [bsec])
    (hnum : Numbered lanes bsec) (hl : asec.left.length ≤ bsec.left.length)
    (hr : asec.right.length ≤ bsec.right.length) (hd : (asec.left ++ asec.right).Nodup) :
    ∃ lanes', createLaneLinks a b lanes = .ok () lanes' ∧
      Gains lanes lanes' .successor asec.left (fun i => ((i : Int) + 1) + a.laneOffsetSuc) ∧
      Gains lanes lanes' .successor asec.right (fun i => -((i : Int) + 1) + a.laneOffsetSuc) ∧
      Untouched lanes lanes' (asec.left ++ asec.right) := by
  have hrun := (conn_run (lanes := lanes) h.related.1 h.related.2 (csec := asec) (rsec := bsec)
    (secAt_first (by simp [ha])) (secAt_last (by simp [ha])) (secAt_last (by simp [hb])) hnum).1 hl hr
  have hg := connLog_gains (k := .successor) (s := 1) (off := a.laneOffsetSuc) hnum hl hr hd
  refine ⟨_, by rw [createLaneLinks, if_neg (by simp [h.first]), if_pos h.first]; exact hrun, ?_⟩
  simpa using hg

/-- C78 (violation): called with the second road first, `create_lane_links` gives the lanes of the
*second* road predecessor links with the wrong sign: its i-th left lane is linked to the number of the
i-th *right* lane of the first road and the other way round, although the roads have the same
direction. No lane of the first road gets a link. -/
theorem C78_backward (a b : Road F) (h : FollowsInside a b) (asec bsec : LaneSection F)
    (lanes : Store (Lane F)) (ha : a.lanesections = [asec]) (hb : b.lanesections = [bsec])
    (hnum : Numbered lanes asec) (hl : bsec.left.length ≤ asec.left.length)
    (hr : bsec.right.length ≤ asec.right.length) (hd : (bsec.left ++ bsec.right).Nodup) :
    ∃ lanes', createLaneLinks b a lanes = .ok () lanes' ∧
      Gains lanes lanes' .predecessor bsec.left (fun i => -((i : Int) + 1) + b.laneOffsetPred) ∧
      Gains lanes lanes' .predecessor bsec.right (fun i => ((i : Int) + 1) + b.laneOffsetPred) ∧
      Untouched lanes lanes' (bsec.left ++ bsec.right) := by
  have hrun := (conn_run (lanes := lanes) h.related.2 h.related.1 (csec := bsec) (rsec := asec)
    (secAt_last (by simp [hb])) (secAt_first (by simp [hb])) (secAt_first (by simp [ha])) hnum).1 hl hr
  have hg := connLog_gains (k := .predecessor) (s := -1) (off := b.laneOffsetPred) hnum hl hr hd
  refine ⟨_, by rw [createLaneLinks, if_neg (by simp [h.second]), if_pos h.second]; exact hrun, ?_⟩
  simpa using hg

/-- C78: two connecting roads joined end to end (each is the successor of the other) are driven in
opposite directions behind the joint, and the road given first gets the right successor links: its
i-th left lane is linked to the number of the i-th right lane of the other road and the other way
round. The other road gets no link. -/
theorem C78_end_to_end (a b : Road F) (l s : Link) (ha : a.roadType ≠ -1) (hb : b.roadType ≠ -1)
    (h1 : a.successor = some s) (h2 : s.elementId = b.id) (_hs : s.contactPoint = some .end)
    (h3 : b.successor = some l) (h4 : l.elementId = a.id) (_hl : l.contactPoint = some .end)
    (h5 : ∃ p, a.predecessor = some p ∧ p.elementId ≠ b.id)
    (h6 : ∃ p, b.predecessor = some p ∧ p.elementId ≠ a.id)
    (asec bsec : LaneSection F) (lanes : Store (Lane F)) (hsa : a.lanesections = [asec])
    (hsb : b.lanesections = [bsec]) (hnum : Numbered lanes bsec)
    (hl : asec.left.length ≤ bsec.left.length) (hr : asec.right.length ≤ bsec.right.length)
    (hd : (asec.left ++ asec.right).Nodup) :
    ∃ lanes', createLaneLinks a b lanes = .ok () lanes' ∧
      Gains lanes lanes' .successor asec.left (fun i => -((i : Int) + 1) + a.laneOffsetSuc) ∧
      Gains lanes lanes' .successor asec.right (fun i => ((i : Int) + 1) + a.laneOffsetSuc) ∧
      Untouched lanes lanes' (asec.left ++ asec.right) := by
  obtain ⟨p, p1, p2⟩ := h5
  obtain ⟨q, q1, q2⟩ := h6
  have e1 : getRelatedLanesection a b = .ok ⟨.successor, some (-1), some (-1)⟩ := by
    simp [getRelatedLanesection, hb, q1, q2, h1, h2, h3, h4, relatedOwn]
  have e2 : getRelatedLanesection b a = .ok ⟨.successor, some (-1), some (-1)⟩ := by
    simp [getRelatedLanesection, ha, p1, p2, h1, h2, h3, h4, relatedOwn]
  have hrun := (conn_run (lanes := lanes) e1 e2 (csec := asec) (rsec := bsec)
    (secAt_last (by simp [hsa])) (secAt_last (by simp [hsa])) (secAt_last (by simp [hsb])) hnum).1 hl hr
  have hg := connLog_gains (k := .successor) (s := -1) (off := a.laneOffsetSuc) hnum hl hr hd
  refine ⟨_, by rw [createLaneLinks, if_neg (by simp [ha]), if_pos ha]; exact hrun, ?_⟩
  simp only [Int.neg_mul, Int.one_mul, Int.neg_neg] at hg
  exact hg

/-- C78 (violation): two connecting roads joined start to start (each is the predecessor of the other)
are driven in opposite directions too, but the road given first gets predecessor links that keep the
side: its i-th left lane is linked to the number of the i-th *left* lane of the other road. -/
theorem C78_start_to_start (a b : Road F) (l s : Link) (ha : a.roadType ≠ -1) (hb : b.roadType ≠ -1)
    (h1 : a.predecessor = some s) (h2 : s.elementId = b.id) (_hs : s.contactPoint = some .start)
    (h3 : b.predecessor = some l) (h4 : l.elementId = a.id) (_hl : l.contactPoint = some .start)
    (h5 : ∀ p, a.successor = some p → p.elementId ≠ b.id)
    (asec bsec : LaneSection F) (lanes : Store (Lane F)) (hsa : a.lanesections = [asec])
    (hsb : b.lanesections = [bsec]) (hnum : Numbered lanes bsec)
    (hl : asec.left.length ≤ bsec.left.length) (hr : asec.right.length ≤ bsec.right.length)
    (hd : (asec.left ++ asec.right).Nodup) :
    ∃ lanes', createLaneLinks a b lanes = .ok () lanes' ∧
      Gains lanes lanes' .predecessor asec.left (fun i => ((i : Int) + 1) + a.laneOffsetPred) ∧
      Gains lanes lanes' .predecessor asec.right (fun i => -((i : Int) + 1) + a.laneOffsetPred) ∧
      Untouched lanes lanes' (asec.left ++ asec.right) := by
  have e1 : getRelatedLanesection a b = .ok ⟨.predecessor, some 1, some 0⟩ := by
    cases hs : a.successor with
    | none => simp [getRelatedLanesection, hb, h1, h2, h3, h4, relatedOwn, relatedOwn.predBranch, hs]
    | some p =>
      simp [getRelatedLanesection, hb, h1, h2, h3, h4, relatedOwn, relatedOwn.predBranch, hs, h5 p hs]
  obtain ⟨rel, e2, e3⟩ : ∃ rel, getRelatedLanesection b a = .ok rel ∧ rel.sec = some 0 := by
    simp [getRelatedLanesection, ha, h1, h2]
  have hrun := (conn_run (lanes := lanes) e1 e2 (csec := asec) (rsec := bsec)
    (secAt_first (by simp [hsa])) (by rw [e3]; exact secAt_first (by simp [hsa]))
    (by rw [e3]; exact secAt_first (by simp [hsb])) hnum).1 hl hr
  have hg := connLog_gains (k := .predecessor) (s := 1) (off := a.laneOffsetPred) hnum hl hr hd
  refine ⟨_, by rw [createLaneLinks, if_neg (by simp [ha]), if_pos ha]; exact hrun, ?_⟩
  simpa using hg

/-- C78 (violation): the call raises `AttributeError`, and links nothing, if the first of the two roads
has no predecessor link - in either order. -/
theorem C78_no_predecessor (a b : Road F) (lanes : Store (Lane F)) (ha : a.roadType ≠ -1)
    (hb : b.roadType ≠ -1) (hp : a.predecessor = none)
    (hs : ∃ l, b.predecessor = some l ∧ l.elementId = a.id) :
    createLaneLinks a b lanes = .error .attributeError lanes ∧
    createLaneLinks b a lanes = .error .attributeError lanes := by
  obtain ⟨l, l1, l2⟩ := hs
  have e2 : getRelatedLanesection b a = .error .attributeError := by
    simp [getRelatedLanesection, ha, hp]
  obtain ⟨rel, e1⟩ : ∃ rel, getRelatedLanesection a b = .ok rel := by
    simp [getRelatedLanesection, hb, l1, l2]
  constructor
  · rw [createLaneLinks, if_neg (by simp [ha]), if_pos ha, createLinksConnectingRoad, e1, e2]
    rfl
  · rw [createLaneLinks, if_neg (by simp [hb]), if_pos hb, createLinksConnectingRoad, e2]
    rfl

/-! ## Cases that meet the hypotheses -/

/-- Connecting roads 3 and 5 of one junction in a row: road 3 comes from road 2, road 5 leads to road 4. -/
noncomputable def exCh3 : Road ℝ := exLaneRoad 3 4 2
  (some ⟨.predecessor, .int 2, some .road, some .end, none⟩)
  (some ⟨.successor, .int 5, some .road, some .start, none⟩) [31] [32]
noncomputable def exCh5 : Road ℝ := exLaneRoad 5 4 2
  (some ⟨.predecessor, .int 3, some .road, some .end, none⟩)
  (some ⟨.successor, .int 4, some .road, some .start, none⟩) [41] [42]

theorem exCh_follows : FollowsInside exCh3 exCh5 :=
  ⟨by simp [exCh3, exLaneRoad, Road.new], by simp [exCh5, exLaneRoad, Road.new],
    ⟨_, rfl, rfl, rfl⟩, ⟨_, rfl, rfl, rfl⟩, ⟨_, rfl, by decide⟩, ⟨_, rfl, by decide⟩⟩

example : ∃ lanes', createLaneLinks exCh3 exCh5 exLanes = .ok () lanes' ∧
    (lanes'.cell 32).links = [laneLink .successor (-1)] := by
  obtain ⟨lanes', h1, _, h3, _⟩ := C78_forward exCh3 exCh5 exCh_follows (exSec [31] [32])
    (exSec [41] [42]) exLanes rfl rfl (exNumbered (by decide) (by decide)) (by decide) (by decide) (by decide)
  refine ⟨lanes', h1, ?_⟩
  rw [h3 0 32 rfl]
  simp [exLanes, Lane.new, exCh3, exLaneRoad, Road.new]

/-- The right lane of road 5 is linked backwards to lane 1 of road 3, a left lane. -/
example : ∃ lanes', createLaneLinks exCh5 exCh3 exLanes = .ok () lanes' ∧
    (lanes'.cell 42).links = [laneLink .predecessor 1] := by
  obtain ⟨lanes', h1, _, h3, _⟩ := C78_backward exCh3 exCh5 exCh_follows (exSec [31] [32])
    (exSec [41] [42]) exLanes rfl rfl exNum3 (by decide) (by decide) (by decide)
  refine ⟨lanes', h1, ?_⟩
  rw [h3 0 42 rfl]
  simp [exLanes, Lane.new, exCh5, exLaneRoad, Road.new]

/-- Roads 3 and 5 joined end to end. -/
example : ∃ lanes', createLaneLinks { exCh3 with
      successor := some ⟨.successor, .int 5, some .road, some .end, none⟩ } { exCh5 with
      predecessor := some ⟨.predecessor, .int 4, some .road, some .end, none⟩
      successor := some ⟨.successor, .int 3, some .road, some .end, none⟩ } exLanes = .ok () lanes' ∧
    (lanes'.cell 32).links = [laneLink .successor 1] := by
  obtain ⟨lanes', h1, _, h3, _⟩ := C78_end_to_end { exCh3 with
      successor := some ⟨.successor, .int 5, some .road, some .end, none⟩ } { exCh5 with
      predecessor := some ⟨.predecessor, .int 4, some .road, some .end, none⟩
      successor := some ⟨.successor, .int 3, some .road, some .end, none⟩ } _ _
    (by simp [exCh3, exLaneRoad, Road.new]) (by simp [exCh5, exLaneRoad, Road.new]) rfl rfl rfl rfl
    rfl rfl ⟨_, rfl, by decide⟩ ⟨_, rfl, by decide⟩ (exSec [31] [32]) (exSec [41] [42]) exLanes rfl rfl
    (exNumbered (by decide) (by decide)) (by decide) (by decide) (by decide)
  refine ⟨lanes', h1, ?_⟩
  rw [h3 0 32 rfl]
  simp [exLanes, Lane.new, exCh3, exLaneRoad, Road.new]

/-- Roads 3 and 5 joined start to start. -/
example : ∃ lanes', createLaneLinks { exCh3 with
      predecessor := some ⟨.predecessor, .int 5, some .road, some .start, none⟩
      successor := some ⟨.successor, .int 2, some .road, some .end, none⟩ } { exCh5 with
      predecessor := some ⟨.predecessor, .int 3, some .road, some .start, none⟩ } exLanes =
        .ok () lanes' ∧
    (lanes'.cell 32).links = [laneLink .predecessor (-1)] := by
  obtain ⟨lanes', h1, _, h3, _⟩ := C78_start_to_start { exCh3 with
      predecessor := some ⟨.predecessor, .int 5, some .road, some .start, none⟩
      successor := some ⟨.successor, .int 2, some .road, some .end, none⟩ } { exCh5 with
      predecessor := some ⟨.predecessor, .int 3, some .road, some .start, none⟩ } _ _
    (by simp [exCh3, exLaneRoad, Road.new]) (by simp [exCh5, exLaneRoad, Road.new]) rfl rfl rfl rfl
    rfl rfl (fun p h => by cases h; decide) (exSec [31] [32]) (exSec [41] [42]) exLanes rfl rfl
    (exNumbered (by decide) (by decide)) (by decide) (by decide) (by decide)
  refine ⟨lanes', h1, ?_⟩
  rw [h3 0 32 rfl]
  simp [exLanes, Lane.new, exCh3, exLaneRoad, Road.new]

/-- Without the predecessor link of road 3 both orders raise. -/
example : createLaneLinks { exCh3 with predecessor := none } exCh5 exLanes =
    .error .attributeError exLanes :=
  (C78_no_predecessor { exCh3 with predecessor := none } exCh5 exLanes
    (by simp [exCh3, exLaneRoad, Road.new]) (by simp [exCh5, exLaneRoad, Road.new]) rfl
    ⟨_, rfl, rfl⟩).1

end Pyodrx.Props
