import Verif.Proofs.ProgramLanes
import Verif.Props.Junction
import Verif.Props.ReadNetwork

/-! # What the programs of `Model/Program.lean` build -/

namespace Pyodrx
open Spec Props PyFloat

variable {F : Type} [PyFloat F]

theorem newGeoms_ok (l : List (Geom F)) : ∀ st : GenState F, ∃ refs st', newGeoms l st = .ok refs st' ∧
    refs.map st'.geoms.cell = l ∧ (∀ g ∈ refs, st.geoms.next ≤ g ∧ g < st'.geoms.next) ∧ st'.lanes = st.lanes ∧
    OnlyNew st st' := by
  induction l with
  | nil => intro st; exact ⟨[], st, rfl, rfl, by simp, rfl, le_rfl, le_rfl, fun _ _ => rfl, fun _ _ => rfl⟩
  | cons g l ih =>
    intro st
    let st1 : GenState F := { st with geoms := (st.geoms.alloc g).1 }
    have hn : newGeom g st = .ok st.geoms.next st1 := rfl
    have h1 : OnlyNew st st1 := by
      refine ⟨by simp [st1, Store.alloc], le_rfl, fun x hx => ?_, fun _ _ => rfl⟩
      simp only [st1, Store.alloc]
      rw [if_neg (by omega)]
    have h2 : st1.geoms.next = st.geoms.next + 1 := rfl
    have h3 : st1.geoms.cell st.geoms.next = g := by simp [st1, Store.alloc]
    obtain ⟨refs, st', k1, k2, k3, k4, k5⟩ := ih st1
    refine ⟨st.geoms.next :: refs, st', ?_, ?_, ?_, k4, h1.trans k5⟩
    · unfold newGeoms
      rw [bind_of_ok hn, bind_of_ok k1]; rfl
    · rw [List.map_cons, k2, k5.oldGeoms _ (by omega), h3]
    · intro x hx
      have := k5.geoms
      rcases List.mem_cons.mp hx with rfl | hx
      · omega
      · have := k3 x hx; omega

/-- `PlanView(...)` -/
def startView (p : Option (Pose F)) : PlanView F :=
  { (emptyPlanView (F := F)) with present := p.getD ⟨ofInt 0, ofInt 0, ofInt 0⟩, fixed := p.isSome }

theorem newView (p : Option (Pose F)) : PlanView.new (p.map (·.x)) (p.map (·.y)) (p.map (·.h)) = .ok (startView p) := by
  cases p <;> rfl

/-- The parts of the road made by a call between the states `a` and `b`. -/
structure Built (a b : GenState F) (c : RoadCall F) (r : Road F) : Prop where
  id : r.id = .int c.id
  type : r.roadType = c.roadType
  plan : ∃ refs, r.planview = { startView c.start with raw := refs } ∧ refs.map b.geoms.cell = c.geometry ∧
    ∀ g ∈ refs, a.geoms.next ≤ g ∧ g < b.geoms.next
  shape : List.Forall₂ (fun s sec => sec.s = s.s ∧ sec.left.length = s.left.length ∧ sec.right.length = s.right.length)
    c.sections r.lanesections
  lane : ∀ n x, laneOf r.lanesections n = some x → ∃ l, c.lane n = some l ∧
    b.lanes.cell x = withLinks (l.placed n.2) (innerOf c.laneLinks n)
  distinct : ∀ n m x, laneOf r.lanesections n = some x → laneOf r.lanesections m = some x → n = m
  center : ∀ sec ∈ r.lanesections, b.lanes.cell sec.center = c.center.placed 0
  new : ∀ x ∈ lanesOf r, a.lanes.next ≤ x ∧ x < b.lanes.next
  empty : r.objects = [] ∧ r.signals = [] ∧ r.name = none ∧ r.rule = none

omit [PyFloat F] in
/-- Every lane of a section has a number. -/
theorem sectionLane_of_mem {sec : LaneSection F} {x : Nat} (hx : x ∈ sec.left ++ sec.right) : ∃ i, sectionLane sec i = some x := by
  rcases List.mem_append.mp hx with hx | hx <;> obtain ⟨i, hi⟩ := List.getElem?_of_mem hx
  · refine ⟨(i : Int) + 1, ?_⟩
    rw [sectionLane, if_pos (by omega), ← hi]
    congr 1
    omega
  · refine ⟨-((i : Int) + 1), ?_⟩
    rw [sectionLane, if_neg (by omega), if_pos (by omega), ← hi]
    congr 1
    omega

omit [PyFloat F] in
theorem mem_of_sectionLane {sec : LaneSection F} {x : Nat} {i : Int} (h : sectionLane sec i = some x) : x ∈ sec.left ++ sec.right := by
  unfold sectionLane at h
  split at h
  · exact List.mem_append_left _ (List.mem_of_getElem? h)
  · split at h
    · exact List.mem_append_right _ (List.mem_of_getElem? h)
    · cases h

omit [PyFloat F] in
theorem laneOf_of_mem {secs : List (LaneSection F)} {j : Nat} {sec : LaneSection F} (hj : secs[j]? = some sec) {x : Nat}
    (hx : x ∈ sec.left ++ sec.right) : ∃ i, laneOf secs (j, i) = some x := by
  obtain ⟨i, hi⟩ := sectionLane_of_mem hx
  exact ⟨i, by rw [laneOf_eq, hj]; exact hi⟩

omit [PyFloat F] in
theorem laneOf_mem {secs : List (LaneSection F)} {n : LaneName} {x : Nat} (h : laneOf secs n = some x) :
    ∃ sec, secs[n.1]? = some sec ∧ sectionLane sec n.2 = some x ∧ x ∈ sec.left ++ sec.right := by
  rw [laneOf_eq] at h
  split at h
  · cases h
  · rename_i sec hs
    exact ⟨sec, hs, h, mem_of_sectionLane h⟩

theorem Built.mono {a b c d : GenState F} {x : RoadCall F} {r : Road F} (h1 : OnlyNew a b) (h : Built b c x r)
    (h2 : OnlyNew c d) : Built a d x r := by
  have hold : ∀ x ∈ lanesOf r, d.lanes.cell x = c.lanes.cell x := fun x hx => h2.oldLanes x (h.new x hx).2
  refine ⟨h.id, h.type, ?_, h.shape, ?_, h.distinct, ?_, ?_, h.empty⟩
  · obtain ⟨refs, e1, e2, e3⟩ := h.plan
    refine ⟨refs, e1, ?_, fun g hg => ?_⟩
    · rw [← e2]
      exact List.map_congr_left fun g hg => h2.oldGeoms g (e3 g hg).2
    · have := e3 g hg; have := h1.geoms; have := h2.geoms; omega
  · intro n x hx
    obtain ⟨sec, s1, -, s2⟩ := laneOf_mem hx
    rw [hold x (List.mem_flatMap.mpr ⟨sec, List.mem_of_getElem? s1, List.mem_cons_of_mem _ s2⟩)]
    exact h.lane n x hx
  · intro sec hsec
    rw [hold _ (List.mem_flatMap.mpr ⟨sec, hsec, by simp⟩)]
    exact h.center sec hsec
  · intro x hx
    have := h.new x hx; have := h1.lanes; have := h2.lanes; omega

/-- A road of `create_road` is one with the same lanes made by hand. -/
theorem make_eq (c : RoadCall F) (hc : ∀ g ∈ c.geometry, c.Made → g.length.isSome) (st : GenState F) : c.make st = drawRoad c st := by
  obtain ⟨refs, st1, h1, h2, h3, h4, h5⟩ := newGeoms_ok c.geometry st
  have hl : c.Made → ∀ g ∈ refs, ((st1.geoms.cell g).length).isSome := by
    intro hmade g hg
    refine hc _ ?_ hmade
    rw [← h2]
    exact List.mem_map_of_mem hg
  obtain ⟨geometry, id, lanes, type, pred, succ⟩ := c
  cases lanes with
  | drawn p l ss ls => rfl
  | made nl nr w =>
    unfold drawRoad RoadCall.make
    rw [bind_of_ok h1, bind_of_ok h1]
    simp only [RoadCall.center, RoadCall.sections, RoadCall.laneLinks, createRoad]
    have n0 : (liftExcept (PlanView.new ((none : Option (Pose F)).map (·.x)) ((none : Option (Pose F)).map (·.y))
      ((none : Option (Pose F)).map (·.h))) : EStateM PyErr (GenState F) (PlanView F)) st1 = .ok (startView none) st1 := rfl
    simp only [RoadCall.start]
    rw [bind_of_ok (addGeometries_ok refs _ st1 (hl ⟨_, _, _, rfl⟩)), bind_of_ok n0, addGeometry_foldl]
    have e : LaneCall.lane ⟨.driving, ofInt 0, ofInt 0, ofInt 0, ofInt 0, ofInt 0, some (stdSolid (F := F))⟩ =
      (Lane.new .driving (ofInt 0) (ofInt 0) (ofInt 0) (ofInt 0) (ofInt 0)).addRoadmark stdSolid := rfl
    rw [e]
    obtain ⟨lc, st2, n1⟩ : ∃ lc st2, newLane ((Lane.new .driving (ofInt 0 : F) (ofInt 0) (ofInt 0) (ofInt 0) (ofInt 0)).addRoadmark
      stdSolid) st1 = .ok lc st2 := ⟨_, _, rfl⟩
    rw [bind_of_ok n1, bind_of_ok n1]
    obtain ⟨sec0, st3, n2⟩ : ∃ sec0 st3, newSection (ofInt 0 : F) lc st2 = .ok sec0 st3 := ⟨_, _, rfl⟩
    obtain ⟨sec4, st4, n3⟩ : ∃ sec4 st4, drawLanes genAddLeft (madeLanes nl w) sec0 st3 = .ok sec4 st4 := by
      obtain ⟨x, hx, -⟩ := drawLeft_ok (madeLanes nl w) sec0 st3
      exact ⟨_, x, hx⟩
    obtain ⟨sec5, st5, n4⟩ : ∃ sec5 st5, drawLanes genAddRight (madeLanes nr w) sec4 st4 = .ok sec5 st5 := by
      obtain ⟨x, hx, -⟩ := drawRight_ok (madeLanes nr w) sec4 st4
      exact ⟨_, x, hx⟩
    rw [bind_of_ok n2, createRoadSide_eq, bind_of_ok n3, createRoadSide_eq, bind_of_ok n4]
    have n5 : drawSections lc [⟨ofInt 0, madeLanes nl w, madeLanes nr w⟩] st2 = .ok [sec5] st5 := by
      unfold drawSections SectionCall.draw
      rw [bind_assoc, bind_of_ok n2, bind_assoc, bind_of_ok n3, bind_of_ok n4]
      rfl
    rw [bind_of_ok n5]
    rfl

theorem make_ok (c : RoadCall F) (hc : ∀ g ∈ c.geometry, c.Made → g.length.isSome) (hs : c.sections ≠ [])
    (hi : ∀ p s, (p, s) ∈ c.laneLinks → (c.lane p).isSome ∧ (c.lane s).isSome) (st : GenState F) :
    ∃ r st', c.make st = .ok r st' ∧ Built st st' c r ∧ Unlinked r ∧ OnlyNew st st' := by
  rw [make_eq c hc st]
  obtain ⟨refs, st1, h1, h2, h3, h4, h5⟩ := newGeoms_ok c.geometry st
  let st2 : GenState F := { st1 with lanes := (st1.lanes.alloc c.center.lane).1 }
  have n1 : newLane c.center.lane st1 = .ok st1.lanes.next st2 := rfl
  have hn2 : st2.lanes.next = st1.lanes.next + 1 := rfl
  have hcell2 : st2.lanes.cell st1.lanes.next = c.center.lane := by simp [st2, Store.alloc]
  have hold2 : ∀ x, x < st1.lanes.next → st2.lanes.cell x = st1.lanes.cell x := by
    intro x hx
    simp only [st2, Store.alloc]
    rw [if_neg (by omega)]
  obtain ⟨secs, st3, n3, d⟩ := drawSections_ok st1.lanes.next c.sections st2 (by omega)
  have hlane : ∀ n, (c.lane n).isSome → (laneOf secs n).isSome := by
    intro n hn
    obtain ⟨l, hl⟩ := Option.isSome_iff_exists.mp hn
    unfold RoadCall.lane at hl
    split at hl
    · cases hl
    · rename_i s hs
      obtain ⟨hlt, rfl⟩ := List.getElem?_eq_some_iff.mp hs
      have hlen := d.shape.length_eq
      have hlt' : n.1 < secs.length := by omega
      obtain ⟨-, -, e1, e2⟩ := d.shape.get hlt hlt'
      simp only [List.get_eq_getElem] at e1 e2
      rw [laneOf_eq, List.getElem?_eq_getElem hlt']
      simp only [sectionLane]
      unfold SectionCall.lane at hl
      split at hl
      · rename_i hpos
        obtain ⟨q, -⟩ := List.getElem?_eq_some_iff.mp hl
        rw [if_pos hpos, List.getElem?_eq_getElem (by omega)]; rfl
      · split at hl
        · rename_i hpos hneg
          obtain ⟨q, -⟩ := List.getElem?_eq_some_iff.mp hl
          rw [if_neg hpos, if_pos hneg, List.getElem?_eq_getElem (by omega)]; rfl
        · cases hl
  have hlinks : ∀ l ∈ c.laneLinks, (laneOf secs l.1).isSome ∧ (laneOf secs l.2).isSome := fun l hl =>
    ⟨hlane _ (hi l.1 l.2 hl).1, hlane _ (hi l.1 l.2 hl).2⟩
  have n4 := orderLinks_ok secs c.laneLinks [] hlinks
  rw [List.nil_append] at n4
  obtain ⟨a1, a2, a3⟩ := addSections_ok secs ([], ⟨fun _ => c.laneLinks.map (linkObject secs), 1⟩, st3.lanes)
  set res := addSections secs ([], ⟨fun _ => c.laneLinks.map (linkObject secs), 1⟩, st3.lanes) with hres
  have hids : ∀ n x, laneOf secs n = some x → idsOf st3.lanes x = some n.2 := by
    intro n x hx
    obtain ⟨-, -, s, l, -, -, e⟩ := d.lane n x hx
    rw [idsOf, e]; rfl
  have hne : secs ≠ [] := by
    intro h0
    have := d.shape.length_eq
    rw [h0, List.length_nil] at this
    exact hs (List.length_eq_zero_iff.mp this)
  have hadd := fun x => added_inner (ids := idsOf st3.lanes) c.laneLinks hlinks d.distinct hids x
  have hstay : ∀ x, (∀ n, laneOf secs n ≠ some x) → res.2.2.cell x = st3.lanes.cell x := by
    intro x hx
    rw [a3 x, if_neg hne]
    show withLinks (st3.lanes.cell x) ((unused 0 (c.laneLinks.map (linkObject secs))).flatMap (addedTo (idsOf st3.lanes) x)) = _
    rw [(hadd x).2 hx, withLinks_nil]
  have hlow : ∀ x, x < st2.lanes.next → ∀ n, laneOf secs n ≠ some x := by
    intro x hx n hn
    have := (d.lane n x hn).1
    omega
  have hcenter : res.2.2.cell st1.lanes.next = c.center.placed 0 := by
    rw [hstay _ (hlow _ (by omega)), d.mid, if_neg hs, hcell2]; rfl
  have hnext := d.next
  have hresn : res.2.2.next = st3.lanes.next := a2
  refine ⟨Road.new (.int c.id) { startView c.start with raw := refs } secs c.roadType none none,
    { st3 with lanes := res.2.2 }, ?_, ?_, ?_, ?_⟩
  · unfold drawRoad RoadCall.make
    rw [bind_of_ok h1]
    simp only
    have n0 : (liftExcept (PlanView.new (c.start.map (·.x)) (c.start.map (·.y)) (c.start.map (·.h))) :
      EStateM PyErr (GenState F) (PlanView F)) st1 = .ok (startView c.start) st1 := by rw [newView]; rfl
    rw [bind_of_ok n0, bind_of_ok n1, bind_of_ok n3, n4, addGeometry_foldl]
    show EStateM.Result.ok (Road.new (.int c.id) _ res.1 c.roadType none none) _ = _
    rw [a1]
    rfl
  · refine ⟨rfl, rfl, ⟨refs, rfl, ?_, ?_⟩, ?_, ?_, d.distinct, ?_, ?_, ⟨rfl, rfl, rfl, rfl⟩⟩
    · show refs.map st3.geoms.cell = _
      rw [d.geoms]; exact h2
    · show ∀ g ∈ refs, _ ∧ g < st3.geoms.next
      rw [d.geoms]; exact h3
    · exact d.shape.imp fun _ _ h => ⟨h.1, h.2.2⟩
    · intro n x hx
      have hx : laneOf secs n = some x := hx
      obtain ⟨-, -, s, l, e1, e2, e3⟩ := d.lane n x hx
      refine ⟨l, by rw [RoadCall.lane, e1]; exact e2, ?_⟩
      show res.2.2.cell x = _
      rw [a3 x, if_neg hne]
      show withLinks (st3.lanes.cell x) ((unused 0 (c.laneLinks.map (linkObject secs))).flatMap (addedTo (idsOf st3.lanes) x)) = _
      rw [(hadd x).1 n hx, e3]
    · intro sec hsec
      have hsec : sec ∈ secs := hsec
      show res.2.2.cell sec.center = _
      obtain ⟨i, hi⟩ := List.mem_iff_getElem?.mp hsec
      obtain ⟨hlt, rfl⟩ := List.getElem?_eq_some_iff.mp hi
      have hlen := d.shape.length_eq
      have := (d.shape.get (i := i) (by omega) hlt).2.1
      simp only [List.get_eq_getElem] at this
      rw [this, hcenter]
    · intro x hx
      obtain ⟨sec, hsec, hx⟩ := List.mem_flatMap.mp hx
      have hsec : sec ∈ secs := hsec
      show _ ≤ x ∧ x < res.2.2.next
      rw [hresn]
      obtain ⟨i, hi⟩ := List.mem_iff_getElem?.mp hsec
      rw [← h4]
      rcases List.mem_cons.mp hx with rfl | hx
      · obtain ⟨hlt, rfl⟩ := List.getElem?_eq_some_iff.mp hi
        have hlen := d.shape.length_eq
        have := (d.shape.get (i := i) (by omega) hlt).2.1
        simp only [List.get_eq_getElem] at this
        omega
      · obtain ⟨j, hj⟩ := laneOf_of_mem hi hx
        have := d.lane _ x hj
        omega
  · constructor <;> simp [Road.new]
  · refine ⟨?_, ?_, ?_, ?_⟩
    · show _ ≤ st3.geoms.next
      rw [d.geoms]; exact h5.geoms
    · show _ ≤ res.2.2.next
      rw [hresn]
      have := h5.lanes
      omega
    · show ∀ x, _ → st3.geoms.cell x = _
      rw [d.geoms]; exact h5.oldGeoms
    · intro x hx
      have hx1 : x < st1.lanes.next := by rw [h4]; exact hx
      show res.2.2.cell x = _
      rw [hstay x (hlow x (by omega)), d.old x (by omega) (by omega), hold2 x hx1]
      exact h5.oldLanes x hx

/-- All roads of the program: each as it was ordered, all lanes different. -/
theorem makeRoads_ok (calls : List (RoadCall F)) : ∀ st : GenState F, (∀ c ∈ calls, (∀ g ∈ c.geometry, c.Made → g.length.isSome) ∧
      c.sections ≠ [] ∧ ∀ p s, (p, s) ∈ c.laneLinks → (c.lane p).isSome ∧ (c.lane s).isSome) →
    ∃ roads st', makeRoads calls st = .ok roads st' ∧ List.Forall₂ (Built st st') calls roads ∧
      (∀ r ∈ roads, Unlinked r) ∧ roads.Pairwise (fun p q => ∀ x ∈ lanesOf p, x ∉ lanesOf q) ∧ OnlyNew st st' := by
  induction calls with
  | nil => intro st _; exact ⟨[], st, rfl, .nil, by simp, .nil, le_rfl, le_rfl, fun _ _ => rfl, fun _ _ => rfl⟩
  | cons c calls ih =>
    intro st hg
    obtain ⟨r, st1, h1, h2, h3, h4⟩ := make_ok c (hg c (by simp)).1 (hg c (by simp)).2.1 (hg c (by simp)).2.2 st
    obtain ⟨rs, st2, k1, k2, k3, k4, k5⟩ := ih st1 (fun c hc => hg c (by simp [hc]))
    refine ⟨r :: rs, st2, ?_, .cons (h2.mono ⟨le_rfl, le_rfl, fun _ _ => rfl, fun _ _ => rfl⟩ k5)
      (k2.imp fun c r h => h.mono h4 ⟨le_rfl, le_rfl, fun _ _ => rfl, fun _ _ => rfl⟩), ?_, ?_, h4.trans k5⟩
    · unfold makeRoads
      rw [bind_of_ok h1, bind_of_ok k1]; rfl
    · intro x hx
      rcases List.mem_cons.mp hx with rfl | hx
      · exact h3
      · exact k3 x hx
    · refine List.pairwise_cons.mpr ⟨fun q hq x hx hx' => ?_, k4⟩
      obtain ⟨i, hi⟩ := List.mem_iff_getElem?.mp hq
      have hlen := k2.length_eq
      have hi' : i < rs.length := (List.getElem?_eq_some_iff.mp hi).1
      have hb := k2.get (i := i) (by omega) hi'
      rw [List.get_eq_getElem, List.get_eq_getElem, (List.getElem?_eq_some_iff.mp hi).2] at hb
      have := (h2.new x hx).2
      have := (hb.new x hx').1
      omega

/-- The link that a call leaves. -/
def LinkCall.toLink (e : ContactPoint) (l : LinkCall) : Link := ⟨kindAt e, .int l.id, some l.elementType, l.contact, none⟩

/-- The road with its links. -/
structure Ready (a b : GenState F) (c : RoadCall F) (r : Road F) : Prop extends Built a b c r where
  link : ∀ e, linkAt r e = (c.link e).map (LinkCall.toLink e)
  offset : ∀ e, offsetAt r e = ((c.link e).map (·.offset)).getD 0
  links : r.links = (linkAt r .start).toList ++ (linkAt r .end).toList

omit [PyFloat F] in
theorem add_pred_ok (l : Option LinkCall) (r : Road F) (h : r.predecessor = none) (hz : r.laneOffsetPred = 0) :
    LinkCall.add .start l r = .ok { r with predecessor := l.map (LinkCall.toLink .start)
                                           links := r.links ++ (l.map (LinkCall.toLink .start)).toList
                                           laneOffsetPred := (l.map (·.offset)).getD 0 } := by
  cases l with
  | none => cases r; simp only at h hz; subst h hz; simp [LinkCall.add]
  | some l => simp [LinkCall.add, Road.addPredecessor, h, Link.new, LinkCall.toLink, kindAt]

omit [PyFloat F] in
theorem add_succ_ok (l : Option LinkCall) (r : Road F) (h : r.successor = none) (hz : r.laneOffsetSuc = 0) :
    LinkCall.add .end l r = .ok { r with successor := l.map (LinkCall.toLink .end)
                                         links := r.links ++ (l.map (LinkCall.toLink .end)).toList
                                         laneOffsetSuc := (l.map (·.offset)).getD 0 } := by
  cases l with
  | none => cases r; simp only at h hz; subst h hz; simp [LinkCall.add]
  | some l => simp [LinkCall.add, Road.addSuccessor, h, Link.new, LinkCall.toLink, kindAt]

theorem connectRoads_ok {a b : GenState F} {calls : List (RoadCall F)} {roads : List (Road F)}
    (h : List.Forall₂ (Built a b) calls roads) (hu : ∀ r ∈ roads, Unlinked r)
    (hd : roads.Pairwise (fun p q => ∀ x ∈ lanesOf p, x ∉ lanesOf q)) :
    ∃ roads', connectRoads calls roads = .ok roads' ∧ List.Forall₂ (Ready a b) calls roads' ∧
      roads'.map lanesOf = roads.map lanesOf ∧
      roads'.Pairwise (fun p q => ∀ x ∈ lanesOf p, x ∉ lanesOf q) := by
  have key : ∃ roads', connectRoads calls roads = .ok roads' ∧ List.Forall₂ (Ready a b) calls roads' ∧
      roads'.map lanesOf = roads.map lanesOf := by
    clear hd
    induction h with
    | nil => exact ⟨[], rfl, .nil, rfl⟩
    | @cons c r cs rs hb _ ih =>
      obtain ⟨rs', h1, h2, h3⟩ := ih (fun r hr => hu r (by simp [hr]))
      have hu := hu r (by simp)
      have hz := add_succ_ok c.succ { r with predecessor := c.pred.map (LinkCall.toLink .start)
                                             links := r.links ++ (c.pred.map (LinkCall.toLink .start)).toList
                                             laneOffsetPred := (c.pred.map (·.offset)).getD 0 } hu.succ hu.offsets.2
      refine ⟨{ r with predecessor := c.pred.map (LinkCall.toLink .start)
                       successor := c.succ.map (LinkCall.toLink .end)
                       links := r.links ++ (c.pred.map (LinkCall.toLink .start)).toList ++
                         (c.succ.map (LinkCall.toLink .end)).toList
                       laneOffsetPred := (c.pred.map (·.offset)).getD 0
                       laneOffsetSuc := (c.succ.map (·.offset)).getD 0 } :: rs', ?_, .cons ?_ h2, ?_⟩
      · simp only [connectRoads, add_pred_ok c.pred r hu.pred hu.offsets.1, bind, Except.bind, hz, h1]
      · refine { toBuilt := ⟨hb.id, hb.type, hb.plan, hb.shape, hb.lane, hb.distinct, hb.center, hb.new, hb.empty⟩, link := ?_, offset := ?_, links := ?_ }
        · intro e; cases e <;> rfl
        · intro e; cases e <;> rfl
        · simp [linkAt, hu.links]
      · rw [List.map_cons, List.map_cons, h3]; rfl
  obtain ⟨roads', h1, h2, h3⟩ := key
  refine ⟨roads', h1, h2, h3, ?_⟩
  have : (roads.map lanesOf).Pairwise (fun p q => ∀ x ∈ p, x ∉ q) := by
    rw [List.pairwise_map]; exact hd
  rw [← h3, List.pairwise_map] at this
  exact this

end Pyodrx
