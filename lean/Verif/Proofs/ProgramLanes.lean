import Verif.Spec.Program
import Verif.Props.Lane
import Verif.Props.Junction

/-! # The lanes of the roads of `Model/Program.lean` -/

namespace Pyodrx
open Spec Props PyFloat

variable {F : Type}

/-- A lane that was given to a section as number `i`. -/
def LaneCall.placed (c : LaneCall F) (i : Int) : Lane F := c.lane.setLaneId i

theorem LaneCall.lane_links (c : LaneCall F) : c.lane.links = [] := by
  unfold LaneCall.lane
  split <;> rfl

/-- The state after lanes have been made and added on one side of a section: their objects are the next ones. -/
structure SideDrawn (a b : GenState F) (cs : List (LaneCall F)) (number : Nat → Int) : Prop where
  geoms : b.geoms = a.geoms
  next : b.lanes.next = a.lanes.next + cs.length
  old : ∀ x, x < a.lanes.next → b.lanes.cell x = a.lanes.cell x
  cell : ∀ (i : Nat) c, cs[i]? = some c → b.lanes.cell (a.lanes.next + i) = c.placed (number i)

theorem drawLeft_ok (cs : List (LaneCall F)) : ∀ (sec : LaneSection F) (st : GenState F), ∃ st',
    drawLanes genAddLeft cs sec st = .ok { sec with left := sec.left ++ List.range' st.lanes.next cs.length
                                                    leftId := sec.leftId + cs.length } st' ∧
    SideDrawn st st' cs (fun i => sec.leftId + i) := by
  induction cs with
  | nil => intro sec st; exact ⟨st, by simp [drawLanes, pure_eq], rfl, rfl, fun _ _ => rfl, by simp⟩
  | cons c cs ih =>
    intro sec st
    let st1 : GenState F := { st with lanes := (st.lanes.alloc c.lane).1 }
    let st2 : GenState F := { st with lanes := (st1.lanes.modify st.lanes.next (·.setLaneId sec.leftId)) }
    let sec1 : LaneSection F := { sec with left := sec.left ++ [st.lanes.next], leftId := sec.leftId + 1 }
    have h1 : newLane c.lane st = .ok st.lanes.next st1 := rfl
    have h2 : genAddLeft sec st.lanes.next st1 = .ok sec1 st2 := rfl
    have hn : st2.lanes.next = st.lanes.next + 1 := rfl
    have hold : ∀ x, x < st.lanes.next → st2.lanes.cell x = st.lanes.cell x := by
      intro x hx
      simp only [st2, st1, Store.modify_cell, Store.alloc]
      rw [if_neg (by omega), if_neg (by omega)]
    have hnew : st2.lanes.cell st.lanes.next = c.placed sec.leftId := by
      simp [st2, st1, Store.modify_cell, Store.alloc, LaneCall.placed]
    obtain ⟨st', k1, k2, k3, k4, k5⟩ := ih sec1 st2
    refine ⟨st', ?_, k2, by rw [k3, hn, List.length_cons]; omega, fun x hx => by rw [k4 x (by omega), hold x hx], ?_⟩
    · unfold drawLanes
      rw [bind_of_ok h1, bind_of_ok h2, k1]
      simp only [sec1, hn, List.length_cons, List.range'_succ, List.append_assoc, List.singleton_append]
      congr 2
      push_cast; ring
    · intro i c' hc'
      cases i with
      | zero =>
        cases hc'
        rw [Nat.add_zero, k4 _ (by omega), hnew]
        simp
      | succ i =>
        have := k5 i c' hc'
        rw [hn, show st.lanes.next + 1 + i = st.lanes.next + (i + 1) by omega] at this
        rw [this]
        show c'.placed (sec.leftId + 1 + i) = _
        congr 1
        push_cast; ring

theorem drawRight_ok (cs : List (LaneCall F)) : ∀ (sec : LaneSection F) (st : GenState F), ∃ st',
    drawLanes genAddRight cs sec st = .ok { sec with right := sec.right ++ List.range' st.lanes.next cs.length
                                                     rightId := sec.rightId - cs.length } st' ∧
    SideDrawn st st' cs (fun i => sec.rightId - i) := by
  induction cs with
  | nil => intro sec st; exact ⟨st, by simp [drawLanes, pure_eq], rfl, rfl, fun _ _ => rfl, by simp⟩
  | cons c cs ih =>
    intro sec st
    let st1 : GenState F := { st with lanes := (st.lanes.alloc c.lane).1 }
    let st2 : GenState F := { st with lanes := (st1.lanes.modify st.lanes.next (·.setLaneId sec.rightId)) }
    let sec1 : LaneSection F := { sec with right := sec.right ++ [st.lanes.next], rightId := sec.rightId - 1 }
    have h1 : newLane c.lane st = .ok st.lanes.next st1 := rfl
    have h2 : genAddRight sec st.lanes.next st1 = .ok sec1 st2 := rfl
    have hn : st2.lanes.next = st.lanes.next + 1 := rfl
    have hold : ∀ x, x < st.lanes.next → st2.lanes.cell x = st.lanes.cell x := by
      intro x hx
      simp only [st2, st1, Store.modify_cell, Store.alloc]
      rw [if_neg (by omega), if_neg (by omega)]
    have hnew : st2.lanes.cell st.lanes.next = c.placed sec.rightId := by
      simp [st2, st1, Store.modify_cell, Store.alloc, LaneCall.placed]
    obtain ⟨st', k1, k2, k3, k4, k5⟩ := ih sec1 st2
    refine ⟨st', ?_, k2, by rw [k3, hn, List.length_cons]; omega, fun x hx => by rw [k4 x (by omega), hold x hx], ?_⟩
    · unfold drawLanes
      rw [bind_of_ok h1, bind_of_ok h2, k1]
      simp only [sec1, hn, List.length_cons, List.range'_succ, List.append_assoc, List.singleton_append]
      congr 2
      push_cast; ring
    · intro i c' hc'
      cases i with
      | zero =>
        cases hc'
        rw [Nat.add_zero, k4 _ (by omega), hnew]
        simp
      | succ i =>
        have := k5 i c' hc'
        rw [hn, show st.lanes.next + 1 + i = st.lanes.next + (i + 1) by omega] at this
        rw [this]
        show c'.placed (sec.rightId - 1 - i) = _
        congr 1
        push_cast; ring

/-- Lane number `i` of a section object. -/
def sectionLane (sec : LaneSection F) (i : Int) : Option Nat :=
  if 0 < i then sec.left[(i - 1).toNat]? else if i < 0 then sec.right[(-i - 1).toNat]? else none

theorem laneOf_eq (secs : List (LaneSection F)) (n : LaneName) :
    laneOf secs n = match secs[n.1]? with | none => none | some sec => sectionLane sec n.2 := rfl

/-- A section that was made between two states. -/
structure SectionDrawn (a b : GenState F) (center : Nat) (c : SectionCall F) (sec : LaneSection F) : Prop where
  s : sec.s = c.s
  mid : sec.center = center
  left : sec.left = List.range' a.lanes.next c.left.length
  right : sec.right = List.range' (a.lanes.next + c.left.length) c.right.length
  next : b.lanes.next = a.lanes.next + c.left.length + c.right.length
  lane : ∀ i x, sectionLane sec i = some x → ∃ l, c.lane i = some l ∧ b.lanes.cell x = l.placed i

theorem getElem?_range'_some {s n i x : Nat} (h : (List.range' s n)[i]? = some x) : i < n ∧ x = s + i := by
  obtain ⟨h1, h2⟩ := List.getElem?_eq_some_iff.mp h
  rw [List.length_range'] at h1
  rw [List.getElem_range'] at h2
  omega

theorem draw_ok (center : Nat) (c : SectionCall F) (st : GenState F) (hc : center < st.lanes.next) : ∃ sec st',
    c.draw center st = .ok sec st' ∧ SectionDrawn st st' center c sec ∧ st'.geoms = st.geoms ∧
    st'.lanes.cell center = (st.lanes.cell center).setLaneId 0 ∧
    ∀ x, x < st.lanes.next → x ≠ center → st'.lanes.cell x = st.lanes.cell x := by
  let st0 : GenState F := { st with lanes := st.lanes.modify center (·.setLaneId 0) }
  let sec0 : LaneSection F := ⟨c.s, center, [], [], 1, -1⟩
  have h0 : newSection c.s center st = .ok sec0 st0 := rfl
  have n0 : st0.lanes.next = st.lanes.next := rfl
  obtain ⟨st1, h1, d1⟩ := drawLeft_ok c.left sec0 st0
  obtain ⟨st2, h2, d2⟩ := drawRight_ok c.right { sec0 with left := sec0.left ++ List.range' st0.lanes.next c.left.length
                                                           leftId := sec0.leftId + c.left.length } st1
  have n1 := d1.next
  have n2 := d2.next
  let sec2 : LaneSection F := ⟨c.s, center, List.range' st0.lanes.next c.left.length, List.range' st1.lanes.next c.right.length,
    1 + c.left.length, -1 - c.right.length⟩
  have hrun : c.draw center st = .ok sec2 st2 := by
    unfold SectionCall.draw
    rw [bind_of_ok h0, bind_of_ok h1, h2]
    simp [sec0, sec2]
  refine ⟨sec2, st2, hrun, ⟨rfl, rfl, ?_, ?_, ?_, ?_⟩, ?_, ?_, ?_⟩
  · simp [sec2, n0]
  · simp [sec2, n1, n0]
  · omega
  · intro i x hx
    simp only [sectionLane, sec2] at hx
    unfold SectionCall.lane
    split at hx
    · rename_i hi
      obtain ⟨q1, q2⟩ := getElem?_range'_some hx
      rw [if_pos hi]
      refine ⟨c.left[(i - 1).toNat], List.getElem?_eq_getElem q1, ?_⟩
      have := d1.cell _ _ (List.getElem?_eq_getElem q1)
      rw [q2, d2.old _ (by omega), this]
      show LaneCall.placed _ (1 + ((i - 1).toNat : Int)) = _
      congr 1
      omega
    · split at hx
      · rename_i h1' hi
        obtain ⟨q1, q2⟩ := getElem?_range'_some hx
        rw [if_neg h1', if_pos hi]
        refine ⟨c.right[(-i - 1).toNat], List.getElem?_eq_getElem q1, ?_⟩
        have := d2.cell _ _ (List.getElem?_eq_getElem q1)
        rw [q2, this]
        show LaneCall.placed _ (-1 - ((-i - 1).toNat : Int)) = _
        congr 1
        omega
      · cases hx
  · rw [d2.geoms, d1.geoms]
  · rw [d2.old _ (by omega), d1.old _ (by omega)]
    simp [st0, Store.modify_cell]
  · intro x hx hne
    rw [d2.old _ (by omega), d1.old _ (by omega)]
    simp [st0, Store.modify_cell, hne]

/-- Sections made between two states: each as it was ordered, all lanes different. -/
structure SectionsDrawn (a b : GenState F) (center : Nat) (cs : List (SectionCall F)) (secs : List (LaneSection F)) : Prop where
  shape : List.Forall₂ (fun c sec => sec.s = c.s ∧ sec.center = center ∧ sec.left.length = c.left.length ∧
    sec.right.length = c.right.length) cs secs
  geoms : b.geoms = a.geoms
  next : a.lanes.next ≤ b.lanes.next
  lane : ∀ n x, laneOf secs n = some x → a.lanes.next ≤ x ∧ x < b.lanes.next ∧
    ∃ c l, cs[n.1]? = some c ∧ c.lane n.2 = some l ∧ b.lanes.cell x = l.placed n.2
  distinct : ∀ n m x, laneOf secs n = some x → laneOf secs m = some x → n = m
  mid : b.lanes.cell center = if cs = [] then a.lanes.cell center else (a.lanes.cell center).setLaneId 0
  old : ∀ x, x < a.lanes.next → x ≠ center → b.lanes.cell x = a.lanes.cell x

theorem sectionLane_inj {a b : GenState F} {center : Nat} {c : SectionCall F} {sec : LaneSection F}
    (h : SectionDrawn a b center c sec) {i : Int} {x : Nat} (hx : sectionLane sec i = some x) :
    a.lanes.next ≤ x ∧ x < b.lanes.next ∧ ∀ j, sectionLane sec j = some x → i = j := by
  have key : ∀ {j y}, sectionLane sec j = some y → (0 < j ∧ (j : Int) ≤ c.left.length ∧ (y : Int) = a.lanes.next + (j - 1)) ∨
      (j < 0 ∧ (-j : Int) ≤ c.right.length ∧ (y : Int) = a.lanes.next + c.left.length + (-j - 1)) := by
    intro j y hj
    unfold sectionLane at hj
    rw [h.left, h.right] at hj
    split at hj
    · obtain ⟨q1, q2⟩ := getElem?_range'_some hj
      exact .inl ⟨by omega, by omega, by omega⟩
    · split at hj
      · obtain ⟨q1, q2⟩ := getElem?_range'_some hj
        exact .inr ⟨by omega, by omega, by omega⟩
      · cases hj
  have hn := h.next
  have k1 := key hx
  refine ⟨by omega, by omega, fun j hj => ?_⟩
  have k2 := key hj
  omega

theorem drawSections_ok (center : Nat) (cs : List (SectionCall F)) : ∀ st : GenState F, center < st.lanes.next →
    ∃ secs st', drawSections center cs st = .ok secs st' ∧ SectionsDrawn st st' center cs secs := by
  induction cs with
  | nil =>
    intro st hc
    refine ⟨[], st, rfl, .nil, rfl, le_rfl, ?_, ?_, by simp, fun _ _ _ => rfl⟩
    · intro n x hx; simp [laneOf] at hx
    · intro n m x hx; simp [laneOf] at hx
  | cons c cs ih =>
    intro st hc
    obtain ⟨sec, st1, h1, h2, h3, h4, h5⟩ := draw_ok center c st hc
    have hn := h2.next
    obtain ⟨secs, st2, k1, k2⟩ := ih st1 (by omega)
    have hn2 := k2.next
    have low : ∀ {i x}, sectionLane sec i = some x → st.lanes.next ≤ x ∧ x < st1.lanes.next := fun hx =>
      ⟨(sectionLane_inj h2 hx).1, (sectionLane_inj h2 hx).2.1⟩
    refine ⟨sec :: secs, st2, ?_, .cons ⟨h2.s, h2.mid, by simp [h2.left], by simp [h2.right]⟩ k2.shape,
      by rw [k2.geoms, h3], by omega, ?_, ?_, ?_, ?_⟩
    · unfold drawSections
      rw [bind_of_ok h1, bind_of_ok k1]; rfl
    · rintro ⟨j, i⟩ x hx
      cases j with
      | zero =>
        have hx : sectionLane sec i = some x := hx
        obtain ⟨q1, q2⟩ := low hx
        obtain ⟨l, l1, l2⟩ := h2.lane i x hx
        exact ⟨by omega, by omega, c, l, rfl, l1, by rw [k2.old _ q2 (by omega), l2]⟩
      | succ j =>
        have hx : laneOf secs (j, i) = some x := hx
        obtain ⟨q1, q2, c', l, q3, q4, q5⟩ := k2.lane (j, i) x hx
        exact ⟨by omega, q2, c', l, q3, q4, q5⟩
    · rintro ⟨j, i⟩ ⟨j', i'⟩ x hx hx'
      cases j with
      | zero =>
        have hx : sectionLane sec i = some x := hx
        cases j' with
        | zero =>
          have hx' : sectionLane sec i' = some x := hx'
          rw [(sectionLane_inj h2 hx).2.2 i' hx']
        | succ j' =>
          have hx' : laneOf secs (j', i') = some x := hx'
          have := (k2.lane _ x hx').1
          have := (low hx).2
          omega
      | succ j =>
        have hx : laneOf secs (j, i) = some x := hx
        cases j' with
        | zero =>
          have hx' : sectionLane sec i' = some x := hx'
          have := (k2.lane _ x hx).1
          have := (low hx').2
          omega
        | succ j' =>
          have hx' : laneOf secs (j', i') = some x := hx'
          have := k2.distinct _ _ x hx hx'
          rw [Prod.mk.injEq] at this ⊢
          exact ⟨by omega, this.2⟩
    · rw [k2.mid, h4, if_neg (List.cons_ne_nil c cs)]
      split <;> rfl
    · intro x hx hne
      rw [k2.old x (by omega) hne, h5 x hx hne]

/-- The link objects of a program. -/
def linkObject (secs : List (LaneSection F)) (l : LaneName × LaneName) : LaneLink :=
  ⟨(laneOf secs l.1).getD 0, (laneOf secs l.2).getD 0, false⟩

theorem orderLinks_ok (secs : List (LaneSection F)) (links : List (LaneName × LaneName)) : ∀ acc,
    (∀ l ∈ links, (laneOf secs l.1).isSome ∧ (laneOf secs l.2).isSome) →
    orderLinks secs links acc = .ok (acc ++ links.map (linkObject secs)) := by
  induction links with
  | nil => intro acc _; simp [orderLinks]
  | cons l links ih =>
    intro acc h
    obtain ⟨p, s⟩ := l
    obtain ⟨h1, h2⟩ := h (p, s) (by simp)
    obtain ⟨x, hx⟩ := Option.isSome_iff_exists.mp h1
    obtain ⟨y, hy⟩ := Option.isSome_iff_exists.mp h2
    simp only [orderLinks, hx, hy]
    rw [ih _ fun l hl => h l (by simp [hl])]
    simp [LaneLinker.addLink, linkObject, hx, hy]

theorem applyAll_next (lks : List LaneLink) : ∀ lanes : Store (Lane F), (LaneLinker.applyAll lks lanes).2.next = lanes.next := by
  induction lks with
  | nil => intro lanes; rfl
  | cons k lks ih =>
    intro lanes
    show (LaneLinker.applyAll lks (k.apply lanes).2).2.next = _
    rw [ih]
    unfold LaneLink.apply
    split <;> rfl

theorem addSections_ok (secs : List (LaneSection F)) : ∀ (st : List (LaneSection F) × Store (List LaneLink) × Store (Lane F)),
    (addSections secs st).1 = st.1 ++ secs ∧ (addSections secs st).2.2.next = st.2.2.next ∧
    ∀ x, (addSections secs st).2.2.cell x = withLinks (st.2.2.cell x)
      (if secs = [] then [] else (unused 0 (st.2.1.cell 0)).flatMap (addedTo (idsOf st.2.2) x)) := by
  induction secs with
  | nil => intro st; simp [addSections, withLinks_nil]
  | cons sec secs ih =>
    intro st
    obtain ⟨h1, h2, h3⟩ := ih (Lanes.addLanesection st.1 sec [0] st.2.1 st.2.2)
    obtain ⟨a1, a2⟩ := applyAll_spec 0 (st.2.1.cell 0) st.2.2
    have e : (Lanes.addLanesection st.1 sec [0] st.2.1 st.2.2).2.2 = (LaneLinker.applyAll (st.2.1.cell 0) st.2.2).2 := rfl
    have e' : (Lanes.addLanesection st.1 sec [0] st.2.1 st.2.2).2.1.cell 0 = (LaneLinker.applyAll (st.2.1.cell 0) st.2.2).1 := by
      simp [Lanes.addLanesection, Lanes.applyLinkers, Store.put]
    refine ⟨?_, ?_, fun x => ?_⟩
    · show (addSections secs _).1 = _
      rw [h1]; simp [Lanes.addLanesection]
    · show (addSections secs _).2.2.next = _
      rw [h2, e, applyAll_next]
    · show (addSections secs _).2.2.cell x = _
      rw [h3 x, e, e', a1, a2 x, if_neg (List.cons_ne_nil sec secs)]
      simp [withLinks_nil]

/-- The links of a lane to other lanes of its road. -/
def innerOf (links : List (LaneName × LaneName)) (n : LaneName) : List Link :=
  links.flatMap fun l => (if l.1 = n then [laneLink .successor l.2.2] else []) ++
    (if l.2 = n then [laneLink .predecessor l.1.2] else [])

theorem shownId_some (i : Int) : shownId (some i) = strInt i := (laneIdText_eq (some i)).symm

/-- What the link objects add to the links of a lane. -/
theorem added_inner {secs : List (LaneSection F)} {ids : Nat → Option Int} (links : List (LaneName × LaneName))
    (h : ∀ l ∈ links, (laneOf secs l.1).isSome ∧ (laneOf secs l.2).isSome)
    (hd : ∀ n m x, laneOf secs n = some x → laneOf secs m = some x → n = m)
    (hid : ∀ n x, laneOf secs n = some x → ids x = some n.2) (x : Nat) :
    (∀ n, laneOf secs n = some x →
      (unused 0 (links.map (linkObject secs))).flatMap (addedTo ids x) = innerOf links n) ∧
    ((∀ n, laneOf secs n ≠ some x) → (unused 0 (links.map (linkObject secs))).flatMap (addedTo ids x) = []) := by
  induction links with
  | nil => exact ⟨fun _ _ => rfl, fun _ => rfl⟩
  | cons l links ih =>
    obtain ⟨p, s⟩ := l
    obtain ⟨h1, h2⟩ := h (p, s) (by simp)
    obtain ⟨y, hy⟩ := Option.isSome_iff_exists.mp h1
    obtain ⟨z, hz⟩ := Option.isSome_iff_exists.mp h2
    simp only at hy hz
    obtain ⟨i1, i2⟩ := ih fun l hl => h l (by simp [hl])
    have hu : unused 0 (((p, s) :: links).map (linkObject secs)) =
        ⟨0, y, z⟩ :: unused 0 (links.map (linkObject secs)) := by
      simp [unused, linkObject, hy, hz]
    rw [hu, List.flatMap_cons]
    constructor
    · intro n hn
      rw [i1 n hn]
      show _ = ((if p = n then [laneLink .successor s.2] else []) ++ (if s = n then [laneLink .predecessor p.2] else [])) ++
        innerOf links n
      congr 1
      simp only [addedTo, hid s z hz, hid p y hy, shownId_some, laneLink]
      have e1 : y = x ↔ p = n := ⟨fun e => hd _ _ x (e ▸ hy) hn, fun e => by subst e; rw [hy] at hn; exact Option.some.inj hn⟩
      have e2 : z = x ↔ s = n := ⟨fun e => hd _ _ x (e ▸ hz) hn, fun e => by subst e; rw [hz] at hn; exact Option.some.inj hn⟩
      simp only [e1, e2]
    · intro hn
      rw [i2 hn, List.append_nil]
      have e1 : y ≠ x := fun e => hn p (e ▸ hy)
      have e2 : z ≠ x := fun e => hn s (e ▸ hz)
      simp [addedTo, e1, e2]

theorem madeLanes_succ [PyFloat F] (n : Nat) (w : F) : madeLanes (n + 1) w =
    ⟨.driving, w, ofInt 0, ofInt 0, ofInt 0, ofInt 0, some (stdRoadmark (if n = 0 then .solid else .broken))⟩ :: madeLanes n w := by
  simp only [madeLanes, List.range_succ_eq_map, List.map_cons, List.map_map]
  congr 1
  · cases n <;> simp
  · refine List.map_congr_left fun i _ => ?_
    simp

theorem createRoadSide_eq [PyFloat F] (add : LaneSection F → Nat → EStateM PyErr (GenState F) (LaneSection F)) (w : F) (n : Nat) :
    ∀ sec, createRoadSide add w n sec = drawLanes add (madeLanes n w) sec := by
  induction n with
  | zero => intro sec; rfl
  | succ n ih =>
    intro sec
    rw [madeLanes_succ, createRoadSide, drawLanes]
    have : standardLane w (if n = 0 then stdSolid else stdBroken) =
        LaneCall.lane ⟨.driving, w, ofInt 0, ofInt 0, ofInt 0, ofInt 0, some (stdRoadmark (if n = 0 then .solid else .broken))⟩ := by
      split <;> rfl
    rw [this]
    congr 1
    funext x
    congr 1
    funext sec
    exact ih sec

/-- The lanes of a road, by hand. -/
def drawRoad [PyFloat F] (c : RoadCall F) : EStateM PyErr (GenState F) (Road F) :=
  RoadCall.make { c with lanes := .drawn c.start c.center c.sections c.laneLinks }

theorem addGeometry_foldl [PyFloat F] (gs : List Nat) : ∀ pv : PlanView F,
    gs.foldl (fun pv g => PlanView.addGeometry pv g none) pv = { pv with raw := pv.raw ++ gs } := by
  induction gs with
  | nil => intro pv; simp
  | cons g gs ih => intro pv; rw [List.foldl_cons, ih]; simp [PlanView.addGeometry]

end Pyodrx
