import Verif.Spec.Generators
import Verif.Proofs.Monad
import Mathlib.Tactic.Set
import Mathlib.Data.List.Nodup

/-! # Lemmas about the generators -/

namespace Pyodrx
open PyFloat Spec

variable {F : Type} [PyFloat F]

/-- The lane made by `standard_lane`, with its number. -/
def numberedLane (w : F) (m : RoadMark F) (id : Int) : Lane F := (standardLane w m).setLaneId id

theorem std_marks : (stdSolid : RoadMark F).markingType = .solid ∧
    (stdBroken : RoadMark F).markingType = .broken := by
  constructor <;> simp [stdSolid, stdBroken, stdRoadmark, RoadMark.new, truthy]

theorem plain_mark (t : RoadMarkType) : PlainMark t (stdRoadmark t : RoadMark F) := by
  constructor <;> simp [stdRoadmark, RoadMark.new, truthy]

theorem stdLane_solid (w : F) (id : Int) : StdLane w .solid id (numberedLane w stdSolid id) := by
  refine ⟨rfl, rfl, ⟨rfl, rfl, rfl, rfl, rfl⟩, ⟨stdSolid, rfl, plain_mark _⟩, rfl⟩

theorem stdLane_broken (w : F) (id : Int) : StdLane w .broken id (numberedLane w stdBroken id) := by
  refine ⟨rfl, rfl, ⟨rfl, rfl, rfl, rfl, rfl⟩, ⟨stdBroken, rfl, plain_mark _⟩, rfl⟩

theorem alloc_next {α : Type} (s : Store α) (a : α) : (s.alloc a).1.next = s.next + 1 := rfl
theorem alloc_new {α : Type} (s : Store α) (a : α) : (s.alloc a).1.cell s.next = a := by
  simp [Store.alloc]
theorem alloc_old {α : Type} (s : Store α) (a : α) {x : Nat} (h : x < s.next) :
    (s.alloc a).1.cell x = s.cell x := by
  have : x ≠ s.next := by omega
  simp [Store.alloc, this]

/-- A lane heap with `new` lanes more. -/
def grow (lanes : Store (Lane F)) (n : Nat) (f : Nat → Lane F) : Store (Lane F) :=
  { cell := fun i => if i < lanes.next then lanes.cell i
      else if i < lanes.next + n then f (i - lanes.next) else lanes.cell i
    next := lanes.next + n }

omit [PyFloat F] in
theorem store_ext {α : Type} {a b : Store α} (h1 : ∀ i, a.cell i = b.cell i) (h2 : a.next = b.next) :
    a = b := by
  cases a; cases b
  congr
  exact funext h1

omit [PyFloat F] in
theorem grow_zero (lanes : Store (Lane F)) (f : Nat → Lane F) : grow lanes 0 f = lanes := by
  refine store_ext (fun i => ?_) rfl
  simp only [grow, Nat.add_zero]
  split
  · rfl
  · rename_i h; simp [h]

omit [PyFloat F] in
theorem grow_grow (lanes : Store (Lane F)) (n m : Nat) (f g : Nat → Lane F) :
    grow (grow lanes n f) m g = grow lanes (n + m) (fun i => if i < n then f i else g (i - n)) := by
  refine store_ext (fun i => ?_) (by simp [grow]; omega)
  simp only [grow]
  by_cases h1 : i < lanes.next
  · simp [h1, show i < lanes.next + n by omega]
  · by_cases h2 : i < lanes.next + n
    · simp [h1, h2, show i < lanes.next + (n + m) by omega, show i - lanes.next < n by omega]
    · by_cases h3 : i < lanes.next + n + m
      · simp [h1, h2, h3, show i < lanes.next + (n + m) by omega,
          show ¬ i - lanes.next < n by omega, Nat.sub_add_eq]
      · simp [h1, h2, h3, show ¬ i < lanes.next + (n + m) by omega]

omit [PyFloat F] in
/-- Creating a lane and numbering it. -/
theorem alloc_modify (lanes : Store (Lane F)) (l : Lane F) (g : Lane F → Lane F) :
    ((lanes.alloc l).1).modify lanes.next g = grow lanes 1 (fun _ => g l) := by
  refine store_ext (fun i => ?_) rfl
  simp only [Store.modify, Store.alloc, grow]
  by_cases h : i = lanes.next
  · simp [h]
  · by_cases h1 : i < lanes.next
    · simp [h, h1]
    · simp [h, h1, show ¬ i < lanes.next + 1 by omega]

/-- the mark of the lane when `todo` lanes remain after it -/
def sideMark (todo : Nat) : RoadMark F := if todo = 0 then stdSolid else stdBroken

theorem createRoadSide_left (w : F) : ∀ (n : Nat) (sec : LaneSection F) (st : GenState F),
    createRoadSide genAddLeft w n sec st =
      .ok { sec with left := sec.left ++ List.range' st.lanes.next n, leftId := sec.leftId + n }
        { st with lanes := grow st.lanes n (fun i => numberedLane w (sideMark (n - 1 - i)) (sec.leftId + i)) } := by
  intro n
  induction n with
  | zero =>
    intro sec st
    simp [createRoadSide, pure_eq, grow_zero]
  | succ n ih =>
    intro sec st
    rw [createRoadSide]
    have h1 : newLane (standardLane w (if n = 0 then stdSolid else stdBroken)) st =
      .ok st.lanes.next { st with lanes := (st.lanes.alloc
        (standardLane w (if n = 0 then stdSolid else stdBroken))).1 } := rfl
    rw [bind_of_ok h1]
    have h2 : genAddLeft sec st.lanes.next { st with lanes := (st.lanes.alloc
        (standardLane w (if n = 0 then stdSolid else stdBroken))).1 } =
      .ok { sec with left := sec.left ++ [st.lanes.next], leftId := sec.leftId + 1 }
        { st with lanes := grow st.lanes 1 (fun _ => numberedLane w (sideMark n) sec.leftId) } := by
      simp only [genAddLeft, LaneSection.addLeftLane]
      rw [alloc_modify]; rfl
    rw [bind_of_ok h2, ih]
    congr 1
    · simp only [grow, List.append_assoc, List.singleton_append, List.range'_succ]
      congr 1
      push_cast; omega
    · dsimp only
      congr 1
      rw [grow_grow, Nat.add_comm 1 n]
      congr 1
      funext i
      by_cases h : i < 1
      · have : i = 0 := by omega
        subst this; simp
      · simp only [h, if_false]
        have e1 : n - 1 - (i - 1) = n + 1 - 1 - i := by omega
        have e2 : sec.leftId + 1 + ((i - 1 : Nat) : Int) = sec.leftId + i := by omega
        rw [e1, e2]

theorem createRoadSide_right (w : F) : ∀ (n : Nat) (sec : LaneSection F) (st : GenState F),
    createRoadSide genAddRight w n sec st =
      .ok { sec with right := sec.right ++ List.range' st.lanes.next n, rightId := sec.rightId - n }
        { st with lanes := grow st.lanes n (fun i => numberedLane w (sideMark (n - 1 - i)) (sec.rightId - i)) } := by
  intro n
  induction n with
  | zero =>
    intro sec st
    simp [createRoadSide, pure_eq, grow_zero]
  | succ n ih =>
    intro sec st
    rw [createRoadSide]
    have h1 : newLane (standardLane w (if n = 0 then stdSolid else stdBroken)) st =
      .ok st.lanes.next { st with lanes := (st.lanes.alloc
        (standardLane w (if n = 0 then stdSolid else stdBroken))).1 } := rfl
    rw [bind_of_ok h1]
    have h2 : genAddRight sec st.lanes.next { st with lanes := (st.lanes.alloc
        (standardLane w (if n = 0 then stdSolid else stdBroken))).1 } =
      .ok { sec with right := sec.right ++ [st.lanes.next], rightId := sec.rightId - 1 }
        { st with lanes := grow st.lanes 1 (fun _ => numberedLane w (sideMark n) sec.rightId) } := by
      simp only [genAddRight, LaneSection.addRightLane]
      rw [alloc_modify]; rfl
    rw [bind_of_ok h2, ih]
    congr 1
    · simp only [grow, List.append_assoc, List.singleton_append, List.range'_succ]
      congr 1
      push_cast; omega
    · dsimp only
      congr 1
      rw [grow_grow, Nat.add_comm 1 n]
      congr 1
      funext i
      by_cases h : i < 1
      · have : i = 0 := by omega
        subst this; simp
      · simp only [h, if_false]
        have e1 : n - 1 - (i - 1) = n + 1 - 1 - i := by omega
        have e2 : sec.rightId - 1 - ((i - 1 : Nat) : Int) = sec.rightId - i := by omega
        rw [e1, e2]

/-- the loop of `create_straight_road` and `create_cloth_arc_cloth`: a right and a left lane in turn -/
theorem straightLanes_eq (w : F) : ∀ (n : Nat) (sec : LaneSection F) (st : GenState F),
    straightLanes w n sec st =
      .ok { sec with
            right := sec.right ++ (List.range n).map (fun i => st.lanes.next + 2 * i)
            left := sec.left ++ (List.range n).map (fun i => st.lanes.next + 2 * i + 1)
            leftId := sec.leftId + n, rightId := sec.rightId - n }
        { st with lanes := grow st.lanes (2 * n) (fun i => numberedLane w stdBroken
            (if i % 2 = 0 then sec.rightId - (i / 2 : Nat) else sec.leftId + (i / 2 : Nat))) } := by
  intro n
  induction n with
  | zero =>
    intro sec st
    simp [straightLanes, pure_eq, grow_zero]
  | succ n ih =>
    intro sec st
    rw [straightLanes]
    have h1 : newLane (standardLane w stdBroken) st =
      .ok st.lanes.next { st with lanes := (st.lanes.alloc (standardLane w stdBroken)).1 } := rfl
    rw [bind_of_ok h1]
    have h2 : genAddRight sec st.lanes.next
        { st with lanes := (st.lanes.alloc (standardLane w stdBroken)).1 } =
      .ok { sec with right := sec.right ++ [st.lanes.next], rightId := sec.rightId - 1 }
        { st with lanes := grow st.lanes 1 (fun _ => numberedLane w stdBroken sec.rightId) } := by
      simp only [genAddRight, LaneSection.addRightLane]
      rw [alloc_modify]; rfl
    rw [bind_of_ok h2]
    generalize hst : ({ st with lanes := grow st.lanes 1 (fun _ => numberedLane w stdBroken sec.rightId) } : GenState F) = st1
    have hn1 : st1.lanes.next = st.lanes.next + 1 := by rw [← hst]; rfl
    have h3 : newLane (standardLane w stdBroken) st1 =
      .ok (st.lanes.next + 1) { st1 with lanes := (st1.lanes.alloc (standardLane w stdBroken)).1 } := by
      rw [← hn1]; rfl
    rw [bind_of_ok h3]
    have h4 : genAddLeft { sec with right := sec.right ++ [st.lanes.next], rightId := sec.rightId - 1 }
        (st.lanes.next + 1) { st1 with lanes := (st1.lanes.alloc (standardLane w stdBroken)).1 } =
      .ok { sec with
            right := sec.right ++ [st.lanes.next], rightId := sec.rightId - 1
            left := sec.left ++ [st.lanes.next + 1], leftId := sec.leftId + 1 }
        { st1 with lanes := grow st1.lanes 1 (fun _ => numberedLane w stdBroken sec.leftId) } := by
      simp only [genAddLeft, LaneSection.addLeftLane]
      rw [← hn1, alloc_modify]; rfl
    rw [bind_of_ok h4, ih]
    subst hst
    congr 1
    · have e : ∀ (c : Nat), (List.range (n + 1)).map (fun i => st.lanes.next + 2 * i + c) =
          (st.lanes.next + c) :: (List.range n).map (fun i => st.lanes.next + 2 + 2 * i + c) := by
        intro c
        rw [List.range_succ_eq_map, List.map_cons, List.map_map]
        congr 1
        apply List.map_congr_left
        intro i _
        simp only [Function.comp, Nat.succ_eq_add_one]
        omega
      have e0 := e 0
      have e1 := e 1
      simp only [Nat.add_zero] at e0
      rw [e0, e1]
      simp only [grow, List.append_assoc, List.singleton_append]
      congr 1
      all_goals (push_cast; omega)
    · dsimp only
      congr 1
      rw [grow_grow, grow_grow]
      rw [show 1 + (1 + 2 * n) = 2 * (n + 1) by omega]
      congr 1
      funext i
      by_cases h : i < 1
      · have : i = 0 := by omega
        subst this; simp
      · by_cases h' : i = 1
        · subst h'; simp
        · have hi : ¬ i - 1 < 1 := by omega
          simp only [h, hi, if_false]
          have e1 : (i - 1 - 1) % 2 = i % 2 := by omega
          have e2 : i / 2 = (i - 1 - 1) / 2 + 1 := by omega
          rw [e1, e2]
          congr 1
          split
          · push_cast; omega
          · push_cast; omega

omit [PyFloat F] in
theorem grow_new (lanes : Store (Lane F)) {n i : Nat} (f : Nat → Lane F) (h : i < n) :
    (grow lanes n f).cell (lanes.next + i) = f i := by
  have h1 : ¬ lanes.next + i < lanes.next := by omega
  have h2 : lanes.next + i < lanes.next + n := by omega
  simp only [grow, h1, h2, if_true, if_false]
  congr 1; omega

omit [PyFloat F] in
theorem grow_old (lanes : Store (Lane F)) {n x : Nat} (f : Nat → Lane F) (h : x < lanes.next) :
    (grow lanes n f).cell x = lanes.cell x := by
  simp [grow, h]

theorem stdLane_side (w : F) (k : Nat) (id : Int) :
    StdLane w (if k = 0 then .solid else .broken) id (numberedLane w (sideMark k) id) := by
  unfold sideMark
  split
  · exact stdLane_solid w id
  · exact stdLane_broken w id

/-- The loop over the geometries. -/
theorem addGeometries_ok : ∀ (gs : List Nat) (pv : PlanView F) (st : GenState F),
    (∀ g ∈ gs, ((st.geoms.cell g).length).isSome) →
    addGeometries gs pv st = .ok { pv with raw := pv.raw ++ gs } st := by
  intro gs
  induction gs with
  | nil => intro pv st _; simp [addGeometries, pure_eq]
  | cons g gs ih =>
    intro pv st h
    rw [addGeometries, bind_of_ok (get_eq _)]
    obtain ⟨l, hl⟩ := Option.isSome_iff_exists.mp (h g (by simp))
    simp only [hl]
    rw [ih _ _ (fun g' hg' => h g' (by simp [hg']))]
    simp [PlanView.addGeometry]

theorem addGeometries_error : ∀ (gs : List Nat) (pv : PlanView F) (st : GenState F),
    (∃ g ∈ gs, (st.geoms.cell g).length = none) → addGeometries gs pv st = .error .typeError st := by
  intro gs
  induction gs with
  | nil => intro pv st h; obtain ⟨g, hg, _⟩ := h; cases hg
  | cons g gs ih =>
    intro pv st h
    rw [addGeometries, bind_of_ok (get_eq _)]
    cases hl : (st.geoms.cell g).length with
    | none => simp only [raise_eq]
    | some l =>
      simp only
      refine ih _ _ ?_
      obtain ⟨g', hg', h'⟩ := h
      rcases List.mem_cons.mp hg' with rfl | hg'
      · rw [hl] at h'; cases h'
      · exact ⟨g', hg', h'⟩

/-- The centre lane and its section. -/
theorem newCenter (l : Lane F) (st : GenState F) :
    (newLane l >>= fun c => newSection (ofInt 0) c) st =
      .ok ⟨ofInt 0, st.lanes.next, [], [], 1, -1⟩
        { st with lanes := grow st.lanes 1 (fun _ => l.setLaneId 0) } := by
  have h1 : newLane l st = .ok st.lanes.next { st with lanes := (st.lanes.alloc l).1 } := rfl
  rw [bind_of_ok h1]
  simp only [newSection, LaneSection.new]
  rw [alloc_modify]

/-- `create_road` as a formula. -/
theorem createRoad_eq (gs : List Nat) (id : PyId) (nl nr : Nat) (rt : Int) (mark : RoadMark F) (w : F)
    (st : GenState F) (h : ∀ g ∈ gs, ((st.geoms.cell g).length).isSome) :
    createRoad gs id nl nr rt mark w st =
      .ok (Road.new id { (emptyPlanView (F := F)) with raw := gs }
          [⟨ofInt 0, st.lanes.next, List.range' (st.lanes.next + 1) nl,
            List.range' (st.lanes.next + 1 + nl) nr, 1 + nl, -1 - nr⟩] rt none none)
        { st with lanes := (grow (grow (grow st.lanes 1 (fun _ =>
              ((Lane.new .driving (ofInt 0) (ofInt 0) (ofInt 0) (ofInt 0) (ofInt 0)).addRoadmark
                mark).setLaneId 0)) nl
            (fun i => numberedLane w (sideMark (nl - 1 - i)) (1 + i))) nr
            (fun i => numberedLane w (sideMark (nr - 1 - i)) (-1 - i))) } := by
  unfold createRoad
  rw [bind_of_ok (addGeometries_ok gs _ st h)]
  have e : ∀ (l : Lane F) (f : LaneSection F → EStateM PyErr (GenState F) (Road F)),
      (newLane l >>= fun c => newSection (ofInt 0) c >>= f) =
        ((newLane l >>= fun c => newSection (ofInt 0) c) >>= f) := by
    intro l f; rw [bind_assoc]
  rw [e, bind_of_ok (newCenter _ _), bind_of_ok (createRoadSide_left _ _ _ _),
    bind_of_ok (createRoadSide_right _ _ _ _), pure_eq]
  simp [grow, emptyPlanView]

/-- the centre lane of `create_road` -/
def plainCenter (mark : RoadMark F) : Lane F :=
  ((Lane.new .driving (ofInt 0) (ofInt 0) (ofInt 0) (ofInt 0) (ofInt 0)).addRoadmark mark).setLaneId 0

theorem builtSection_road (lanes : Store (Lane F)) (c : Lane F) {cmark : RoadMark F → Prop}
    (hc : c.laneId = some 0 ∧ c.links = [] ∧ c.laneType = .driving ∧ ∃ m, c.roadmark = some m ∧ cmark m)
    (w : F) (nl nr : Nat) :
    BuiltSection lanes
      (grow (grow (grow lanes 1 (fun _ => c)) nl
        (fun i => numberedLane w (sideMark (nl - 1 - i)) (1 + i))) nr
        (fun i => numberedLane w (sideMark (nr - 1 - i)) (-1 - i)))
      ⟨ofInt 0, lanes.next, List.range' (lanes.next + 1) nl, List.range' (lanes.next + 1 + nl) nr,
        1 + nl, -1 - nr⟩ w nl nr cmark
      (fun i => if i + 1 = nl then .solid else .broken)
      (fun i => if i + 1 = nr then .solid else .broken) := by
  set l1 := grow lanes 1 (fun _ => c) with hl1
  set l2 := grow l1 nl (fun i => numberedLane w (sideMark (nl - 1 - i)) (1 + i)) with hl2
  have n1 : l1.next = lanes.next + 1 := rfl
  have n2 : l2.next = lanes.next + 1 + nl := rfl
  have n3 : ∀ f : Nat → Lane F, (grow l2 nr f).next = lanes.next + 1 + nl + nr := fun _ => rfl
  have hcell : ∀ f : Nat → Lane F, (grow l2 nr f).cell lanes.next = c := by
    intro f
    rw [grow_old _ _ (by omega), hl2, grow_old _ _ (by omega), hl1]
    simpa using grow_new lanes (fun _ => c) (show 0 < 1 by omega)
  constructor
  · rfl
  · simp
  · simp
  · simp only [List.nodup_cons, List.mem_append, List.mem_range', List.nodup_append,
      Nat.one_mul]
    refine ⟨by rintro (⟨i, hi, h⟩ | ⟨i, hi, h⟩) <;> omega, List.nodup_range', List.nodup_range', ?_⟩
    rintro a ⟨i, hi, h⟩ b ⟨j, hj, h'⟩; omega
  · intro x hx
    simp only [List.mem_cons, List.mem_append, List.mem_range', Nat.one_mul] at hx
    rw [n3]
    rcases hx with rfl | ⟨i, hi, h⟩ | ⟨i, hi, h⟩ <;> omega
  · rw [n3]; omega
  · intro x hx
    rw [grow_old _ _ (by omega), hl2, grow_old _ _ (by omega), hl1, grow_old _ _ hx]
  · dsimp only
    rw [hcell]; exact hc
  · intro i x hx
    have hi : i < nl := by
      have := (List.getElem?_eq_some_iff.mp hx).1; simpa using this
    rw [List.getElem?_range' hi] at hx
    cases hx
    rw [grow_old _ _ (by omega), hl2, Nat.one_mul, ← n1, grow_new _ _ hi]
    have := stdLane_side w (nl - 1 - i) ((i : Int) + 1)
    rw [Int.add_comm 1]
    have e : (nl - 1 - i = 0) ↔ (i + 1 = nl) := by omega
    simpa only [e] using this
  · intro i x hx
    have hi : i < nr := by
      have := (List.getElem?_eq_some_iff.mp hx).1; simpa using this
    rw [List.getElem?_range' hi] at hx
    cases hx
    rw [Nat.one_mul, ← n2, grow_new _ _ hi]
    have := stdLane_side w (nr - 1 - i) (-((i : Int) + 1))
    have e : (nr - 1 - i = 0) ↔ (i + 1 = nr) := by omega
    have e' : (-1 - (i : Int)) = -((i : Int) + 1) := by omega
    rw [e']
    simpa only [e] using this

/-- the lanes of a symmetric road after `create_straight_road` and `create_cloth_arc_cloth` -/
def symLanes (lanes : Store (Lane F)) (w : F) (n : Nat) : Store (Lane F) :=
  grow (grow lanes 1 (fun _ => numberedLane (ofInt 3) stdBroken 0)) (2 * n)
    (fun i => numberedLane w stdBroken (if i % 2 = 0 then -1 - (i / 2 : Nat) else 1 + (i / 2 : Nat)))

/-- the lane section of a symmetric road -/
def symSection (lanes : Store (Lane F)) (n : Nat) : LaneSection F :=
  { s := ofInt 0, center := lanes.next
    left := (List.range n).map (fun i => lanes.next + 1 + 2 * i + 1)
    right := (List.range n).map (fun i => lanes.next + 1 + 2 * i)
    leftId := 1 + n, rightId := -1 - n }

theorem builtSection_sym (lanes : Store (Lane F)) (w : F) (n : Nat) :
    BuiltSection lanes (symLanes lanes w n) (symSection lanes n) w n n (PlainMark .broken)
      (fun _ => .broken) (fun _ => .broken) := by
  set l1 := grow lanes 1 (fun _ => numberedLane (ofInt 3) stdBroken 0) with hl1
  have n1 : l1.next = lanes.next + 1 := rfl
  have n2 : (symLanes lanes w n).next = lanes.next + 1 + 2 * n := rfl
  constructor
  · rfl
  · simp [symSection]
  · simp [symSection]
  · simp only [symSection, List.nodup_cons, List.mem_append, List.mem_map, List.mem_range,
      List.nodup_append]
    refine ⟨by rintro (⟨i, hi, h⟩ | ⟨i, hi, h⟩) <;> omega, ?_, ?_, ?_⟩
    · exact List.Nodup.map (fun a b h => by omega) List.nodup_range
    · exact List.Nodup.map (fun a b h => by omega) List.nodup_range
    · rintro a ⟨i, hi, h⟩ b ⟨j, hj, h'⟩; omega
  · intro x hx
    simp only [symSection, List.mem_cons, List.mem_append, List.mem_map, List.mem_range] at hx
    rw [n2]
    rcases hx with rfl | ⟨i, hi, h⟩ | ⟨i, hi, h⟩ <;> omega
  · rw [n2]; omega
  · intro x hx
    unfold symLanes
    rw [← hl1, grow_old _ _ (by omega), hl1, grow_old _ _ hx]
  · have : (symLanes lanes w n).cell lanes.next = numberedLane (ofInt 3) stdBroken 0 := by
      unfold symLanes
      rw [← hl1, grow_old _ _ (by omega), hl1]
      simpa using grow_new lanes (fun _ => numberedLane (ofInt 3) stdBroken 0) (show 0 < 1 by omega)
    simp only [symSection, this]
    exact ⟨rfl, rfl, rfl, stdBroken, rfl, plain_mark _⟩
  · intro i x hx
    simp only [symSection, List.getElem?_map, Option.map_eq_some_iff] at hx
    obtain ⟨j, hj, rfl⟩ := hx
    obtain ⟨hi, rfl⟩ : i < n ∧ i = j := by
      rw [List.getElem?_eq_some_iff] at hj
      obtain ⟨h, h'⟩ := hj
      simp at h h'
      exact ⟨h, h'⟩
    unfold symLanes
    rw [← hl1, ← n1, Nat.add_assoc, grow_new _ _ (by omega)]
    have h1 : (2 * i + 1) % 2 ≠ 0 := by omega
    have h2 : (2 * i + 1) / 2 = i := by omega
    rw [if_neg h1, h2, Int.add_comm 1]
    exact stdLane_broken w _
  · intro i x hx
    simp only [symSection, List.getElem?_map, Option.map_eq_some_iff] at hx
    obtain ⟨j, hj, rfl⟩ := hx
    obtain ⟨hi, rfl⟩ : i < n ∧ i = j := by
      rw [List.getElem?_eq_some_iff] at hj
      obtain ⟨h, h'⟩ := hj
      simp at h h'
      exact ⟨h, h'⟩
    unfold symLanes
    rw [← hl1, ← n1, grow_new _ _ (by omega)]
    have h1 : (2 * i) % 2 = 0 := by omega
    have h2 : (2 * i) / 2 = i := by omega
    rw [if_pos h1, h2]
    have e' : (-1 - (i : Int)) = -((i : Int) + 1) := by omega
    rw [e']
    exact stdLane_broken w _

/-- the lane part of `create_straight_road` and `create_cloth_arc_cloth` -/
theorem symPart_eq (w : F) (n : Nat) (st : GenState F) :
    (newLane (standardLane (ofInt 3) stdBroken) >>= fun c => newSection (ofInt 0) c >>= fun sec =>
      straightLanes w n sec) st =
      .ok (symSection st.lanes n) { st with lanes := symLanes st.lanes w n } := by
  have e : (newLane (standardLane (ofInt 3) stdBroken) >>= fun c => newSection (ofInt 0) c >>= fun sec =>
      straightLanes w n sec) = ((newLane (F := F) (standardLane (ofInt 3) stdBroken) >>= fun c =>
        newSection (ofInt 0) c) >>= fun sec => straightLanes w n sec) := by
    rw [bind_assoc]
  rw [e, bind_of_ok (newCenter _ _), straightLanes_eq]
  simp only [List.nil_append, symSection]
  rfl

/-- `create_straight_road` as a formula. -/
theorem createStraightRoad_eq (id : PyId) (length : F) (junction : Int) (n : Nat) (w : F)
    (st : GenState F) :
    createStraightRoad id length junction n w st =
      .ok (Road.new id { (emptyPlanView (F := F)) with raw := [st.geoms.next] }
          [symSection st.lanes n] junction none none)
        ⟨(st.geoms.alloc (.line ⟨length⟩)).1, symLanes st.lanes w n⟩ := by
  unfold createStraightRoad
  have h1 : newGeom (.line ⟨length⟩) st =
    .ok st.geoms.next { st with geoms := (st.geoms.alloc (.line ⟨length⟩)).1 } := rfl
  rw [bind_of_ok h1]
  have e : ∀ (pv : PlanView F),
      (newLane (standardLane (ofInt 3) stdBroken) >>= fun c => newSection (ofInt 0) c >>= fun sec =>
        straightLanes w n sec >>= fun sec => pure (Road.new id pv [sec] junction none none)) =
      ((newLane (F := F) (standardLane (ofInt 3) stdBroken) >>= fun c => newSection (ofInt 0) c >>= fun sec =>
        straightLanes w n sec) >>= fun sec => pure (Road.new id pv [sec] junction none none)) := by
    intro pv; simp only [bind_assoc]
  simp only
  rw [e, bind_of_ok (symPart_eq _ _ _), pure_eq]
  rfl

/-- `create_cloth_arc_cloth` as a formula, once the three geometries could be built. -/
theorem createClothArcCloth_eq (k arc cloth : F) (id : PyId) (junction : Int) (cs : F) (n : Nat) (w : F)
    (st : GenState F) (s1 s2 : Spiral F) (a : Arc F)
    (hs1 : Spiral.new (if lt cloth (ofInt 0) && lt (ofInt 0) k then neg cs else cs)
      (if lt cloth (ofInt 0) && lt (ofInt 0) k then neg k else k) none
      (some (if lt cloth (ofInt 0) && lt (ofInt 0) k then neg cloth else cloth)) none = .ok s1)
    (ha : Arc.new (if lt cloth (ofInt 0) && lt (ofInt 0) k then neg k else k) none
      (some (if lt cloth (ofInt 0) && lt (ofInt 0) k then neg arc else arc)) = .ok a)
    (hs2 : Spiral.new (if lt cloth (ofInt 0) && lt (ofInt 0) k then neg k else k)
      (if lt cloth (ofInt 0) && lt (ofInt 0) k then neg cs else cs) none
      (some (if lt cloth (ofInt 0) && lt (ofInt 0) k then neg cloth else cloth)) none = .ok s2) :
    createClothArcCloth k arc cloth id junction cs n w st =
      .ok (Road.new id { (emptyPlanView (F := F)) with
            raw := [st.geoms.next, st.geoms.next + 1, st.geoms.next + 2] }
          [symSection st.lanes n] junction none none)
        ⟨(((st.geoms.alloc (.spiral s1)).1.alloc (.arc a)).1.alloc (.spiral s2)).1,
          symLanes st.lanes w n⟩ := by
  unfold createClothArcCloth
  have hg : ∀ (g : Geom F) (st : GenState F), newGeom g st =
    .ok st.geoms.next { st with geoms := (st.geoms.alloc g).1 } := fun _ _ => rfl
  simp only
  rw [bind_of_ok (liftExcept_ok.mpr ⟨hs1, rfl⟩), bind_of_ok (hg _ _), bind_of_ok (liftExcept_ok.mpr ⟨ha, rfl⟩),
    bind_of_ok (hg _ _), bind_of_ok (liftExcept_ok.mpr ⟨hs2, rfl⟩), bind_of_ok (hg _ _)]
  have e : ∀ (pv : PlanView F),
      (newLane (standardLane (ofInt 3) stdBroken) >>= fun c => newSection (ofInt 0) c >>= fun sec =>
        straightLanes w n sec >>= fun sec => pure (Road.new id pv [sec] junction none none)) =
      ((newLane (F := F) (standardLane (ofInt 3) stdBroken) >>= fun c => newSection (ofInt 0) c >>= fun sec =>
        straightLanes w n sec) >>= fun sec => pure (Road.new id pv [sec] junction none none)) := by
    intro pv; simp only [bind_assoc]
  rw [e, bind_of_ok (symPart_eq _ _ _), pure_eq]
  rfl

end Pyodrx
