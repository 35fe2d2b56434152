import Verif.Spec.Lane
import Verif.Proofs.Monad
import Mathlib.Data.List.Forall2
import Mathlib.Tactic.Push
import Mathlib.Tactic.Tauto

/-! # Properties C31, C32, C41, C42: lanes, lane sections, lane linkers, road marks -/

namespace Pyodrx.Props
open Pyodrx Spec

variable {F : Type}

/-! ## C32 Lane numbering -/

theorem mem_added {ops : List LaneOp} {r : Nat} : r ∈ added ops ↔ r ∈ lefts ops ∨ r ∈ rights ops := by
  induction ops with
  | nil => simp [added, lefts, rights]
  | cons op ops ih => cases op <;> simp [added, lefts, rights, ih, or_assoc, or_left_comm]

/-- The fold behind `buildSection`. -/
def buildFrom (st : LaneSection F × Store (Lane F)) (ops : List LaneOp) :
    LaneSection F × Store (Lane F) :=
  ops.foldl (fun st op => match op with
    | .left r => st.1.addLeftLane r st.2
    | .right r => st.1.addRightLane r st.2) st

theorem buildFrom_spec (ops : List LaneOp) :
    ∀ (st : LaneSection F × Store (Lane F)), (added ops).Nodup →
    (buildFrom st ops).1.left = st.1.left ++ lefts ops ∧
    (buildFrom st ops).1.right = st.1.right ++ rights ops ∧
    (buildFrom st ops).1.center = st.1.center ∧
    (buildFrom st ops).1.s = st.1.s ∧
    (∀ r, r ∉ added ops → (buildFrom st ops).2.cell r = st.2.cell r) ∧
    (∀ (i : Nat) r, (lefts ops)[i]? = some r →
      (buildFrom st ops).2.cell r = (st.2.cell r).setLaneId (st.1.leftId + i)) ∧
    (∀ (i : Nat) r, (rights ops)[i]? = some r →
      (buildFrom st ops).2.cell r = (st.2.cell r).setLaneId (st.1.rightId - i)) := by
  induction ops with
  | nil => intro st _; simp [buildFrom, lefts, rights]
  | cons op ops ih =>
    intro st hnd
    cases op with
    | left q =>
      simp only [added, List.nodup_cons] at hnd
      obtain ⟨h1, h2, h3, h4, h5, h6, h7⟩ := ih (st.1.addLeftLane q st.2) hnd.2
      have e : buildFrom st (.left q :: ops) = buildFrom (st.1.addLeftLane q st.2) ops := rfl
      rw [e]
      refine ⟨by rw [h1]; simp [LaneSection.addLeftLane, lefts],
        by rw [h2]; simp [LaneSection.addLeftLane, rights], by rw [h3]; simp [LaneSection.addLeftLane],
        by rw [h4]; simp [LaneSection.addLeftLane], ?_, ?_, ?_⟩
      · intro r hr
        simp only [added, List.mem_cons, not_or] at hr
        rw [h5 r hr.2]; simp [LaneSection.addLeftLane, Store.modify_cell, hr.1]
      · intro i r hi
        cases i with
        | zero =>
          simp only [lefts, List.getElem?_cons_zero, Option.some.injEq] at hi
          subst hi
          rw [h5 _ hnd.1]; simp [LaneSection.addLeftLane]
        | succ i =>
          simp only [lefts, List.getElem?_cons_succ] at hi
          have hm : r ∈ added ops := mem_added.mpr (Or.inl (List.mem_of_getElem? hi))
          have hne : r ≠ q := fun h => hnd.1 (h ▸ hm)
          rw [h6 i r hi]
          simp only [LaneSection.addLeftLane, Store.modify_cell_ne _ _ hne]
          congr 1; push_cast; omega
      · intro i r hi
        simp only [rights] at hi
        have hm : r ∈ added ops := mem_added.mpr (Or.inr (List.mem_of_getElem? hi))
        have hne : r ≠ q := fun h => hnd.1 (h ▸ hm)
        rw [h7 i r hi]
        simp only [LaneSection.addLeftLane, Store.modify_cell_ne _ _ hne]
    | right q =>
      simp only [added, List.nodup_cons] at hnd
      obtain ⟨h1, h2, h3, h4, h5, h6, h7⟩ := ih (st.1.addRightLane q st.2) hnd.2
      have e : buildFrom st (.right q :: ops) = buildFrom (st.1.addRightLane q st.2) ops := rfl
      rw [e]
      refine ⟨by rw [h1]; simp [LaneSection.addRightLane, lefts],
        by rw [h2]; simp [LaneSection.addRightLane, rights], by rw [h3]; simp [LaneSection.addRightLane],
        by rw [h4]; simp [LaneSection.addRightLane], ?_, ?_, ?_⟩
      · intro r hr
        simp only [added, List.mem_cons, not_or] at hr
        rw [h5 r hr.2]; simp [LaneSection.addRightLane, Store.modify_cell, hr.1]
      · intro i r hi
        simp only [lefts] at hi
        have hm : r ∈ added ops := mem_added.mpr (Or.inl (List.mem_of_getElem? hi))
        have hne : r ≠ q := fun h => hnd.1 (h ▸ hm)
        rw [h6 i r hi]
        simp only [LaneSection.addRightLane, Store.modify_cell_ne _ _ hne]
      · intro i r hi
        cases i with
        | zero =>
          simp only [rights, List.getElem?_cons_zero, Option.some.injEq] at hi
          subst hi
          rw [h5 _ hnd.1]; simp [LaneSection.addRightLane]
        | succ i =>
          simp only [rights, List.getElem?_cons_succ] at hi
          have hm : r ∈ added ops := mem_added.mpr (Or.inr (List.mem_of_getElem? hi))
          have hne : r ≠ q := fun h => hnd.1 (h ▸ hm)
          rw [h7 i r hi]
          simp only [LaneSection.addRightLane, Store.modify_cell_ne _ _ hne]
          congr 1; push_cast; omega

/-- C32: for every interleaving of `add_left_lane`/`add_right_lane` with distinct lane objects, the
section has the given lanes on each side in order of addition; the center lane has id 0, the i-th
left lane (from 1) id i, the i-th right lane id -i; nothing else about the lanes, and no other
lane, has changed. -/
theorem C32_numbering (s : F) (center : Nat) (ops : List LaneOp) (lanes : Store (Lane F))
    (hnd : (center :: added ops).Nodup) :
    let sec := (buildSection s center ops lanes).1
    let lanes' := (buildSection s center ops lanes).2
    sec.left = lefts ops ∧ sec.right = rights ops ∧ sec.center = center ∧ sec.s = s ∧
    lanes'.cell center = (lanes.cell center).setLaneId 0 ∧
    (∀ (i : Nat) r, (lefts ops)[i]? = some r →
      lanes'.cell r = (lanes.cell r).setLaneId ((i : Int) + 1)) ∧
    (∀ (i : Nat) r, (rights ops)[i]? = some r →
      lanes'.cell r = (lanes.cell r).setLaneId (-((i : Int) + 1))) ∧
    (∀ r, r ∉ center :: added ops → lanes'.cell r = lanes.cell r) := by
  simp only [List.nodup_cons] at hnd
  obtain ⟨h1, h2, h3, h4, h5, h6, h7⟩ := buildFrom_spec ops (LaneSection.new s center lanes) hnd.2
  have e : buildSection s center ops lanes = buildFrom (LaneSection.new s center lanes) ops := rfl
  simp only [e]
  have hne : ∀ r, r ∈ added ops → r ≠ center := fun r hr h => hnd.1 (h ▸ hr)
  refine ⟨by rw [h1]; simp [LaneSection.new], by rw [h2]; simp [LaneSection.new], h3, h4, ?_, ?_, ?_, ?_⟩
  · rw [h5 _ hnd.1]; simp [LaneSection.new]
  · intro i r hi
    have hm : r ∈ added ops := mem_added.mpr (Or.inl (List.mem_of_getElem? hi))
    rw [h6 i r hi]
    simp only [LaneSection.new, Store.modify_cell_ne _ _ (hne r hm)]
    congr 1; omega
  · intro i r hi
    have hm : r ∈ added ops := mem_added.mpr (Or.inr (List.mem_of_getElem? hi))
    rw [h7 i r hi]
    simp only [LaneSection.new, Store.modify_cell_ne _ _ (hne r hm)]
    congr 1; omega
  · intro r hr
    simp only [List.mem_cons, not_or] at hr
    rw [h5 r hr.2]
    simp only [LaneSection.new, Store.modify_cell_ne _ _ hr.1]

/-- the id of a lane, as a total function used to state distinctness -/
theorem id_of_mem (s : F) (center : Nat) (ops : List LaneOp) (lanes : Store (Lane F))
    (hnd : (center :: added ops).Nodup) (r : Nat) (hr : r ∈ center :: added ops) :
    ∃ k : Int, ((buildSection s center ops lanes).2.cell r).laneId = some k ∧
      ((k = 0 ∧ r = center) ∨ (∃ i : Nat, k = (i : Int) + 1 ∧ (lefts ops)[i]? = some r) ∨
       (∃ i : Nat, k = -((i : Int) + 1) ∧ (rights ops)[i]? = some r)) := by
  obtain ⟨-, -, -, -, h5, h6, h7, -⟩ := C32_numbering s center ops lanes hnd
  rcases List.mem_cons.mp hr with rfl | hr
  · exact ⟨0, by rw [h5]; rfl, Or.inl ⟨rfl, rfl⟩⟩
  · rcases mem_added.mp hr with hl | hl
    · obtain ⟨i, hi⟩ := List.getElem?_of_mem hl
      exact ⟨_, by rw [h6 i r hi]; rfl, Or.inr (Or.inl ⟨i, rfl, hi⟩)⟩
    · obtain ⟨i, hi⟩ := List.getElem?_of_mem hl
      exact ⟨_, by rw [h7 i r hi]; rfl, Or.inr (Or.inr ⟨i, rfl, hi⟩)⟩

/-- C32: all lanes of such a section have an id and the ids are pairwise distinct. -/
theorem C32_distinct (s : F) (center : Nat) (ops : List LaneOp) (lanes : Store (Lane F))
    (hnd : (center :: added ops).Nodup) (r q : Nat) (hr : r ∈ center :: added ops)
    (hq : q ∈ center :: added ops)
    (h : ((buildSection s center ops lanes).2.cell r).laneId =
      ((buildSection s center ops lanes).2.cell q).laneId) : r = q := by
  obtain ⟨k, hk, hk'⟩ := id_of_mem s center ops lanes hnd r hr
  obtain ⟨m, hm, hm'⟩ := id_of_mem s center ops lanes hnd q hq
  rw [hk, hm] at h
  have hkm : k = m := by simpa using h
  rcases hk' with ⟨h1, rfl⟩ | ⟨i, h1, h2⟩ | ⟨i, h1, h2⟩ <;>
    rcases hm' with ⟨h3, rfl⟩ | ⟨j, h3, h4⟩ | ⟨j, h3, h4⟩ <;> first
    | rfl
    | (exfalso; omega)
    | (have : i = j := by omega
       subst this; rw [h2] at h4; simpa using h4)

/-- C32, hypothesis needed: adding one lane object on both sides leaves it with one id, so the left
lane of this section has the id -1. -/
theorem C32_readding (s : F) (lanes : Store (Lane F)) :
    let r := buildSection s 0 [.left 1, .right 1] lanes
    r.1.left = [1] ∧ r.1.right = [1] ∧ (r.2.cell 1).laneId = some (-1) := by
  simp [buildSection, LaneSection.new, LaneSection.addLeftLane, LaneSection.addRightLane,
    Store.modify_cell, Lane.setLaneId]

/-- The hypotheses of C32 hold of a section with two left lanes and one right lane. -/
example : (0 :: added [.left 1, .right 2, .left 3]).Nodup ∧
    lefts [.left 1, .right 2, .left 3] = [1, 3] := by decide

/-! ## C42 The lane section element -/

theorem mapM_except_ok {α β : Type} {f : α → Except PyErr β} (l : List α) (out : List β)
    (h : List.Forall₂ (fun a b => f a = .ok b) l out) : l.mapM f = .ok out := by
  induction h with
  | nil => rfl
  | cons h1 _ ih => rw [List.mapM_cons, h1, ih]; rfl

theorem mapM_except_forall₂ {α β : Type} {f : α → Except PyErr β} :
    ∀ (l : List α) (out : List β), l.mapM f = .ok out →
      List.Forall₂ (fun a b => f a = .ok b) l out := by
  intro l
  induction l with
  | nil => intro out h; cases h; exact .nil
  | cons a l ih =>
    intro out h
    rw [List.mapM_cons] at h
    cases h1 : f a with
    | error e => rw [h1] at h; cases h
    | ok b =>
      rw [h1] at h
      cases h2 : l.mapM f with
      | error e =>
        rw [h2] at h; cases h
      | ok bs =>
        rw [h2] at h
        cases h
        exact .cons h1 (ih bs h2)

theorem forall₂_mem {α β : Type} {R : α → β → Prop} {l : List α} {m : List β}
    (h : List.Forall₂ R l m) : ∀ a ∈ l, ∃ b, R a b := by
  induction h with
  | nil => intro a h; cases h
  | cons h1 _ ih =>
    intro a ha
    rcases List.mem_cons.mp ha with rfl | ha
    · exact ⟨_, h1⟩
    · exact ih a ha

theorem mapM_except_error {α β : Type} {f : α → Except PyErr β} {e : PyErr}
    (hf : ∀ a e', f a = .error e' → e' = e) :
    ∀ (l : List α), (∃ a ∈ l, ∃ e', f a = .error e') → l.mapM f = .error e := by
  intro l
  induction l with
  | nil => rintro ⟨a, h, _⟩; cases h
  | cons a l ih =>
    rintro ⟨a', h', e', he⟩
    rw [List.mapM_cons]
    cases h1 : f a with
    | error e'' => rw [hf a e'' h1]; rfl
    | ok b =>
      rcases List.mem_cons.mp h' with rfl | h'
      · rw [h1] at he; cases he
      · have := ih ⟨a', h', e', he⟩
        rw [this]; rfl

theorem Lane.getElement_of_id {l : Lane F} {i : Int} (h : l.laneId = some i) :
    ∃ x, l.getElement = .ok x ∧ x.tag = "lane" ∧ x.attr "id" = some (.int i) ∧
      x.attr "type" = some (.str (enum2strName l.laneType.name)) := by
  unfold Lane.getElement
  rw [h]
  refine ⟨_, rfl, rfl, rfl, ?_⟩
  simp [Xml.attr, Dict.get?]

theorem Lane.getElement_err {l : Lane F} {e : PyErr} (h : l.getElement = .error e) :
    e = .valueError := by
  unfold Lane.getElement at h
  split at h <;> cases h
  rfl

theorem Lane.getElement_none {l : Lane F} (h : l.laneId = none) :
    l.getElement = .error .valueError := by simp [Lane.getElement, h]

/-- The `id` attributes of the children of an element. -/
def childIds (x : Xml F) : List (Option (Val F)) := x.children.map (·.attr "id")

theorem lanes_mapM (lanes : Store (Lane F)) (rs : List Nat)
    (h : ∀ r ∈ rs, (lanes.cell r).laneId ≠ none) :
    ∃ out, rs.mapM (fun r => (lanes.cell r).getElement) = .ok out ∧
      out.map Xml.tag = rs.map (fun _ => "lane") ∧
      out.map (·.attr "id") = rs.map (fun r => (lanes.cell r).laneId.map Val.int) ∧
      out.map Except.ok = rs.map fun r => (lanes.cell r).getElement := by
  induction rs with
  | nil => exact ⟨[], rfl, rfl, rfl, rfl⟩
  | cons r rs ih =>
    obtain ⟨out, h1, h2, h3, h4⟩ := ih (fun q hq => h q (List.mem_cons_of_mem _ hq))
    obtain ⟨i, hi⟩ := Option.ne_none_iff_exists'.mp (h r List.mem_cons_self)
    obtain ⟨x, hx, hx2, hx3, -⟩ := Lane.getElement_of_id hi
    refine ⟨x :: out, ?_, by simp [hx2, h2], by simp [hx3, h3, hi], by simp [hx, h4]⟩
    rw [List.mapM_cons, hx, h1]; rfl

/-- C42: when all lanes have ids, `LaneSection.get_element` returns a `laneSection` element that has
the start `s` of the section and contains: a `left` group iff there are left lanes, then a `center`
group, then a `right` group iff there are right lanes. Each group contains the elements of its
lanes in order of addition, carrying the ids of the lanes. -/
theorem C42_element (lanes : Store (Lane F)) (sec : LaneSection F)
    (h : ∀ r ∈ sec.left ++ [sec.center] ++ sec.right, (lanes.cell r).laneId ≠ none) :
    ∃ x, sec.getElement lanes = .ok x ∧ x.tag = "laneSection" ∧ x.attrs = [("s", .num sec.s)] ∧
      x.children.map Xml.tag = (if sec.left = [] then [] else ["left"]) ++ ["center"] ++
        (if sec.right = [] then [] else ["right"]) ∧
      ∀ g ∈ x.children, ∃ rs, ((g.tag = "left" ∧ rs = sec.left) ∨
          (g.tag = "center" ∧ rs = [sec.center]) ∨ (g.tag = "right" ∧ rs = sec.right)) ∧
        g.children.map Except.ok = rs.map (fun r => (lanes.cell r).getElement) ∧
        g.children.map Xml.tag = rs.map (fun _ => "lane") ∧
        g.children.map (·.attr "id") = rs.map fun r => (lanes.cell r).laneId.map Val.int := by
  obtain ⟨ls, l1, l2, l3, l4⟩ := lanes_mapM lanes sec.left (fun r hr => h r (by simp [hr]))
  obtain ⟨cs, c1, c2, c3, c4⟩ := lanes_mapM lanes [sec.center] (fun r hr => h r (by simp_all))
  obtain ⟨rs, r1, r2, r3, r4⟩ := lanes_mapM lanes sec.right (fun r hr => h r (by simp [hr]))
  obtain ⟨i, hi⟩ := Option.ne_none_iff_exists'.mp (h sec.center (by simp))
  obtain ⟨x, hx, hx2, hx3, -⟩ := Lane.getElement_of_id hi
  have hc : cs = [x] := by
    rw [List.mapM_cons, hx] at c1; cases c1; rfl
  subst hc
  refine ⟨_, by rw [LaneSection.getElement, l1, hx, r1]; rfl, rfl, rfl, ?_, ?_⟩
  · cases hl : sec.left <;> cases hr : sec.right <;> simp
  · intro g hg
    simp only [Xml.children_elem, List.mem_append] at hg
    rcases hg with (hg | hg) | hg
    · split at hg
      · cases hg
      · simp only [List.mem_singleton] at hg
        subst hg
        exact ⟨sec.left, Or.inl ⟨rfl, rfl⟩, l4, l2, l3⟩
    · simp only [List.mem_singleton] at hg
      subst hg
      exact ⟨[sec.center], Or.inr (Or.inl ⟨rfl, rfl⟩), c4, c2, c3⟩
    · split at hg
      · cases hg
      · simp only [List.mem_singleton] at hg
        subst hg
        exact ⟨sec.right, Or.inr (Or.inr ⟨rfl, rfl⟩), r4, r2, r3⟩

/-- C42: it raises `ValueError` iff a lane without id is included (and raises nothing else). -/
theorem C42_error (lanes : Store (Lane F)) (sec : LaneSection F) :
    (sec.getElement lanes = .error .valueError ↔
      ∃ r ∈ sec.left ++ [sec.center] ++ sec.right, (lanes.cell r).laneId = none) ∧
    (∀ e, sec.getElement lanes = .error e → e = .valueError) := by
  have key : (∃ r ∈ sec.left ++ [sec.center] ++ sec.right, (lanes.cell r).laneId = none) →
      sec.getElement lanes = .error .valueError := by
    rintro ⟨r, hr, hn⟩
    have hf : ∀ a e', (fun r => (lanes.cell r).getElement) a = .error e' → e' = .valueError :=
      fun a e' h => Lane.getElement_err h
    unfold LaneSection.getElement
    cases hl : sec.left.mapM (fun r => (lanes.cell r).getElement) with
    | error e =>
      by_cases hx : ∃ a ∈ sec.left, ∃ e', (fun r => (lanes.cell r).getElement) a = .error e'
      · rw [mapM_except_error hf _ hx] at hl; cases hl; rfl
      · exfalso
        push Not at hx
        obtain ⟨out, ho, -⟩ := lanes_mapM lanes sec.left (fun r hr hn =>
          hx r hr _ (Lane.getElement_none hn))
        rw [ho] at hl; cases hl
    | ok ls =>
      have hls := mapM_except_forall₂ _ _ hl
      cases hc : (lanes.cell sec.center).getElement with
      | error e => rw [Lane.getElement_err hc]; rfl
      | ok c =>
        have hnr : r ∈ sec.right := by
          simp only [List.mem_append, List.mem_singleton] at hr
          rcases hr with (hr | rfl) | hr
          · obtain ⟨b, hb⟩ := forall₂_mem hls r hr
            rw [Lane.getElement_none hn] at hb; cases hb
          · rw [Lane.getElement_none hn] at hc; cases hc
          · exact hr
        have : sec.right.mapM (fun r => (lanes.cell r).getElement) = .error .valueError :=
          mapM_except_error hf _ ⟨r, hnr, _, Lane.getElement_none hn⟩
        simp only [this]; rfl
  constructor
  · refine ⟨fun h => ?_, key⟩
    by_contra hx
    push Not at hx
    obtain ⟨x, hx, -⟩ := C42_element lanes sec hx
    rw [hx] at h; cases h
  · intro e he
    by_cases hx : ∃ r ∈ sec.left ++ [sec.center] ++ sec.right, (lanes.cell r).laneId = none
    · rw [key hx] at he; cases he; rfl
    · push Not at hx
      obtain ⟨x, hx, -⟩ := C42_element lanes sec hx
      rw [hx] at he; cases he

/-- C42 with C32: for every section built from distinct lanes, the emitted ids are 1, 2, ... in the
`left` group, 0 in the `center` group and -1, -2, ... in the `right` group. -/
theorem C42_built (s : F) (center : Nat) (ops : List LaneOp) (lanes : Store (Lane F))
    (hnd : (center :: added ops).Nodup) :
    let b := buildSection s center ops lanes
    ∃ x, b.1.getElement b.2 = .ok x ∧ ∀ g ∈ x.children,
      (g.tag = "left" → childIds g =
        (List.range (lefts ops).length).map fun (i : Nat) => some (.int ((i : Int) + 1))) ∧
      (g.tag = "center" → childIds g = [some (.int 0)]) ∧
      (g.tag = "right" → childIds g =
        (List.range (rights ops).length).map fun (i : Nat) => some (.int (-((i : Int) + 1)))) := by
  obtain ⟨h1, h2, h3, -, h5, h6, h7, -⟩ := C32_numbering s center ops lanes hnd
  intro b
  have hall : ∀ r ∈ b.1.left ++ [b.1.center] ++ b.1.right, (b.2.cell r).laneId ≠ none := by
    intro r hr
    have hr' : r ∈ center :: added ops := by
      simp only [List.mem_append, List.mem_singleton, b, h1, h2, h3] at hr
      simp only [List.mem_cons, mem_added]; tauto
    obtain ⟨k, hk, -⟩ := id_of_mem s center ops lanes hnd r hr'
    simp only [b, hk]; simp
  obtain ⟨x, hx, -, -, -, hg⟩ := C42_element b.2 b.1 hall
  refine ⟨x, hx, fun g hgm => ?_⟩
  obtain ⟨rs, hcase, -, -, hids⟩ := hg g hgm
  refine ⟨fun ht => ?_, fun ht => ?_, fun ht => ?_⟩
  · rcases hcase with ⟨-, rfl⟩ | ⟨ht', -⟩ | ⟨ht', -⟩
    · unfold childIds; rw [hids]
      simp only [b, h1]
      apply List.ext_getElem? 
      intro i
      simp only [List.getElem?_map]
      cases hi : (lefts ops)[i]? with
      | none => rw [List.getElem?_eq_none (by simpa using hi)]; rfl
      | some r =>
        have hlt : i < (lefts ops).length := (List.getElem?_eq_some_iff.mp hi).1
        rw [List.getElem?_range hlt]
        simp [h6 i r hi, Lane.setLaneId]
    · rw [ht] at ht'; exact absurd ht' (by decide)
    · rw [ht] at ht'; exact absurd ht' (by decide)
  · rcases hcase with ⟨ht', -⟩ | ⟨-, rfl⟩ | ⟨ht', -⟩
    · rw [ht] at ht'; exact absurd ht' (by decide)
    · unfold childIds; rw [hids]
      simp [b, h3, h5, Lane.setLaneId]
    · rw [ht] at ht'; exact absurd ht' (by decide)
  · rcases hcase with ⟨ht', -⟩ | ⟨ht', -⟩ | ⟨-, rfl⟩
    · rw [ht] at ht'; exact absurd ht' (by decide)
    · rw [ht] at ht'; exact absurd ht' (by decide)
    · unfold childIds; rw [hids]
      simp only [b, h2]
      apply List.ext_getElem? 
      intro i
      simp only [List.getElem?_map]
      cases hi : (rights ops)[i]? with
      | none => rw [List.getElem?_eq_none (by simpa using hi)]; rfl
      | some r =>
        have hlt : i < (rights ops).length := (List.getElem?_eq_some_iff.mp hi).1
        rw [List.getElem?_range hlt]
        simp [h7 i r hi, Lane.setLaneId]

/-! ## C31 LaneLinker links are applied once -/

/-- A lane with more links. -/
def withLinks (l : Lane F) (ks : List Link) : Lane F := { l with links := l.links ++ ks }

theorem withLinks_id (l : Lane F) (ks : List Link) : (withLinks l ks).laneId = l.laneId := rfl
theorem withLinks_nil (l : Lane F) : withLinks l [] = l := by simp [withLinks]
theorem withLinks_append (l : Lane F) (ks ks' : List Link) :
    withLinks (withLinks l ks) ks' = withLinks l (ks ++ ks') := by simp [withLinks]

/-- the ids of the lanes in the heap -/
def idsOf (lanes : Store (Lane F)) : Nat → Option Int := fun r => (lanes.cell r).laneId

theorem laneIdText_eq (o : Option Int) : laneIdText o = shownId o := by
  rcases o with _ | i
  · rfl
  · cases i <;> rfl

theorem apply_unused (p s : Nat) (l : Nat) (lanes : Store (Lane F)) :
    (LaneLink.apply ⟨p, s, false⟩ lanes).1 = ⟨p, s, true⟩ ∧
    ∀ r, (LaneLink.apply ⟨p, s, false⟩ lanes).2.cell r =
      withLinks (lanes.cell r) (addedTo (idsOf lanes) r ⟨l, p, s⟩) := by
  refine ⟨rfl, fun r => ?_⟩
  by_cases h1 : r = p <;> by_cases h2 : r = s
  · subst h1; subst h2
    simp [LaneLink.apply, Store.modify_cell, Lane.addLink, addedTo, withLinks, idsOf, laneIdText_eq]
  · subst h1
    simp [LaneLink.apply, Store.modify_cell, Lane.addLink, addedTo, withLinks, idsOf, laneIdText_eq, h2, Ne.symm h2]
  · subst h2
    simp [LaneLink.apply, Store.modify_cell, Lane.addLink, addedTo, withLinks, idsOf, laneIdText_eq, h1, Ne.symm h1]
  · simp [LaneLink.apply, Store.modify_cell, addedTo, withLinks, h1, h2, Ne.symm h1, Ne.symm h2]

/-- the links of one linker that have not been used -/
def unused (l : Nat) (lks : List LaneLink) : List Pending :=
  (lks.filter (fun k => !k.used)).map fun k => ⟨l, k.predecessor, k.successor⟩

theorem applyAll_spec (l : Nat) (lks : List LaneLink) : ∀ (lanes : Store (Lane F)),
    unused l (LaneLinker.applyAll lks lanes).1 = [] ∧
    ∀ r, (LaneLinker.applyAll lks lanes).2.cell r =
      withLinks (lanes.cell r) ((unused l lks).flatMap (addedTo (idsOf lanes) r)) := by
  induction lks with
  | nil => intro lanes; simp [LaneLinker.applyAll, unused, withLinks_nil]
  | cons k lks ih =>
    intro lanes
    obtain ⟨p, s, u⟩ := k
    cases u with
    | true =>
      have e : LaneLinker.applyAll (⟨p, s, true⟩ :: lks) lanes =
        (⟨p, s, true⟩ :: (LaneLinker.applyAll lks lanes).1, (LaneLinker.applyAll lks lanes).2) := rfl
      obtain ⟨h1, h2⟩ := ih lanes
      rw [e]
      exact ⟨by simpa [unused] using h1, fun r => by rw [h2]; simp [unused]⟩
    | false =>
      obtain ⟨a1, a2⟩ := apply_unused p s l lanes
      generalize hx : LaneLink.apply ⟨p, s, false⟩ lanes = x at a1 a2
      have e : LaneLinker.applyAll (⟨p, s, false⟩ :: lks) lanes =
        (x.1 :: (LaneLinker.applyAll lks x.2).1, (LaneLinker.applyAll lks x.2).2) := by
        rw [← hx]; rfl
      obtain ⟨h1, h2⟩ := ih x.2
      have hid : idsOf x.2 = idsOf lanes := by funext r; simp [idsOf, a2 r, withLinks_id]
      rw [e]
      constructor
      · rw [a1]; simpa [unused] using h1
      · intro r
        show (LaneLinker.applyAll lks x.2).2.cell r = _
        rw [h2, hid, a2, withLinks_append]
        simp [unused]

/-- `pend` are the links waiting in the linkers. -/
def PendInv (linkers : Store (List LaneLink)) (pend : List Pending) : Prop :=
  ∀ l, unused l (linkers.cell l) = pend.filter (·.linker = l)

theorem applyLinkers_spec (ls : List Nat) :
    ∀ (linkers : Store (List LaneLink)) (lanes : Store (Lane F)) (pend : List Pending),
    PendInv linkers pend →
    PendInv (Lanes.applyLinkers ls linkers lanes).1 (pend.filter (·.linker ∉ ls)) ∧
    ∀ r, (Lanes.applyLinkers ls linkers lanes).2.cell r =
      withLinks (lanes.cell r) ((flushed ls pend).flatMap (addedTo (idsOf lanes) r)) := by
  induction ls with
  | nil =>
    intro linkers lanes pend h
    refine ⟨?_, fun r => by simp [Lanes.applyLinkers, flushed, withLinks_nil]⟩
    simpa [Lanes.applyLinkers] using h
  | cons l ls ih =>
    intro linkers lanes pend h
    obtain ⟨a1, a2⟩ := applyAll_spec l (linkers.cell l) lanes
    generalize hx : LaneLinker.applyAll (linkers.cell l) lanes = x at a1 a2
    have e : Lanes.applyLinkers (l :: ls) linkers lanes =
      Lanes.applyLinkers ls (linkers.put l x.1) x.2 := by rw [← hx]; rfl
    have hp : PendInv (linkers.put l x.1) (pend.filter (·.linker ≠ l)) := by
      intro m
      by_cases hm : m = l
      · subst hm
        rw [Store.put_cell_same, a1, List.filter_filter]
        symm
        rw [List.filter_eq_nil_iff]
        intro q _; simp
      · rw [Store.put_cell_ne _ _ hm, h m, List.filter_filter]
        apply List.filter_congr
        intro q _
        by_cases hq : q.linker = m
        · simp [hq, hm]
        · simp [hq]
    obtain ⟨h1, h2⟩ := ih _ x.2 _ hp
    have hid : idsOf x.2 = idsOf lanes := by funext r; simp [idsOf, a2 r, withLinks_id]
    rw [e]
    constructor
    · rw [List.filter_filter] at h1
      convert h1 using 2
      funext q
      simp [not_or, Bool.and_comm]
    · intro r
      rw [h2, hid, a2, withLinks_append, h l]
      simp [flushed]

theorem runLinker_spec (sec : LaneSection F) (ops : List LinkerOp) :
    ∀ (linkers : Store (List LaneLink)) (lanes : Store (Lane F)) (pend : List Pending),
    PendInv linkers pend → ∀ r, (runLinkerOps sec ops (linkers, lanes)).2.cell r =
      withLinks (lanes.cell r) ((applied pend ops).flatMap (addedTo (idsOf lanes) r)) := by
  induction ops with
  | nil => intro linkers lanes pend _ r; simp [runLinkerOps, applied, withLinks_nil]
  | cons op ops ih =>
    intro linkers lanes pend h r
    cases op with
    | addLink l p s =>
      have e : runLinkerOps sec (.addLink l p s :: ops) (linkers, lanes) =
        runLinkerOps sec ops (linkers.modify l (LaneLinker.addLink · p s), lanes) := rfl
      rw [e]
      refine ih _ _ (pend ++ [⟨l, p, s⟩]) ?_ r
      intro m
      by_cases hm : m = l
      · subst hm
        have := h m
        simp only [unused] at this ⊢
        simp [LaneLinker.addLink, this]
      · rw [Store.modify_cell_ne _ _ hm, h m]; simp [Ne.symm hm]
    | addSection ls =>
      have e : runLinkerOps sec (.addSection ls :: ops) (linkers, lanes) =
        runLinkerOps sec ops (Lanes.applyLinkers ls linkers lanes) := rfl
      rw [e]
      obtain ⟨h1, h2⟩ := applyLinkers_spec ls linkers lanes pend h
      generalize Lanes.applyLinkers ls linkers lanes = x at h1 h2
      have hid : idsOf x.2 = idsOf lanes := by funext r; simp [idsOf, h2 r, withLinks_id]
      have := ih x.1 x.2 _ h1 r
      rw [show (x.1, x.2) = x from rfl] at this
      rw [this, hid, h2, withLinks_append]
      simp [applied]

/-- C31: over any history of `add_link` and `add_lanesection` calls with new linkers, the links of
every lane are its old ones followed by what the applied lane links (`applied`) contribute; nothing
else about any lane changes. -/
theorem C31_links (sec : LaneSection F) (ops : List LinkerOp) (linkers : Store (List LaneLink))
    (hnew : ∀ l, linkers.cell l = []) (lanes : Store (Lane F)) (r : Nat) :
    (runLinkerOps sec ops (linkers, lanes)).2.cell r =
      { lanes.cell r with
        links := (lanes.cell r).links ++
          (applied [] ops).flatMap (addedTo (fun q => (lanes.cell q).laneId) r) } :=
  runLinker_spec sec ops linkers lanes [] (fun l => by simp [hnew, unused]) r

theorem flushed_perm (ls : List Nat) : ∀ pend : List Pending,
    (flushed ls pend).Perm (pend.filter (·.linker ∈ ls)) := by
  induction ls with
  | nil => intro pend; simp [flushed]
  | cons l ls ih =>
    intro pend
    rw [flushed]
    refine ((ih _).append_left _).trans ?_
    rw [List.filter_filter]
    have : (pend.filter (·.linker ∈ l :: ls)).filter (fun q => q.linker = l) =
        pend.filter (·.linker = l) := by
      rw [List.filter_filter]; apply List.filter_congr; intro q _; by_cases h : q.linker = l <;> simp [h]
    have h2 : (pend.filter (·.linker ∈ l :: ls)).filter (fun q => ¬ q.linker = l) =
        pend.filter (fun q => decide (q.linker ∈ ls) && decide (q.linker ≠ l)) := by
      rw [List.filter_filter]; apply List.filter_congr; intro q _
      by_cases h : q.linker = l <;> simp [h]
    rw [← this, ← h2]
    have := List.filter_append_perm (fun q : Pending => decide (q.linker = l))
      (pend.filter (·.linker ∈ l :: ls))
    simpa using this

theorem applied_perm (ops : List LinkerOp) : ∀ pend : List Pending,
    (applied pend ops).Perm (pend.filter (fun q => mentions q.linker ops) ++ required ops) := by
  induction ops with
  | nil => intro pend; simp [applied, required, mentions]
  | cons op ops ih =>
    intro pend
    cases op with
    | addLink l p s =>
      rw [applied, required]
      refine (ih _).trans ?_
      have : (fun q : Pending => mentions q.linker (.addLink l p s :: ops)) =
          fun q => mentions q.linker ops := rfl
      rw [this, List.filter_append]
      by_cases h : mentions l ops = true <;> simp [h]
    | addSection ls =>
      rw [applied, required]
      refine ((flushed_perm ls pend).append (ih _)).trans ?_
      rw [← List.append_assoc]
      refine List.Perm.append_right _ ?_
      have h1 : (pend.filter (fun q => mentions q.linker (.addSection ls :: ops))).filter
          (fun q => decide (q.linker ∈ ls)) = pend.filter (·.linker ∈ ls) := by
        rw [List.filter_filter]; apply List.filter_congr; intro q _
        by_cases h : q.linker ∈ ls <;> simp [h, mentions]
      have h2 : (pend.filter (fun q => mentions q.linker (.addSection ls :: ops))).filter
          (fun q => !decide (q.linker ∈ ls)) =
          (pend.filter (·.linker ∉ ls)).filter (fun q => mentions q.linker ops) := by
        rw [List.filter_filter, List.filter_filter]; apply List.filter_congr; intro q _
        by_cases h : q.linker ∈ ls <;> simp [h, mentions]
      rw [← h1, ← h2]
      exact List.filter_append_perm _ _

/-- C31: the applied lane links are, counted with multiplicity, exactly the `add_link` calls whose
linker is later used by an `add_lanesection` call: each of them once, however often its linker is
used, and no others. -/
theorem C31_once (ops : List LinkerOp) : (applied [] ops).Perm (required ops) := by
  simpa using applied_perm ops []

/-- C31: the sections added to a `Lanes`, with whatever linkers, are kept and emitted in the order of the
calls: the children of `<lanes>` are the elements of these sections in this order. -/
theorem C31_order (calls : List (LaneSection F × List Nat)) (linkers : Store (List LaneLink))
    (lanes : Store (Lane F)) :
    let st := calls.foldl (fun st c => Lanes.addLanesection st.1 c.1 c.2 st.2.1 st.2.2) ([], linkers, lanes)
    st.1 = calls.map Prod.fst ∧
    ∀ x, Lanes.getElement st.2.2 st.1 = .ok x → x.children.length = calls.length ∧
      ∀ (i : Nat) (c : LaneSection F × List Nat), calls[i]? = some c → ∃ y, x.children[i]? = some y ∧ c.1.getElement st.2.2 = .ok y := by
  have key : ∀ (calls : List (LaneSection F × List Nat)) (st : List (LaneSection F) × Store (List LaneLink) ×
      Store (Lane F)), (calls.foldl (fun st c => Lanes.addLanesection st.1 c.1 c.2 st.2.1 st.2.2) st).1 =
        st.1 ++ calls.map Prod.fst := by
    intro calls
    induction calls with
    | nil => intro st; simp
    | cons c calls ih => intro st; rw [List.foldl_cons, ih]; simp [Lanes.addLanesection]
  intro st
  have h1 : st.1 = calls.map Prod.fst := by simpa using key calls ([], linkers, lanes)
  refine ⟨h1, ?_⟩
  have hm : ∀ (l : List (LaneSection F)) ys, l.mapM (LaneSection.getElement st.2.2) = .ok ys →
      ys.length = l.length ∧ ∀ (i : Nat) (c : LaneSection F), l[i]? = some c →
        ∃ y, ys[i]? = some y ∧ c.getElement st.2.2 = .ok y := by
    intro l
    induction l with
    | nil => intro ys h; cases h; simp
    | cons a l ih =>
      intro ys h
      rw [List.mapM_cons] at h
      cases ha : LaneSection.getElement st.2.2 a with
      | error e => rw [ha] at h; cases h
      | ok y =>
        rw [ha] at h
        cases hl : l.mapM (LaneSection.getElement st.2.2) with
        | error e => rw [hl] at h; cases h
        | ok ys' =>
          rw [hl] at h
          cases h
          obtain ⟨i1, i2⟩ := ih ys' hl
          refine ⟨by simp [i1], ?_⟩
          intro i c hc
          cases i with
          | zero => simp at hc; subst hc; exact ⟨y, by simp, ha⟩
          | succ i => simp at hc; obtain ⟨z, z1, z2⟩ := i2 i c hc; exact ⟨z, by simpa using z1, z2⟩
  intro x hx
  unfold Lanes.getElement at hx
  cases hl : st.1.mapM (LaneSection.getElement st.2.2) with
  | error e => rw [hl] at hx; cases hx
  | ok ys =>
    rw [hl] at hx
    cases hx
    obtain ⟨i1, i2⟩ := hm _ _ hl
    rw [h1] at i1 i2
    refine ⟨by simpa using i1, ?_⟩
    intro i c hc
    exact i2 i c.1 (by simp [hc])

/-- A linker with one link used for three sections: lane 1 (id -1) gets one successor link, lane 2
(id -2) one predecessor link. -/
example (sec : LaneSection Nat) (lanes : Store (Lane Nat)) (h1 : (lanes.cell 1).laneId = some (-1))
    (h2 : (lanes.cell 2).laneId = some (-2)) (h3 : (lanes.cell 1).links = [])
    (h4 : (lanes.cell 2).links = []) :
    let st := runLinkerOps sec [.addLink 0 1 2, .addSection [0], .addSection [0, 0], .addSection [0]]
      (⟨fun _ => [], 1⟩, lanes)
    (st.2.cell 1).links = [⟨.successor, .str "-2", none, none, none⟩] ∧
    (st.2.cell 2).links = [⟨.predecessor, .str "-1", none, none, none⟩] := by
  intro st
  have hs : ∀ r, st.2.cell r = _ := C31_links sec _ _ (fun _ => rfl) lanes
  rw [hs 1, hs 2]
  simp [applied, flushed, addedTo, h1, h2, h3, h4, shownId]
  decide

/-! ## C41 Road mark lines -/

open PyFloat in
/-- C41: a road mark gets a line iff a rule, or a non-zero length, space or toffset, is given. -/
theorem C41_line_iff [PyFloat F] (mt : RoadMarkType) (width length space toffset : Option F)
    (soffset : F) (rule : Option MarkRule) (color : RoadMarkColor) (weight : RoadMarkWeight)
    (height : F) (lc : Option LaneChange) :
    (RoadMark.new mt width length space toffset soffset rule color weight height lc).line.isSome ↔
      rule ≠ none ∨ (∃ v, length = some v ∧ isZero v = false) ∨
      (∃ v, space = some v ∧ isZero v = false) ∨ (∃ v, toffset = some v ∧ isZero v = false) := by
  unfold RoadMark.new
  dsimp only
  have ht : ∀ o : Option F, truthy o = true ↔ ∃ v, o = some v ∧ isZero v = false := by
    intro o; cases o <;> simp [truthy]
  split
  · rename_i h
    simp only [Bool.or_eq_true, ht, Option.isSome_iff_ne_none] at h
    simp only [Option.isSome_some, true_iff]
    rcases h with ((h | h) | h) | h
    · exact Or.inr (Or.inl h)
    · exact Or.inr (Or.inr (Or.inl h))
    · exact Or.inr (Or.inr (Or.inr h))
    · exact Or.inl h
  · rename_i h
    simp only [Bool.or_eq_true, ht, Option.isSome_iff_ne_none] at h
    simp only [Option.isSome_none, Bool.false_eq_true, false_iff]
    rintro (h' | h' | h' | h')
    · exact h (Or.inr h')
    · exact h (Or.inl (Or.inl (Or.inl h')))
    · exact h (Or.inl (Or.inl (Or.inr h')))
    · exact h (Or.inl (Or.inr h'))

open PyFloat in
/-- A given non-zero value, or else the default. -/
def givenOr [PyFloat F] (o : Option F) (dflt x : F) : Prop :=
  (∀ v, o = some v → isZero v = false → x = v) ∧ ((∀ v, o = some v → isZero v = true) → x = dflt)

theorem givenOr_orElse [PyFloat F] (o : Option F) (d : F) : givenOr o d (PyFloat.orElse o d) := by
  cases o with
  | none => exact ⟨fun v h => (by cases h), fun _ => rfl⟩
  | some v =>
    constructor
    · intro w hw h; cases hw; simp [PyFloat.orElse, h]
    · intro h; simp [PyFloat.orElse, h v rfl]

open PyFloat in
/-- C41: the line of a broken or solid road mark has the given non-zero values, and otherwise the
documented defaults: length 3, space 3 (broken) or 0 (solid), width 0.2, t offset 0, rule none; and
always the s offset and colour of the road mark. -/
theorem C41_line_values [PyFloat F] (mt : RoadMarkType) (hmt : mt = .broken ∨ mt = .solid)
    (width length space toffset : Option F)
    (soffset : F) (rule : Option MarkRule) (color : RoadMarkColor) (weight : RoadMarkWeight)
    (height : F) (lc : Option LaneChange) (ln : RoadLine F)
    (h : (RoadMark.new mt width length space toffset soffset rule color weight height lc).line =
      some ln) :
    givenOr length (ofInt 3) ln.length ∧
    givenOr space (if mt = .broken then ofInt 3 else ofInt 0) ln.space ∧
    givenOr width (ofInt 2 /. ofInt 10) ln.width ∧ givenOr toffset (ofInt 0) ln.toffset ∧
    ln.soffset = soffset ∧ ln.color = some color ∧ ln.rule = some (rule.getD .none) := by
  unfold RoadMark.new at h
  dsimp only at h
  split at h
  · rcases hmt with rfl | rfl
    all_goals
      simp only [Option.some.injEq] at h
      subst h
      refine ⟨givenOr_orElse _ _, ?_, givenOr_orElse _ _, givenOr_orElse _ _, rfl, rfl, rfl⟩
      simpa using givenOr_orElse _ _
  · simp at h

open PyFloat in
/-- C41, finding: for every other mark type the space of the line is the length, whatever space is
given (lane.py:540 uses `length` where `space` is meant). -/
theorem C41_other_types [PyFloat F] (mt : RoadMarkType) (h1 : mt ≠ .broken) (h2 : mt ≠ .solid)
    (width length space toffset : Option F)
    (soffset : F) (rule : Option MarkRule) (color : RoadMarkColor) (weight : RoadMarkWeight)
    (height : F) (lc : Option LaneChange) (ln : RoadLine F)
    (h : (RoadMark.new mt width length space toffset soffset rule color weight height lc).line =
      some ln) :
    givenOr length (ofInt 0) ln.length ∧ ln.space = ln.length ∧
    givenOr width (ofInt 2 /. ofInt 10) ln.width ∧ givenOr toffset (ofInt 0) ln.toffset := by
  unfold RoadMark.new at h
  dsimp only at h
  split at h
  · cases mt <;> first | exact absurd rfl h1 | exact absurd rfl h2 | skip
    all_goals
      simp only [Option.some.injEq] at h
      subst h
      exact ⟨givenOr_orElse _ _, rfl, givenOr_orElse _ _, givenOr_orElse _ _⟩
  · simp at h

/-- C41, finding: a botts-dots mark asked for with non-zero space and no length gets space 0. -/
theorem C41_space_lost [PyFloat F] (v : F) (hv : PyFloat.isZero v = false) (soffset height : F)
    (color : RoadMarkColor) (weight : RoadMarkWeight) :
    ∃ ln, (RoadMark.new .botts_dots none none (some v) none soffset none color weight height
        none).line = some ln ∧ ln.space = PyFloat.ofInt 0 ∧ ln.length = PyFloat.ofInt 0 := by
  simp [RoadMark.new, PyFloat.truthy, hv, PyFloat.orElse]

/-- C41: the emitted road mark contains one `type` element with the line iff there is a line. -/
theorem C41_emitted (m : RoadMark F) :
    m.getElement.children = m.line.toList.map fun l =>
      .elem "type" [("name", .str (enum2strName m.markingType.name)), ("width", .ofOpt m.width)]
        [l.getElement] := by
  cases h : m.line <;> simp [RoadMark.getElement, h]

end Pyodrx.Props
