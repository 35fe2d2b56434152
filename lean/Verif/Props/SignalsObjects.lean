import Verif.Spec.SignalsObjects
import Verif.Proofs.Monad
import Mathlib.Data.List.Nodup
import Mathlib.Data.List.Perm.Subperm
import Mathlib.Tactic.Tauto

/-! # Properties C35, C36, C37: ids of objects and signals -/

namespace Pyodrx.Props
open Pyodrx Spec

variable {F : Type}

/-! ## C37 -/

/-- C37: the loop `while str(counter) in used: counter += 1` cannot make more than `len(used)`
steps: whatever the used ids and the counter, if the loop condition holds at its first `n` values
then `n ≤ len(used)`. -/
theorem C37_bound (used : List String) (c n : Nat)
    (h : ∀ k, k < n → Nat.repr (c + k) ∈ used) : n ≤ used.length := by
  have hnd : ((List.range n).map fun k => Nat.repr (c + k)).Nodup := by
    refine List.Nodup.map_on ?_ List.nodup_range
    intro a _ b _ e
    have := Nat.repr_inj.mp e; omega
  have hs : ((List.range n).map fun k => Nat.repr (c + k)) ⊆ used := by
    intro s hs
    simp only [List.mem_map, List.mem_range] at hs
    obtain ⟨k, hk, rfl⟩ := hs
    exact h k hk
  have := (List.subperm_of_subset hnd hs).length_le
  simpa using this

/-- C37: the loop as modelled ends at the first value at or after the counter that is free, after
at most `len(used)` increments. -/
theorem C37_loop (used : List String) (c : Nat) :
    ∃ n, freeCounter used c = c + n ∧ n ≤ used.length ∧ Nat.repr (c + n) ∉ used ∧
      ∀ k, k < n → Nat.repr (c + k) ∈ used := by
  have key : ∃ n, freeCounter used c = c + n ∧ Nat.repr (c + n) ∉ used ∧
      ∀ k, k < n → Nat.repr (c + k) ∈ used := by
    induction c using freeCounter.induct used with
    | case1 c h ih =>
      obtain ⟨n, h1, h2, h3⟩ := ih
      refine ⟨n + 1, ?_, ?_, ?_⟩
      · rw [freeCounter, dif_pos h, h1]; omega
      · rw [show c + (n + 1) = c + 1 + n by omega]; exact h2
      · intro k hk
        cases k with
        | zero => exact h
        | succ k => rw [show c + (k + 1) = c + 1 + k by omega]; exact h3 k (by omega)
    | case2 c h => exact ⟨0, by rw [freeCounter, dif_neg h]; rfl, h, fun k hk => absurd hk (by omega)⟩
  obtain ⟨n, h1, h2, h3⟩ := key
  exact ⟨n, h1, C37_bound used c n h3, h2, h3⟩

example : freeCounter ["0", "1", "x", "3"] 0 = 2 := by
  rw [freeCounter, dif_pos (by decide), freeCounter, dif_pos (by decide), freeCounter,
    dif_neg (by decide)]

/-! ## C36 -/

/-- The ids used so far and the counter of a class (none and 0 before its first object). -/
def regOf (reg : Registry) (cls : String) : ClassReg := (reg.get? cls).getD ⟨[], 0⟩

theorem regOf_set (reg : Registry) (cls cls' : String) (x : ClassReg) :
    regOf (reg.set cls x) cls' = if cls = cls' then x else regOf reg cls' := by
  unfold regOf
  rw [Dict.get?_set]
  split <;> rfl

/-- C36: an explicit id that is not used yet is kept, and the counter does not move. -/
theorem C36_kept (cls : String) (i : PyId) (reg : Registry) (h : i.toStr ∉ (regOf reg cls).used) :
    (updateId cls (some i) reg).1 = i ∧
    regOf (updateId cls (some i) reg).2 cls =
      ⟨(regOf reg cls).used ++ [i.toStr], (regOf reg cls).counter⟩ := by
  unfold updateId
  dsimp only
  rw [if_neg (by exact h)]
  refine ⟨rfl, ?_⟩
  rw [regOf_set, if_pos rfl]; rfl

/-- C36: without id, or with an id already used, the new id is the text of the first integer at or
after the counter that is not used, and the counter moves there. -/
theorem C36_assigned (cls : String) (id : Option PyId) (reg : Registry)
    (h : ∀ i, id = some i → i.toStr ∈ (regOf reg cls).used) :
    ∃ n, (regOf reg cls).counter ≤ n ∧ Nat.repr n ∉ (regOf reg cls).used ∧
      (∀ m, (regOf reg cls).counter ≤ m → m < n → Nat.repr m ∈ (regOf reg cls).used) ∧
      (updateId cls id reg).1 = .str (Nat.repr n) ∧
      regOf (updateId cls id reg).2 cls = ⟨(regOf reg cls).used ++ [Nat.repr n], n⟩ := by
  obtain ⟨n, h1, -, h3, h4⟩ := C37_loop (regOf reg cls).used (regOf reg cls).counter
  have hu : updateId cls id reg = (.str (Nat.repr (freeCounter (regOf reg cls).used
      (regOf reg cls).counter)), reg.set cls ⟨(regOf reg cls).used ++ [Nat.repr (freeCounter
      (regOf reg cls).used (regOf reg cls).counter)], freeCounter (regOf reg cls).used
      (regOf reg cls).counter⟩) := by
    unfold updateId
    cases id with
    | none => rfl
    | some i => dsimp only; rw [if_pos (by exact h i rfl)]; rfl
  rw [hu, h1]
  refine ⟨_, Nat.le_add_right _ n, h3, ?_, rfl, ?_⟩
  · intro m hm hm2
    have := h4 (m - (regOf reg cls).counter) (by omega)
    rwa [show (regOf reg cls).counter + (m - (regOf reg cls).counter) = m by omega] at this
  · rw [regOf_set, if_pos rfl]

/-- C36: in every case the new id was not used before and is used afterwards, old ids stay used, the
counter does not decrease, and the other classes are not affected. -/
theorem C36_fresh (cls : String) (id : Option PyId) (reg : Registry) :
    (updateId cls id reg).1.toStr ∉ (regOf reg cls).used ∧
    (regOf (updateId cls id reg).2 cls).used =
      (regOf reg cls).used ++ [(updateId cls id reg).1.toStr] ∧
    (regOf reg cls).counter ≤ (regOf (updateId cls id reg).2 cls).counter ∧
    ∀ cls', cls' ≠ cls → regOf (updateId cls id reg).2 cls' = regOf reg cls' := by
  refine ⟨?_, ?_, ?_, ?_⟩
  rotate_left 3
  · intro cls' hne
    have : ∃ x, (updateId cls id reg).2 = reg.set cls x := by
      unfold updateId
      cases id with
      | none => exact ⟨_, rfl⟩
      | some i => dsimp only; split <;> exact ⟨_, rfl⟩
    obtain ⟨x, hx⟩ := this
    rw [hx, regOf_set, if_neg (Ne.symm hne)]
  all_goals
    by_cases h : ∀ i, id = some i → i.toStr ∈ (regOf reg cls).used
    · obtain ⟨n, h1, h2, -, h4, h5⟩ := C36_assigned cls id reg h
      rw [h4] at *
      first
        | exact h2
        | (rw [h5]; rfl)
        | (rw [h5]; exact h1)
    · simp only [not_forall] at h
      obtain ⟨i, rfl, hi⟩ := h
      obtain ⟨h1, h2⟩ := C36_kept cls i reg hi
      rw [h1] at *
      first
        | exact hi
        | (rw [h2]; done)
        | (rw [h2]; exact Nat.le_refl _)

theorem updateObj_objs (st : SOState F) (o r : Nat) :
    (st.updateObjId o).objs.cell r =
      if r = o then { st.objs.cell o with base := { (st.objs.cell o).base with
          id := some (updateId "Object" (st.objs.cell o).base.id st.reg).1 } }
      else st.objs.cell r := rfl

/-- C36: the first objects of a program, added without id, are numbered 0, 1, 2, ... in the order in which they
are added, whatever signals there are. -/
theorem C36_sequence (r : Road F) (os : List Nat) (st : SOState F) (hnd : os.Nodup)
    (hid : ∀ o ∈ os, (st.objs.cell o).base.id = none) (hreg : regOf st.reg "Object" = ⟨[], 0⟩) (i o : Nat)
    (hi : os[i]? = some o) :
    optIdText ((r.addObject os st).2.objs.cell o).base.id = Nat.repr i := by
  have gen : ∀ (os : List Nat) (st : SOState F) (c : Nat), os.Nodup →
      (∀ o ∈ os, (st.objs.cell o).base.id = none) →
      (∀ m, Nat.repr m ∈ (regOf st.reg "Object").used ↔ m < c) →
      (regOf st.reg "Object").counter ≤ c →
      (∀ o, o ∉ os → (os.foldl SOState.updateObjId st).objs.cell o = st.objs.cell o) ∧
      ∀ i o, os[i]? = some o →
        optIdText ((os.foldl SOState.updateObjId st).objs.cell o).base.id = Nat.repr (c + i) := by
    intro os
    induction os with
    | nil => intro st c _ _ _ _; exact ⟨fun o _ => rfl, fun i o h => by simp at h⟩
    | cons q os ih =>
      intro st c hnd hid hused hc
      simp only [List.nodup_cons] at hnd
      have hq := hid q List.mem_cons_self
      obtain ⟨n, h1, h2, h3, h4, h5⟩ := C36_assigned "Object" (st.objs.cell q).base.id st.reg
        (by rw [hq]; intro i h; cases h)
      have hn : n = c := by
        have a : ¬ n < c := fun h => h2 ((hused n).mpr h)
        by_contra hne
        have := h3 c hc (by omega)
        have := (hused c).mp this
        omega
      subst hn
      have hreg' : (st.updateObjId q).reg = (updateId "Object" (st.objs.cell q).base.id st.reg).2 := rfl
      obtain ⟨g1, g2⟩ := ih (st.updateObjId q) (n + 1) hnd.2
        (by
          intro o ho
          rw [updateObj_objs, if_neg (show ¬ o = q from fun h => hnd.1 (h ▸ ho))]
          exact hid o (List.mem_cons_of_mem _ ho))
        (by
          intro m
          rw [hreg', h5]
          simp only [List.mem_append, List.mem_singleton, hused m, Nat.repr_inj]
          omega)
        (by rw [hreg', h5]; exact Nat.le_succ _)
      constructor
      · intro o ho
        simp only [List.mem_cons, not_or] at ho
        rw [List.foldl_cons, g1 o ho.2, updateObj_objs, if_neg ho.1]
      · intro i o hi
        rw [List.foldl_cons]
        cases i with
        | zero =>
          simp only [List.getElem?_cons_zero, Option.some.injEq] at hi
          subst hi
          rw [g1 _ hnd.1, updateObj_objs, if_pos rfl]
          simp [h4, optIdText, PyId.toStr]
        | succ i =>
          rw [List.getElem?_cons_succ] at hi
          rw [g2 i o hi]; congr 1; omega
  have := (gen os st 0 hnd hid (by intro m; simp [hreg])
    (by simp [hreg])).2 i o hi
  simpa [Road.addObject] using this

theorem updateSig_sigs (st : SOState F) (o r : Nat) :
    (st.updateSigId o).sigs.cell r =
      if r = o then { st.sigs.cell o with base := { (st.sigs.cell o).base with
          id := some (updateId "Signal" (st.sigs.cell o).base.id st.reg).1 } }
      else st.sigs.cell r := rfl

/-- C36: the first signals of a program, added without id, are numbered 0, 1, 2, ... in the order in which they
are added, whatever objects there are. -/
theorem C36_sequence_signals (r : Road F) (os : List Nat) (st : SOState F) (hnd : os.Nodup)
    (hid : ∀ o ∈ os, (st.sigs.cell o).base.id = none) (hreg : regOf st.reg "Signal" = ⟨[], 0⟩) (i o : Nat)
    (hi : os[i]? = some o) :
    optIdText ((r.addSignal os st).2.sigs.cell o).base.id = Nat.repr i := by
  have gen : ∀ (os : List Nat) (st : SOState F) (c : Nat), os.Nodup →
      (∀ o ∈ os, (st.sigs.cell o).base.id = none) →
      (∀ m, Nat.repr m ∈ (regOf st.reg "Signal").used ↔ m < c) →
      (regOf st.reg "Signal").counter ≤ c →
      (∀ o, o ∉ os → (os.foldl SOState.updateSigId st).sigs.cell o = st.sigs.cell o) ∧
      ∀ i o, os[i]? = some o →
        optIdText ((os.foldl SOState.updateSigId st).sigs.cell o).base.id = Nat.repr (c + i) := by
    intro os
    induction os with
    | nil => intro st c _ _ _ _; exact ⟨fun o _ => rfl, fun i o h => by simp at h⟩
    | cons q os ih =>
      intro st c hnd hid hused hc
      simp only [List.nodup_cons] at hnd
      have hq := hid q List.mem_cons_self
      obtain ⟨n, h1, h2, h3, h4, h5⟩ := C36_assigned "Signal" (st.sigs.cell q).base.id st.reg
        (by rw [hq]; intro i h; cases h)
      have hn : n = c := by
        have a : ¬ n < c := fun h => h2 ((hused n).mpr h)
        by_contra hne
        have := h3 c hc (by omega)
        have := (hused c).mp this
        omega
      subst hn
      have hreg' : (st.updateSigId q).reg = (updateId "Signal" (st.sigs.cell q).base.id st.reg).2 := rfl
      obtain ⟨g1, g2⟩ := ih (st.updateSigId q) (n + 1) hnd.2
        (by
          intro o ho
          rw [updateSig_sigs, if_neg (show ¬ o = q from fun h => hnd.1 (h ▸ ho))]
          exact hid o (List.mem_cons_of_mem _ ho))
        (by
          intro m
          rw [hreg', h5]
          simp only [List.mem_append, List.mem_singleton, hused m, Nat.repr_inj]
          omega)
        (by rw [hreg', h5]; exact Nat.le_succ _)
      constructor
      · intro o ho
        simp only [List.mem_cons, not_or] at ho
        rw [List.foldl_cons, g1 o ho.2, updateSig_sigs, if_neg ho.1]
      · intro i o hi
        rw [List.foldl_cons]
        cases i with
        | zero =>
          simp only [List.getElem?_cons_zero, Option.some.injEq] at hi
          subst hi
          rw [g1 _ hnd.1, updateSig_sigs, if_pos rfl]
          simp [h4, optIdText, PyId.toStr]
        | succ i =>
          rw [List.getElem?_cons_succ] at hi
          rw [g2 i o hi]; congr 1; omega
  have := (gen os st 0 hnd hid (by intro m; simp [hreg])
    (by simp [hreg])).2 i o hi
  simpa [Road.addSignal] using this

/-- C36: adding signals changes no object and no id that an object will get; adding objects changes no signal and
no id that a signal will get. -/
theorem C36_separate (r : Road F) (os : List Nat) (st : SOState F) :
    ((r.addSignal os st).2.objs = st.objs ∧
      regOf (r.addSignal os st).2.reg "Object" = regOf st.reg "Object") ∧
    ((r.addObject os st).2.sigs = st.sigs ∧
      regOf (r.addObject os st).2.reg "Signal" = regOf st.reg "Signal") := by
  constructor
  · unfold Road.addSignal
    dsimp only
    induction os generalizing st with
    | nil => exact ⟨rfl, rfl⟩
    | cons o os ih =>
      obtain ⟨h1, h2⟩ := ih (st.updateSigId o)
      rw [List.foldl_cons, h1, h2]
      exact ⟨rfl, (C36_fresh "Signal" (st.sigs.cell o).base.id st.reg).2.2.2 _ (by decide)⟩
  · unfold Road.addObject
    dsimp only
    induction os generalizing st with
    | nil => exact ⟨rfl, rfl⟩
    | cons o os ih =>
      obtain ⟨h1, h2⟩ := ih (st.updateObjId o)
      rw [List.foldl_cons, h1, h2]
      exact ⟨rfl, (C36_fresh "Object" (st.objs.cell o).base.id st.reg).2.2.2 _ (by decide)⟩

/-- The hypotheses of `C36_sequence` hold in a program that has added a signal and now adds two objects without
id, those of `C36_sequence_signals` in one that has added an object. -/
example : regOf (updateId "Signal" none []).2 "Object" = ⟨[], 0⟩ ∧
    regOf (updateId "Object" (some (.str "0")) []).2 "Signal" = ⟨[], 0⟩ ∧
    (updateId "Signal" none (updateId "Object" (some (.str "0")) []).2).1.toStr = "0" := by
  refine ⟨?_, ?_, ?_⟩
  · exact (C36_fresh "Signal" none []).2.2.2 "Object" (by decide)
  · exact (C36_fresh "Object" (some (.str "0")) []).2.2.2 "Signal" (by decide)
  · obtain ⟨n, _, _, h3, h4, _⟩ := C36_assigned "Signal" none (updateId "Object" (some (.str "0")) []).2
      (by intro i h; cases h)
    have e := (C36_fresh "Object" (some (.str "0")) []).2.2.2 "Signal" (by decide)
    rw [e] at h3
    have : n = 0 := by
      by_contra hn
      exact absurd (h3 0 (Nat.zero_le _) (by omega)) (by simp [regOf, Dict.get?])
    rw [h4, this]; rfl

/-! ## C35 -/

/-- The invariant behind C35. -/
structure IdInv (w : SOWorld F) : Prop where
  objNext : ∀ o, w.attachedObj o → o < w.so.objs.next
  sigNext : ∀ o, w.attachedSig o → o < w.so.sigs.next
  objUsed : ∀ o, w.attachedObj o → w.objId o ∈ (regOf w.so.reg "Object").used
  sigUsed : ∀ o, w.attachedSig o → w.sigId o ∈ (regOf w.so.reg "Signal").used
  objInj : ∀ o q, w.attachedObj o → w.attachedObj q → w.objId o = w.objId q → o = q
  sigInj : ∀ o q, w.attachedSig o → w.attachedSig q → w.sigId o = w.sigId q → o = q

/-- Adding a list of objects, seen through any predicate `A` of the objects attached so far. -/
theorem foldl_obj (os : List Nat) : ∀ (st : SOState F) (A : Nat → Prop),
    (∀ o, A o → optIdText (st.objs.cell o).base.id ∈ (regOf st.reg "Object").used) →
    (∀ o q, A o → A q → optIdText (st.objs.cell o).base.id = optIdText (st.objs.cell q).base.id →
      o = q) →
    let st' := os.foldl SOState.updateObjId st
    (∀ o, A o ∨ o ∈ os → optIdText (st'.objs.cell o).base.id ∈ (regOf st'.reg "Object").used) ∧
    (∀ o q, A o ∨ o ∈ os → A q ∨ q ∈ os →
      optIdText (st'.objs.cell o).base.id = optIdText (st'.objs.cell q).base.id → o = q) ∧
    st'.sigs = st.sigs ∧ regOf st'.reg "Signal" = regOf st.reg "Signal" ∧
    st'.objs.next = st.objs.next ∧
    (∀ o, o ∉ os → st'.objs.cell o = st.objs.cell o) ∧
    (∀ o, { st'.objs.cell o with base := { (st'.objs.cell o).base with id := none } } =
      { st.objs.cell o with base := { (st.objs.cell o).base with id := none } }) := by
  induction os with
  | nil =>
    intro st A h1 h2
    exact ⟨fun o h => h1 o (h.resolve_right (by simp)),
      fun o q ho hq => h2 o q (ho.resolve_right (by simp)) (hq.resolve_right (by simp)), rfl, rfl,
      rfl, fun _ _ => rfl, fun _ => rfl⟩
  | cons r os ih =>
    intro st A h1 h2
    obtain ⟨f1, f2, -, f4⟩ := C36_fresh "Object" (st.objs.cell r).base.id st.reg
    have hreg' : (st.updateObjId r).reg = (updateId "Object" (st.objs.cell r).base.id st.reg).2 := rfl
    have hr : optIdText ((st.updateObjId r).objs.cell r).base.id =
        (updateId "Object" (st.objs.cell r).base.id st.reg).1.toStr := by
      rw [updateObj_objs, if_pos rfl]; rfl
    have hne : ∀ o, o ≠ r → (st.updateObjId r).objs.cell o = st.objs.cell o := by
      intro o h; rw [updateObj_objs, if_neg h]
    obtain ⟨g1, g2, g3, g4, g5, g6, g7⟩ := ih (st.updateObjId r) (fun o => A o ∨ o = r)
      (by
        intro o ho
        rw [hreg', f2]
        by_cases h : o = r
        · subst h; rw [hr]; simp
        · rw [hne o h]
          exact List.mem_append_left _ (h1 o (ho.resolve_right h)))
      (by
        intro o q ho hq e
        by_cases h : o = r <;> by_cases h' : q = r
        · rw [h, h']
        · exfalso
          subst h
          rw [hr, hne q h'] at e
          exact f1 (e ▸ h1 q (hq.resolve_right h'))
        · exfalso
          subst h'
          rw [hr, hne o h] at e
          exact f1 (e ▸ h1 o (ho.resolve_right h))
        · rw [hne o h, hne q h'] at e
          exact h2 o q (ho.resolve_right h) (hq.resolve_right h') e)
    have hor : ∀ o, A o ∨ o ∈ r :: os → (A o ∨ o = r) ∨ o ∈ os := by
      intro o h; simp only [List.mem_cons] at h; tauto
    refine ⟨fun o h => g1 o (hor o h), fun o q ho hq => g2 o q (hor o ho) (hor q hq),
      by rw [List.foldl_cons, g3]; rfl, ?_, by rw [List.foldl_cons, g5]; rfl, ?_, ?_⟩
    · rw [List.foldl_cons, g4, hreg']
      exact f4 "Signal" (by decide)
    · intro o ho
      simp only [List.mem_cons, not_or] at ho
      rw [List.foldl_cons, g6 o ho.2, hne o ho.1]
    · intro o
      rw [List.foldl_cons, g7 o]
      by_cases h : o = r
      · subst h; rw [updateObj_objs, if_pos rfl]
      · rw [hne o h]

theorem foldl_sig (os : List Nat) : ∀ (st : SOState F) (A : Nat → Prop),
    (∀ o, A o → optIdText (st.sigs.cell o).base.id ∈ (regOf st.reg "Signal").used) →
    (∀ o q, A o → A q → optIdText (st.sigs.cell o).base.id = optIdText (st.sigs.cell q).base.id →
      o = q) →
    let st' := os.foldl SOState.updateSigId st
    (∀ o, A o ∨ o ∈ os → optIdText (st'.sigs.cell o).base.id ∈ (regOf st'.reg "Signal").used) ∧
    (∀ o q, A o ∨ o ∈ os → A q ∨ q ∈ os →
      optIdText (st'.sigs.cell o).base.id = optIdText (st'.sigs.cell q).base.id → o = q) ∧
    st'.objs = st.objs ∧ regOf st'.reg "Object" = regOf st.reg "Object" ∧
    st'.sigs.next = st.sigs.next := by
  induction os with
  | nil =>
    intro st A h1 h2
    exact ⟨fun o h => h1 o (h.resolve_right (by simp)),
      fun o q ho hq => h2 o q (ho.resolve_right (by simp)) (hq.resolve_right (by simp)), rfl, rfl,
      rfl⟩
  | cons r os ih =>
    intro st A h1 h2
    obtain ⟨f1, f2, -, f4⟩ := C36_fresh "Signal" (st.sigs.cell r).base.id st.reg
    have hreg' : (st.updateSigId r).reg = (updateId "Signal" (st.sigs.cell r).base.id st.reg).2 := rfl
    have hr : optIdText ((st.updateSigId r).sigs.cell r).base.id =
        (updateId "Signal" (st.sigs.cell r).base.id st.reg).1.toStr := by
      rw [updateSig_sigs, if_pos rfl]; rfl
    have hne : ∀ o, o ≠ r → (st.updateSigId r).sigs.cell o = st.sigs.cell o := by
      intro o h; rw [updateSig_sigs, if_neg h]
    obtain ⟨g1, g2, g3, g4, g5⟩ := ih (st.updateSigId r) (fun o => A o ∨ o = r)
      (by
        intro o ho
        rw [hreg', f2]
        by_cases h : o = r
        · subst h; rw [hr]; simp
        · rw [hne o h]
          exact List.mem_append_left _ (h1 o (ho.resolve_right h)))
      (by
        intro o q ho hq e
        by_cases h : o = r <;> by_cases h' : q = r
        · rw [h, h']
        · exfalso
          subst h
          rw [hr, hne q h'] at e
          exact f1 (e ▸ h1 q (hq.resolve_right h'))
        · exfalso
          subst h'
          rw [hr, hne o h] at e
          exact f1 (e ▸ h1 o (ho.resolve_right h))
        · rw [hne o h, hne q h'] at e
          exact h2 o q (ho.resolve_right h) (hq.resolve_right h') e)
    have hor : ∀ o, A o ∨ o ∈ r :: os → (A o ∨ o = r) ∨ o ∈ os := by
      intro o h; simp only [List.mem_cons] at h; tauto
    refine ⟨fun o h => g1 o (hor o h), fun o q ho hq => g2 o q (hor o ho) (hor q hq),
      by rw [List.foldl_cons, g3]; rfl, ?_, by rw [List.foldl_cons, g5]; rfl⟩
    rw [List.foldl_cons, g4, hreg']
    exact f4 "Object" (by decide)

theorem allocAll_spec {α : Type} (l : List α) : ∀ (st : Store α),
    (allocAll st l).2 = (List.range l.length).map (st.next + ·) ∧
    (allocAll st l).1.next = st.next + l.length ∧
    (∀ i, i < st.next → (allocAll st l).1.cell i = st.cell i) ∧
    (∀ i a, l[i]? = some a → (allocAll st l).1.cell (st.next + i) = a) := by
  induction l with
  | nil => intro st; simp [allocAll]
  | cons a l ih =>
    intro st
    obtain ⟨h1, h2, h3, h4⟩ := ih (st.alloc a).1
    have hn : (st.alloc a).1.next = st.next + 1 := rfl
    have e1 : (allocAll st (a :: l)).1 = (allocAll (st.alloc a).1 l).1 := rfl
    have e2 : (allocAll st (a :: l)).2 = st.next :: (allocAll (st.alloc a).1 l).2 := rfl
    refine ⟨?_, ?_, ?_, ?_⟩
    · rw [e2, h1, hn, List.length_cons, List.range_succ_eq_map]
      simp only [List.map_cons, List.map_map, Nat.add_zero, List.cons.injEq, true_and]
      apply List.map_congr_left
      intro i _; simp only [Function.comp]; omega
    · rw [e1, h2, hn, List.length_cons]; omega
    · intro i hi
      rw [e1, h3 i (by rw [hn]; omega)]
      simp only [Store.alloc]
      rw [if_neg (by omega)]
    · intro i b hi
      rw [e1]
      cases i with
      | zero =>
        rw [h3 _ (by rw [hn]; omega)]
        simpa [Store.alloc] using hi
      | succ i =>
        rw [List.getElem?_cons_succ] at hi
        have := h4 i b hi
        rw [hn] at this
        rw [show st.next + (i + 1) = st.next + 1 + i by omega]; exact this

theorem attached_setRoad_obj (w : SOWorld F) (k : Nat) (x : Road F × SOState F) (os : List Nat)
    (h : x.1.objects = (w.roads k).objects ++ os) (o : Nat) :
    (w.setRoad k x).attachedObj o ↔ w.attachedObj o ∨ o ∈ os := by
  constructor
  · rintro ⟨i, hi⟩
    simp only [SOWorld.setRoad] at hi
    split at hi
    · rw [h, List.mem_append] at hi
      rcases hi with hi | hi
      · exact Or.inl ⟨k, hi⟩
      · exact Or.inr hi
    · exact Or.inl ⟨i, hi⟩
  · rintro (⟨i, hi⟩ | hi)
    · by_cases hk : i = k
      · subst hk; exact ⟨i, by simp [SOWorld.setRoad, h, hi]⟩
      · exact ⟨i, by simp [SOWorld.setRoad, hk, hi]⟩
    · exact ⟨k, by simp [SOWorld.setRoad, h, hi]⟩

theorem attached_setRoad_sig (w : SOWorld F) (k : Nat) (x : Road F × SOState F) (os : List Nat)
    (h : x.1.signals = (w.roads k).signals ++ os) (o : Nat) :
    (w.setRoad k x).attachedSig o ↔ w.attachedSig o ∨ o ∈ os := by
  constructor
  · rintro ⟨i, hi⟩
    simp only [SOWorld.setRoad] at hi
    split at hi
    · rw [h, List.mem_append] at hi
      rcases hi with hi | hi
      · exact Or.inl ⟨k, hi⟩
      · exact Or.inr hi
    · exact Or.inl ⟨i, hi⟩
  · rintro (⟨i, hi⟩ | hi)
    · by_cases hk : i = k
      · subst hk; exact ⟨i, by simp [SOWorld.setRoad, h, hi]⟩
      · exact ⟨i, by simp [SOWorld.setRoad, hk, hi]⟩
    · exact ⟨k, by simp [SOWorld.setRoad, h, hi]⟩

theorem inv_addObject (w : SOWorld F) (k : Nat) (os : List Nat)
    (h : ∀ o ∈ os, o < w.so.objs.next) (hi : IdInv w) :
    IdInv (w.setRoad k ((w.roads k).addObject os w.so)) := by
  obtain ⟨g1, g2, g3, g4, g5, -, -⟩ := foldl_obj os w.so w.attachedObj hi.objUsed hi.objInj
  have hA := attached_setRoad_obj w k ((w.roads k).addObject os w.so) os rfl
  have hS := attached_setRoad_sig w k ((w.roads k).addObject os w.so) [] (by simp [Road.addObject])
  constructor
  · intro o ho
    show o < (os.foldl SOState.updateObjId w.so).objs.next
    rw [g5]
    rcases (hA o).mp ho with ho | ho
    · exact hi.objNext o ho
    · exact h o ho
  · intro o ho
    show o < (os.foldl SOState.updateObjId w.so).sigs.next
    rw [g3]
    exact hi.sigNext o (((hS o).mp ho).resolve_right (by simp))
  · intro o ho; exact g1 o ((hA o).mp ho)
  · intro o ho
    show optIdText ((os.foldl SOState.updateObjId w.so).sigs.cell o).base.id ∈
      (regOf (os.foldl SOState.updateObjId w.so).reg "Signal").used
    rw [g3, g4]
    exact hi.sigUsed o (((hS o).mp ho).resolve_right (by simp))
  · intro o q ho hq; exact g2 o q ((hA o).mp ho) ((hA q).mp hq)
  · intro o q ho hq e
    have e : optIdText ((os.foldl SOState.updateObjId w.so).sigs.cell o).base.id =
      optIdText ((os.foldl SOState.updateObjId w.so).sigs.cell q).base.id := e
    rw [g3] at e
    exact hi.sigInj o q (((hS o).mp ho).resolve_right (by simp))
      (((hS q).mp hq).resolve_right (by simp)) e

theorem inv_addSignal (w : SOWorld F) (k : Nat) (os : List Nat)
    (h : ∀ o ∈ os, o < w.so.sigs.next) (hi : IdInv w) :
    IdInv (w.setRoad k ((w.roads k).addSignal os w.so)) := by
  obtain ⟨g1, g2, g3, g4, g5⟩ := foldl_sig os w.so w.attachedSig hi.sigUsed hi.sigInj
  have hA := attached_setRoad_sig w k ((w.roads k).addSignal os w.so) os rfl
  have hS := attached_setRoad_obj w k ((w.roads k).addSignal os w.so) [] (by simp [Road.addSignal])
  constructor
  · intro o ho
    show o < (os.foldl SOState.updateSigId w.so).objs.next
    rw [g3]
    exact hi.objNext o (((hS o).mp ho).resolve_right (by simp))
  · intro o ho
    show o < (os.foldl SOState.updateSigId w.so).sigs.next
    rw [g5]
    rcases (hA o).mp ho with ho | ho
    · exact hi.sigNext o ho
    · exact h o ho
  · intro o ho
    show optIdText ((os.foldl SOState.updateSigId w.so).objs.cell o).base.id ∈
      (regOf (os.foldl SOState.updateSigId w.so).reg "Object").used
    rw [g3, g4]
    exact hi.objUsed o (((hS o).mp ho).resolve_right (by simp))
  · intro o ho; exact g1 o ((hA o).mp ho)
  · intro o q ho hq e
    have e : optIdText ((os.foldl SOState.updateSigId w.so).objs.cell o).base.id =
      optIdText ((os.foldl SOState.updateSigId w.so).objs.cell q).base.id := e
    rw [g3] at e
    exact hi.objInj o q (((hS o).mp ho).resolve_right (by simp))
      (((hS q).mp hq).resolve_right (by simp)) e
  · intro o q ho hq; exact g2 o q ((hA o).mp ho) ((hA q).mp hq)

theorem roadside_ok [PyFloat F] {lanes : Store (Lane F)} {proto : Nat} {dist sOff tOff : F}
    {side : RoadSide} {r : Road F} {st : SOState F} {x : Road F × SOState F}
    (h : Road.addObjectRoadside lanes proto dist sOff tOff side (r, st) = .ok () x) :
    ∃ objs, objs = (r.lanesections.flatMap (roadsideEntries lanes side)).map
        (roadsideObject (st.objs.cell proto) r.planview.getTotalLength dist sOff tOff) ∧
      x = r.addObject (allocAll st.objs objs).2 { st with objs := (allocAll st.objs objs).1 } := by
  unfold Road.addObjectRoadside at h
  dsimp only at h
  split at h
  · cases h
  · cases h; exact ⟨_, rfl, rfl⟩

theorem reach_inv [PyFloat F] {w : SOWorld F} (h : Reach w) : IdInv w := by
  induction h with
  | init roads so h hreg =>
    have ho : ∀ o, ¬ (SOWorld.mk roads so).attachedObj o := by rintro o ⟨k, hk⟩; simp [(h k).1] at hk
    have hs : ∀ o, ¬ (SOWorld.mk roads so).attachedSig o := by rintro o ⟨k, hk⟩; simp [(h k).2] at hk
    exact ⟨fun o h => absurd h (ho o), fun o h => absurd h (hs o), fun o h => absurd h (ho o),
      fun o h => absurd h (hs o), fun o _ h => absurd h (ho o), fun o _ h => absurd h (hs o)⟩
  | newObject w o _ ih =>
    have hc : ∀ q, w.attachedObj q → (w.so.objs.alloc o).1.cell q = w.so.objs.cell q := by
      intro q hq
      have := ih.objNext q hq
      simp only [Store.alloc]; rw [if_neg (by omega)]
    constructor
    · intro q hq; exact Nat.lt_succ_of_lt (ih.objNext q hq)
    · exact ih.sigNext
    · intro q hq
      show optIdText ((w.so.objs.alloc o).1.cell q).base.id ∈ _
      rw [hc q hq]; exact ih.objUsed q hq
    · exact ih.sigUsed
    · intro q p hq hp e
      have e : optIdText ((w.so.objs.alloc o).1.cell q).base.id =
        optIdText ((w.so.objs.alloc o).1.cell p).base.id := e
      rw [hc q hq, hc p hp] at e
      exact ih.objInj q p hq hp e
    · exact ih.sigInj
  | newSignal w o _ ih =>
    have hc : ∀ q, w.attachedSig q → (w.so.sigs.alloc o).1.cell q = w.so.sigs.cell q := by
      intro q hq
      have := ih.sigNext q hq
      simp only [Store.alloc]; rw [if_neg (by omega)]
    constructor
    · exact ih.objNext
    · intro q hq; exact Nat.lt_succ_of_lt (ih.sigNext q hq)
    · exact ih.objUsed
    · intro q hq
      show optIdText ((w.so.sigs.alloc o).1.cell q).base.id ∈ _
      rw [hc q hq]; exact ih.sigUsed q hq
    · exact ih.objInj
    · intro q p hq hp e
      have e : optIdText ((w.so.sigs.alloc o).1.cell q).base.id =
        optIdText ((w.so.sigs.alloc o).1.cell p).base.id := e
      rw [hc q hq, hc p hp] at e
      exact ih.sigInj q p hq hp e
  | «repeat» w o len dist args _ ih =>
    have hc : ∀ q, ((w.so.objs.modify o (·.repeat len dist args)).cell q).base.id =
        (w.so.objs.cell q).base.id := by
      intro q
      rw [Store.modify_cell]
      split
      · rename_i h; subst h; rfl
      · rfl
    constructor
    · exact ih.objNext
    · exact ih.sigNext
    · intro q hq
      show optIdText ((w.so.objs.modify o (·.repeat len dist args)).cell q).base.id ∈ _
      rw [hc q]; exact ih.objUsed q hq
    · exact ih.sigUsed
    · intro q p hq hp e
      have e : optIdText ((w.so.objs.modify o (·.repeat len dist args)).cell q).base.id =
        optIdText ((w.so.objs.modify o (·.repeat len dist args)).cell p).base.id := e
      rw [hc q, hc p] at e
      exact ih.objInj q p hq hp e
    · exact ih.sigInj
  | roads w rs h _ ih =>
    have ho : ∀ o, (SOWorld.mk rs w.so).attachedObj o → w.attachedObj o := by
      rintro o ⟨k, hk⟩; exact ⟨k, (h k).1 ▸ hk⟩
    have hs : ∀ o, (SOWorld.mk rs w.so).attachedSig o → w.attachedSig o := by
      rintro o ⟨k, hk⟩; exact ⟨k, (h k).2 ▸ hk⟩
    exact ⟨fun o h => ih.objNext o (ho o h), fun o h => ih.sigNext o (hs o h),
      fun o h => ih.objUsed o (ho o h), fun o h => ih.sigUsed o (hs o h),
      fun o q h h' => ih.objInj o q (ho o h) (ho q h'), fun o q h h' => ih.sigInj o q (hs o h) (hs q h')⟩
  | addObject w k os h _ ih => exact inv_addObject w k os h ih
  | addSignal w k os h _ ih => exact inv_addSignal w k os h ih
  | roadside w k lanes proto dist sOff tOff side x h _ ih =>
    obtain ⟨objs, -, rfl⟩ := roadside_ok h
    obtain ⟨a1, a2, a3, -⟩ := allocAll_spec objs w.so.objs
    have ih' : IdInv { w with so := { w.so with objs := (allocAll w.so.objs objs).1 } } := by
      have hc : ∀ q, w.attachedObj q → (allocAll w.so.objs objs).1.cell q = w.so.objs.cell q :=
        fun q hq => a3 q (ih.objNext q hq)
      constructor
      · intro q hq
        show q < (allocAll w.so.objs objs).1.next
        have := ih.objNext q hq
        omega
      · exact ih.sigNext
      · intro q hq
        show optIdText ((allocAll w.so.objs objs).1.cell q).base.id ∈ _
        rw [hc q hq]; exact ih.objUsed q hq
      · exact ih.sigUsed
      · intro q p hq hp e
        have e : optIdText ((allocAll w.so.objs objs).1.cell q).base.id =
          optIdText ((allocAll w.so.objs objs).1.cell p).base.id := e
        rw [hc q hq, hc p hp] at e
        exact ih.objInj q p hq hp e
      · exact ih.sigInj
    refine inv_addObject _ k (allocAll w.so.objs objs).2 ?_ ih'
    intro o ho
    show o < (allocAll w.so.objs objs).1.next
    rw [a1] at ho
    simp only [List.mem_map, List.mem_range] at ho
    obtain ⟨i, hi, rfl⟩ := ho
    omega

/-- C35: in every reachable state, two different objects added to roads (the same or different
ones, alone, in lists or by `add_object_roadside`) have different ids as texts. -/
theorem C35_objects [PyFloat F] (w : SOWorld F) (h : Reach w) (o q : Nat) (ho : w.attachedObj o)
    (hq : w.attachedObj q) (hne : o ≠ q) : w.objId o ≠ w.objId q :=
  fun e => hne ((reach_inv h).objInj o q ho hq e)

/-- C35: the same for signals. -/
theorem C35_signals [PyFloat F] (w : SOWorld F) (h : Reach w) (o q : Nat) (ho : w.attachedSig o)
    (hq : w.attachedSig q) (hne : o ≠ q) : w.sigId o ≠ w.sigId q :=
  fun e => hne ((reach_inv h).sigInj o q ho hq e)

/-- C35: hence the ids emitted for one or several roads are pairwise distinct whenever no object is
listed twice. -/
theorem C35_emitted [PyFloat F] (w : SOWorld F) (h : Reach w) (ks : List Nat)
    (hnd : (ks.flatMap fun k => (w.roads k).objects).Nodup)
    (hnd' : (ks.flatMap fun k => (w.roads k).signals).Nodup) :
    ((ks.flatMap fun k => (w.roads k).objects).map w.objId).Nodup ∧
    ((ks.flatMap fun k => (w.roads k).signals).map w.sigId).Nodup := by
  constructor
  · refine hnd.map_on ?_
    intro o ho q hq e
    simp only [List.mem_flatMap] at ho hq
    obtain ⟨k, -, hk⟩ := ho
    obtain ⟨k', -, hk'⟩ := hq
    exact (reach_inv h).objInj o q ⟨k, hk⟩ ⟨k', hk'⟩ e
  · refine hnd'.map_on ?_
    intro o ho q hq e
    simp only [List.mem_flatMap] at ho hq
    obtain ⟨k, -, hk⟩ := ho
    obtain ⟨k', -, hk'⟩ := hq
    exact (reach_inv h).sigInj o q ⟨k, hk⟩ ⟨k', hk'⟩ e

/-- C35: the id used in these statements is the one in the emitted element. -/
theorem C35_attribute [PyFloat F] (o : Obj F) (i : PyId) (h : o.base.id = some i) :
    o.getElement.attr "id" = some (.ofId i) := by
  have hc : ∀ (d : Dict (Val F)) (k : String) v, k ≠ "id" → (d.set k v).get? "id" = d.get? "id" := by
    intro d k v hk; rw [Dict.get?_set, if_neg hk]
  have hb : o.base.commonAttributes.get? "id" = some (.ofId i) := by
    simp [SOBase.commonAttributes, Dict.get?, h, Val.ofOptId]
  simp only [Obj.getElement, Xml.attr, Xml.attrs_elem, Obj.getAttributes]
  repeat' split
  all_goals simp only [hc _ _ _ (by decide : "validLength" ≠ "id"),
    hc _ _ _ (by decide : "hdg" ≠ "id"), hc _ _ _ (by decide : "radius" ≠ "id"),
    hc _ _ _ (by decide : "length" ≠ "id"), hc _ _ _ (by decide : "width" ≠ "id"), hb]

/-- C35, finding: adding one object twice (here to roads 0 and 1) renames it, and it is then listed
by both roads under the same id, different from the one it had. -/
theorem C35_twice [PyFloat F] (w : SOWorld F) (h : Reach w) (o : Nat) (ho : o < w.so.objs.next) :
    ∃ w' : SOWorld F, Reach w' ∧ o ∈ (w'.roads 0).objects ∧ o ∈ (w'.roads 1).objects ∧
      (w.attachedObj o → w'.objId o ≠ w.objId o) := by
  let w1 := w.setRoad 0 ((w.roads 0).addObject [o] w.so)
  have h1 : Reach w1 := .addObject w 0 [o] (by simpa using ho) h
  let w2 := w1.setRoad 1 ((w1.roads 1).addObject [o] w1.so)
  have h2 : Reach w2 := .addObject w1 1 [o] (by simpa [w1, SOWorld.setRoad, Road.addObject,
    SOState.updateObjId] using ho) h1
  refine ⟨w2, h2, by simp [w2, w1, SOWorld.setRoad, Road.addObject],
    by simp [w2, w1, SOWorld.setRoad, Road.addObject], fun ha => ?_⟩
  have hu := (reach_inv h).objUsed o ha
  obtain ⟨f1, f2, -⟩ := C36_fresh "Object" (w.so.objs.cell o).base.id w.so.reg
  have hu1 : w.objId o ∈ (regOf w1.so.reg "Object").used := by
    show w.objId o ∈ (regOf (w.so.updateObjId o).reg "Object").used
    show w.objId o ∈ (regOf (updateId "Object" (w.so.objs.cell o).base.id w.so.reg).2 "Object").used
    rw [f2]; exact List.mem_append_left _ hu
  obtain ⟨k1, -⟩ := C36_fresh "Object" (w1.so.objs.cell o).base.id w1.so.reg
  have : w2.objId o = (updateId "Object" (w1.so.objs.cell o).base.id w1.so.reg).1.toStr := by
    show optIdText ((w1.so.updateObjId o).objs.cell o).base.id = _
    rw [updateObj_objs, if_pos rfl]; rfl
  rw [this]
  intro e
  rw [e] at k1
  exact k1 hu1

end Pyodrx.Props
