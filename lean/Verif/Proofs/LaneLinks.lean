import Verif.Spec.LaneLinks
import Verif.Proofs.Monad

/-! # Lemmas: lane linking as a log of appended links -/

namespace Pyodrx
open Spec

variable {F : Type}

/-- Append the links of a log to their lanes, in order. -/
def applyLog (log : List (Nat × Link)) (lanes : Store (Lane F)) : Store (Lane F) :=
  log.foldl (fun s x => s.modify x.1 fun l => { l with links := l.links ++ [x.2] }) lanes

@[simp] theorem applyLog_nil (lanes : Store (Lane F)) : applyLog [] lanes = lanes := rfl

theorem applyLog_append (a b : List (Nat × Link)) (lanes : Store (Lane F)) :
    applyLog (a ++ b) lanes = applyLog b (applyLog a lanes) := by
  simp [applyLog, List.foldl_append]

theorem applyLog_cons (x : Nat × Link) (b : List (Nat × Link)) (lanes : Store (Lane F)) :
    applyLog (x :: b) lanes =
      applyLog b (lanes.modify x.1 fun l => { l with links := l.links ++ [x.2] }) := rfl

/-- What a log appends to lane `r`. -/
def logAt (log : List (Nat × Link)) (r : Nat) : List Link := (log.filter (·.1 = r)).map (·.2)

theorem logAt_append (a b : List (Nat × Link)) (r : Nat) :
    logAt (a ++ b) r = logAt a r ++ logAt b r := by simp [logAt]

theorem logAt_cons (x : Nat × Link) (b : List (Nat × Link)) (r : Nat) :
    logAt (x :: b) r = (if x.1 = r then [x.2] else []) ++ logAt b r := by
  unfold logAt; by_cases h : x.1 = r <;> simp [List.filter_cons, h]

@[simp] theorem logAt_nil (r : Nat) : logAt [] r = [] := rfl

theorem applyLog_cell (log : List (Nat × Link)) : ∀ (lanes : Store (Lane F)) (r : Nat),
    (applyLog log lanes).cell r =
      { lanes.cell r with links := (lanes.cell r).links ++ logAt log r } := by
  induction log with
  | nil => intro lanes r; simp
  | cons x log ih =>
    intro lanes r
    rw [applyLog_cons, ih, logAt_cons, Store.modify_cell]
    by_cases h : x.1 = r
    · subst h; simp
    · simp [h, Ne.symm h]

@[simp] theorem applyLog_next (log : List (Nat × Link)) : ∀ (lanes : Store (Lane F)),
    (applyLog log lanes).next = lanes.next := by
  induction log with
  | nil => intro lanes; rfl
  | cons x log ih => intro lanes; rw [applyLog_cons, ih]; rfl

@[simp] theorem applyLog_laneId (log : List (Nat × Link)) (lanes : Store (Lane F)) (r : Nat) :
    ((applyLog log lanes).cell r).laneId = (lanes.cell r).laneId := by rw [applyLog_cell]

theorem addLaneLink_eq (r : Nat) (k : LinkKind) (id : Int) (lanes : Store (Lane F)) :
    addLaneLink r k id lanes = .ok () (applyLog [(r, laneLink k id)] lanes) := rfl

theorem laneIdTimes_eq {r : Nat} {s i : Int} {lanes : Store (Lane F)}
    (h : (lanes.cell r).laneId = some i) : laneIdTimes r (some s) lanes = .ok (i * s) lanes := by
  simp [laneIdTimes, h]

/-- Links in both directions between the lanes of two sides; the numbers are those of the first
list, times the sign. -/
def pairLog (pk sk : LinkKind) (f g : Nat → Int) (pre suc : List Nat) : List (Nat × Link) :=
  (pre.zip suc).flatMap fun x => [(x.1, laneLink pk (f x.1)), (x.2, laneLink sk (g x.1))]

theorem drop_zip_cons {pre suc : List Nat} {i : Nat} (h1 : i < pre.length) (h2 : i < suc.length) :
    (pre.drop i).zip (suc.drop i) =
      (pre[i], suc[i]) :: (pre.drop (i + 1)).zip (suc.drop (i + 1)) := by
  rw [List.drop_eq_getElem_cons h1, List.drop_eq_getElem_cons h2, List.zip_cons_cons]

theorem leftLoop_eq (pk sk : LinkKind) (s : Int) (pre suc : List Nat) (f : Nat → Int)
    (hle : pre.length ≤ suc.length) : ∀ (n i : Nat) (lanes : Store (Lane F)),
    i + n = pre.length → (∀ p ∈ pre, (lanes.cell p).laneId = some (f p)) →
    leftLoop pk sk (some s) pre suc i n lanes =
      .ok () (applyLog (pairLog pk sk (fun r => f r * s) (fun r => f r * s * s)
        (pre.drop i) (suc.drop i)) lanes) := by
  intro n
  induction n with
  | zero =>
    intro i lanes h _
    have : pre.drop i = [] := List.drop_eq_nil_iff.mpr (by omega)
    simp [leftLoop, this, pairLog, pure_eq]
  | succ n ih =>
    intro i lanes h hid
    have h1 : i < pre.length := by omega
    have h2 : i < suc.length := by omega
    unfold leftLoop leftStep
    simp only [bind_assoc]
    rw [List.getElem?_eq_getElem h1, bind_of_ok (orRaise_some _),
      bind_of_ok (laneIdTimes_eq (hid _ (List.getElem_mem h1))), bind_of_ok (addLaneLink_eq _ _ _ _),
      List.getElem?_eq_getElem h2, bind_of_ok (orRaise_some _)]
    rw [bind_of_ok (addLaneLink_eq _ _ _ _), ih (i + 1) _ (by omega)
      (fun p hp => by simpa using hid p hp)]
    rw [pairLog, pairLog, drop_zip_cons h1 h2, List.flatMap_cons]
    simp only [← applyLog_append, List.cons_append, List.nil_append]

theorem rightLoop_eq (pk sk : LinkKind) (pre suc : List Nat) (f : Nat → Int)
    (hle : pre.length ≤ suc.length) : ∀ (n i : Nat) (lanes : Store (Lane F)),
    i + n = pre.length → (∀ p ∈ pre, (lanes.cell p).laneId = some (f p)) →
    rightLoop pk sk pre suc i n lanes =
      .ok () (applyLog (pairLog pk sk f f (pre.drop i) (suc.drop i)) lanes) := by
  intro n
  induction n with
  | zero =>
    intro i lanes h _
    have : pre.drop i = [] := List.drop_eq_nil_iff.mpr (by omega)
    simp [rightLoop, this, pairLog, pure_eq]
  | succ n ih =>
    intro i lanes h hid
    have h1 : i < pre.length := by omega
    have h2 : i < suc.length := by omega
    unfold rightLoop rightStep
    simp only [bind_assoc]
    rw [List.getElem?_eq_getElem h1, bind_of_ok (orRaise_some _), bind_of_ok (get_eq _),
      bind_of_ok (modify_eq _ _), List.getElem?_eq_getElem h2, bind_of_ok (orRaise_some _),
      bind_of_ok (modify_eq _ _)]
    have hi := hid _ (List.getElem_mem h1)
    rw [hi]
    have e1 : ∀ (r : Nat) (k : LinkKind) (i : Int) (l : Store (Lane F)),
        l.modify r (·.addLink k (laneIdText (some i))) = applyLog [(r, laneLink k i)] l :=
      fun _ _ _ _ => rfl
    rw [e1, e1, ih (i + 1) _ (by omega) (fun p hp => by simpa using hid p hp)]
    rw [pairLog, pairLog, drop_zip_cons h1 h2, List.flatMap_cons]
    simp only [← applyLog_append, List.cons_append, List.nil_append]

theorem connectingLoop_eq (k : LinkKind) (s op os : Int) (rside cside : List Nat) (f : Nat → Int)
    (hle : cside.length ≤ rside.length) : ∀ (n i : Nat) (lanes : Store (Lane F)),
    i + n = cside.length → (∀ p ∈ rside, (lanes.cell p).laneId = some (f p)) →
    connectingLoop k (some s) op os rside cside i n lanes =
      .ok () (applyLog (((cside.drop i).zip (rside.drop i)).map fun x =>
        (x.1, laneLink k (f x.2 * s + if k = .predecessor then op else os))) lanes) := by
  intro n
  induction n with
  | zero =>
    intro i lanes h _
    have : cside.drop i = [] := List.drop_eq_nil_iff.mpr (by omega)
    simp [connectingLoop, this, pure_eq]
  | succ n ih =>
    intro i lanes h hid
    have h1 : i < cside.length := by omega
    have h2 : i < rside.length := by omega
    unfold connectingLoop connectingStep
    simp only [bind_assoc]
    rw [List.getElem?_eq_getElem h2, bind_of_ok (orRaise_some _),
      bind_of_ok (laneIdTimes_eq (hid _ (List.getElem_mem h2))),
      List.getElem?_eq_getElem h1, bind_of_ok (orRaise_some _), bind_of_ok (addLaneLink_eq _ _ _ _),
      ih (i + 1) _ (by omega) (fun p hp => by simpa using hid p hp)]
    rw [drop_zip_cons h1 h2, List.map_cons]
    rw [← applyLog_append, List.cons_append, List.nil_append]
    by_cases hk : k = .predecessor <;> simp [hk]

/-! ### Sections -/

theorem pyGet?_zero {α : Type} (l : List α) : pyGet? l 0 = l.head? := by
  cases l <;> simp [pyGet?]

theorem pyGet?_neg_one {α : Type} (l : List α) : pyGet? l (-1) = l.getLast? := by
  cases l with
  | nil => simp [pyGet?]
  | cons a l => simp [pyGet?, List.getLast?_eq_getElem?]

theorem secAt_first {r : Road F} {s : LaneSection F} (h : r.lanesections.head? = some s) :
    secAt r (some 0) = .ok s := by simp [secAt, pyGet?_zero, h]

theorem secAt_last {r : Road F} {s : LaneSection F} (h : r.lanesections.getLast? = some s) :
    secAt r (some (-1)) = .ok s := by simp [secAt, pyGet?_neg_one, h]

/-! ### Consecutive roads -/

theorem consecutive_iff (a b : Road F) : areRoadsConsecutive a b = true ↔ Follows a b := by
  unfold areRoadsConsecutive
  constructor
  · intro h
    split at h
    · rename_i s p hs hp
      simp only [Bool.and_eq_true, decide_eq_true_eq] at h
      obtain ⟨⟨⟨h1, h2⟩, h3⟩, h4⟩ := h
      exact ⟨⟨s, hs, h1, h3⟩, ⟨p, hp, h2, h4⟩⟩
    · simp at h
  · rintro ⟨⟨s, h1, h2, h3⟩, ⟨p, h4, h5, h6⟩⟩
    rw [h1, h4]
    simp [h2, h3, h5, h6]

theorem related_pre {a b : Road F} (hb : b.roadType = -1) {l : Link} (hl : a.successor = some l)
    (hi : l.elementId = b.id) (hc : l.contactPoint = some .start) :
    getRelatedLanesection a b = .ok ⟨.successor, some 1, some (-1)⟩ := by
  simp [getRelatedLanesection, hb, relatedOwn, hl, hi, hc]

theorem related_suc {a b : Road F} (ha : a.roadType = -1)
    (hring : ∀ l, b.successor = some l → l.elementId ≠ a.id) {l : Link}
    (hl : b.predecessor = some l) (hi : l.elementId = a.id) :
    ∃ s, getRelatedLanesection b a = .ok ⟨.predecessor, some s, some 0⟩ := by
  simp only [getRelatedLanesection, ha, relatedOwn]
  cases hs : b.successor with
  | none => simp [relatedOwn.predBranch, hl, hi]
  | some s => simp [hring s hs, relatedOwn.predBranch, hl, hi]

/-- The numbers of the lanes of a numbered section, by lane. -/
theorem exists_numbering (side : List Nat) (lanes : Store (Lane F)) (g : Nat → Int)
    (h : ∀ i r, side[i]? = some r → (lanes.cell r).laneId = some (g i)) :
    ∀ p ∈ side, (lanes.cell p).laneId = some (((lanes.cell p).laneId).getD 0) := by
  intro p hp
  obtain ⟨i, hi⟩ := List.getElem?_of_mem hp
  rw [h i p hi]; rfl

/-- The number of a lane. -/
def laneNo (lanes : Store (Lane F)) (r : Nat) : Int := ((lanes.cell r).laneId).getD 0

theorem _root_.Pyodrx.Spec.Numbered.left {lanes : Store (Lane F)} {sec : LaneSection F} (h : Numbered lanes sec) :
    ∀ p ∈ sec.left, (lanes.cell p).laneId = some (laneNo lanes p) :=
  exists_numbering _ _ _ h.1

theorem _root_.Pyodrx.Spec.Numbered.right {lanes : Store (Lane F)} {sec : LaneSection F} (h : Numbered lanes sec) :
    ∀ p ∈ sec.right, (lanes.cell p).laneId = some (laneNo lanes p) :=
  exists_numbering _ _ _ h.2

theorem linksRoads_eq {a b : Road F} {sa sb last : LaneSection F} {lanes : Store (Lane F)}
    {sk : LinkKind} {sg : Option Int} {j : Int}
    (h1 : getRelatedLanesection a b = .ok ⟨.successor, some 1, some (-1)⟩)
    (h2 : getRelatedLanesection b a = .ok ⟨sk, sg, some j⟩)
    (hsa : sectionAt a .end = some sa) (hsb : secAt b (some j) = .ok sb)
    (hlast : sectionAt b .end = some last) :
    createLinksRoads a b lanes =
      ((if sa.left.length = last.left.length then
          if sa.left.length = 0 then pure () else
            leftLoop .successor sk (some 1) sa.left sb.left 0 sa.left.length
        else raise .notSameAmountOfLanesError : EStateM PyErr (Store (Lane F)) Unit) >>= fun _ =>
       (if sa.right.length = last.right.length then
          if sa.right.length = 0 then pure () else
            rightLoop .successor sk sa.right sb.right 0 sa.right.length
        else raise .notSameAmountOfLanesError : EStateM PyErr (Store (Lane F)) Unit)) lanes := by
  unfold createLinksRoads
  rw [h1, bind_of_ok (liftExcept_of_ok _), h2,
    bind_of_ok (liftExcept_of_ok _), secAt_last hsa, bind_of_ok (liftExcept_of_ok _),
    secAt_last hlast, bind_of_ok (liftExcept_of_ok _)]
  dsimp only
  simp only [hsb]
  by_cases c1 : sa.left.length = last.left.length
  · simp only [if_pos c1]
    by_cases c2 : sa.left.length = 0
    · simp only [if_pos c2]; rfl
    · simp only [if_neg c2]; rfl
  · simp only [if_neg c1]; rfl

theorem linksRoads_run {a b : Road F} {sa sb last : LaneSection F} {lanes : Store (Lane F)}
    {sk : LinkKind} {sg : Option Int} {j : Int}
    (h1 : getRelatedLanesection a b = .ok ⟨.successor, some 1, some (-1)⟩)
    (h2 : getRelatedLanesection b a = .ok ⟨sk, sg, some j⟩)
    (hsa : sectionAt a .end = some sa) (hsb : secAt b (some j) = .ok sb)
    (hlast : sectionAt b .end = some last) (hnum : Numbered lanes sa) :
    (sa.left.length ≠ last.left.length →
      createLinksRoads a b lanes = .error .notSameAmountOfLanesError lanes) ∧
    (sa.left.length = last.left.length → sa.left.length ≤ sb.left.length →
      (sa.right.length ≠ last.right.length →
        createLinksRoads a b lanes = .error .notSameAmountOfLanesError
          (applyLog (pairLog .successor sk (laneNo lanes) (laneNo lanes) sa.left sb.left)
            lanes)) ∧
      (sa.right.length = last.right.length → sa.right.length ≤ sb.right.length →
        createLinksRoads a b lanes = .ok ()
          (applyLog (pairLog .successor sk (laneNo lanes) (laneNo lanes) sa.left sb.left ++
            pairLog .successor sk (laneNo lanes) (laneNo lanes) sa.right sb.right)
            lanes))) := by
  rw [linksRoads_eq h1 h2 hsa hsb hlast]
  refine ⟨fun hne => ?_, fun heq hle => ?_⟩
  · rw [if_neg hne, bind_of_error (raise_eq _ _)]
  have hleft : (if sa.left.length = 0 then pure () else
      leftLoop .successor sk (some 1) sa.left sb.left 0 sa.left.length :
        EStateM PyErr (Store (Lane F)) Unit) lanes = .ok () (applyLog
        (pairLog .successor sk (laneNo lanes) (laneNo lanes) sa.left sb.left) lanes) := by
    split
    · rename_i h0
      have : sa.left = [] := by simpa using h0
      simp [this, pairLog, pure_eq]
    · rw [leftLoop_eq _ _ _ _ _ (laneNo lanes) hle _ _ _ (by omega) (Numbered.left hnum)]
      simp
  rw [if_pos heq, bind_of_ok hleft]
  refine ⟨fun hne => ?_, fun heq2 hle2 => ?_⟩
  · rw [if_neg hne, raise_eq]
  · rw [if_pos heq2]
    split
    · rename_i h0
      have : sa.right = [] := by simpa using h0
      simp [this, pairLog, pure_eq]
    · rw [rightLoop_eq _ _ _ _ (laneNo lanes) hle2 _ _ _ (by omega)
        (fun p hp => by simpa using Numbered.right hnum p hp)]
      simp [applyLog_append]

theorem _root_.Pyodrx.Spec.Joint.run {a b : Road F} {sa sb last : LaneSection F} {lanes : Store (Lane F)}
    (h : Joint a b sa sb last lanes) :
    (sa.left.length ≠ last.left.length →
      createLinksRoads a b lanes = .error .notSameAmountOfLanesError lanes) ∧
    (sa.left.length = last.left.length → sa.left.length ≤ sb.left.length →
      (sa.right.length ≠ last.right.length →
        createLinksRoads a b lanes = .error .notSameAmountOfLanesError
          (applyLog (pairLog .successor .predecessor (laneNo lanes) (laneNo lanes) sa.left sb.left)
            lanes)) ∧
      (sa.right.length = last.right.length → sa.right.length ≤ sb.right.length →
        createLinksRoads a b lanes = .ok ()
          (applyLog (pairLog .successor .predecessor (laneNo lanes) (laneNo lanes) sa.left sb.left ++
            pairLog .successor .predecessor (laneNo lanes) (laneNo lanes) sa.right sb.right)
            lanes))) := by
  obtain ⟨l, h1, h2, h3⟩ := h.follows.succ
  obtain ⟨p, h4, h5, h6⟩ := h.follows.pred
  obtain ⟨s, hs⟩ := related_suc h.typeA h.ring h4 h6
  exact linksRoads_run (related_pre h.typeB h1 h3 (h.contact l h1)) hs h.secA (secAt_first h.secB)
    h.lastB h.numA

theorem _root_.Pyodrx.Spec.Joint.create {a b : Road F} {sa sb last : LaneSection F} {lanes : Store (Lane F)}
    (h : Joint a b sa sb last lanes) :
    createLaneLinks a b = createLinksRoads (F := F) a b ∧
    createLaneLinks b a = createLinksRoads (F := F) a b := by
  have h1 := (consecutive_iff a b).mpr h.follows
  have h2 : areRoadsConsecutive b a = false := by
    rw [← Bool.not_eq_true, consecutive_iff]
    rintro ⟨⟨l, q1, _, q3⟩, _⟩
    exact h.ring l q1 q3
  simp [createLaneLinks, h.typeA, h.typeB, h1, h2]

/-! ### What a log contains -/

theorem mem_pairLog {pk sk : LinkKind} {f g : Nat → Int} {pre suc : List Nat} {x : Nat × Link}
    (h : x ∈ pairLog pk sk f g pre suc) : x.1 ∈ pre ∨ x.1 ∈ suc := by
  simp only [pairLog, List.mem_flatMap] at h
  obtain ⟨⟨p, s⟩, h1, h2⟩ := h
  have := List.of_mem_zip h1
  simp only [List.mem_cons, List.not_mem_nil, or_false] at h2
  rcases h2 with rfl | rfl
  · exact .inl this.1
  · exact .inr this.2

theorem logAt_eq_nil {log : List (Nat × Link)} {r : Nat} (h : ∀ x ∈ log, x.1 ≠ r) :
    logAt log r = [] := by
  simp only [logAt, List.map_eq_nil_iff, List.filter_eq_nil_iff, decide_eq_true_eq]
  exact h

theorem pairLog_cons (pk sk : LinkKind) (f g : Nat → Int) (p s : Nat) (pre suc : List Nat) :
    pairLog pk sk f g (p :: pre) (s :: suc) =
      (p, laneLink pk (f p)) :: (s, laneLink sk (g p)) :: pairLog pk sk f g pre suc := by
  simp [pairLog]

theorem logAt_pair_none {pk sk : LinkKind} {f g : Nat → Int} {pre suc : List Nat} {r : Nat}
    (h1 : r ∉ pre) (h2 : r ∉ suc) : logAt (pairLog pk sk f g pre suc) r = [] :=
  logAt_eq_nil fun x hx he => by
    subst he
    rcases mem_pairLog hx with h | h
    · exact h1 h
    · exact h2 h

theorem logAt_pair (pk sk : LinkKind) (f g : Nat → Int) : ∀ (pre suc : List Nat) (i : Nat)
    (p s : Nat), (pre ++ suc).Nodup → pre[i]? = some p → suc[i]? = some s →
    logAt (pairLog pk sk f g pre suc) p = [laneLink pk (f p)] ∧
    logAt (pairLog pk sk f g pre suc) s = [laneLink sk (g p)] := by
  intro pre
  induction pre with
  | nil => intro suc i p s _ h; simp at h
  | cons a pre ih =>
    intro suc i p s hn h1 h2
    cases suc with
    | nil => simp at h2
    | cons b suc =>
      rw [pairLog_cons]
      simp only [List.cons_append, List.nodup_cons, List.mem_append, List.mem_cons, not_or] at hn
      have hn2 := hn.2
      rw [List.nodup_append] at hn2
      obtain ⟨n1, n2, n3⟩ := hn2
      rw [List.nodup_cons] at n2
      have hn' : (pre ++ suc).Nodup := by
        rw [List.nodup_append]
        exact ⟨n1, n2.2, fun x hx y hy => n3 x hx y (List.mem_cons_of_mem _ hy)⟩
      have hbpre : b ∉ pre := fun hb => n3 b hb b (by simp) rfl
      cases i with
      | zero =>
        simp only [List.getElem?_cons_zero, Option.some.injEq] at h1 h2
        subst h1; subst h2
        simp only [logAt_cons]
        rw [logAt_pair_none hn.1.1 hn.1.2.2, logAt_pair_none hbpre n2.1]
        simp [hn.1.2.1, Ne.symm hn.1.2.1]
      | succ i =>
        simp only [List.getElem?_cons_succ] at h1 h2
        obtain ⟨r1, r2⟩ := ih suc i p s hn' h1 h2
        have hp : p ∈ pre := List.mem_of_getElem? h1
        have hs : s ∈ suc := List.mem_of_getElem? h2
        have e1 : a ≠ p := fun e => hn.1.1 (e ▸ hp)
        have e2 : b ≠ p := fun e => hbpre (e ▸ hp)
        have e3 : a ≠ s := fun e => hn.1.2.2 (e ▸ hs)
        have e4 : b ≠ s := fun e => n2.1 (e ▸ hs)
        simp [logAt_cons, r1, r2, e1, e2, e3, e4]

/-! ### Connecting roads -/

theorem connectingLoop_short (k : LinkKind) (s op os : Int) (rside cside : List Nat) (f : Nat → Int)
    (hlt : rside.length < cside.length) : ∀ (n i : Nat) (lanes : Store (Lane F)),
    i + n = cside.length → i ≤ rside.length → (∀ p ∈ rside, (lanes.cell p).laneId = some (f p)) →
    ∃ lanes', connectingLoop k (some s) op os rside cside i n lanes = .error .indexError lanes' := by
  intro n
  induction n with
  | zero => intro i lanes h h2; omega
  | succ n ih =>
    intro i lanes h h2 hid
    unfold connectingLoop connectingStep
    simp only [bind_assoc]
    have h1 : i < cside.length := by omega
    by_cases hi : i < rside.length
    · rw [List.getElem?_eq_getElem hi, bind_of_ok (orRaise_some _),
        bind_of_ok (laneIdTimes_eq (hid _ (List.getElem_mem hi))),
        List.getElem?_eq_getElem h1, bind_of_ok (orRaise_some _),
        bind_of_ok (addLaneLink_eq _ _ _ _)]
      exact ih (i + 1) _ (by omega) (by omega) (fun p hp => by simpa using hid p hp)
    · rw [List.getElem?_eq_none (by omega)]
      exact ⟨lanes, rfl⟩

/-- The links made for one side of a connecting road. -/
def connLog (k : LinkKind) (s off : Int) (lanes : Store (Lane F)) (cside rside : List Nat) :
    List (Nat × Link) :=
  (cside.zip rside).map fun x => (x.1, laneLink k (laneNo lanes x.2 * s + off))

theorem conn_eq {c r : Road F} {k : LinkKind} {s j : Int} {rel2 : Related}
    {csec cnt rsec : LaneSection F} {lanes : Store (Lane F)}
    (h1 : getRelatedLanesection c r = .ok ⟨k, some s, some j⟩)
    (h2 : getRelatedLanesection r c = .ok rel2)
    (hc : secAt c (some j) = .ok csec) (hcnt : secAt c rel2.sec = .ok cnt)
    (hr : secAt r rel2.sec = .ok rsec) :
    createLinksConnectingRoad c r lanes =
      ((if csec.left.isEmpty = false then
          if cnt.left.length = 0 then pure () else
            connectingLoop k (some s) c.laneOffsetPred c.laneOffsetSuc rsec.left csec.left 0
              cnt.left.length
        else pure () : EStateM PyErr (Store (Lane F)) Unit) >>= fun _ =>
       (if csec.right.isEmpty = false then
          connectingLoop k (some s) c.laneOffsetPred c.laneOffsetSuc rsec.right csec.right 0
            csec.right.length
        else pure () : EStateM PyErr (Store (Lane F)) Unit)) lanes := by
  unfold createLinksConnectingRoad
  rw [h1, bind_of_ok (liftExcept_of_ok _), h2, bind_of_ok (liftExcept_of_ok _)]
  dsimp only
  rw [hc, bind_of_ok (liftExcept_of_ok _)]
  simp only [hcnt, hr]
  by_cases c1 : csec.left.isEmpty = false
  · simp only [if_pos c1]
    by_cases c2 : cnt.left.length = 0
    · have e : (liftExcept (.ok cnt) : EStateM PyErr (Store (Lane F)) _) = pure cnt := rfl
      simp only [e, pure_bind, if_pos c2]
      rfl
    · have e : (liftExcept (.ok cnt) : EStateM PyErr (Store (Lane F)) _) = pure cnt := rfl
      simp only [e, pure_bind, if_neg c2]
      rfl
  · simp only [if_neg c1]; rfl

theorem conn_run {c r : Road F} {k : LinkKind} {s j : Int} {rel2 : Related}
    {csec rsec : LaneSection F} {lanes : Store (Lane F)}
    (h1 : getRelatedLanesection c r = .ok ⟨k, some s, some j⟩)
    (h2 : getRelatedLanesection r c = .ok rel2)
    (hc : secAt c (some j) = .ok csec) (hcnt : secAt c rel2.sec = .ok csec)
    (hr : secAt r rel2.sec = .ok rsec) (hnum : Numbered lanes rsec) :
    (csec.left.length ≤ rsec.left.length → csec.right.length ≤ rsec.right.length →
      createLinksConnectingRoad c r lanes = .ok () (applyLog
        (connLog k s (if k = .predecessor then c.laneOffsetPred else c.laneOffsetSuc) lanes csec.left
          rsec.left ++
         connLog k s (if k = .predecessor then c.laneOffsetPred else c.laneOffsetSuc) lanes
          csec.right rsec.right) lanes)) ∧
    (rsec.left.length < csec.left.length ∨ rsec.right.length < csec.right.length →
      ∃ lanes', createLinksConnectingRoad c r lanes = .error .indexError lanes') := by
  rw [conn_eq h1 h2 hc hcnt hr]
  have hleft : csec.left.length ≤ rsec.left.length →
      (if csec.left.isEmpty = false then
          if csec.left.length = 0 then pure () else
            connectingLoop k (some s) c.laneOffsetPred c.laneOffsetSuc rsec.left csec.left 0
              csec.left.length
        else pure () : EStateM PyErr (Store (Lane F)) Unit) lanes = .ok () (applyLog (connLog k s
          (if k = .predecessor then c.laneOffsetPred else c.laneOffsetSuc) lanes csec.left
          rsec.left) lanes) := by
    intro hle
    by_cases h0 : csec.left = []
    · simp [h0, connLog, pure_eq]
    · rw [if_pos (by simpa using h0), if_neg (by simpa using h0),
        connectingLoop_eq _ _ _ _ _ _ (laneNo lanes) hle _ _ _ (by omega) (Numbered.left hnum)]
      simp [connLog]
  refine ⟨fun hle hle2 => ?_, fun hlt => ?_⟩
  · rw [bind_of_ok (hleft hle)]
    by_cases h0 : csec.right = []
    · simp [h0, connLog, pure_eq]
    · rw [if_pos (by simpa using h0),
        connectingLoop_eq _ _ _ _ _ _ (laneNo lanes) hle2 _ _ _ (by omega)
          (fun p hp => by simpa using Numbered.right hnum p hp)]
      simp [connLog, applyLog_append]
  · by_cases hl : rsec.left.length < csec.left.length
    · have h0 : csec.left ≠ [] := by intro e; rw [e] at hl; simp at hl
      obtain ⟨l', hl'⟩ := connectingLoop_short k s c.laneOffsetPred c.laneOffsetSuc rsec.left
        csec.left (laneNo lanes) hl csec.left.length 0 lanes (by omega) (by omega) (Numbered.left hnum)
      refine ⟨l', bind_of_error ?_⟩
      rw [if_pos (by simpa using h0), if_neg (by simpa using h0)]
      exact hl'
    · have hr' : rsec.right.length < csec.right.length := by omega
      have h0 : csec.right ≠ [] := by intro e; rw [e] at hr'; simp at hr'
      rw [bind_of_ok (hleft (by omega)), if_pos (by simpa using h0)]
      exact connectingLoop_short k s c.laneOffsetPred c.laneOffsetSuc rsec.right
        csec.right (laneNo lanes) hr' csec.right.length 0 _ (by omega) (by omega)
        (fun p hp => by simpa using Numbered.right hnum p hp)

theorem mem_connLog {k : LinkKind} {s off : Int} {lanes : Store (Lane F)} {cside rside : List Nat}
    {x : Nat × Link} (h : x ∈ connLog k s off lanes cside rside) : x.1 ∈ cside := by
  simp only [connLog, List.mem_map] at h
  obtain ⟨y, hy, rfl⟩ := h
  exact (List.of_mem_zip hy).1

theorem logAt_conn_none {k : LinkKind} {s off : Int} {lanes : Store (Lane F)}
    {cside rside : List Nat} {r : Nat} (h : r ∉ cside) :
    logAt (connLog k s off lanes cside rside) r = [] :=
  logAt_eq_nil fun _ hx he => h (he ▸ mem_connLog hx)

theorem logAt_conn (k : LinkKind) (s off : Int) (lanes : Store (Lane F)) :
    ∀ (cside rside : List Nat) (i p q : Nat), cside.Nodup → cside[i]? = some p →
    rside[i]? = some q →
    logAt (connLog k s off lanes cside rside) p = [laneLink k (laneNo lanes q * s + off)] := by
  intro cside
  induction cside with
  | nil => intro rside i p q _ h; simp at h
  | cons a cside ih =>
    intro rside i p q hn h1 h2
    rw [List.nodup_cons] at hn
    cases rside with
    | nil => simp at h2
    | cons b rside =>
      have e : connLog k s off lanes (a :: cside) (b :: rside) =
        (a, laneLink k (laneNo lanes b * s + off)) :: connLog k s off lanes cside rside := rfl
      rw [e, logAt_cons]
      cases i with
      | zero =>
        simp only [List.getElem?_cons_zero, Option.some.injEq] at h1 h2
        subst h1; subst h2
        rw [logAt_conn_none hn.1]; simp
      | succ i =>
        simp only [List.getElem?_cons_succ] at h1 h2
        have : a ≠ p := fun e => hn.1 (e ▸ List.mem_of_getElem? h1)
        rw [ih rside i p q hn.2 h1 h2]; simp [this]

/-- The index of the section at an end. -/
def endIndex : ContactPoint → Int
  | .start => 0
  | .end => -1

theorem attached_related {c r : Road F} {e : ContactPoint} {l : Link} (h : Attached c r e l) :
    getRelatedLanesection c r = .ok ⟨kindAt e, some (directionSign e l.contactPoint),
      some (endIndex e)⟩ ∧
    ∃ rel, getRelatedLanesection r c = .ok rel ∧
      rel.sec = some (endIndex e) := by
  obtain ⟨m, hm, hne⟩ := h.other
  have hl := h.link
  cases e with
  | start =>
    simp only [linkAt, otherEnd] at hl hm
    refine ⟨?_, ?_⟩
    · simp only [getRelatedLanesection, h.normal, relatedOwn, hm, hne, relatedOwn.predBranch, hl,
        h.names, kindAt, endIndex]
      cases l.contactPoint with
      | none => simp [directionSign]
      | some x => cases x <;> simp [directionSign]
    · simp [getRelatedLanesection, h.connecting, hl, h.names, endIndex]
  | «end» =>
    simp only [linkAt, otherEnd] at hl hm
    refine ⟨?_, ?_⟩
    · simp only [getRelatedLanesection, h.normal, relatedOwn, hl, h.names, kindAt, endIndex]
      cases l.contactPoint with
      | none => simp [directionSign]
      | some x => cases x <;> simp [directionSign]
    · simp [getRelatedLanesection, h.connecting, hl, h.names, hm, hne, endIndex]

theorem secAt_end (r : Road F) (e : ContactPoint) {s : LaneSection F} (h : sectionAt r e = some s) :
    secAt r (some (endIndex e)) = .ok s := by
  cases e
  · exact secAt_first h
  · exact secAt_last h

theorem attached_create {c r : Road F} {e : ContactPoint} {l : Link} (h : Attached c r e l) :
    createLaneLinks c r = createLinksConnectingRoad (F := F) c r ∧
    createLaneLinks r c = createLinksConnectingRoad (F := F) c r := by
  simp [createLaneLinks, h.connecting, h.normal]

end Pyodrx
