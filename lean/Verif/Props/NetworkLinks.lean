import Verif.Spec.NetworkLinks
import Verif.Props.LaneLinks
import Verif.Props.Network

/-! # C30: the lane links of a whole network -/

namespace Pyodrx.Props
open Pyodrx Spec

variable {F : Type}

theorem numberOf_eq (lanes : Store (Lane F)) : numberOf lanes = laneNo lanes := rfl

theorem pairLog_perm (pk sk : LinkKind) (lanes : Store (Lane F)) : ∀ (pre suc : List Nat)
    (g : Nat → Int) (i0 : Nat), (∀ i p, pre[i]? = some p → laneNo lanes p = g (i0 + i)) →
    (∀ i p, suc[i]? = some p → laneNo lanes p = g (i0 + i)) →
    (pairLog pk sk (laneNo lanes) (laneNo lanes) pre suc).Perm
      (toward lanes pk 1 0 pre suc ++ toward lanes sk 1 0 suc pre) := by
  intro pre
  induction pre with
  | nil => intro suc g i0 _ _; simp [pairLog, toward]
  | cons a pre ih =>
    intro suc g i0 h1 h2
    cases suc with
    | nil => simp [pairLog, toward]
    | cons b suc =>
      have e : laneNo lanes a = laneNo lanes b := by
        rw [h1 0 a (by simp), h2 0 b (by simp)]
      have ih' := ih suc g (i0 + 1)
        (fun i p hp => by rw [h1 (i + 1) p (by simpa using hp)]; congr 1; omega)
        (fun i p hp => by rw [h2 (i + 1) p (by simpa using hp)]; congr 1; omega)
      rw [pairLog_cons]
      have t1 : toward lanes pk 1 0 (a :: pre) (b :: suc) =
        (a, laneLink pk (laneNo lanes a)) :: toward lanes pk 1 0 pre suc := by
        simp [toward, numberOf_eq, e]
      have t2 : toward lanes sk 1 0 (b :: suc) (a :: pre) =
        (b, laneLink sk (laneNo lanes a)) :: toward lanes sk 1 0 suc pre := by
        simp [toward, numberOf_eq]
      rw [t1, t2, List.cons_append]
      refine List.Perm.cons _ ?_
      refine (List.Perm.cons _ ih').trans ?_
      exact List.perm_middle.symm

theorem logAt_perm {a b : List (Nat × Link)} (h : a.Perm b) (x : Nat) :
    (logAt a x).Perm (logAt b x) := (h.filter _).map _

theorem toward_eq_connLog (lanes : Store (Lane F)) (k : LinkKind) (s off : Int)
    (cside used touching : List Nat) (g : Nat → Int)
    (h1 : ∀ i p, used[i]? = some p → laneNo lanes p = g i)
    (h2 : ∀ i p, touching[i]? = some p → laneNo lanes p = g i)
    (l1 : cside.length ≤ used.length) (l2 : cside.length ≤ touching.length) :
    connLog k s off lanes cside used = toward lanes k s off cside touching := by
  unfold connLog toward
  apply List.ext_getElem
  · simp; omega
  · intro i hi hi'
    simp only [List.length_map, List.length_zip] at hi hi'
    simp only [List.getElem_map, List.getElem_zip, numberOf_eq]
    rw [h1 i _ (List.getElem?_eq_getElem (by omega)), h2 i _ (List.getElem?_eq_getElem (by omega))]

/-! ### Invariance under changes that keep the lane numbers -/

/-- The lanes of two stores have the same numbers. -/
def SameNumbers (lanes lanes' : Store (Lane F)) : Prop :=
  ∀ r, (lanes'.cell r).laneId = (lanes.cell r).laneId

theorem SameNumbers.laneNo {lanes lanes' : Store (Lane F)} (h : SameNumbers lanes lanes') :
    laneNo lanes' = laneNo lanes := by
  funext r; simp [Pyodrx.laneNo, h r]

theorem SameNumbers.numbered {lanes lanes' : Store (Lane F)} (h : SameNumbers lanes lanes')
    {sec : LaneSection F} (hn : Numbered lanes sec) : Numbered lanes' sec :=
  ⟨fun i r hi => by rw [h r]; exact hn.1 i r hi, fun i r hi => by rw [h r]; exact hn.2 i r hi⟩

theorem SameNumbers.joint {lanes lanes' : Store (Lane F)} (h : SameNumbers lanes lanes')
    {a b : Road F} {sa sb last : LaneSection F} (hj : Joint a b sa sb last lanes) :
    Joint a b sa sb last lanes' :=
  { hj with numA := h.numbered hj.numA }

theorem numbered_left {lanes : Store (Lane F)} {sec : LaneSection F} (h : Numbered lanes sec) :
    ∀ (i p : Nat), sec.left[i]? = some p → laneNo lanes p = (i : Int) + 1 :=
  fun i p hp => laneNo_eq (h.1 i p hp)
theorem numbered_right {lanes : Store (Lane F)} {sec : LaneSection F} (h : Numbered lanes sec) :
    ∀ (i p : Nat), sec.right[i]? = some p → laneNo lanes p = -((i : Int) + 1) :=
  fun i p hp => laneNo_eq (h.2 i p hp)

theorem connectionLinks_none {lanes : Store (Lane F)} {c r : Road F} {e : ContactPoint}
    (h : ∀ l, linkAt c e = some l → l.elementId ≠ r.id) : connectionLinks lanes c r e = [] := by
  unfold connectionLinks
  split
  · rename_i l csec h1 h2
    rw [if_neg (h l h1)]
  · rfl

/-- One pair of roads. -/
theorem linkPair_log {roads : Dict (Road F)} {lanes0 : Store (Lane F)} (hL : Linkable roads lanes0)
    {k1 k2 : String} {a b : Road F} (hne : k1 ≠ k2) (ha : roads.get? k1 = some a)
    (hb : roads.get? k2 = some b) {lanes : Store (Lane F)} (hs : SameNumbers lanes0 lanes) :
    ∃ log, createLaneLinks a b lanes = .ok () (applyLog log lanes) ∧
      ∀ x, (logAt log x).Perm (logAt (dueLinks lanes0 a b) x ++ logAt (dueLinks lanes0 b a) x) := by
  -- a joint, in either order
  have joint : ∀ (k1 k2 : String) (a b : Road F), k1 ≠ k2 → roads.get? k1 = some a →
      roads.get? k2 = some b → a.roadType = -1 → b.roadType = -1 → Follows a b →
      ∃ log, createLinksRoads a b lanes = .ok () (applyLog log lanes) ∧
        createLaneLinks a b = createLinksRoads (F := F) a b ∧
        createLaneLinks b a = createLinksRoads (F := F) a b ∧ log.Perm (jointLinks lanes0 a b) ∧
        ¬ Follows b a := by
    intro k1 k2 a b hne ha hb ta tb hf
    obtain ⟨sa, sb, last, hj, hnb, hc, hc2⟩ := hL.joints k1 k2 a b hne ha hb ta tb hf
    have hrun := ((hs.joint hj).run.2 hc2.1 (Nat.le_of_eq hc.1)).2 hc2.2 (Nat.le_of_eq hc.2)
    rw [hs.laneNo] at hrun
    refine ⟨_, hrun, hj.create.1, hj.create.2, ?_, ?_⟩
    · simp only [jointLinks, hj.secA, hj.secB]
      refine ((pairLog_perm _ _ lanes0 sa.left sb.left (fun i => (i : Int) + 1) 0
        (by simpa using numbered_left hj.numA) (by simpa using numbered_left hnb)).append
        (pairLog_perm _ _ lanes0 sa.right sb.right (fun i => -((i : Int) + 1)) 0
        (by simpa using numbered_right hj.numA) (by simpa using numbered_right hnb))).trans ?_
      simp only [List.append_assoc]
      refine List.Perm.append_left _ ?_
      rw [← List.append_assoc, ← List.append_assoc]
      exact List.Perm.append_right _ List.perm_append_comm
    · rintro ⟨⟨l, q1, _, q3⟩, _⟩
      exact hj.ring l q1 q3
  -- a connecting road and a normal road
  have conn : ∀ (k1 k2 : String) (c r : Road F), roads.get? k1 = some c → roads.get? k2 = some r →
      c.roadType ≠ -1 → r.roadType = -1 →
      createLinksConnectingRoad c r lanes = .ok () (applyLog
        (connectionLinks lanes0 c r .start ++ connectionLinks lanes0 c r .end) lanes) := by
    intro k1 k2 c r hc hr tc tr
    obtain ⟨p, s, hp, hs', hps⟩ := hL.ends k1 c hc tc
    have main : ∀ (e : ContactPoint) (l m : Link), linkAt c e = some l →
        linkAt c (otherEnd e) = some m → l.elementId = r.id → m.elementId ≠ r.id →
        createLinksConnectingRoad c r lanes = .ok () (applyLog (connectionLinks lanes0 c r e) lanes) := by
      intro e l m hl hm h1 h2
      obtain ⟨csec, used, tch, q1, q2, q3, q4, q5, q6, q7, q8, q9⟩ :=
        hL.lanes k1 k2 c r e l hc hr tc hl h1
      have hatt : Attached c r e l := ⟨tc, tr, hl, h1, m, hm, h2⟩
      have hrun := (attached_run hatt q1 q2 (hs.numbered q4)).1 q6 q7
      rw [hrun]
      have el : ∀ (k : LinkKind) (s off : Int) (x y : List Nat),
          connLog k s off lanes x y = connLog k s off lanes0 x y := by
        intro k s off x y; simp only [connLog, hs.laneNo]
      rw [el, el]
      simp only [connectionLinks, hl, q1, h1, if_true, q3]
      rw [toward_eq_connLog lanes0 _ _ _ csec.left used.left tch.left _ (numbered_left q4)
        (numbered_left q5) q6 q8, toward_eq_connLog lanes0 _ _ _ csec.right used.right tch.right _
        (numbered_right q4) (numbered_right q5) q7 q9]
    by_cases e1 : p.elementId = r.id
    · have e2 : s.elementId ≠ r.id := fun e => hps (e1.trans e.symm)
      rw [main .start p s hp hs' e1 e2, connectionLinks_none (e := .end) (by
        intro l hl; simp only [linkAt] at hl; rw [hs'] at hl; cases hl; exact e2), List.append_nil]
    · have n1 : connectionLinks lanes0 c r .start = [] := connectionLinks_none (by
        intro l hl; simp only [linkAt] at hl; rw [hp] at hl; cases hl; exact e1)
      by_cases e2 : s.elementId = r.id
      · rw [main .end s p hs' hp e2 e1, n1, List.nil_append]
      · rw [n1, connectionLinks_none (e := .end) (by
          intro l hl; simp only [linkAt] at hl; rw [hs'] at hl; cases hl; exact e2)]
        have nl : ¬ LinksTo c r := by
          rintro ⟨l, hl | hl, hi⟩
          · rw [hp] at hl; cases hl; exact e1 hi
          · rw [hs'] at hl; cases hl; exact e2 hi
        have h1 : getRelatedLanesection c r = .ok ⟨.pyNone, none, none⟩ := by
          simp [getRelatedLanesection, tr, relatedOwn_none nl]
        obtain ⟨rel, h2⟩ := getRelated_ok (a := r) (b := c) (fun _ => ⟨⟨p, hp⟩, ⟨s, hs'⟩⟩)
        unfold createLinksConnectingRoad
        rw [h1, bind_of_ok (liftExcept_of_ok _), h2, bind_of_ok (liftExcept_of_ok _)]
        rfl
  by_cases ta : a.roadType = -1
  · by_cases tb : b.roadType = -1
    · by_cases hf : Follows a b
      · obtain ⟨log, h1, h2, _, h4, h5⟩ := joint k1 k2 a b hne ha hb ta tb hf
        refine ⟨log, by rw [h2]; exact h1, fun x => ?_⟩
        have d1 : dueLinks lanes0 a b = jointLinks lanes0 a b := by simp [dueLinks, ta, tb, hf]
        have d2 : dueLinks lanes0 b a = [] := by simp [dueLinks, ta, tb, h5]
        rw [d1, d2, logAt_nil, List.append_nil]
        exact logAt_perm h4 x
      · by_cases hf2 : Follows b a
        · obtain ⟨log, h1, _, h2, h4, _⟩ := joint k2 k1 b a (Ne.symm hne) hb ha tb ta hf2
          refine ⟨log, by rw [h2]; exact h1, fun x => ?_⟩
          have d1 : dueLinks lanes0 a b = [] := by simp [dueLinks, ta, tb, hf]
          have d2 : dueLinks lanes0 b a = jointLinks lanes0 b a := by simp [dueLinks, ta, tb, hf2]
          rw [d1, d2, logAt_nil, List.nil_append]
          exact logAt_perm h4 x
        · refine ⟨[], C27_normal_roads a b lanes ta tb hf hf2, fun x => ?_⟩
          have d1 : dueLinks lanes0 a b = [] := by simp [dueLinks, ta, tb, hf]
          have d2 : dueLinks lanes0 b a = [] := by simp [dueLinks, ta, tb, hf2]
          rw [d1, d2]; simp
    · refine ⟨_, by rw [createLaneLinks, if_neg (by simp [tb]), if_neg (by simp [ta])]
                    exact conn k2 k1 b a hb ha tb ta, fun x => ?_⟩
      have d1 : dueLinks lanes0 a b = [] := by simp [dueLinks, ta, tb]
      have d2 : dueLinks lanes0 b a =
          connectionLinks lanes0 b a .start ++ connectionLinks lanes0 b a .end := by
        simp [dueLinks, ta, tb]
      rw [d1, d2, logAt_nil, List.nil_append]
  · by_cases tb : b.roadType = -1
    · refine ⟨_, by rw [createLaneLinks, if_neg (by simp [ta]), if_pos ta]
                    exact conn k1 k2 a b ha hb ta tb, fun x => ?_⟩
      have d2 : dueLinks lanes0 b a = [] := by simp [dueLinks, ta, tb]
      have d1 : dueLinks lanes0 a b =
          connectionLinks lanes0 a b .start ++ connectionLinks lanes0 a b .end := by
        simp [dueLinks, ta, tb]
      rw [d1, d2, logAt_nil, List.append_nil]
    · have be : ∀ k (c : Road F), roads.get? k = some c → BothEnds c := by
        intro k c hc tc
        obtain ⟨p, s, hp, hs', _⟩ := hL.ends k c hc tc
        exact ⟨⟨p, hp⟩, ⟨s, hs'⟩⟩
      refine ⟨[], C27_unlinked a b lanes (be k1 a ha) (be k2 b hb)
        (fun h => tb (hL.normal k1 k2 a b ha hb ta h))
        (fun h => ta (hL.normal k2 k1 b a hb ha tb h)), fun x => ?_⟩
      have d1 : dueLinks lanes0 a b = [] := by simp [dueLinks, ta, tb]
      have d2 : dueLinks lanes0 b a = [] := by simp [dueLinks, ta, tb]
      rw [d1, d2]; simp

/-- What one unordered pair contributes. -/
noncomputable def pairDue (roads : Dict (Road F)) (lanes : Store (Lane F)) (x : Nat)
    (k : String × String) : List Link :=
  match roads.get? k.1, roads.get? k.2 with
  | some a, some b => logAt (dueLinks lanes a b) x
  | _, _ => []

theorem linkPairs_log {net : Net F} {lanes0 : Store (Lane F)} (hL : Linkable net.roads lanes0)
    (ps : List (String × String)) : ∀ (lanes : Store (Lane F)), SameNumbers lanes0 lanes →
    (∀ p ∈ ps, p.1 ≠ p.2 ∧ p.1 ∈ net.roads.keys ∧ p.2 ∈ net.roads.keys) →
    ∃ log, World.linkPairs ps ⟨net, lanes⟩ = .ok () ⟨net, applyLog log lanes⟩ ∧
      ∀ x, (logAt log x).Perm (ps.flatMap fun p =>
        pairDue net.roads lanes0 x p ++ pairDue net.roads lanes0 x p.swap) := by
  induction ps with
  | nil => intro lanes _ _; exact ⟨[], rfl, fun x => by simp⟩
  | cons p ps ih =>
    intro lanes hs hp
    obtain ⟨h1, h2, h3⟩ := hp p (by simp)
    rw [← Dict.get?_isSome, Option.isSome_iff_exists] at h2 h3
    obtain ⟨a, ha⟩ := h2
    obtain ⟨b, hb⟩ := h3
    obtain ⟨log1, l1, l2⟩ := linkPair_log hL h1 ha hb hs
    obtain ⟨log2, m1, m2⟩ := ih (applyLog log1 lanes)
      (fun r => by rw [applyLog_laneId]; exact hs r) (fun q hq => hp q (by simp [hq]))
    have hpair : World.linkPair p ⟨net, lanes⟩ = .ok () ⟨net, applyLog log1 lanes⟩ := by
      simp [World.linkPair, ha, hb, l1]
    refine ⟨log1 ++ log2, ?_, fun x => ?_⟩
    · unfold World.linkPairs
      rw [bind_of_ok hpair, m1, applyLog_append]
    · rw [logAt_append, List.flatMap_cons]
      refine List.Perm.append ?_ (m2 x)
      simpa [pairDue, ha, hb] using l2 x

/-! ### Pairs -/

theorem mem_combinations2 {α : Type} {l : List α} {p : α × α} (h : p ∈ combinations2 l)
    (hn : l.Nodup) : p.1 ≠ p.2 ∧ p.1 ∈ l ∧ p.2 ∈ l := by
  induction l with
  | nil => simp [combinations2] at h
  | cons a l ih =>
    rw [List.nodup_cons] at hn
    simp only [combinations2, List.mem_append, List.mem_map] at h
    rcases h with ⟨b, hb, rfl⟩ | h
    · refine ⟨?_, by simp, by simp [hb]⟩
      intro e
      dsimp only at e
      rw [e] at hn
      exact hn.1 hb
    · obtain ⟨h1, h2, h3⟩ := ih h hn.2
      exact ⟨h1, by simp [h2], by simp [h3]⟩

theorem flatMap_append_perm {α β : Type} (l : List α) (f g : α → List β) :
    (l.flatMap fun x => f x ++ g x).Perm (l.flatMap f ++ l.flatMap g) := by
  induction l with
  | nil => simp
  | cons a l ih =>
    simp only [List.flatMap_cons]
    refine (List.Perm.append_left _ ih).trans ?_
    simp only [List.append_assoc]
    refine List.Perm.append_left _ ?_
    rw [← List.append_assoc, ← List.append_assoc]
    exact List.Perm.append_right _ List.perm_append_comm

/-- The pairs of `itertools.combinations` in both orders are all ordered pairs. -/
theorem combinations_perm {β : Type} (f : String × String → List β) : ∀ (l : List String), l.Nodup →
    ((combinations2 l).flatMap fun p => f p ++ f p.swap).Perm ((orderedPairs l).flatMap f) := by
  intro l
  induction l with
  | nil => intro _; simp [combinations2, orderedPairs]
  | cons a l ih =>
    intro hn
    rw [List.nodup_cons] at hn
    have hfa : l.filter (· ≠ a) = l := by
      rw [List.filter_eq_self]; intro b hb
      simp only [decide_eq_true_eq]; rintro rfl; exact hn.1 hb
    have e1 : orderedPairs (a :: l) = l.map (fun b => (a, b)) ++
        l.flatMap fun b => (b, a) :: (l.filter (· ≠ b)).map fun c => (b, c) := by
      unfold orderedPairs
      rw [List.flatMap_cons]
      congr 1
      · rw [List.filter_cons]; simp only [ne_eq, not_true_eq_false, decide_false]
        simpa using congrArg (List.map fun b => (a, b)) hfa
      · apply List.flatMap_congr
        intro b hb
        have : a ≠ b := by rintro rfl; exact hn.1 hb
        simp [this]
    rw [e1, List.flatMap_append, combinations2, List.flatMap_append]
    have e2 : ((l.map fun b => (a, b)).flatMap fun p => f p ++ f p.swap).Perm
        ((l.map fun b => (a, b)).flatMap f ++ l.flatMap fun b => f (b, a)) := by
      refine (flatMap_append_perm _ _ _).trans ?_
      rw [List.flatMap_map, List.flatMap_map]
      exact List.Perm.refl _
    have e3 : ((l.flatMap fun b => (b, a) :: (l.filter (· ≠ b)).map fun c => (b, c)).flatMap f).Perm
        ((l.flatMap fun b => f (b, a)) ++ (orderedPairs l).flatMap f) := by
      rw [List.flatMap_assoc]
      have : (l.flatMap fun b => ((b, a) :: (l.filter (· ≠ b)).map fun c => (b, c)).flatMap f) =
          l.flatMap fun b => f (b, a) ++ ((l.filter (· ≠ b)).map fun c => (b, c)).flatMap f := by
        simp [List.flatMap_cons]
      rw [this]
      refine (flatMap_append_perm _ _ _).trans ?_
      rw [orderedPairs, List.flatMap_assoc]
    refine (e2.append (ih hn.2)).trans ?_
    rw [List.append_assoc]
    exact List.Perm.append_left _ e3.symm

/-! ## C30 -/

theorem Linkable.same [PyFloat F] {roads roads' : Dict (Road F)} {lanes : Store (Lane F)}
    (h : Linkable roads lanes) (hs : SameNet roads roads') : Linkable roads' lanes := by
  have tr : ∀ {k r'}, roads'.get? k = some r' →
      ∃ r, roads.get? k = some r ∧ r' = { r with planview := r'.planview } := by
    intro k r' hr
    obtain ⟨r, h1, h2⟩ := hs.2 k r' hr
    exact ⟨r, h1, h2.1⟩
  refine ⟨?_, ?_, ?_, ?_⟩
  · intro k1 k2 a b hne ha hb ta tb hf
    obtain ⟨a0, ha0, ea⟩ := tr ha
    obtain ⟨b0, hb0, eb⟩ := tr hb
    rw [ea] at ta hf ⊢; rw [eb] at tb hf ⊢
    obtain ⟨sa, sb, last, hj, h1, h2, h3⟩ := h.joints k1 k2 a0 b0 hne ha0 hb0 ta tb ⟨hf.1, hf.2⟩
    exact ⟨sa, sb, last, ⟨hj.typeA, hj.typeB, ⟨hj.follows.1, hj.follows.2⟩, hj.contact, hj.ring,
      hj.secA, hj.secB, hj.lastB, hj.numA⟩, h1, h2, h3⟩
  · intro k c hc tc
    obtain ⟨c0, hc0, ec⟩ := tr hc
    rw [ec] at tc ⊢
    exact h.ends k c0 hc0 tc
  · intro k1 k2 c r hc hr tc hl
    obtain ⟨c0, hc0, ec⟩ := tr hc
    obtain ⟨r0, hr0, er⟩ := tr hr
    rw [ec] at tc hl; rw [er] at hl ⊢
    exact h.normal k1 k2 c0 r0 hc0 hr0 tc hl
  · intro k1 k2 c r e l hc hr tc hl hi
    obtain ⟨c0, hc0, ec⟩ := tr hc
    obtain ⟨r0, hr0, er⟩ := tr hr
    rw [ec] at tc hl ⊢; rw [er] at hi ⊢
    have := h.lanes k1 k2 c0 r0 e l hc0 hr0 tc (by cases e <;> exact hl) hi
    obtain ⟨cs, us, ts, q1, q2, q3, q4⟩ := this
    refine ⟨cs, us, ts, ?_, ?_, ?_, q4⟩
    · cases e <;> exact q1
    · cases e <;> exact q2
    · generalize l.contactPoint.getD .end = e' at q3 ⊢
      cases e' <;> exact q3

theorem dueLinks_planview (lanes : Store (Lane F)) (a b : Road F) (pa pb : PlanView F) :
    dueLinks lanes { a with planview := pa } { b with planview := pb } = dueLinks lanes a b := by
  have hf : Follows { a with planview := pa } { b with planview := pb } ↔ Follows a b :=
    ⟨fun h => ⟨h.1, h.2⟩, fun h => ⟨h.1, h.2⟩⟩
  unfold dueLinks
  dsimp only
  have e : ∀ (P Q : Prop) (dp : Decidable P) (dq : Decidable Q) (x y : List (Nat × Link)),
      (P ↔ Q) → (@ite _ P dp x y) = @ite _ Q dq x y := by
    intro P Q dp dq x y h
    by_cases hP : P
    · rw [if_pos hP, if_pos (h.mp hP)]
    · rw [if_neg hP, if_neg (fun q => hP (h.mpr q))]
  congr 1
  exact e _ _ _ _ _ _ (and_congr Iff.rfl (and_congr Iff.rfl hf))

theorem dueAt_same [PyFloat F] {roads roads' : Dict (Road F)} (lanes : Store (Lane F))
    (hs : SameNet roads roads') (x : Nat) : dueAt roads' lanes x = dueAt roads lanes x := by
  unfold dueAt
  rw [hs.1]
  have key : ∀ k, (∃ r r', roads.get? k = some r ∧ roads'.get? k = some r' ∧
      r' = { r with planview := r'.planview }) ∨ (roads.get? k = none ∧ roads'.get? k = none) := by
    intro k
    cases h : roads'.get? k with
    | none =>
      right
      refine ⟨?_, rfl⟩
      rw [Dict.get?_eq_none] at h ⊢
      rwa [← hs.1]
    | some r' =>
      obtain ⟨r, h1, h2⟩ := hs.2 k r' h
      exact .inl ⟨r, r', h1, rfl, h2.1⟩
  apply List.flatMap_congr
  rintro ⟨k1, k2⟩ -
  dsimp only
  rcases key k1 with ⟨a, a', h1, h2, h3⟩ | ⟨h1, h2⟩
  · rcases key k2 with ⟨b, b', g1, g2, g3⟩ | ⟨g1, g2⟩
    · rw [h1, h2, g1, g2]; dsimp only
      rw [h3, g3, dueLinks_planview]
    · rw [h1, h2, g1, g2]
  · rw [h1, h2]

/-- C30: `adjust_roads_and_lanes` on a network of fresh roads that can be placed and whose lanes fit
together returns normally and appends to the links of every lane exactly the links due for it (in
some order), and nothing else about the lanes changes. This covers normal and connecting roads,
every number of roads and lanes and every insertion order. -/
theorem C30_all_links [PyFloat F] (net net' : Net F) (lanes : Store (Lane F))
    (hn : net.roads.keys.Nodup) (hf : Fresh net.roads)
    (hp : Net.adjustStartpoints net = .ok () net') (hL : Linkable net.roads lanes) :
    ∃ lanes', World.adjustRoadsAndLanes ⟨net, lanes⟩ = .ok () ⟨net', lanes'⟩ ∧
      lanes'.next = lanes.next ∧
      ∀ x, ∃ new, lanes'.cell x = { lanes.cell x with links := (lanes.cell x).links ++ new } ∧
        new.Perm (dueAt net.roads lanes x) := by
  obtain ⟨m, hh, _⟩ := startpoints_history hn hf hp
  have hs := hh.same
  obtain ⟨log, h1, h2⟩ := linkPairs_log (Linkable.same hL hs) (combinations2 net'.roads.keys) lanes
    (fun _ => rfl) (fun p hp => mem_combinations2 hp (by rw [hs.1]; exact hn))
  refine ⟨applyLog log lanes, ?_, applyLog_next _ _, fun x => ⟨_, applyLog_cell _ _ _, ?_⟩⟩
  · unfold World.adjustRoadsAndLanes
    simp only [hp]
    exact h1
  · rw [← dueAt_same lanes hs]
    refine (h2 x).trans ?_
    exact combinations_perm (fun p => pairDue net'.roads lanes x p) _ (by rw [hs.1]; exact hn)

/-! ### What a single lane gets -/

theorem mem_toward {lanes : Store (Lane F)} {k : LinkKind} {s off : Int} {side other : List Nat}
    {x : Nat × Link} (h : x ∈ toward lanes k s off side other) : x.1 ∈ side ∧ x.2.kind = k := by
  simp only [toward, List.mem_map] at h
  obtain ⟨y, hy, rfl⟩ := h
  exact ⟨(List.of_mem_zip hy).1, rfl⟩

/-- Why an entry is due. -/
theorem mem_dueLinks {lanes : Store (Lane F)} {a b : Road F} {x : Nat} {l : Link}
    (h : (x, l) ∈ dueLinks lanes a b) :
    (a.roadType = -1 ∧ b.roadType = -1 ∧ Follows a b ∧
      ((l.kind = .successor ∧ ∃ s, sectionAt a .end = some s ∧ x ∈ s.left ++ s.right) ∨
       (l.kind = .predecessor ∧ ∃ s, sectionAt b .start = some s ∧ x ∈ s.left ++ s.right))) ∨
    (a.roadType ≠ -1 ∧ b.roadType = -1 ∧ ∃ e lk s, l.kind = kindAt e ∧ linkAt a e = some lk ∧
      lk.elementId = b.id ∧ sectionAt a e = some s ∧ x ∈ s.left ++ s.right) := by
  unfold dueLinks at h
  rw [List.mem_append] at h
  rcases h with h | h
  · split at h
    · rename_i hc
      refine .inl ⟨hc.1, hc.2.1, hc.2.2, ?_⟩
      unfold jointLinks at h
      split at h
      · rename_i sa sb h1 h2
        simp only [List.mem_append] at h
        rcases h with (h | h) | (h | h)
        · exact .inl ⟨(mem_toward h).2, sa, h1, by simp [(mem_toward h).1]⟩
        · exact .inl ⟨(mem_toward h).2, sa, h1, by simp [(mem_toward h).1]⟩
        · exact .inr ⟨(mem_toward h).2, sb, h2, by simp [(mem_toward h).1]⟩
        · exact .inr ⟨(mem_toward h).2, sb, h2, by simp [(mem_toward h).1]⟩
      · simp at h
    · simp at h
  · split at h
    · rename_i hc
      refine .inr ⟨hc.1, hc.2, ?_⟩
      have key : ∀ e, (x, l) ∈ connectionLinks lanes a b e → ∃ lk s, l.kind = kindAt e ∧
          linkAt a e = some lk ∧ lk.elementId = b.id ∧ sectionAt a e = some s ∧
          x ∈ s.left ++ s.right := by
        intro e h
        unfold connectionLinks at h
        split at h
        · rename_i lk csec h1 h2
          split at h
          · rename_i hi
            split at h
            · rw [List.mem_append] at h
              refine ⟨lk, csec, ?_, h1, hi, h2, ?_⟩
              · rcases h with h | h <;> exact (mem_toward h).2
              · rcases h with h | h <;> simp [(mem_toward h).1]
            · simp at h
          · simp at h
        · simp at h
      rw [List.mem_append] at h
      rcases h with h | h
      · exact ⟨.start, key .start h⟩
      · exact ⟨.end, key .end h⟩
    · simp at h

theorem flatMap_single {α β : Type} {l : List α} {f : α → List β} {p : α} (hn : l.Nodup)
    (hp : p ∈ l) (h : ∀ q ∈ l, q ≠ p → f q = []) : l.flatMap f = f p := by
  induction l with
  | nil => simp at hp
  | cons a l ih =>
    rw [List.nodup_cons] at hn
    rw [List.flatMap_cons]
    by_cases e : a = p
    · subst e
      have : l.flatMap f = [] := by
        rw [List.flatMap_eq_nil_iff]
        intro q hq
        exact h q (by simp [hq]) (by rintro rfl; exact hn.1 hq)
      rw [this, List.append_nil]
    · rw [h a (by simp) e, List.nil_append]
      refine ih hn.2 ?_ (fun q hq => h q (by simp [hq]))
      rcases List.mem_cons.mp hp with h | h
      · exact absurd h.symm e
      · exact h

theorem mem_orderedPairs {l : List String} {p : String × String} :
    p ∈ orderedPairs l ↔ p.1 ∈ l ∧ p.2 ∈ l ∧ p.1 ≠ p.2 := by
  simp only [orderedPairs, List.mem_flatMap, List.mem_map, List.mem_filter, decide_eq_true_eq]
  constructor
  · rintro ⟨a, ha, b, ⟨hb, hne⟩, rfl⟩
    exact ⟨ha, hb, Ne.symm hne⟩
  · rintro ⟨h1, h2, h3⟩
    exact ⟨p.1, h1, p.2, ⟨h2, Ne.symm h3⟩, rfl⟩

theorem orderedPairs_nodup {l : List String} (h : l.Nodup) : (orderedPairs l).Nodup := by
  unfold orderedPairs
  rw [List.nodup_flatMap]
  constructor
  · intro a _
    exact (h.filter _).map (fun x y e => (Prod.mk.inj e).2)
  · refine List.Pairwise.imp ?_ h
    intro a b hab p h1 h2
    simp only [List.mem_map] at h1 h2
    obtain ⟨c, _, rfl⟩ := h1
    obtain ⟨d, _, e⟩ := h2
    exact hab (Prod.mk.inj e).1.symm

/-- The part of kind `K` that a pair of roads owes lane `x`. -/
noncomputable def kindDue (roads : Dict (Road F)) (lanes : Store (Lane F)) (x : Nat) (K : LinkKind)
    (p : String × String) : List Link :=
  (pairDue roads lanes x p).filter (·.kind = K)

theorem kindDue_ne_nil {roads : Dict (Road F)} {lanes : Store (Lane F)} {x : Nat} {K : LinkKind}
    {p : String × String} (h : kindDue roads lanes x K p ≠ []) : ∃ a b l,
      roads.get? p.1 = some a ∧ roads.get? p.2 = some b ∧ (x, l) ∈ dueLinks lanes a b ∧ l.kind = K := by
  obtain ⟨l, hl⟩ := List.exists_mem_of_ne_nil _ h
  unfold kindDue pairDue at hl
  split at hl
  · rename_i a b h1 h2
    simp only [logAt, List.mem_filter, List.mem_map, decide_eq_true_eq] at hl
    obtain ⟨⟨⟨y, m⟩, ⟨h3, h4⟩, h5⟩, h6⟩ := hl
    dsimp only at h4 h5
    subst h4 h5
    exact ⟨a, b, m, h1, h2, h3, h6⟩
  · simp at hl

/-- The new links of kind `K` of a lane, when a single pair of roads can owe it some. -/
theorem newLinks_single [PyFloat F] {net net' : Net F} {lanes lanes' : Store (Lane F)}
    (hn : net.roads.keys.Nodup) (hf : Fresh net.roads) (hL : Linkable net.roads lanes)
    (hrun : World.adjustRoadsAndLanes ⟨net, lanes⟩ = .ok () ⟨net', lanes'⟩) (x : Nat)
    (K : LinkKind) : (newLinks lanes lanes' x K).Perm
      ((orderedPairs net.roads.keys).flatMap (kindDue net.roads lanes x K)) := by
  have hp : Net.adjustStartpoints net = .ok () net' := by
    unfold World.adjustRoadsAndLanes at hrun
    cases h : Net.adjustStartpoints net with
    | ok u n =>
      simp only [h] at hrun
      have : ∀ (ps : List (String × String)) (w w' : World F), World.linkPairs ps w = .ok () w' →
          w'.net = w.net := by
        intro ps
        induction ps with
        | nil => intro w w' h; cases h; rfl
        | cons p ps ih =>
          intro w w' h
          unfold World.linkPairs at h
          obtain ⟨u, w1, h1, h2⟩ := bind_ok.mp h
          rw [ih w1 w' h2]
          unfold World.linkPair at h1
          split at h1
          · split at h1
            · cases h1; rfl
            · cases h1
          · cases h1
      have e := this _ _ _ hrun
      dsimp only at e
      rw [e]
    | error e n => simp [h] at hrun
  obtain ⟨lanes'', h1, _, h2⟩ := C30_all_links net net' lanes hn hf hp hL
  rw [h1] at hrun
  cases hrun
  obtain ⟨new, h3, h4⟩ := h2 x
  unfold newLinks
  rw [h3]
  dsimp only
  rw [List.drop_left]
  refine (h4.filter _).trans ?_
  unfold dueAt
  rw [List.filter_flatMap]
  exact List.Perm.refl _

theorem sectionAt_index {r : Road F} {e : ContactPoint} {s : LaneSection F}
    (h : sectionAt r e = some s) :
    s ∈ r.lanesections ∧
      r.lanesections[match e with | .start => 0 | .end => r.lanesections.length - 1]? = some s := by
  cases e with
  | start =>
    simp only [sectionAt] at h
    exact ⟨List.mem_of_mem_head? h, by rw [← List.head?_eq_getElem?]; exact h⟩
  | «end» =>
    simp only [sectionAt] at h
    exact ⟨List.mem_of_getLast? h, by rw [← List.getLast?_eq_getElem?]; exact h⟩

theorem _root_.Pyodrx.Spec.Unshared.key {roads : Dict (Road F)} (hu : Unshared roads)
    {k k' : String} {r r' : Road F} {e e' : ContactPoint} {s s' : LaneSection F} {x : Nat}
    (h1 : roads.get? k = some r) (h2 : roads.get? k' = some r') (h3 : sectionAt r e = some s)
    (h4 : sectionAt r' e' = some s') (h5 : x ∈ s.left ++ s.right) (h6 : x ∈ s'.left ++ s'.right) :
    k = k' :=
  (hu.between k k' r r' _ _ s s' x h1 h2 (sectionAt_index h3).2 (sectionAt_index h4).2 h5 h6).1

theorem key_of_id {roads : Dict (Road F)} (hid : ById roads) {k k' : String} {r r' : Road F}
    (h1 : roads.get? k = some r) (h2 : roads.get? k' = some r') (h : r.id = r'.id) : k = k' := by
  rw [← hid k r h1, ← hid k' r' h2, h]

theorem toward_logAt_none {lanes : Store (Lane F)} {k : LinkKind} {s off : Int}
    {side other : List Nat} {x : Nat} (h : x ∉ side) :
    logAt (toward lanes k s off side other) x = [] :=
  logAt_eq_nil (fun y hy e => h (e ▸ (mem_toward hy).1))

theorem toward_logAt {lanes : Store (Lane F)} (k : LinkKind) (s off : Int) {side other : List Nat}
    {i x q : Nat} (hd : side.Nodup) (h1 : side[i]? = some x) (h2 : other[i]? = some q) :
    logAt (toward lanes k s off side other) x = [laneLink k (laneNo lanes q * s + off)] :=
  logAt_conn k s off lanes side other i x q hd h1 h2

/-- A list of links of one kind on both sides of a section, at one lane. -/
theorem toward_sides {lanes : Store (Lane F)} (k : LinkKind) (s off : Int)
    {sec other : LaneSection F} {x : Nat} (hd : (sec.left ++ sec.right).Nodup)
    (hl : sec.left.length ≤ other.left.length) (hr : sec.right.length ≤ other.right.length)
    (hx : x ∈ sec.left ++ sec.right) : ∃ q,
      (∃ i : Nat, (sec.left[i]? = some x ∧ other.left[i]? = some q) ∨
        (sec.right[i]? = some x ∧ other.right[i]? = some q)) ∧
      logAt (toward lanes k s off sec.left other.left ++ toward lanes k s off sec.right other.right) x =
        [laneLink k (laneNo lanes q * s + off)] := by
  rw [List.nodup_append] at hd
  obtain ⟨d1, d2, d3⟩ := hd
  rw [List.mem_append] at hx
  rcases hx with hx | hx
  · obtain ⟨i, hi⟩ := List.getElem?_of_mem hx
    have hlt := (List.getElem?_eq_some_iff.mp hi).1
    have hq := List.getElem?_eq_getElem (show i < other.left.length by omega)
    refine ⟨_, ⟨i, .inl ⟨hi, hq⟩⟩, ?_⟩
    rw [logAt_append, toward_logAt k s off d1 hi hq,
      toward_logAt_none (fun h => d3 x hx x h rfl), List.append_nil]
  · obtain ⟨i, hi⟩ := List.getElem?_of_mem hx
    have hlt := (List.getElem?_eq_some_iff.mp hi).1
    have hq := List.getElem?_eq_getElem (show i < other.right.length by omega)
    refine ⟨_, ⟨i, .inr ⟨hi, hq⟩⟩, ?_⟩
    rw [logAt_append, toward_logAt_none (fun h => d3 x h x hx rfl), toward_logAt k s off d2 hi hq,
      List.nil_append]

theorem kindDue_pair {roads : Dict (Road F)} {lanes : Store (Lane F)} {x : Nat} {K : LinkKind}
    {k1 k2 : String} {a b : Road F} (ha : roads.get? k1 = some a) (hb : roads.get? k2 = some b) :
    kindDue roads lanes x K (k1, k2) = (logAt (dueLinks lanes a b) x).filter (·.kind = K) := by
  simp [kindDue, pairDue, ha, hb]

/-- The hypotheses of the whole-network theorems: fresh, keyed roads with unshared lanes that fit
together, on which `adjust_roads_and_lanes` returned. -/
structure Linked [PyFloat F] (net net' : Net F) (lanes lanes' : Store (Lane F)) : Prop where
  nodup : net.roads.keys.Nodup
  fresh : Fresh net.roads
  byId : ById net.roads
  fit : Linkable net.roads lanes
  unshared : Unshared net.roads
  run : World.adjustRoadsAndLanes ⟨net, lanes⟩ = .ok () ⟨net', lanes'⟩

theorem mem_keys {roads : Dict (Road F)} {k : String} {r : Road F} (h : roads.get? k = some r) :
    k ∈ roads.keys := by
  rw [← Dict.get?_isSome, h]; rfl

/-- C30: if road `b` follows road `a` (both normal), every lane of the last section of `a` has got
exactly one new successor link, to its own number, which is the number of the lane at the same place
in the first section of `b`. -/
theorem C30_successor_link [PyFloat F] (net net' : Net F) (lanes lanes' : Store (Lane F))
    (h : Linked net net' lanes lanes') (k1 k2 : String) (a b : Road F) (hne : k1 ≠ k2)
    (ha : net.roads.get? k1 = some a) (hb : net.roads.get? k2 = some b)
    (ta : a.roadType = -1) (tb : b.roadType = -1) (hf : Follows a b)
    (sa : LaneSection F) (hsa : sectionAt a .end = some sa) (x : Nat)
    (hx : x ∈ sa.left ++ sa.right) :
    ∃ id, (lanes.cell x).laneId = some id ∧
      newLinks lanes lanes' x .successor = [laneLink .successor id] := by
  obtain ⟨sa', sb, last, hj, hnb, hc, _⟩ := h.fit.joints k1 k2 a b hne ha hb ta tb hf
  obtain rfl : sa' = sa := by have := hj.secA; rw [hsa] at this; cases this; rfl
  have hp := newLinks_single h.nodup h.fresh h.fit h.run x .successor
  rw [flatMap_single (p := (k1, k2)) (orderedPairs_nodup h.nodup)
    (mem_orderedPairs.mpr ⟨mem_keys ha, mem_keys hb, hne⟩)] at hp
  · obtain ⟨q, ⟨i, hi⟩, hq⟩ := toward_sides (lanes := lanes) .successor 1 0
      (h.unshared.within k1 a sa' ha (sectionAt_index hsa).1) (Nat.le_of_eq hc.1)
      (Nat.le_of_eq hc.2) hx
    have hlog : logAt (dueLinks lanes a b) x = [laneLink .successor (laneNo lanes q * 1 + 0)] := by
      have : dueLinks lanes a b = jointLinks lanes a b := by simp [dueLinks, ta, tb, hf]
      rw [this]
      simp only [jointLinks, hsa, hj.secB]
      rw [logAt_append, hq]
      have nx : x ∉ sb.left ++ sb.right := fun hm =>
        hne (h.unshared.key ha hb hsa hj.secB hx hm)
      rw [List.mem_append, not_or] at nx
      rw [logAt_append, toward_logAt_none nx.1, toward_logAt_none nx.2]
      rfl
    rw [kindDue_pair ha hb, hlog] at hp
    have hsame : ∃ id, (lanes.cell x).laneId = some id ∧ laneNo lanes q = id := by
      rcases hi with ⟨h1, h2⟩ | ⟨h1, h2⟩
      · exact ⟨_, hj.numA.1 i x h1, laneNo_eq (hnb.1 i q h2)⟩
      · exact ⟨_, hj.numA.2 i x h1, laneNo_eq (hnb.2 i q h2)⟩
    obtain ⟨id, e1, e2⟩ := hsame
    refine ⟨id, e1, ?_⟩
    rw [e2, Int.mul_one, Int.add_zero] at hp
    exact List.perm_singleton.mp hp
  · rintro ⟨k1', k2'⟩ - hqne
    by_contra hc
    obtain ⟨a', b', l, g1, g2, g3, g4⟩ := kindDue_ne_nil hc
    dsimp only at g1 g2
    rcases mem_dueLinks g3 with ⟨q1, q2, q3, ⟨_, s, q5, q6⟩ | ⟨q4, _⟩⟩ | ⟨q1, q2, e, lk, s, q3, q4, q5, q6, q7⟩
    · obtain rfl := h.unshared.key ha g1 hsa q5 hx q6
      rw [ha] at g1; cases g1
      obtain ⟨m, m1, _, m3⟩ := hf.succ
      obtain ⟨m', m1', _, m3'⟩ := q3.succ
      rw [m1] at m1'; cases m1'
      obtain rfl := key_of_id h.byId hb g2 (m3.symm.trans m3')
      exact hqne rfl
    · rw [g4] at q4; cases q4
    · obtain rfl := h.unshared.key ha g1 hsa q6 hx q7
      rw [ha] at g1; cases g1
      exact q1 ta

/-- C30: and every lane of the first section of `b` has got exactly one new predecessor link, to its
own number, which is the number of the lane at the same place in the last section of `a`. -/
theorem C30_predecessor_link [PyFloat F] (net net' : Net F) (lanes lanes' : Store (Lane F))
    (h : Linked net net' lanes lanes') (k1 k2 : String) (a b : Road F) (hne : k1 ≠ k2)
    (ha : net.roads.get? k1 = some a) (hb : net.roads.get? k2 = some b)
    (ta : a.roadType = -1) (tb : b.roadType = -1) (hf : Follows a b)
    (sb : LaneSection F) (hsb : sectionAt b .start = some sb) (x : Nat)
    (hx : x ∈ sb.left ++ sb.right) :
    ∃ id, (lanes.cell x).laneId = some id ∧
      newLinks lanes lanes' x .predecessor = [laneLink .predecessor id] := by
  obtain ⟨sa, sb', last, hj, hnb, hc, _⟩ := h.fit.joints k1 k2 a b hne ha hb ta tb hf
  obtain rfl : sb' = sb := by have := hj.secB; rw [hsb] at this; cases this; rfl
  have hp := newLinks_single h.nodup h.fresh h.fit h.run x .predecessor
  rw [flatMap_single (p := (k1, k2)) (orderedPairs_nodup h.nodup)
    (mem_orderedPairs.mpr ⟨mem_keys ha, mem_keys hb, hne⟩)] at hp
  · obtain ⟨q, ⟨i, hi⟩, hq⟩ := toward_sides (lanes := lanes) .predecessor 1 0
      (h.unshared.within k2 b sb' hb (sectionAt_index hsb).1) (Nat.le_of_eq hc.1.symm)
      (Nat.le_of_eq hc.2.symm) hx
    have hlog : logAt (dueLinks lanes a b) x = [laneLink .predecessor (laneNo lanes q * 1 + 0)] := by
      have : dueLinks lanes a b = jointLinks lanes a b := by simp [dueLinks, ta, tb, hf]
      rw [this]
      simp only [jointLinks, hsb, hj.secA]
      rw [logAt_append, hq]
      have nx : x ∉ sa.left ++ sa.right := fun hm =>
        hne (h.unshared.key ha hb hj.secA hsb hm hx)
      rw [List.mem_append, not_or] at nx
      rw [logAt_append, toward_logAt_none nx.1, toward_logAt_none nx.2]
      rfl
    rw [kindDue_pair ha hb, hlog] at hp
    have hsame : ∃ id, (lanes.cell x).laneId = some id ∧ laneNo lanes q = id := by
      rcases hi with ⟨h1, h2⟩ | ⟨h1, h2⟩
      · exact ⟨_, hnb.1 i x h1, laneNo_eq (hj.numA.1 i q h2)⟩
      · exact ⟨_, hnb.2 i x h1, laneNo_eq (hj.numA.2 i q h2)⟩
    obtain ⟨id, e1, e2⟩ := hsame
    refine ⟨id, e1, ?_⟩
    rw [e2, Int.mul_one, Int.add_zero] at hp
    exact List.perm_singleton.mp hp
  · rintro ⟨k1', k2'⟩ - hqne
    by_contra hc
    obtain ⟨a', b', l, g1, g2, g3, g4⟩ := kindDue_ne_nil hc
    dsimp only at g1 g2
    rcases mem_dueLinks g3 with ⟨q1, q2, q3, ⟨q4, _⟩ | ⟨_, s, q5, q6⟩⟩ | ⟨q1, q2, e, lk, s, q3, q4, q5, q6, q7⟩
    · rw [g4] at q4; cases q4
    · obtain rfl := h.unshared.key hb g2 hsb q5 hx q6
      rw [hb] at g2; cases g2
      obtain ⟨m, m1, _, m3⟩ := hf.pred
      obtain ⟨m', m1', _, m3'⟩ := q3.pred
      rw [m1] at m1'; cases m1'
      obtain rfl := key_of_id h.byId ha g1 (m3.symm.trans m3')
      exact hqne rfl
    · obtain rfl := h.unshared.key hb g1 hsb q6 hx q7
      rw [hb] at g1; cases g1
      exact q1 tb

/-- C30: every lane of a connecting road at an end that is linked to a road of the network has got
exactly one new link of the kind of that end: to the number of the lane at the same place in the
section of that road at the contact point, with the sign of the direction and shifted by the lane
offset. -/
theorem C30_connecting_link [PyFloat F] (net net' : Net F) (lanes lanes' : Store (Lane F))
    (h : Linked net net' lanes lanes') (k1 k2 : String) (c r : Road F)
    (hc : net.roads.get? k1 = some c) (hr : net.roads.get? k2 = some r)
    (tc : c.roadType ≠ -1) (e : ContactPoint) (l : Link) (hl : linkAt c e = some l)
    (hi : l.elementId = r.id) (csec touching : LaneSection F) (hcs : sectionAt c e = some csec)
    (hts : sectionAt r (l.contactPoint.getD .end) = some touching) (x : Nat)
    (hx : x ∈ csec.left ++ csec.right) :
    ∃ (i q : Nat) (id : Int), ((csec.left[i]? = some x ∧ touching.left[i]? = some q) ∨
        (csec.right[i]? = some x ∧ touching.right[i]? = some q)) ∧
      (lanes.cell q).laneId = some id ∧
      newLinks lanes lanes' x (kindAt e) =
        [laneLink (kindAt e) (directionSign e l.contactPoint * id + laneOffsetAt c e)] := by
  obtain ⟨cs', us, ts', e1, e2, e3, n1, n2, c1, c2, c3, c4⟩ := h.fit.lanes k1 k2 c r e l hc hr tc hl hi
  rw [hcs] at e1; cases e1
  rw [hts] at e3; cases e3
  have tr : r.roadType = -1 := h.fit.normal k1 k2 c r hc hr tc
    ⟨l, by cases e <;> simp only [linkAt] at hl <;> simp [hl], hi⟩
  have hne : k1 ≠ k2 := by
    rintro rfl; rw [hc] at hr; cases hr; exact tc tr
  have hother : ∀ m, linkAt c (otherEnd e) = some m → m.elementId ≠ r.id := by
    intro m hm hmi
    obtain ⟨p, s, hp, hs, hps⟩ := h.fit.ends k1 c hc tc
    cases e <;> simp only [linkAt, otherEnd] at hl hm <;> rw [hp] at * <;> rw [hs] at * <;>
      cases hl <;> cases hm
    · exact hps (hi.trans hmi.symm)
    · exact hps (hmi.trans hi.symm)
  have hp := newLinks_single h.nodup h.fresh h.fit h.run x (kindAt e)
  rw [flatMap_single (p := (k1, k2)) (orderedPairs_nodup h.nodup)
    (mem_orderedPairs.mpr ⟨mem_keys hc, mem_keys hr, hne⟩)] at hp
  · obtain ⟨q, ⟨i, hiq⟩, hq⟩ := toward_sides (lanes := lanes) (kindAt e)
      (directionSign e l.contactPoint) (laneOffsetAt c e)
      (h.unshared.within k1 c csec hc (sectionAt_index hcs).1) c3 c4 hx
    have hlog : logAt (dueLinks lanes c r) x =
        [laneLink (kindAt e) (laneNo lanes q * directionSign e l.contactPoint + laneOffsetAt c e)] := by
      have h0 : dueLinks lanes c r =
          connectionLinks lanes c r .start ++ connectionLinks lanes c r .end := by
        simp [dueLinks, tc, tr]
      have h1 : connectionLinks lanes c r (otherEnd e) = [] := connectionLinks_none hother
      have h2 : logAt (connectionLinks lanes c r e) x =
        [laneLink (kindAt e) (laneNo lanes q * directionSign e l.contactPoint + laneOffsetAt c e)] := by
        simp only [connectionLinks, hl, hcs, hi, if_true, hts]
        exact hq
      rw [h0]
      cases e
      · rw [show connectionLinks lanes c r .end = [] from h1, List.append_nil]; exact h2
      · rw [show connectionLinks lanes c r .start = [] from h1, List.nil_append]; exact h2
    rw [kindDue_pair hc hr, hlog] at hp
    have hnum : ∃ id, (lanes.cell q).laneId = some id := by
      rcases hiq with ⟨_, h2⟩ | ⟨_, h2⟩
      · exact ⟨_, n2.1 i q h2⟩
      · exact ⟨_, n2.2 i q h2⟩
    obtain ⟨id, hid⟩ := hnum
    refine ⟨i, q, id, hiq, hid, ?_⟩
    rw [laneNo_eq hid, Int.mul_comm] at hp
    refine List.perm_singleton.mp (hp.trans ?_)
    simp [laneLink]
  · rintro ⟨k1', k2'⟩ - hqne
    by_contra hcon
    obtain ⟨a', b', m, g1, g2, g3, g4⟩ := kindDue_ne_nil hcon
    dsimp only at g1 g2
    rcases mem_dueLinks g3 with ⟨q1, q2, q3, ⟨_, s, q5, q6⟩ | ⟨_, s, q5, q6⟩⟩ | ⟨q1, q2, e', lk, s, q3, q4, q5, q6, q7⟩
    · obtain rfl := h.unshared.key hc g1 hcs q5 hx q6
      rw [hc] at g1; cases g1
      exact tc q1
    · obtain rfl := h.unshared.key hc g2 hcs q5 hx q6
      rw [hc] at g2; cases g2
      exact tc q2
    · obtain rfl := h.unshared.key hc g1 hcs q6 hx q7
      rw [hc] at g1; cases g1
      have : e' = e := by
        rw [g4] at q3
        cases e <;> cases e' <;> first | rfl | cases q3
      subst this
      rw [hl] at q4; cases q4
      obtain rfl := key_of_id h.byId hr g2 (hi.symm.trans q5)
      exact hqne rfl

/-- C30: no other links are made: a lane that got a new link of kind `K` is at the end of a normal
road that is followed by another one (successor links), at the start of a normal road that follows
another one (predecessor links), or at an end of a connecting road that is linked to a normal road
of the network. -/
theorem C30_no_other_links [PyFloat F] (net net' : Net F) (lanes lanes' : Store (Lane F))
    (h : Linked net net' lanes lanes') (x : Nat) (K : LinkKind)
    (hx : newLinks lanes lanes' x K ≠ []) :
    ∃ e k1 k2 a b sec, K = kindAt e ∧ k1 ≠ k2 ∧ net.roads.get? k1 = some a ∧
      net.roads.get? k2 = some b ∧ b.roadType = -1 ∧ sectionAt a e = some sec ∧
      x ∈ sec.left ++ sec.right ∧
      ((a.roadType = -1 ∧ e = .end ∧ Follows a b) ∨ (a.roadType = -1 ∧ e = .start ∧ Follows b a) ∨
       (a.roadType ≠ -1 ∧ ∃ l, linkAt a e = some l ∧ l.elementId = b.id)) := by
  have hp := newLinks_single h.nodup h.fresh h.fit h.run x K
  have : (orderedPairs net.roads.keys).flatMap (kindDue net.roads lanes x K) ≠ [] := by
    intro e; rw [e] at hp; exact hx (List.perm_nil.mp hp)
  rw [ne_eq, List.flatMap_eq_nil_iff] at this
  push Not at this
  obtain ⟨⟨k1, k2⟩, hm, hk⟩ := this
  obtain ⟨a, b, l, g1, g2, g3, g4⟩ := kindDue_ne_nil hk
  have hne := (mem_orderedPairs.mp hm).2.2
  dsimp only at g1 g2 hne
  rcases mem_dueLinks g3 with ⟨q1, q2, q3, ⟨q4, s, q5, q6⟩ | ⟨q4, s, q5, q6⟩⟩ | ⟨q1, q2, e, lk, s, q3, q4, q5, q6, q7⟩
  · exact ⟨.end, k1, k2, a, b, s, by rw [← g4, q4]; rfl, hne, g1, g2, q2, q5, q6, .inl ⟨q1, rfl, q3⟩⟩
  · exact ⟨.start, k2, k1, b, a, s, by rw [← g4, q4]; rfl, Ne.symm hne, g2, g1, q1, q5, q6,
      .inr (.inl ⟨q2, rfl, q3⟩)⟩
  · exact ⟨e, k1, k2, a, b, s, by rw [← g4, q3], hne, g1, g2, q2, q6, q7, .inr (.inr ⟨q1, lk, q4, q5⟩)⟩

/-! ## A concrete network with lanes

Roads 1, 2 and 4 are normal roads with two left lanes and one right lane, road 3 is a connecting road
(of junction 4) from the end of road 2 to the start of road 4 with one lane on each side. (The
junction has the id of some road: otherwise `adjust_startpoints` raises `KeyError`, C23.) Road 2
follows road 1. The lanes of road `k` are the objects `10k+1`, `10k+3` (left), `10k+2` (right). -/

/-- The lane number of the object `r`. -/
def exLaneNo (r : Nat) : Int :=
  if r % 10 = 1 then 1 else if r % 10 = 3 then 2 else if r % 10 = 2 then -1 else 0

noncomputable def exLanes : Store (Lane ℝ) :=
  { cell := fun r => { (Lane.new .driving 3 0 0 0 0) with laneId := some (exLaneNo r) }
    next := 50 }

noncomputable def exSec (left right : List Nat) : LaneSection ℝ := ⟨0, 0, left, right, 1, -1⟩

noncomputable def exLaneRoad (id rt : Int) (g : Nat) (pred succ : Option Link)
    (left right : List Nat) : Road ℝ :=
  { Road.new (.int id) ⟨⟨0, 0, 0⟩, 0, false, none, none, [g], [], [], false⟩ [exSec left right] rt
      none none with predecessor := pred, successor := succ, links := pred.toList ++ succ.toList }

noncomputable def exLR1 : Road ℝ := exLaneRoad 1 (-1) 0 none
  (some ⟨.successor, .int 2, some .road, some .start, none⟩) [11, 13] [12]
noncomputable def exLR2 : Road ℝ := exLaneRoad 2 (-1) 1
  (some ⟨.predecessor, .int 1, some .road, some .end, none⟩)
  (some ⟨.successor, .int 4, some .junction, none, none⟩) [21, 23] [22]
noncomputable def exLR3 : Road ℝ := exLaneRoad 3 4 2
  (some ⟨.predecessor, .int 2, some .road, some .end, none⟩)
  (some ⟨.successor, .int 4, some .road, some .start, none⟩) [31] [32]
noncomputable def exLR4 : Road ℝ := exLaneRoad 4 (-1) 3
  (some ⟨.predecessor, .int 4, some .junction, none, none⟩) none [41, 43] [42]

noncomputable def exLaneNet : Net ℝ :=
  { roads := [("1", exLR1), ("2", exLR2), ("3", exLR3), ("4", exLR4)]
    geoms := ⟨fun i => .line ⟨i + 1⟩, 4⟩ }

theorem exLaneNet_get {k : String} {r : Road ℝ} (h : exLaneNet.roads.get? k = some r) :
    (k = "1" ∧ r = exLR1) ∨ (k = "2" ∧ r = exLR2) ∨ (k = "3" ∧ r = exLR3) ∨ (k = "4" ∧ r = exLR4) := by
  simp only [exLaneNet, Dict.get?] at h
  repeat' split at h
  all_goals first | (cases h; done) | skip
  all_goals (cases h; subst_vars; simp)

theorem exLaneNet_fresh : Fresh exLaneNet.roads := by
  intro k r h
  rcases exLaneNet_get h with ⟨_, rfl⟩ | ⟨_, rfl⟩ | ⟨_, rfl⟩ | ⟨_, rfl⟩ <;> exact ⟨rfl, rfl⟩

theorem exNumbered {left right : List Nat}
    (h1 : ∀ (i : Nat) (h : i < left.length), exLaneNo left[i] = (i : Int) + 1)
    (h2 : ∀ (i : Nat) (h : i < right.length), exLaneNo right[i] = -((i : Int) + 1)) :
    Numbered exLanes (exSec left right) := by
  constructor
  · intro i r h
    obtain ⟨h3, rfl⟩ := List.getElem?_eq_some_iff.mp h
    exact congrArg some (h1 i h3)
  · intro i r h
    obtain ⟨h3, rfl⟩ := List.getElem?_eq_some_iff.mp h
    exact congrArg some (h2 i h3)

theorem exNum1 : Numbered exLanes (exSec [11, 13] [12]) := exNumbered (by decide) (by decide)
theorem exNum2 : Numbered exLanes (exSec [21, 23] [22]) := exNumbered (by decide) (by decide)
theorem exNum3 : Numbered exLanes (exSec [31] [32]) := exNumbered (by decide) (by decide)
theorem exNum4 : Numbered exLanes (exSec [41, 43] [42]) := exNumbered (by decide) (by decide)

theorem exFollows : Follows exLR1 exLR2 := ⟨⟨_, rfl, rfl, rfl⟩, ⟨_, rfl, rfl, rfl⟩⟩

theorem exJoint : Joint exLR1 exLR2 (exSec [11, 13] [12]) (exSec [21, 23] [22])
    (exSec [21, 23] [22]) exLanes :=
  ⟨rfl, rfl, exFollows, fun l h => by cases h; rfl, fun l h => by cases h; decide, rfl, rfl, rfl, exNum1⟩

theorem exLaneNet_linkable : Linkable exLaneNet.roads exLanes := by
  refine ⟨?_, ?_, ?_, ?_⟩
  · intro k1 k2 a b hne ha hb ta tb ⟨⟨l, f1, f2, f3⟩, _⟩
    rcases exLaneNet_get ha with ⟨rfl, rfl⟩ | ⟨rfl, rfl⟩ | ⟨rfl, rfl⟩ | ⟨rfl, rfl⟩ <;> cases f1 <;>
      rcases exLaneNet_get hb with ⟨rfl, rfl⟩ | ⟨rfl, rfl⟩ | ⟨rfl, rfl⟩ | ⟨rfl, rfl⟩ <;> cases f3
    · exact ⟨_, _, _, exJoint, exNum2, ⟨rfl, rfl⟩, ⟨rfl, rfl⟩⟩
    · cases f2
    · cases ta
  · intro k c hc tc
    rcases exLaneNet_get hc with ⟨rfl, rfl⟩ | ⟨rfl, rfl⟩ | ⟨rfl, rfl⟩ | ⟨rfl, rfl⟩ <;>
      first | exact absurd rfl tc | exact ⟨_, _, rfl, rfl, by decide⟩
  · intro k1 k2 c r hc hr tc ⟨l, hl, hi⟩
    rcases exLaneNet_get hc with ⟨rfl, rfl⟩ | ⟨rfl, rfl⟩ | ⟨rfl, rfl⟩ | ⟨rfl, rfl⟩ <;>
      first | exact absurd rfl tc | skip
    rcases hl with hl | hl <;> cases hl <;>
      rcases exLaneNet_get hr with ⟨rfl, rfl⟩ | ⟨rfl, rfl⟩ | ⟨rfl, rfl⟩ | ⟨rfl, rfl⟩ <;>
      first | cases hi | rfl
    all_goals rfl
  · intro k1 k2 c r e l hc hr tc hl hi
    rcases exLaneNet_get hc with ⟨rfl, rfl⟩ | ⟨rfl, rfl⟩ | ⟨rfl, rfl⟩ | ⟨rfl, rfl⟩ <;>
      first | exact absurd rfl tc | skip
    cases e <;> cases hl <;>
      rcases exLaneNet_get hr with ⟨rfl, rfl⟩ | ⟨rfl, rfl⟩ | ⟨rfl, rfl⟩ | ⟨rfl, rfl⟩ <;> cases hi
    · exact ⟨_, _, _, rfl, rfl, rfl, exNum2, exNum2, by decide, by decide, by decide, by decide⟩
    · exact ⟨_, _, _, rfl, rfl, rfl, exNum4, exNum4, by decide, by decide, by decide, by decide⟩

theorem exLaneNet_wellFormed : WellFormed exLaneNet := by
  have e1 : strInt 1 = "1" := by decide
  have e2 : strInt 2 = "2" := by decide
  have e4 : strInt 4 = "4" := by decide
  have hk : exLaneNet.roads.keys = ["1", "2", "3", "4"] := rfl
  refine ⟨by simp [exLaneNet], by rw [hk]; decide, exLaneNet_fresh, ?_, ?_, ?_, ?_, ?_⟩
  · intro k r l h hl
    rw [hk]
    rcases exLaneNet_get h with ⟨_, rfl⟩ | ⟨_, rfl⟩ | ⟨_, rfl⟩ | ⟨_, rfl⟩ <;>
      rcases hl with hl | hl <;> cases hl <;> simp [PyId.toStr, e1, e2, e4]
  · intro k r l h hl ht
    rcases exLaneNet_get h with ⟨_, rfl⟩ | ⟨_, rfl⟩ | ⟨_, rfl⟩ | ⟨_, rfl⟩ <;>
      rcases hl with hl | hl <;> cases hl <;> first | (exact absurd rfl ht) | simp
  · intro k r h
    rcases exLaneNet_get h with ⟨_, rfl⟩ | ⟨_, rfl⟩ | ⟨_, rfl⟩ | ⟨_, rfl⟩ <;>
      exact ⟨fun g _ => by simp [exLaneNet, shapeOf], .inl rfl⟩
  · intro k r l h ht hl
    rcases exLaneNet_get h with ⟨_, rfl⟩ | ⟨_, rfl⟩ | ⟨_, rfl⟩ | ⟨_, rfl⟩ <;>
      rcases hl with hl | hl <;> cases hl <;> first | exact absurd rfl ht | skip
    all_goals
      refine ⟨by simp, fun t h' => ?_⟩
      simp only [PyId.toStr, e2, e4] at h'
      rcases exLaneNet_get h' with ⟨q, rfl⟩ | ⟨q, rfl⟩ | ⟨q, rfl⟩ | ⟨q, rfl⟩ <;>
        first | rfl | exact absurd q (by decide)
  · intro k r h ha
    rcases ha with ⟨r', h', hf⟩ | ⟨_, h'⟩
    · rcases exLaneNet_get h' with ⟨_, rfl⟩ | ⟨_, rfl⟩ | ⟨_, rfl⟩ | ⟨_, rfl⟩ <;> cases hf
    · rw [hk] at h'
      rcases exLaneNet_get h with ⟨rfl, rfl⟩ | ⟨rfl, rfl⟩ | ⟨rfl, rfl⟩ | ⟨rfl, rfl⟩ <;>
        first | rfl | exact absurd h' (by decide)

theorem exLaneNet_reachable : ∀ k ∈ exLaneNet.roads.keys, Reachable exLaneNet.roads k := by
  have e1 : strInt 1 = "1" := by decide
  have e2 : strInt 2 = "2" := by decide
  have e4 : strInt 4 = "4" := by decide
  have h1 : Reachable exLaneNet.roads "1" := by
    refine .anchor (.inr ⟨fun k r h => ?_, rfl⟩)
    rcases exLaneNet_get h with ⟨_, rfl⟩ | ⟨_, rfl⟩ | ⟨_, rfl⟩ | ⟨_, rfl⟩ <;> rfl
  have h2 : Reachable exLaneNet.roads "2" := by
    refine .step (nb := "1") (e := .start) (e' := .end) ?_ h1
    have := PlacedBy.pred (roads := exLaneNet.roads) (k := "2") (cp := .end)
      (l := ⟨.predecessor, .int 1, some .road, some .end, none⟩) rfl rfl (by simp) rfl
    simpa only [PyId.toStr, e1] using this
  have h3 : Reachable exLaneNet.roads "3" := by
    refine .step (nb := "2") (e := .start) (e' := .end) ?_ h2
    have := PlacedBy.pred (roads := exLaneNet.roads) (k := "3") (cp := .end)
      (l := ⟨.predecessor, .int 2, some .road, some .end, none⟩) rfl rfl (by simp) rfl
    simpa only [PyId.toStr, e2] using this
  have h4 : Reachable exLaneNet.roads "4" := by
    refine .step (nb := "3") (e := .start) (e' := .end) ?_ h3
    have := PlacedBy.connSucc (roads := exLaneNet.roads) (c := "3")
      (l := ⟨.successor, .int 4, some .road, some .start, none⟩) rfl
      (by simp [exLR3, exLaneRoad, Road.new]) rfl
    simpa only [PyId.toStr, e4, Option.getD_some] using this
  intro k hk
  have : exLaneNet.roads.keys = ["1", "2", "3", "4"] := rfl
  rw [this] at hk
  simp only [List.mem_cons, List.not_mem_nil, or_false] at hk
  rcases hk with rfl | rfl | rfl | rfl <;> assumption

theorem exLaneNet_unshared : Unshared exLaneNet.roads := by
  constructor
  · intro k r s h hs
    rcases exLaneNet_get h with ⟨_, rfl⟩ | ⟨_, rfl⟩ | ⟨_, rfl⟩ | ⟨_, rfl⟩ <;>
      simp only [exLR1, exLR2, exLR3, exLR4, exLaneRoad, Road.new, List.mem_singleton] at hs <;>
      subst hs <;> simp [exSec]
  · intro k k' r r' i j s s' x h h' hi hj hx hx'
    have one : ∀ {t : LaneSection ℝ} {n : Nat} {u : LaneSection ℝ}, [t][n]? = some u → n = 0 ∧ u = t := by
      intro t n u h
      cases n with
      | zero => simp at h; exact ⟨rfl, h.symm⟩
      | succ n => simp at h
    rcases exLaneNet_get h with ⟨rfl, rfl⟩ | ⟨rfl, rfl⟩ | ⟨rfl, rfl⟩ | ⟨rfl, rfl⟩ <;>
      rcases exLaneNet_get h' with ⟨rfl, rfl⟩ | ⟨rfl, rfl⟩ | ⟨rfl, rfl⟩ | ⟨rfl, rfl⟩ <;>
      obtain ⟨rfl, rfl⟩ := one hi <;> obtain ⟨rfl, rfl⟩ := one hj <;>
      first | exact ⟨rfl, rfl⟩ | skip
    all_goals
      exfalso
      simp only [exSec, List.cons_append, List.nil_append, List.mem_cons, List.not_mem_nil,
        or_false] at hx hx'
      omega

/-- The hypotheses of the C30 theorems hold of the example. -/
theorem exLaneNet_linked : ∃ net' lanes', Linked exLaneNet net' exLanes lanes' := by
  have e : ∀ n : Int, n = 1 ∨ n = 2 ∨ n = 3 ∨ n = 4 →
      (strInt 1 = "1" ∧ strInt 2 = "2" ∧ strInt 3 = "3" ∧ strInt 4 = "4") := by
    intro _ _; decide
  obtain ⟨net', hp⟩ := (C20_succeeds_iff exLaneNet exLaneNet_wellFormed).mpr exLaneNet_reachable
  obtain ⟨lanes', h, _⟩ := C30_all_links exLaneNet net' exLanes exLaneNet_wellFormed.nodup
    exLaneNet_fresh hp exLaneNet_linkable
  refine ⟨net', lanes', exLaneNet_wellFormed.nodup, exLaneNet_fresh, ?_, exLaneNet_linkable,
    exLaneNet_unshared, h⟩
  intro k r h
  obtain ⟨e1, e2, e3, e4⟩ := e 1 (.inl rfl)
  rcases exLaneNet_get h with ⟨rfl, rfl⟩ | ⟨rfl, rfl⟩ | ⟨rfl, rfl⟩ | ⟨rfl, rfl⟩ <;> assumption

/-- The outer left lane of road 1 gets one successor link, to lane 2 of road 2; the right lane of the
connecting road 3 gets one predecessor link, to lane -1 of road 2. -/
example : ∃ net' lanes', World.adjustRoadsAndLanes ⟨exLaneNet, exLanes⟩ = .ok () ⟨net', lanes'⟩ ∧
    newLinks exLanes lanes' 13 .successor = [laneLink .successor 2] ∧
    newLinks exLanes lanes' 32 .predecessor = [laneLink .predecessor (-1)] := by
  obtain ⟨net', lanes', h⟩ := exLaneNet_linked
  refine ⟨net', lanes', h.run, ?_, ?_⟩
  · obtain ⟨id, h1, h2⟩ := C30_successor_link _ _ _ _ h "1" "2" exLR1 exLR2 (by decide) rfl rfl rfl rfl
      exFollows (exSec [11, 13] [12]) rfl 13 (by simp [exSec])
    have : id = 2 := by simpa [exLanes, exLaneNo] using h1.symm
    rw [h2, this]
  · obtain ⟨i, q, id, h1, h2, h3⟩ := C30_connecting_link _ _ _ _ h "3" "2" exLR3 exLR2 rfl rfl
      (by simp [exLR3, exLaneRoad, Road.new]) .start
      ⟨.predecessor, .int 2, some .road, some .end, none⟩ rfl rfl (exSec [31] [32])
      (exSec [21, 23] [22]) rfl rfl 32 (by simp [exSec])
    have : id = -1 := by
      rcases h1 with ⟨h1, h1'⟩ | ⟨h1, h1'⟩
      · exfalso
        have := List.mem_of_getElem? h1
        simp [exSec] at this
      · have := List.mem_of_getElem? h1'
        simp only [exSec, List.mem_singleton] at this
        subst this
        simpa [exLanes, exLaneNo] using h2.symm
    rw [this] at h3
    simpa [directionSign, laneOffsetAt, exLR3, exLaneRoad, Road.new, kindAt] using h3

/-- The hypotheses of C25 hold of roads 1 and 2, those of C28 of roads 3 and 2 (at the start of 3)
and of roads 3 and 4 (at its end). -/
example : Joint exLR1 exLR2 (exSec [11, 13] [12]) (exSec [21, 23] [22]) (exSec [21, 23] [22]) exLanes ∧
    Numbered exLanes (exSec [21, 23] [22]) ∧ SameCounts (exSec [11, 13] [12]) (exSec [21, 23] [22]) ∧
    ([11, 13] ++ [12] ++ [21, 23] ++ [22]).Nodup :=
  ⟨exJoint, exNum2, ⟨rfl, rfl⟩, by decide⟩

theorem exAttached2 : Attached exLR3 exLR2 .start
    ⟨.predecessor, .int 2, some .road, some .end, none⟩ :=
  ⟨by simp [exLR3, exLaneRoad, Road.new], rfl, rfl, rfl, _, rfl, by decide⟩

theorem exAttached4 : Attached exLR3 exLR4 .end
    ⟨.successor, .int 4, some .road, some .start, none⟩ :=
  ⟨by simp [exLR3, exLaneRoad, Road.new], rfl, rfl, rfl, _, rfl, by decide⟩

example : ∃ lanes', createLaneLinks exLR3 exLR4 exLanes = .ok () lanes' ∧
    (lanes'.cell 32).links = [laneLink .successor (-1)] := by
  obtain ⟨lanes', h1, _, _, h3, _⟩ := C28_links exLR3 exLR4 .end _ exAttached4 (exSec [31] [32])
    (exSec [41, 43] [42]) exLanes rfl rfl exNum4 (by decide) (by decide) (by decide)
  refine ⟨lanes', h1, ?_⟩
  rw [h3 0 32 rfl]
  simp [directionSign, laneOffsetAt, exLanes, Lane.new, exLR3, exLaneRoad, Road.new, kindAt]

/-- Road 2 with a second section that has one left lane only. -/
noncomputable def exLR2' : Road ℝ :=
  { exLR2 with lanesections := [exSec [21, 23] [22], exSec [61] [62]] }

/-- The hypotheses of `C26_wrong_section` hold of roads 1 and 2'. -/
example : createLaneLinks exLR1 exLR2' exLanes = .error .notSameAmountOfLanesError exLanes :=
  C26_wrong_section exLR1 exLR2' (exSec [11, 13] [12]) (exSec [21, 23] [22]) (exSec [61] [62]) exLanes
    ⟨rfl, rfl, ⟨⟨_, rfl, rfl, rfl⟩, ⟨_, rfl, rfl, rfl⟩⟩, fun l h => by cases h; rfl,
      fun l h => by cases h; decide, rfl, rfl, rfl, exNum1⟩ ⟨rfl, rfl⟩ (by decide)

/-- Road 2 with a first section that has no right lane. -/
noncomputable def exLR2'' : Road ℝ :=
  { exLR2 with lanesections := [exSec [61] [], exSec [21, 23] [22]] }

/-- The hypotheses of `C29_wrong_section` hold of roads 3 and 2''. -/
example : ∃ lanes', createLaneLinks exLR3 exLR2'' exLanes = .error .indexError lanes' :=
  C29_wrong_section exLR3 exLR2'' ⟨.predecessor, .int 2, some .road, some .end, none⟩
    ⟨by simp [exLR3, exLaneRoad, Road.new], rfl, rfl, rfl, _, rfl, by decide⟩ rfl (exSec [31] [32])
    (exSec [61] []) (exSec [21, 23] [22]) exLanes rfl rfl rfl (by decide) (by decide)
    (exNumbered (by decide) (by decide))

/-- A second connecting road that starts at road 3, while road 3 is not linked to it. -/
noncomputable def exLR5 : Road ℝ := exLaneRoad 5 4 2
  (some ⟨.predecessor, .int 3, some .road, some .end, none⟩)
  (some ⟨.successor, .int 2, some .road, some .start, none⟩) [41, 43] [42]

/-- The hypotheses of `C27_one_sided` hold of roads 3 and 5; the right lane of road 3 gets a link of the type
`None`. -/
example : exLR3.roadType ≠ -1 ∧ ¬ LinksTo exLR3 exLR5 ∧
    ∃ lanes', createLaneLinks exLR3 exLR5 exLanes = .ok () lanes' ∧
      (lanes'.cell 32).links = [laneLink .pyNone (-1)] := by
  have h0 : ¬ LinksTo exLR3 exLR5 := by
    rintro ⟨l, h | h, e⟩ <;> cases h <;> revert e <;> decide
  have hc : exLR3.roadType ≠ -1 := by simp [exLR3, exLaneRoad, Road.new]
  have h1 : getRelatedLanesection exLR3 exLR5 = .ok ⟨.pyNone, some 1, some 0⟩ := by
    unfold getRelatedLanesection
    rw [relatedOwn_none h0]
    rfl
  have h2 : getRelatedLanesection exLR5 exLR3 = .ok ⟨.predecessor, some 1, some 0⟩ := rfl
  have hrun := (conn_run (lanes := exLanes) h1 h2 (csec := exSec [31] [32]) (rsec := exSec [41, 43] [42]) rfl rfl
    rfl exNum4).1 (by decide) (by decide)
  refine ⟨hc, h0, _, by rw [createLaneLinks, if_neg (by simp [hc]), if_pos hc]; exact hrun, ?_⟩
  rw [applyLog_cell]
  simp [connLog, exSec, logAt, exLanes, exLaneNo, laneNo, Lane.new, exLR3, exLaneRoad, Road.new]

/-- Two roads in a ring satisfy the hypotheses of `C25_two_road_ring`. -/
example : ∃ lanes', createLaneLinks exLR1
      { exLR2 with successor := some ⟨.successor, .int 1, some .junction, none, none⟩ } exLanes =
        .ok () lanes' ∧ newLinks exLanes lanes' 22 .predecessor = [] ∧
      newLinks exLanes lanes' 22 .successor = [laneLink .successor (-1)] := by
  obtain ⟨lanes', h1, _, _, _, h2, _⟩ := C25_junction_id_collision exLR1
    { exLR2 with successor := some ⟨.successor, .int 1, some .junction, none, none⟩ }
    (exSec [11, 13] [12]) (exSec [21, 23] [22]) exLanes rfl rfl
    ⟨⟨_, rfl, rfl, rfl⟩, ⟨_, rfl, rfl, rfl⟩⟩ _ rfl rfl rfl (fun l h => by cases h; rfl) rfl rfl exNum1
    ⟨rfl, rfl⟩ (by decide)
  refine ⟨lanes', h1, ?_⟩
  have := h2 0 22 rfl
  simp [newLinks, this, exLanes, Lane.new, laneLink]

example : Follows { exLR1 with predecessor := some ⟨.predecessor, .int 2, some .road, some .end, none⟩ }
      { exLR2 with successor := some ⟨.successor, .int 1, some .road, some .start, none⟩ } ∧
    Follows { exLR2 with successor := some ⟨.successor, .int 1, some .road, some .start, none⟩ }
      { exLR1 with predecessor := some ⟨.predecessor, .int 2, some .road, some .end, none⟩ } :=
  ⟨⟨⟨_, rfl, rfl, rfl⟩, ⟨_, rfl, rfl, rfl⟩⟩, ⟨⟨_, rfl, rfl, rfl⟩, ⟨_, rfl, rfl, rfl⟩⟩⟩

/-! ## C53: joints that are never linked -/

/-- C53 (violation): two normal roads that are joined end to end (each is the successor of the
other, with contact point end) get no lane links. -/
theorem C53_end_to_end (a b : Road F) (lanes : Store (Lane F)) (ha : a.roadType = -1)
    (hb : b.roadType = -1) (l m : Link)
    (_h1 : a.successor = some l) (_h2 : l.elementId = b.id) (_h3 : l.contactPoint = some .end)
    (_h4 : b.successor = some m) (_h5 : m.elementId = a.id) (_h6 : m.contactPoint = some .end)
    (h7 : ∀ p, a.predecessor = some p → p.elementId ≠ b.id)
    (h8 : ∀ p, b.predecessor = some p → p.elementId ≠ a.id) :
    createLaneLinks a b lanes = .ok () lanes :=
  C27_normal_roads a b lanes ha hb (fun h => by
    obtain ⟨p, p1, _, p3⟩ := h.pred; exact h8 p p1 p3) (fun h => by
    obtain ⟨p, p1, _, p3⟩ := h.pred; exact h7 p p1 p3)

/-- C53 (violation): so do roads joined start to start. -/
theorem C53_start_to_start (a b : Road F) (lanes : Store (Lane F)) (ha : a.roadType = -1)
    (hb : b.roadType = -1) (l m : Link)
    (_h1 : a.predecessor = some l) (_h2 : l.elementId = b.id) (_h3 : l.contactPoint = some .start)
    (_h4 : b.predecessor = some m) (_h5 : m.elementId = a.id) (_h6 : m.contactPoint = some .start)
    (h7 : ∀ p, a.successor = some p → p.elementId ≠ b.id)
    (h8 : ∀ p, b.successor = some p → p.elementId ≠ a.id) :
    createLaneLinks a b lanes = .ok () lanes :=
  C27_normal_roads a b lanes ha hb (fun h => by
    obtain ⟨p, p1, _, p3⟩ := h.succ; exact h7 p p1 p3) (fun h => by
    obtain ⟨p, p1, _, p3⟩ := h.succ; exact h8 p p1 p3)

/-- C53 (violation): a normal road that is its own successor and predecessor (a closed loop) gets no
lane links in a network. -/
theorem C53_self_loop [PyFloat F] (net net' : Net F) (lanes lanes' : Store (Lane F))
    (h : Linked net net' lanes lanes') (k : String) (a : Road F) (ha : net.roads.get? k = some a)
    (ta : a.roadType = -1) (_hf : Follows a a) (sec : LaneSection F) (e : ContactPoint)
    (hs : sectionAt a e = some sec) (x : Nat) (hx : x ∈ sec.left ++ sec.right) (K : LinkKind) :
    newLinks lanes lanes' x K = [] := by
  by_contra hne
  obtain ⟨e', k1, k2, a', b, sec', _, hk, g1, g2, _, g4, g5, g6⟩ :=
    C30_no_other_links net net' lanes lanes' h x K hne
  obtain rfl := h.unshared.key ha g1 hs g4 hx g5
  rw [ha] at g1; cases g1
  rcases g6 with ⟨_, _, hf⟩ | ⟨_, _, hf⟩ | ⟨q, _⟩
  · obtain ⟨l, l1, _, l3⟩ := hf.succ
    obtain ⟨m, m1, _, m3⟩ := _hf.succ
    rw [l1] at m1; cases m1
    exact hk (key_of_id h.byId ha g2 (m3.symm.trans l3))
  · obtain ⟨l, l1, _, l3⟩ := hf.pred
    obtain ⟨m, m1, _, m3⟩ := _hf.pred
    rw [l1] at m1; cases m1
    exact hk (key_of_id h.byId ha g2 (m3.symm.trans l3))
  · exact q ta

/-- A closed loop: a network of one road that is its own successor and predecessor. -/
noncomputable def exLoop : Road ℝ := exLaneRoad 1 (-1) 0
  (some ⟨.predecessor, .int 1, some .road, some .end, none⟩)
  (some ⟨.successor, .int 1, some .road, some .start, none⟩) [11, 13] [12]

noncomputable def exLoopNet : Net ℝ :=
  { roads := [("1", exLoop)], geoms := ⟨fun i => .line ⟨i + 1⟩, 1⟩ }

/-- The hypotheses of `C53_self_loop` hold of it. -/
example : ∃ net' lanes', Linked exLoopNet net' exLanes lanes' ∧ Follows exLoop exLoop := by
  have e1 : strInt 1 = "1" := by decide
  have get : ∀ {k r}, exLoopNet.roads.get? k = some r → k = "1" ∧ r = exLoop := by
    intro k r h
    simp only [exLoopNet, Dict.get?] at h
    split at h
    · cases h; exact ⟨by rename_i h; exact h.symm, rfl⟩
    · cases h
  have hk : exLoopNet.roads.keys = ["1"] := rfl
  have hw : WellFormed exLoopNet := by
    refine ⟨by simp [exLoopNet], by rw [hk]; decide, ?_, ?_, ?_, ?_, ?_, ?_⟩
    · intro k r h; obtain ⟨_, rfl⟩ := get h; exact ⟨rfl, rfl⟩
    · intro k r l h hl
      obtain ⟨_, rfl⟩ := get h
      rcases hl with hl | hl <;> cases hl <;> simp [PyId.toStr, e1, hk]
    · intro k r l h hl _
      obtain ⟨_, rfl⟩ := get h
      rcases hl with hl | hl <;> cases hl <;> simp
    · intro k r h; obtain ⟨_, rfl⟩ := get h
      exact ⟨fun g _ => by simp [exLoopNet, shapeOf], .inl rfl⟩
    · intro k r l h ht; obtain ⟨_, rfl⟩ := get h; exact absurd rfl ht
    · intro k r h _; obtain ⟨_, rfl⟩ := get h; rfl
  obtain ⟨net', hp⟩ := (C20_succeeds_iff exLoopNet hw).mpr (by
    intro k hk'
    rw [hk, List.mem_singleton] at hk'
    subst hk'
    exact .anchor (.inr ⟨fun k r h => by obtain ⟨_, rfl⟩ := get h; rfl, rfl⟩))
  have hL : Linkable exLoopNet.roads exLanes := by
    refine ⟨?_, ?_, ?_, ?_⟩
    · intro k1 k2 a b hne ha hb
      exact absurd ((get ha).1.trans (get hb).1.symm) hne
    · intro k c hc tc; obtain ⟨_, rfl⟩ := get hc; exact absurd rfl tc
    · intro k1 k2 c r hc _ tc; obtain ⟨_, rfl⟩ := get hc; exact absurd rfl tc
    · intro k1 k2 c r e l hc _ tc; obtain ⟨_, rfl⟩ := get hc; exact absurd rfl tc
  obtain ⟨lanes', h, _⟩ := C30_all_links exLoopNet net' exLanes hw.nodup hw.fresh hp hL
  refine ⟨net', lanes', ⟨hw.nodup, hw.fresh, ?_, hL, ?_, h⟩, ⟨⟨_, rfl, rfl, rfl⟩, ⟨_, rfl, rfl, rfl⟩⟩⟩
  · intro k r h; obtain ⟨rfl, rfl⟩ := get h; exact e1
  · constructor
    · intro k r s h hs
      obtain ⟨_, rfl⟩ := get h
      simp only [exLoop, exLaneRoad, Road.new, List.mem_singleton] at hs
      subst hs
      simp [exSec]
    · intro k k' r r' i j s s' x h h' hi hj _ _
      obtain ⟨rfl, rfl⟩ := get h
      obtain ⟨rfl, rfl⟩ := get h'
      have l1 := (List.getElem?_eq_some_iff.mp hi).1
      have l2 := (List.getElem?_eq_some_iff.mp hj).1
      simp only [exLoop, exLaneRoad, Road.new, List.length_singleton] at l1 l2
      exact ⟨rfl, by omega⟩

end Pyodrx.Props
