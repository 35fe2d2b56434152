import Verif.Spec.Junction
import Verif.Props.Generators

/-! # C48, C49: `create_junction_roads` -/

namespace Pyodrx.Props
open PyFloat Spec

/-! ## The pairs -/

/-- The specification's list of pairs has exactly the pairs i < j < n ... -/
theorem mem_pairs (n i j : Nat) : (i, j) ∈ pairs n ↔ i < j ∧ j < n := by
  simp only [pairs, List.mem_flatMap, List.mem_range, List.mem_map, List.mem_range', Prod.mk.injEq]
  constructor
  · rintro ⟨a, ha, b, ⟨k, hk, rfl⟩, rfl, rfl⟩; omega
  · rintro ⟨h1, h2⟩
    exact ⟨i, by omega, j, ⟨j - (i + 1), by omega, by omega⟩, rfl, rfl⟩

/-- ... in lexicographic order. -/
theorem pairs_sorted (n : Nat) :
    (pairs n).Pairwise fun p q => p.1 < q.1 ∨ (p.1 = q.1 ∧ p.2 < q.2) := by
  unfold pairs
  rw [List.pairwise_flatMap]
  constructor
  · intro i _
    rw [List.pairwise_map]
    refine (List.pairwise_lt_range').imp ?_
    intro a b h; exact Or.inr ⟨rfl, h⟩
  · refine (List.pairwise_lt_range).imp ?_
    intro a b h p hp q hq
    simp only [List.mem_map] at hp hq
    obtain ⟨_, _, rfl⟩ := hp
    obtain ⟨_, _, rfl⟩ := hq
    exact Or.inl h

/-! ## Monotonicity -/

theorem _root_.Pyodrx.Spec.OnlyNew.refl {F : Type} (a : GenState F) : OnlyNew a a :=
  ⟨Nat.le_refl _, Nat.le_refl _, fun _ _ => rfl, fun _ _ => rfl⟩

theorem _root_.Pyodrx.Spec.OnlyNew.trans {F : Type} {a b c : GenState F} (h1 : OnlyNew a b) (h2 : OnlyNew b c) :
    OnlyNew a c := by
  have := h1.geoms; have := h2.geoms; have := h1.lanes; have := h2.lanes
  refine ⟨by omega, by omega, fun x hx => ?_, fun x hx => ?_⟩
  · rw [h2.oldGeoms x (by omega), h1.oldGeoms x hx]
  · rw [h2.oldLanes x (by omega), h1.oldLanes x hx]

theorem built_mono {F : Type} [PyFloat F] {a b c d : GenState F} {sec : LaneSection F} {w : F}
    {nl nr : Nat} {cm : RoadMark F → Prop} {f g : Nat → RoadMarkType} (h1 : OnlyNew a b)
    (h : BuiltSection b.lanes c.lanes sec w nl nr cm f g) (h2 : OnlyNew c d) :
    BuiltSection a.lanes d.lanes sec w nl nr cm f g := by
  have e1 := h1.lanes; have e2 := h2.lanes
  have hcell : ∀ x ∈ sec.center :: (sec.left ++ sec.right), d.lanes.cell x = c.lanes.cell x :=
    fun x hx => h2.oldLanes x (h.new x hx).2
  constructor
  · exact h.start
  · exact h.countL
  · exact h.countR
  · exact h.distinct
  · intro x hx; have := h.new x hx; omega
  · have := h.grows; omega
  · intro x hx
    rw [h2.oldLanes x (by have := h.grows; omega), h.old x (by omega), h1.oldLanes x hx]
  · rw [hcell _ (by simp)]; exact h.center
  · intro i x hx
    rw [hcell _ (by simp [List.mem_of_getElem? hx])]; exact h.left i x hx
  · intro i x hx
    rw [hcell _ (by simp [List.mem_of_getElem? hx])]; exact h.right i x hx

theorem plan_mono {a b : Store (Geom ℝ)} {pv : PlanView ℝ} {r sp ap α : ℝ}
    (h : JunctionPlan a pv r sp ap α) (hab : ∀ g ∈ pv.raw, b.cell g = a.cell g) :
    JunctionPlan b pv r sp ap α := by
  rcases h with ⟨h1, g, h2, h3⟩ | ⟨h1, g1, g2, g3, σ, h2, h3, h4, h5, h6⟩
  · exact Or.inl ⟨h1, g, h2, by rw [hab g (by simp [h2.raw]), h3]⟩
  · exact Or.inr ⟨h1, g1, g2, g3, σ, h2, h3, by rw [hab g1 (by simp [h2.raw]), h4],
      by rw [hab g2 (by simp [h2.raw]), h5], by rw [hab g3 (by simp [h2.raw]), h6]⟩

section
variable {roads : List (Road ℝ)} {angles : List ℝ} {r sp ap : ℝ} {junction : Int} {nl nr : Nat}

theorem connecting_mono {a b c d : GenState ℝ} {i j : Nat} {num : Int} {jr : Road ℝ}
    (hr : ∀ (i : Nat) (r : Road ℝ), roads[i]? = some r → ∃ sec, farSection i r = some sec ∧
      ∀ x ∈ sec.left, x < a.lanes.next)
    (h1 : OnlyNew a b) (h : ConnectingRoad roads angles r sp ap junction nl b c i j num jr)
    (h2 : OnlyNew c d) : ConnectingRoad roads angles r sp ap junction nl a d i j num jr := by
  constructor
  · exact h.id
  · exact h.type
  · exact h.links
  · exact h.offsets
  · exact h.empty
  · obtain ⟨ri, risec, x, sec, e1, e2, e3, e4, e5⟩ := h.lanes
    refine ⟨ri, risec, x, sec, e1, e2, e3, e4, ?_⟩
    obtain ⟨sec', e6, e7⟩ := hr i ri e1
    rw [e2] at e6
    cases e6
    rw [← h1.oldLanes x (e7 x (List.mem_of_mem_head? e3))]
    exact built_mono h1 e5 h2
  · obtain ⟨ai, aj, e1, e2, e3⟩ := h.plan
    exact ⟨ai, aj, e1, e2, plan_mono e3 fun g hg => h2.oldGeoms g (h.newGeoms g hg).2⟩
  · intro g hg
    have := h.newGeoms g hg; have := h1.geoms; have := h2.geoms
    omega

/-! ## One connecting road -/

theorem secAt_firstOf {F : Type} (ro : Road F) (sec : LaneSection F)
    (h : ro.lanesections.head? = some sec) : secAt ro (some 0) = .ok sec := by
  rw [List.head?_eq_getElem?] at h
  simp [secAt, pyGet?, h]

theorem secAt_lastOf {F : Type} (ro : Road F) (sec : LaneSection F)
    (h : ro.lanesections.getLast? = some sec) : secAt ro (some (-1)) = .ok sec := by
  have hne : ro.lanesections ≠ [] := by rintro e; simp [e] at h
  have hp := List.length_pos_iff.mpr hne
  rw [List.getLast?_eq_getElem?] at h
  have hp' : 1 ≤ ro.lanesections.length := hp
  simp [secAt, pyGet?, h, hp']

/-- the contact point `create_junction_roads` uses for road `i` -/
theorem secAt_far {F : Type} (i : Nat) (ro : Road F) (sec : LaneSection F)
    (h : farSection i ro = some sec) :
    secAt ro (some (if (if i = 0 then ContactPoint.end else ContactPoint.start) = .end then 0 else -1))
      = .ok sec := by
  unfold farSection at h
  by_cases h0 : i = 0
  · simp only [h0, if_true] at h ⊢; exact secAt_firstOf ro sec h
  · simp only [h0, if_false, reduceCtorEq] at h ⊢; exact secAt_lastOf ro sec h

theorem farSection_congr {F : Type} {i : Nat} {a b : Road F} (h : a.lanesections = b.lanesections) :
    farSection i a = farSection i b := by
  simp [farSection, h]

theorem getLanesOffset_ok {F : Type} [PyFloat F] (i : Nat) (r1 r2 : Road F)
    (s1 s2 : LaneSection F) (x : Nat) (st : GenState F) (h1 : farSection i r1 = some s1)
    (h2 : r2.lanesections.head? = some s2) (hl : s1.left.length = s2.left.length)
    (hr : s1.right.length = s2.right.length) (hx : s1.left.head? = some x) :
    getLanesOffset r1 r2 (if i = 0 then .end else .start) st = .ok (s1.left.length, (st.lanes.cell x).a) st := by
  unfold getLanesOffset
  rw [bind_of_ok (liftExcept_ok.mpr ⟨secAt_far i r1 s1 h1, rfl⟩),
    bind_of_ok (liftExcept_ok.mpr ⟨secAt_firstOf r2 s2 h2, rfl⟩), if_pos ⟨hl, hr⟩,
    bind_of_ok (orRaise_ok.mpr ⟨hx, rfl⟩), bind_of_ok (get_eq _), pure_eq]

theorem getLanesOffset_error {F : Type} [PyFloat F] (i : Nat) (r1 r2 : Road F)
    (s1 s2 : LaneSection F) (st : GenState F) (h1 : farSection i r1 = some s1)
    (h2 : r2.lanesections.head? = some s2)
    (h : ¬ (s1.left.length = s2.left.length ∧ s1.right.length = s2.right.length)) :
    getLanesOffset r1 r2 (if i = 0 then .end else .start) st = .error .nameError st := by
  unfold getLanesOffset
  rw [bind_of_ok (liftExcept_ok.mpr ⟨secAt_far i r1 s1 h1, rfl⟩),
    bind_of_ok (liftExcept_ok.mpr ⟨secAt_firstOf r2 s2 h2, rfl⟩), if_neg h, raise_eq]

theorem onGen_ok {F α : Type} {f : EStateM PyErr (GenState F) α} {rs : List (Road F)}
    {st st' : GenState F} {a : α} (h : f st = .ok a st') : onGen f (rs, st) = .ok a (rs, st') := by
  simp [onGen, h]

theorem onGen_error {F α : Type} {f : EStateM PyErr (GenState F) α} {rs : List (Road F)}
    {st st' : GenState F} {e : PyErr} (h : f st = .error e st') :
    onGen f (rs, st) = .error e (rs, st') := by
  simp [onGen, h]

theorem onNewRoad_ok {F : Type} {f : EStateM PyErr (Road F) Unit} {r r' : Road F}
    {s : List (Road F) × GenState F} (h : f r = .ok () r') : onNewRoad f r s = .ok r' s := by
  simp [onNewRoad, h]

theorem addPred_new {F : Type} (base : Road F) (h : base.predecessor = none) (et : ElementType)
    (id : PyId) (cp : Option ContactPoint) :
    Road.addPredecessor et id cp 0 base = .ok () { base with
      predecessor := some ⟨.predecessor, id, some et, cp, none⟩
      links := base.links ++ [⟨.predecessor, id, some et, cp, none⟩], laneOffsetPred := 0 } := by
  simp [Road.addPredecessor, h, Link.new]

theorem addSucc_new {F : Type} (base : Road F) (h : base.successor = none) (et : ElementType)
    (id : PyId) (cp : Option ContactPoint) :
    Road.addSuccessor et id cp 0 base = .ok () { base with
      successor := some ⟨.successor, id, some et, cp, none⟩
      links := base.links ++ [⟨.successor, id, some et, cp, none⟩], laneOffsetSuc := 0 } := by
  simp [Road.addSuccessor, h, Link.new]

/-- The roads as they are when the loop works: only links were added. -/
def SameRoads (roads rs : List (Road ℝ)) : Prop :=
  ∀ (i : Nat) (ro : Road ℝ), roads[i]? = some ro → ∃ ro', rs[i]? = some ro' ∧ ro'.id = ro.id ∧
    ro'.lanesections = ro.lanesections

/-- What the loop needs to know. -/
structure Ready (roads : List (Road ℝ)) (angles : List ℝ) (r sp : ℝ) (nl nr : Nat) : Prop where
  first : ∀ (i : Nat) (ro : Road ℝ), roads[i]? = some ro → ∃ sec,
    ro.lanesections.head? = some sec ∧ sec.left.length = nl ∧ sec.right.length = nr
  far : ∀ (i : Nat) (ro : Road ℝ), roads[i]? = some ro → ∃ sec, farSection i ro = some sec ∧
    sec.left.length = nl ∧ sec.right.length = nr
  pos : 1 ≤ nl
  angles : roads.length ≤ angles.length
  radius : r ≠ 0
  small : |r| ≤ 1000000000
  part : sp ≠ 0

theorem small_curv {r : ℝ} (hr : r ≠ 0) (h : |r| ≤ 1000000000) : |startCurvature| ≤ |1 / r| := by
  rw [abs_div, abs_one, startCurvature, abs_of_pos (by norm_num)]
  exact one_div_le_one_div_of_le (abs_pos.mpr hr) h

theorem stdStart : (stdStartCloth : ℝ) = startCurvature := by
  simp [stdStartCloth, startCurvature]

theorem junctionRoad_pair {rs : List (Road ℝ)} (hs : SameRoads roads rs) (i j : Nat)
    {ri rj : Road ℝ} {si sj : LaneSection ℝ} {ai aj : ℝ} (hri : roads[i]? = some ri)
    (hrj : roads[j]? = some rj) (hai : angles[i]? = some ai) (haj : angles[j]? = some aj)
    (hsi : farSection i ri = some si) (hsj : rj.lanesections.head? = some sj)
    (hli : si.left.length = nl) (hcnt : si.left.length = sj.left.length)
    (hcnt' : si.right.length = sj.right.length) (hpos : 1 ≤ nl)
    (hr0 : r ≠ 0) (hsm : |r| ≤ 1000000000) (hsp : sp ≠ 0) (num : Int) (st : GenState ℝ) :
    ∃ jr st', junctionRoad i j (if i = 0 then .end else .start) angles r junction sp ap
        (straightLength r sp) num (rs, st) = .ok jr (rs, st') ∧
      ConnectingRoad roads angles r sp ap junction nl st st' i j num jr ∧ OnlyNew st st' := by
  obtain ⟨ri', hri', idi, seci⟩ := hs i ri hri
  obtain ⟨rj', hrj', idj, secj⟩ := hs j rj hrj
  obtain ⟨x, hx⟩ : ∃ x, si.left.head? = some x := by
    cases hc : si.left with
    | nil => rw [hc] at hli; simp at hli; omega
    | cons x l => exact ⟨x, rfl⟩
  set cp : ContactPoint := if i = 0 then .end else .start with hcp
  have hoff := getLanesOffset_ok i ri' rj' si sj x st ((farSection_congr seci).trans hsi)
    ((congrArg List.head? secj).trans hsj)
    hcnt hcnt' hx
  rw [hli, ← hcp] at hoff
  unfold junctionRoad
  rw [bind_of_ok (orRaise_ok.mpr ⟨haj, rfl⟩), bind_of_ok (orRaise_ok.mpr ⟨hai, rfl⟩)]
  dsimp only
  rw [bind_of_ok (get_eq _)]
  dsimp only
  rw [bind_of_ok (orRaise_ok.mpr ⟨hri', rfl⟩), bind_of_ok (orRaise_ok.mpr ⟨hrj', rfl⟩),
    bind_of_ok (onGen_ok hoff)]
  dsimp only
  by_cases hα : aj - ai - Real.pi = 0
  · have hz : isZero (PyFloat.sign (aj -. ai -. pi)) = true := by
      simp [hα]
    rw [if_pos hz]
    obtain ⟨base, s1, sec, g, e1, e2, e3, e4, e5, e6, e7, e8, e9, e10⟩ :=
      C46_create_straight_road (.int num) (straightLength r sp) junction nl (st.lanes.cell x).a st
    rw [bind_of_ok (onGen_ok e1), bind_of_ok (onNewRoad_ok (addPred_new base e4.pred _ _ _))]
    refine ⟨_, _, onNewRoad_ok (addSucc_new _ (by exact e4.succ) _ _ _), ?_, e10⟩
    constructor
    · exact e2
    · exact e3
    · exact ⟨ri, rj, _, _, hri, hrj, rfl, rfl, by simp [idi, hcp], by simp [idj],
        by simp [e4.links, idi, idj, hcp]⟩
    · exact ⟨rfl, rfl⟩
    · exact e4.empty
    · exact ⟨ri, si, x, sec, hri, hsi, hx, e6, e7⟩
    · exact ⟨ai, aj, hai, haj, Or.inl ⟨hα, g, e5, e8⟩⟩
    · intro g' hg'
      have : g' = g := by simpa [e5.raw] using hg'
      subst this
      refine ⟨e9, ?_⟩
      rw [createStraightRoad_eq] at e1
      cases e1
      have := e5.raw
      simp only [Road.new, List.cons.injEq, and_true] at this
      simp [Store.alloc, ← this]
  · have hz : ¬ isZero (PyFloat.sign (aj -. ai -. pi)) = true := by
      simp [hα]
    rw [if_neg hz]
    have hk : (1 / r : ℝ) ≠ 0 := one_div_ne_zero hr0
    have hcl : (aj - ai - Real.pi) * sp ≠ 0 := mul_ne_zero hα hsp
    obtain ⟨base, s1, sec, g1, g2, g3, e1, e2, e3, e4, e5, e6, e7, ⟨c1, c2, c3⟩, e9, e10, e11, e12,
      e13⟩ :=
      C47_create_cloth_arc_cloth (1 / r) ((aj - ai - Real.pi) * ap) ((aj - ai - Real.pi) * sp)
        (.int num) junction startCurvature nl (st.lanes.cell x).a st hk (small_curv hr0 hsm)
        hcl
    have e1' : createClothArcCloth (ofInt 1 /. r) ((aj -. ai -. pi) *. ap) ((aj -. ai -. pi) *. sp)
        (.int num) junction stdStartCloth nl (st.lanes.cell x).a st = .ok base s1 := by
      rw [stdStart]
      simpa using e1
    rw [bind_of_ok (onGen_ok e1'), bind_of_ok (onNewRoad_ok (addPred_new base e4.pred _ _ _))]
    refine ⟨_, _, onNewRoad_ok (addSucc_new _ (by exact e4.succ) _ _ _), ?_, e13⟩
    constructor
    · exact e2
    · exact e3
    · exact ⟨ri, rj, _, _, hri, hrj, rfl, rfl, by simp [idi, hcp], by simp [idj],
        by simp [e4.links, idi, idj, hcp]⟩
    · exact ⟨rfl, rfl⟩
    · exact e4.empty
    · exact ⟨ri, si, x, sec, hri, hsi, hx, e6, e7⟩
    · exact ⟨ai, aj, hai, haj, Or.inr ⟨hα, g1, g2, g3, _, e5, rfl, c1, c2, c3⟩⟩
    · intro g' hg'
      have : g' = g1 ∨ g' = g2 ∨ g' = g3 := by simpa [e5.raw] using hg'
      rcases this with rfl | rfl | rfl <;> constructor <;> omega

theorem junctionRoad_eq (hR : Ready roads angles r sp nl nr) {rs : List (Road ℝ)}
    (hs : SameRoads roads rs) (i j : Nat) (hi : i < roads.length) (hj : j < roads.length) (num : Int)
    (st : GenState ℝ) :
    ∃ jr st', junctionRoad i j (if i = 0 then .end else .start) angles r junction sp ap
        (straightLength r sp) num (rs, st) = .ok jr (rs, st') ∧
      ConnectingRoad roads angles r sp ap junction nl st st' i j num jr ∧ OnlyNew st st' := by
  obtain ⟨ri, hri⟩ : ∃ ri, roads[i]? = some ri := ⟨_, List.getElem?_eq_getElem hi⟩
  obtain ⟨rj, hrj⟩ : ∃ rj, roads[j]? = some rj := ⟨_, List.getElem?_eq_getElem hj⟩
  have hlen := hR.angles
  obtain ⟨ai, hai⟩ : ∃ ai, angles[i]? = some ai := ⟨_, List.getElem?_eq_getElem (by omega)⟩
  obtain ⟨aj, haj⟩ : ∃ aj, angles[j]? = some aj := ⟨_, List.getElem?_eq_getElem (by omega)⟩
  obtain ⟨si, hsi, hli, hrti⟩ := hR.far i ri hri
  obtain ⟨sj, hsj, hlj, hrtj⟩ := hR.first j rj hrj
  exact junctionRoad_pair hs i j hri hrj hai haj hsi hsj hli (hli.trans hlj.symm)
    (hrti.trans hrtj.symm) hR.pos hR.radius hR.small hR.part num st

/-- roads with different lane counts -/
theorem junctionRoad_error {rs : List (Road ℝ)} (hs : SameRoads roads rs) (i j : Nat)
    {ri rj : Road ℝ} {si sj : LaneSection ℝ} {ai aj : ℝ} (hri : roads[i]? = some ri)
    (hrj : roads[j]? = some rj) (hai : angles[i]? = some ai) (haj : angles[j]? = some aj)
    (hsi : farSection i ri = some si) (hsj : rj.lanesections.head? = some sj) (h : ¬ SameCounts si sj)
    (L : ℝ) (num : Int) (st : GenState ℝ) :
    junctionRoad i j (if i = 0 then .end else .start) angles r junction sp ap L num (rs, st) = .error .nameError (rs, st) := by
  obtain ⟨ri', hri', idi, seci⟩ := hs i ri hri
  obtain ⟨rj', hrj', idj, secj⟩ := hs j rj hrj
  unfold junctionRoad
  rw [bind_of_ok (orRaise_ok.mpr ⟨haj, rfl⟩), bind_of_ok (orRaise_ok.mpr ⟨hai, rfl⟩)]
  dsimp only
  rw [bind_of_ok (get_eq _)]
  dsimp only
  rw [bind_of_ok (orRaise_ok.mpr ⟨hri', rfl⟩), bind_of_ok (orRaise_ok.mpr ⟨hrj', rfl⟩),
    bind_of_error (onGen_error (getLanesOffset_error i ri' rj' si sj st
      ((farSection_congr seci).trans hsi) ((congrArg List.head? secj).trans hsj) h))]

/-! ## The loops -/

/-- The connecting roads for the given pairs, created one after the other. -/
inductive Built (roads : List (Road ℝ)) (angles : List ℝ) (r sp ap : ℝ) (junction : Int) (nl : Nat) :
    GenState ℝ → GenState ℝ → List (Nat × Nat) → Int → List (Road ℝ) → Prop where
  | nil (st : GenState ℝ) (num : Int) : Built roads angles r sp ap junction nl st st [] num []
  | cons {a b c : GenState ℝ} {i j : Nat} {ps : List (Nat × Nat)} {num : Int} {jr : Road ℝ}
      {jrs : List (Road ℝ)} (h1 : ConnectingRoad roads angles r sp ap junction nl a b i j num jr)
      (h2 : OnlyNew a b) (h3 : Built roads angles r sp ap junction nl b c ps (num + 1) jrs) :
      Built roads angles r sp ap junction nl a c ((i, j) :: ps) num (jr :: jrs)

theorem Built.append {a b c : GenState ℝ} {ps qs : List (Nat × Nat)} {num : Int}
    {xs ys : List (Road ℝ)} (h1 : Built roads angles r sp ap junction nl a b ps num xs)
    (h2 : Built roads angles r sp ap junction nl b c qs (num + ps.length) ys) :
    Built roads angles r sp ap junction nl a c (ps ++ qs) num (xs ++ ys) := by
  induction h1 with
  | nil st num => simpa using h2
  | cons h1 h2' h3 ih =>
    refine .cons h1 h2' (ih ?_)
    have e : ∀ (n : Int) (l : Nat), n + ((l : Int) + 1) = n + 1 + l := by intros; omega
    simpa [e] using h2

theorem junctionInner_eq (hR : Ready roads angles r sp nl nr) {rs : List (Road ℝ)}
    (hs : SameRoads roads rs) (i : Nat) (hi : i < roads.length) :
    ∀ (m j : Nat) (num : Int) (st : GenState ℝ), j + m ≤ roads.length →
      ∃ jrs st', junctionInner i (if i = 0 then .end else .start) angles r junction sp ap
          (straightLength r sp) j m num (rs, st) = .ok jrs (rs, st') ∧
        Built roads angles r sp ap junction nl st st' ((List.range' j m).map fun j => (i, j)) num jrs := by
  intro m
  induction m with
  | zero => intro j num st _; exact ⟨[], st, rfl, .nil _ _⟩
  | succ m ih =>
    intro j num st hm
    obtain ⟨jr, s1, h1, h2, h3⟩ := junctionRoad_eq (ap := ap) (junction := junction) hR hs i j hi
      (by omega) num st
    obtain ⟨jrs, s2, h4, h5⟩ := ih (j + 1) (num + 1) s1 (by omega)
    refine ⟨jr :: jrs, s2, ?_, .cons h2 h3 h5⟩
    rw [junctionInner, bind_of_ok h1, bind_of_ok h4, pure_eq]

/-- the roads when the first `m` of them have their link to the junction -/
def linkedUpTo (junction : Int) (m : Nat) (roads : List (Road ℝ)) : List (Road ℝ) :=
  roads.mapIdx fun idx ro =>
    if idx < m then joinJunction junction (if idx = 0 then .end else .start) ro else ro

theorem linkedUpTo_get (junction : Int) (m : Nat) (roads : List (Road ℝ)) (i : Nat) :
    (linkedUpTo junction m roads)[i]? = (roads[i]?).map fun ro =>
      if i < m then joinJunction junction (if i = 0 then .end else .start) ro else ro := by
  simp [linkedUpTo]

theorem join_same (junction : Int) (e : ContactPoint) (ro : Road ℝ) :
    (joinJunction junction e ro).id = ro.id ∧
      (joinJunction junction e ro).lanesections = ro.lanesections := by
  cases e <;> exact ⟨rfl, rfl⟩

theorem sameRoads_linked (junction : Int) (m : Nat) (roads : List (Road ℝ)) :
    SameRoads roads (linkedUpTo junction m roads) := by
  intro i ro h
  rw [linkedUpTo_get, h]
  refine ⟨_, rfl, ?_⟩
  split
  · exact join_same _ _ _
  · exact ⟨rfl, rfl⟩

theorem onRoad_ok {F : Type} {i : Nat} {f : EStateM PyErr (Road F) Unit} {rs : List (Road F)}
    {ro ro' : Road F} {st : GenState F} (h : rs[i]? = some ro) (hf : f ro = .ok () ro') :
    onRoad i f (rs, st) = .ok () (rs.set i ro', st) := by
  simp [onRoad, h, hf]

theorem linked_step (junction : Int) (m : Nat) (roads : List (Road ℝ)) (ro : Road ℝ)
    (h : roads[m]? = some ro) :
    (linkedUpTo junction m roads).set m
      (joinJunction junction (if m = 0 then .end else .start) ro) = linkedUpTo junction (m + 1) roads := by
  apply List.ext_getElem?
  intro i
  rw [List.getElem?_set, linkedUpTo_get, linkedUpTo_get]
  by_cases hi : m = i
  · subst hi
    have hl : m < (linkedUpTo junction m roads).length := by
      simp only [linkedUpTo, List.length_mapIdx]
      exact (List.getElem?_eq_some_iff.mp h).1
    simp [hl, h]
  · rw [if_neg hi]
    congr 1
    funext ro
    have : i < m + 1 ↔ i < m := by omega
    simp only [this]

theorem junctionOuter_eq (hR : Ready roads angles r sp nl nr)
    (hlinks : ∀ (i : Nat) (ro : Road ℝ), roads[i]? = some ro → i + 1 < roads.length →
      if i = 0 then ro.successor = none else ro.predecessor = none) :
    ∀ (m i : Nat) (num : Int) (st : GenState ℝ), i + m + 1 ≤ roads.length →
      ∃ jrs st', junctionOuter roads.length angles r junction sp ap (straightLength r sp) i m num
          (linkedUpTo junction i roads, st) = .ok jrs (linkedUpTo junction (i + m) roads, st') ∧
        Built roads angles r sp ap junction nl st st' ((List.range' i m).flatMap fun i =>
          (List.range' (i + 1) (roads.length - (i + 1))).map fun j => (i, j)) num jrs := by
  intro m
  induction m with
  | zero => intro i num st _; exact ⟨[], st, rfl, .nil _ _⟩
  | succ m ih =>
    intro i num st hm
    obtain ⟨ro, hro⟩ : ∃ ro, roads[i]? = some ro := ⟨_, List.getElem?_eq_getElem (by omega)⟩
    have hl := hlinks i ro hro (by omega)
    have hget : (linkedUpTo junction i roads)[i]? = some ro := by
      rw [linkedUpTo_get, hro]; simp
    obtain ⟨jrs, s1, h1, h2⟩ := junctionInner_eq (ap := ap) (junction := junction) hR
      (sameRoads_linked junction (i + 1) roads) i (by omega) (roads.length - (i + 1)) (i + 1) num st
      (by omega)
    obtain ⟨jrs', s2, h3, h4⟩ := ih (i + 1) (num + (roads.length - (i + 1) : Nat)) s1 (by omega)
    have hfin : Built roads angles r sp ap junction nl st s2 ((List.range' i (m + 1)).flatMap fun i =>
          (List.range' (i + 1) (roads.length - (i + 1))).map fun j => (i, j)) num (jrs ++ jrs') := by
      rw [List.range'_succ, List.flatMap_cons]
      exact h2.append (by simpa using h4)
    refine ⟨jrs ++ jrs', s2, ?_, hfin⟩
    rw [junctionOuter]
    by_cases h0 : i = 0
    · subst h0
      simp only [if_true] at hl h1 ⊢
      rw [bind_of_ok (onRoad_ok hget (addSucc_new ro hl _ _ _))]
      have := linked_step junction 0 roads ro hro
      simp only [if_true, joinJunction] at this
      rw [this, bind_of_ok h1, bind_of_ok h3, pure_eq]
      simp [Nat.add_comm]
    · simp only [h0, if_false] at hl h1 ⊢
      rw [bind_of_ok (onRoad_ok hget (addPred_new ro hl _ _ _))]
      have := linked_step junction i roads ro hro
      simp only [h0, if_false, joinJunction] at this
      rw [this, bind_of_ok h1, bind_of_ok h3, pure_eq]
      congr 3
      omega

theorem junctionLineLength_eq (hr : r ≠ 0) (hsp : sp ≠ 0) :
    junctionLineLength r sp = .ok (straightLength r sp) := by
  have hL : 2 * |Real.pi / 2 * sp * r| ≠ 0 :=
    mul_ne_zero two_ne_zero (abs_ne_zero.mpr (mul_ne_zero (mul_ne_zero
      (div_ne_zero Real.pi_ne_zero two_ne_zero) hsp) hr))
  have hz : (PyFloat.isZero r : Bool) = false := by simp [hr]
  have hz' : (PyFloat.isZero (2 * |Real.pi / 2 * sp * r|) : Bool) = false := by
    rw [real_isZero_false]; exact hL
  unfold junctionLineLength
  simp only [stdStart, real_ofInt, real_mul, real_div, real_pi, real_abs,
    real_sub, real_sin, real_cos, real_add, Int.cast_ofNat, Int.cast_one, Int.cast_zero,
    EulerSpiral.create, hz, hz', Bool.false_eq_true, if_false, calc_eq_drive, straightLength, drive,
    Shape.ofHeading]
  simp only [bind, Except.bind, pure, Except.pure, clothHeading, zero_add, one_mul, mul_div_assoc]

/-- what a list of connecting roads built one after the other is like -/
theorem Built.onlyNew {a b : GenState ℝ} {ps : List (Nat × Nat)} {num : Int} {jrs : List (Road ℝ)}
    (h : Built roads angles r sp ap junction nl a b ps num jrs) : OnlyNew a b := by
  induction h with
  | nil => exact OnlyNew.refl _
  | cons _ h2 _ ih => exact h2.trans ih

theorem connecting_lanes {a b : GenState ℝ} {i j : Nat} {num : Int} {jr : Road ℝ}
    (h : ConnectingRoad roads angles r sp ap junction nl a b i j num jr) :
    ∀ x ∈ lanesOf jr, a.lanes.next ≤ x ∧ x < b.lanes.next := by
  obtain ⟨_, _, _, sec, _, _, _, e1, e2⟩ := h.lanes
  intro x hx
  rw [lanesOf, e1] at hx
  exact e2.new x (by simpa using hx)

theorem Built.lanes {a b : GenState ℝ} {ps : List (Nat × Nat)} {num : Int} {jrs : List (Road ℝ)}
    (h : Built roads angles r sp ap junction nl a b ps num jrs) :
    (∀ jr ∈ jrs, ∀ x ∈ lanesOf jr, a.lanes.next ≤ x ∧ x < b.lanes.next) ∧
    (∀ jr ∈ jrs, ∀ x ∈ jr.planview.raw, a.geoms.next ≤ x ∧ x < b.geoms.next) ∧
    jrs.Pairwise (fun p q => (∀ x ∈ lanesOf p, x ∉ lanesOf q) ∧
      ∀ x ∈ p.planview.raw, x ∉ q.planview.raw) := by
  induction h with
  | nil => simp
  | cons h1 h2 h3 ih =>
    obtain ⟨ih1, ih2, ih3⟩ := ih
    have e1 := h2.lanes
    have e2 := h3.onlyNew.lanes
    have e3 := h2.geoms
    have e4 := h3.onlyNew.geoms
    have hl := connecting_lanes h1
    have hg := h1.newGeoms
    refine ⟨?_, ?_, ?_⟩
    · intro jr hjr x hx
      rcases List.mem_cons.mp hjr with rfl | hjr
      · have := hl x hx; omega
      · have := ih1 jr hjr x hx; omega
    · intro jr hjr x hx
      rcases List.mem_cons.mp hjr with rfl | hjr
      · have := hg x hx; omega
      · have := ih2 jr hjr x hx; omega
    · rw [List.pairwise_cons]
      refine ⟨fun q hq => ⟨fun x hx hx' => ?_, fun x hx hx' => ?_⟩, ih3⟩
      · have := hl x hx; have := ih1 q hq x hx'; omega
      · have := hg x hx; have := ih2 q hq x hx'; omega

theorem Built.get {a b a0 b0 : GenState ℝ} {ps : List (Nat × Nat)} {num : Int} {jrs : List (Road ℝ)}
    (h : Built roads angles r sp ap junction nl a b ps num jrs)
    (hr : ∀ (i : Nat) (r : Road ℝ), roads[i]? = some r → ∃ sec, farSection i r = some sec ∧
      ∀ x ∈ sec.left, x < a0.lanes.next) (ha : OnlyNew a0 a) (hb : OnlyNew b b0) :
    jrs.length = ps.length ∧ ∀ (idx i j : Nat), ps[idx]? = some (i, j) → ∃ jr, jrs[idx]? = some jr ∧
      ConnectingRoad roads angles r sp ap junction nl a0 b0 i j (num + idx) jr := by
  induction h with
  | nil => simp
  | cons h1 h2 h3 ih =>
    obtain ⟨ih1, ih2⟩ := ih (ha.trans h2) hb
    refine ⟨by simp [ih1], ?_⟩
    intro idx i j hp
    cases idx with
    | zero =>
      simp only [List.getElem?_cons_zero, Option.some.injEq, Prod.mk.injEq] at hp
      obtain ⟨rfl, rfl⟩ := hp
      refine ⟨_, rfl, ?_⟩
      have := connecting_mono hr ha h1 (h3.onlyNew.trans hb)
      simpa using this
    | succ idx =>
      obtain ⟨jr, e1, e2⟩ := ih2 idx i j (by simpa using hp)
      refine ⟨jr, by simpa using e1, ?_⟩
      have e : ∀ (n : Int), n + 1 + (idx : Int) = n + ((idx + 1 : Nat) : Int) := by
        intro n; push_cast; omega
      rwa [e] at e2

/-- C48: `create_junction_roads` returns one connecting road per pair of roads i < j, in
lexicographic order, numbered from `startnum`, none sharing objects with another; it links every
input road to the junction (the first at its end, the others at their start) and changes nothing
else. -/
theorem C48_create_junction_roads (roads : List (Road ℝ)) (angles : List ℝ) (r : ℝ) (junction : Int)
    (sp ap : ℝ) (startnum : Int) (st : GenState ℝ) (nl nr : Nat)
    (hin : JunctionInput roads st.lanes nl nr) (hne : roads ≠ []) (hnl : 1 ≤ nl)
    (hang : roads.length ≤ angles.length) (hr : r ≠ 0) (hsmall : |r| ≤ 1000000000) (hsp : sp ≠ 0) :
    ∃ jrs roads' st', createJunctionRoads angles r junction sp ap startnum (roads, st) =
        .ok jrs (roads', st') ∧
      jrs.length = (pairs roads.length).length ∧
      (∀ (idx i j : Nat), (pairs roads.length)[idx]? = some (i, j) → ∃ jr, jrs[idx]? = some jr ∧
        ConnectingRoad roads angles r sp ap junction nl st st' i j (startnum + idx) jr) ∧
      jrs.Pairwise (fun p q => (∀ x ∈ lanesOf p, x ∉ lanesOf q) ∧
        ∀ x ∈ p.planview.raw, x ∉ q.planview.raw) ∧
      roads'.length = roads.length ∧
      (∀ (i : Nat) (ro : Road ℝ), roads[i]? = some ro → roads'[i]? = some
        (joinJunction junction (if i = 0 ∧ 2 ≤ roads.length then .end else .start) ro)) ∧
      OnlyNew st st' := by
  have hpos : 0 < roads.length := List.length_pos_iff.mpr hne
  have hR : Ready roads angles r sp nl nr :=
    ⟨hin.first,
      fun i ro h => by obtain ⟨s, h1, h2, h3, _⟩ := hin.far i ro h; exact ⟨s, h1, h2, h3⟩,
      hnl, hang, hr, hsmall, hsp⟩
  obtain ⟨jrs, st', h1, h2⟩ := junctionOuter_eq (ap := ap) (junction := junction) hR
    (fun i ro h hi => by
      have := hin.links i ro h
      by_cases h0 : i = 0
      · rw [if_pos ⟨h0, by omega⟩] at this; rwa [if_pos h0]
      · rw [if_neg (by tauto)] at this; rwa [if_neg h0]) (roads.length - 1) 0 startnum st (by omega)
  have hlink0 : linkedUpTo junction 0 roads = roads := by
    apply List.ext_getElem?
    intro i
    rw [linkedUpTo_get]
    cases roads[i]? <;> simp
  rw [hlink0, Nat.zero_add] at h1
  have hps : ((List.range' 0 (roads.length - 1)).flatMap fun i =>
      (List.range' (i + 1) (roads.length - (i + 1))).map fun j => (i, j)) = pairs roads.length := by
    unfold pairs
    obtain ⟨n, hn⟩ : ∃ n, roads.length = n + 1 := ⟨roads.length - 1, by omega⟩
    rw [hn, List.range_succ, List.flatMap_append, List.range_eq_range']
    simp
  rw [hps] at h2
  obtain ⟨ro, hro⟩ : ∃ ro, roads[roads.length - 1]? = some ro :=
    ⟨_, List.getElem?_eq_getElem (by omega)⟩
  have hget : (linkedUpTo junction (roads.length - 1) roads)[roads.length - 1]? = some ro := by
    rw [linkedUpTo_get, hro]; simp
  have hlast : ro.predecessor = none := by
    have := hin.links _ ro hro
    rwa [if_neg (by omega)] at this
  obtain ⟨g1, g2⟩ := h2.get (a0 := st) (b0 := st') (fun i ro h => by
    obtain ⟨s, h1, _, _, h4⟩ := hin.far i ro h
    exact ⟨s, h1, h4⟩) (OnlyNew.refl _) (OnlyNew.refl _)
  refine ⟨jrs, (linkedUpTo junction (roads.length - 1) roads).set (roads.length - 1)
    (joinJunction junction .start ro), st', ?_, g1, g2, h2.lanes.2.2, ?_, ?_, h2.onlyNew⟩
  · unfold createJunctionRoads
    rw [bind_of_ok (liftExcept_ok.mpr ⟨junctionLineLength_eq hr hsp, rfl⟩), bind_of_ok (get_eq _)]
    dsimp only
    rw [bind_of_ok h1, if_neg (by omega)]
    rw [bind_of_ok (onRoad_ok hget (addPred_new ro hlast _ _ _)), pure_eq]
    rfl
  · simp [linkedUpTo]
  · intro i ro' h
    have hi : i < roads.length := (List.getElem?_eq_some_iff.mp h).1
    rw [List.getElem?_set]
    by_cases hl : roads.length - 1 = i
    · subst hl
      rw [hro] at h
      cases h
      rw [if_pos rfl, if_pos (by simpa [linkedUpTo] using hi), if_neg (by omega)]
    · rw [if_neg hl, linkedUpTo_get, h, Option.map_some, if_pos (by omega)]
      by_cases h0 : i = 0
      · rw [if_pos h0, if_pos ⟨h0, by omega⟩]
      · rw [if_neg h0, if_neg (by tauto)]

/-- C48, finding: the lanes of the connecting roads are taken from the wrong end of a road with several
lane sections. The first road ends at the junction; if it has another number of left lanes there than
where it begins, `create_junction_roads` succeeds all the same, and no connecting road that starts at
it has the number of lanes it should continue. -/
theorem C48_wrong_end (roads : List (Road ℝ)) (angles : List ℝ) (r : ℝ) (junction : Int)
    (sp ap : ℝ) (startnum : Int) (st : GenState ℝ) (nl nr : Nat)
    (hin : JunctionInput roads st.lanes nl nr) (hne : roads ≠ []) (hnl : 1 ≤ nl)
    (hang : roads.length ≤ angles.length) (hr : r ≠ 0) (hsmall : |r| ≤ 1000000000) (hsp : sp ≠ 0)
    (r0 : Road ℝ) (h0 : roads[0]? = some r0) (near : LaneSection ℝ)
    (hnear : sectionAt r0 .end = some near) (hdiff : near.left.length ≠ nl) :
    ∃ jrs roads' st', createJunctionRoads angles r junction sp ap startnum (roads, st) =
        .ok jrs (roads', st') ∧ jrs.length = (pairs roads.length).length ∧
      ∀ jr ∈ jrs, (∃ l, jr.predecessor = some l ∧ l.elementId = r0.id ∧ l.contactPoint = some .end) →
        ∃ sec, sectionAt jr .start = some sec ∧ sec.left.length ≠ near.left.length := by
  obtain ⟨jrs, roads', st', h1, h2, h3, _⟩ := C48_create_junction_roads roads angles r junction sp ap
    startnum st nl nr hin hne hnl hang hr hsmall hsp
  refine ⟨jrs, roads', st', h1, h2, fun jr hjr _ => ?_⟩
  obtain ⟨idx, hidx⟩ := List.getElem?_of_mem hjr
  have hlt : idx < (pairs roads.length).length := by
    rw [← h2]; exact (List.getElem?_eq_some_iff.mp hidx).1
  obtain ⟨jr', e1, e2⟩ := h3 idx _ _ (List.getElem?_eq_getElem hlt)
  rw [hidx] at e1
  cases e1
  obtain ⟨_, _, _, sec, _, _, _, f1, f2⟩ := e2.lanes
  exact ⟨sec, by simp [sectionAt, f1], by rw [f2.countL]; exact hdiff.symm⟩

/-! ## The turn -/

/-- C48: with a positive radius and positive parts, the connecting road from road i to road j,
adjusted from any start, turns by α·(arc_part + 2·spiral_part) up to the tiny start curvature of the
clothoids, where α = angles[j] - angles[i] - π. -/
theorem C48_turn {before after : GenState ℝ} {i j : Nat} {num : Int} {jr : Road ℝ}
    (h : ConnectingRoad roads angles r sp ap junction nl before after i j num jr)
    (hr : 0 < r) (hsmall : r ≤ 1000000000) (hsp : 0 < sp) (hap : 0 < ap) (p : Pose ℝ) :
    ∃ ai aj s q, angles[i]? = some ai ∧ angles[j]? = some aj ∧
      PlanView.adjustGeometries false ⟨jr.planview.setStartPoint p, after.geoms⟩ = .ok () s ∧
      s.pv.start = some p ∧ s.pv.stop = some q ∧
      q.h = p.h + (aj - ai - Real.pi) * (ap + 2 * sp * (1 + r / 1000000000)) := by
  obtain ⟨ai, aj, h1, h2, h3⟩ := h.plan
  generalize hα : aj - ai - Real.pi = α at h3
  rcases h3 with ⟨h4, g, h5, h6⟩ | ⟨h4, g1, g2, g3, σ, h5, h6, c1, c2, c3⟩
  · subst h4
    obtain ⟨s, e1, e2, e3, e4, e5, _⟩ := adjust_fresh jr.planview
      [⟨g, .ofHeading (fun _ => 0) (straightLength r sp), none⟩] h5 p after.geoms
      (by intro pc hpc; simp at hpc; subst hpc; simp [h6, shapeOf]) (by simp)
    refine ⟨ai, aj, s, _, h1, h2, e1, e4, e5, ?_⟩
    rw [hα]
    simp [finish, Piece.start, Shape.place, Shape.ofHeading]
  · have hk : (0:ℝ) < 1 / r := by positivity
    have hσ : |σ| = 1 := by rw [h6]; split <;> simp
    obtain ⟨s, q, e1, e2, e3, _, e4, _⟩ := turn_of_cells hσ (ne_of_gt hk)
      (mul_ne_zero h4 hsp.ne') (mul_ne_zero h4 hap.ne') h5 c1 c2 c3 p
    refine ⟨ai, aj, s, q, h1, h2, e1, e2, e3, ?_⟩
    rw [e4, hα, h6, abs_of_pos hk, startCurvature, abs_mul, abs_mul, abs_of_pos hsp, abs_of_pos hap]
    rcases lt_or_gt_of_ne h4 with hn | hn
    · rw [if_pos ⟨mul_neg_of_neg_of_pos hn hsp, hk⟩, abs_of_neg hn]
      field_simp
      ring
    · rw [if_neg (fun h => absurd h.1 (not_lt.mpr (mul_pos hn hsp).le)), abs_of_pos hn]
      field_simp

end

/-! ## C49 -/

/-- C49: if one of the roads has another number of lanes than the first one, `create_junction_roads`
raises — a `NameError`, because the intended exception class was not imported. -/
theorem C49_lane_count_mismatch (roads : List (Road ℝ)) (angles : List ℝ) (r : ℝ) (junction : Int)
    (sp ap : ℝ) (startnum : Int) (st : GenState ℝ)
    (hsec : ∀ (i : Nat) (ro : Road ℝ), roads[i]? = some ro → ro.lanesections ≠ [])
    (r0 : Road ℝ) (s0 : LaneSection ℝ) (h0 : roads[0]? = some r0)
    (hs0 : r0.lanesections.head? = some s0)
    (hleft : s0.left ≠ []) (hsucc : r0.successor = none)
    (hmis : ∃ (j : Nat) (rj : Road ℝ) (sj : LaneSection ℝ), roads[j]? = some rj ∧
      rj.lanesections.head? = some sj ∧ ¬ SameCounts s0 sj)
    (hang : roads.length ≤ angles.length) (hr : r ≠ 0) (hsmall : |r| ≤ 1000000000) (hsp : sp ≠ 0) :
    ∃ s, createJunctionRoads angles r junction sp ap startnum (roads, st) = .error .nameError s := by
  obtain ⟨j0, rj, sj, hj, hsj, hne⟩ := hmis
  have hj0 : j0 ≠ 0 := by
    rintro rfl
    rw [h0] at hj; cases hj
    rw [hs0] at hsj; cases hsj
    exact hne ⟨rfl, rfl⟩
  have hjl : j0 < roads.length := (List.getElem?_eq_some_iff.mp hj).1
  obtain ⟨a0, ha0⟩ : ∃ a, angles[0]? = some a := ⟨_, List.getElem?_eq_getElem (by omega)⟩
  have hs := sameRoads_linked junction 1 roads
  have hinner : ∀ (m j : Nat) (num : Int) (st : GenState ℝ), j + m ≤ roads.length → j ≤ j0 →
      j0 < j + m → ∃ s, junctionInner 0 .end angles r junction sp ap (straightLength r sp) j m num
        (linkedUpTo junction 1 roads, st) = .error .nameError s := by
    intro m
    induction m with
    | zero => intro j num st _ h1 h2; omega
    | succ m ih =>
      intro j num st hm h1 h2
      obtain ⟨rj', hrj'⟩ : ∃ ro, roads[j]? = some ro := ⟨_, List.getElem?_eq_getElem (by omega)⟩
      obtain ⟨aj, haj⟩ : ∃ a, angles[j]? = some a := ⟨_, List.getElem?_eq_getElem (by omega)⟩
      obtain ⟨sj', hsj'⟩ : ∃ s, rj'.lanesections.head? = some s := by
        cases hc : rj'.lanesections with
        | nil => exact absurd hc (hsec j rj' hrj')
        | cons s l => exact ⟨s, rfl⟩
      rw [junctionInner]
      by_cases hc : SameCounts s0 sj'
      · obtain ⟨jr, s1, e1, _⟩ := junctionRoad_pair (ap := ap) (junction := junction) hs 0 j h0 hrj'
          ha0 haj (by simpa [farSection] using hs0) hsj' rfl hc.1 hc.2 (List.length_pos_iff.mpr hleft) hr hsmall hsp num st
        simp only [if_true] at e1
        have hjne : j ≠ j0 := by
          rintro rfl
          rw [hj] at hrj'; cases hrj'
          rw [hsj] at hsj'; cases hsj'
          exact hne hc
        obtain ⟨s, e2⟩ := ih (j + 1) (num + 1) s1 (by omega) (by omega) (by omega)
        exact ⟨s, by rw [bind_of_ok e1, bind_of_error e2]⟩
      · exact ⟨_, bind_of_error (junctionRoad_error hs 0 j h0 hrj' ha0 haj (by simpa [farSection] using hs0) hsj' hc _ _ _)⟩
  obtain ⟨n, hn⟩ : ∃ n, roads.length - 1 = n + 1 := ⟨roads.length - 2, by omega⟩
  obtain ⟨s, hs1⟩ := hinner (roads.length - 1) 1 startnum st (by omega) (by omega) (by omega)
  refine ⟨s, ?_⟩
  unfold createJunctionRoads
  rw [bind_of_ok (liftExcept_ok.mpr ⟨junctionLineLength_eq hr hsp, rfl⟩), bind_of_ok (get_eq _)]
  dsimp only
  refine bind_of_error ?_
  rw [hn, junctionOuter]
  simp only [if_true]
  rw [bind_of_ok (onRoad_ok h0 (addSucc_new r0 hsucc _ _ _))]
  have := linked_step junction 0 roads r0 h0
  have hlink0 : linkedUpTo junction 0 roads = roads := by
    apply List.ext_getElem?
    intro i
    rw [linkedUpTo_get]
    cases roads[i]? <;> simp
  rw [hlink0] at this
  simp only [if_true, joinJunction] at this
  rw [this]
  exact bind_of_error hs1

end Pyodrx.Props
