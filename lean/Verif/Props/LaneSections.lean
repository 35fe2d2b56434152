import Verif.Spec.LaneSections
import Verif.Props.ProgramExamples

/-! # C77: roads with several lane sections -/

namespace Pyodrx.Props
open Pyodrx Spec

theorem share_left {cs : List (LaneCall ℝ)} {xs : List (RLane ℝ)} (h : List.Forall₂ ShowsLane cs xs) (k : Nat)
    (hid : xs.map RLane.id = (List.range' k cs.length).map (fun m : Nat => (m : Int) + 1)) (u : ℝ) (i : Int) :
    (xs.map (RLane.share i u)).sum = if 0 < i then ((cs.take (i.toNat - k)).map (·.widthAt u)).sum else 0 := by
  induction h generalizing k with
  | nil => simp
  | @cons c x cs xs h1 h2 ih =>
    simp only [List.map_cons, List.length_cons, List.range'_succ, List.cons.injEq] at hid
    rw [List.map_cons, List.sum_cons, ih (k + 1) hid.2, RLane.share, hid.1, h1.widthAt]
    by_cases hi : (k : Int) + 1 ≤ i
    · rw [if_pos ⟨by omega, hi⟩, if_pos (by omega), if_pos (by omega)]
      rw [show i.toNat - k = (i.toNat - (k + 1)) + 1 by omega]
      simp
    · rw [if_neg (by omega), if_neg (by omega), zero_add]
      split
      · rw [show i.toNat - k = 0 by omega, show i.toNat - (k + 1) = 0 by omega]
        simp
      · rfl

theorem share_right {cs : List (LaneCall ℝ)} {xs : List (RLane ℝ)} (h : List.Forall₂ ShowsLane cs xs) (k : Nat)
    (hid : xs.map RLane.id = (List.range' k cs.length).map (fun m : Nat => -((m : Int) + 1))) (u : ℝ) (i : Int) :
    (xs.map (RLane.share i u)).sum = -((cs.take ((-i).toNat - k)).map (·.widthAt u)).sum := by
  induction h generalizing k with
  | nil => simp
  | @cons c x cs xs h1 h2 ih =>
    simp only [List.map_cons, List.length_cons, List.range'_succ, List.cons.injEq] at hid
    rw [List.map_cons, List.sum_cons, ih (k + 1) hid.2, RLane.share, hid.1, h1.widthAt]
    by_cases hi : i ≤ -((k : Int) + 1)
    · rw [if_neg (by omega), if_pos ⟨hi, by omega⟩]
      rw [show (-i).toNat - k = ((-i).toNat - (k + 1)) + 1 by omega]
      simp
      ring
    · rw [if_neg (by omega), if_neg (by omega), zero_add]
      rw [show (-i).toNat - k = 0 by omega, show (-i).toNat - (k + 1) = 0 by omega]
      simp

/-- The edges in the document are those that were ordered. -/
theorem _root_.Pyodrx.Spec.ShowsSection.outer {k : LaneCall ℝ} {s : SectionCall ℝ} {x : RSection ℝ} (h : ShowsSection k s x)
    (u : ℝ) (i : Int) : x.outer u i = s.outer u i := by
  have hl := share_left h.left 0 (by rw [h.leftIds, List.range_eq_range']) u i
  have hr := share_right h.right 0 (by rw [h.rightIds, List.range_eq_range']) u i
  rw [RSection.outer, List.map_append, List.sum_append, hl, hr, SectionCall.outer]
  split
  · rw [show (-i).toNat - 0 = 0 by omega]
    simp
  · simp

theorem _root_.Pyodrx.Spec.ShowsSection.has {k : LaneCall ℝ} {s : SectionCall ℝ} {x : RSection ℝ} (h : ShowsSection k s x)
    (i : Int) : (∃ l ∈ x.left ++ x.right, l.id = i) ↔ (s.lane i).isSome := by
  rw [Option.isSome_iff_exists]
  constructor
  · rintro ⟨l, hl, rfl⟩
    obtain ⟨lc, h1, -⟩ := h.lane.1 l hl
    exact ⟨lc, h1⟩
  · rintro ⟨lc, hlc⟩
    obtain ⟨l, h1, h2, -⟩ := h.lane.2 i lc hlc
    exact ⟨l, h1, h2⟩

theorem _root_.Pyodrx.Spec.ShowsRoad.section {c : RoadCall ℝ} {a : RRoad ℝ} (h : ShowsRoad c a) (j : Nat) :
    a.sections[j]? = none ∧ c.sections[j]? = none ∨ ∃ s x, a.sections[j]? = some x ∧ c.sections[j]? = some s ∧
      ShowsSection c.center s x := by
  have hlen := h.sections.length_eq
  by_cases hj : j < c.sections.length
  · have hj' : j < a.sections.length := by omega
    exact .inr ⟨_, _, List.getElem?_eq_getElem hj', List.getElem?_eq_getElem hj, h.sections.get hj hj'⟩
  · exact .inl ⟨List.getElem?_eq_none (by omega), List.getElem?_eq_none (by omega)⟩

/-- A lane of the document continues in a lane of the next section if and only if it was ordered like this: the edges in
the document are those of the widths given to `Lane`. -/
theorem _root_.Pyodrx.Spec.ShowsRoad.continues {c : RoadCall ℝ} {a : RRoad ℝ} (h : ShowsRoad c a) (j : Nat) (i k : Int) :
    a.Continues j i k ↔ c.Continues (j, i) (j + 1, k) := by
  unfold RRoad.Continues RoadCall.Continues
  constructor
  · rintro ⟨x, y, h1, h2, h3, h4, h5, h6⟩
    rcases h.section j with ⟨q, -⟩ | ⟨s, x', q1, q2, q3⟩
    · rw [q] at h1; cases h1
    rw [q1] at h1; cases h1
    rcases h.section (j + 1) with ⟨q, -⟩ | ⟨t, y', p1, p2, p3⟩
    · rw [q] at h2; cases h2
    rw [p1] at h2; cases h2
    refine ⟨rfl, s, t, q2, p2, (q3.has i).mp h3, (p3.has k).mp h4, ?_, ?_⟩
    · rw [← q3.s, ← p3.s, ← q3.outer, ← p3.outer]; exact h5
    · rw [← q3.s, ← p3.s, ← q3.outer, ← p3.outer]; exact h6
  · rintro ⟨-, s, t, h1, h2, h3, h4, h5, h6⟩
    rcases h.section j with ⟨-, q⟩ | ⟨s', x, q1, q2, q3⟩
    · simp only at h1; rw [q] at h1; cases h1
    simp only at h1
    rw [q2] at h1; cases h1
    rcases h.section (j + 1) with ⟨-, q⟩ | ⟨t', y, p1, p2, p3⟩
    · simp only at h2; rw [q] at h2; cases h2
    simp only at h2
    rw [p2] at h2; cases h2
    refine ⟨x, y, q1, p1, (q3.has i).mpr h3, (p3.has k).mpr h4, ?_, ?_⟩
    · rw [q3.s, p3.s, q3.outer, p3.outer]; exact h5
    · rw [q3.s, p3.s, q3.outer, p3.outer]; exact h6

theorem _root_.Pyodrx.Spec.Shows.same {calls : List (RoadCall ℝ)} {L : List (CallEnd × CallEnd)} {doc : RDocument ℝ}
    (h : Shows calls L doc) (hs : Sound calls L) {c : RoadCall ℝ} (hc : c ∈ calls) {a : RRoad ℝ} (ha : a ∈ doc.roads)
    (hid : a.id = strInt c.id) : ShowsRoad c a := by
  have hlen := h.roads.length_eq
  obtain ⟨i, hi, rfl⟩ := List.mem_iff_getElem.mp ha
  have sa := h.roads.get (i := i) (by omega) hi
  have hc' : calls[i]'(by omega) ∈ calls := List.getElem_mem _
  have e := sa.id
  have e2 := hid.symm.trans e
  obtain rfl := hs.same hc hc' (strInt_injective e2)
  exact sa

theorem readLaneLinkTo_inj {e e' : ContactPoint} {i k : Int} (h : readLaneLinkTo (linkTag e) i = readLaneLinkTo (linkTag e') k) :
    e = e' ∧ i = k := by
  simp only [readLaneLinkTo, RLink.mk.injEq] at h
  exact ⟨linkTag_injective h.1, strInt_injective h.2.1⟩

theorem mem_innerLinks {c : RoadCall ℝ} {n : LaneName} {l : RLink} : l ∈ c.innerLinks n ↔
    (∃ s, (n, s) ∈ c.laneLinks ∧ l = readLaneLinkTo (linkTag .end) s.2) ∨
    ∃ p, (p, n) ∈ c.laneLinks ∧ l = readLaneLinkTo (linkTag .start) p.2 := by
  simp only [RoadCall.innerLinks, List.mem_flatMap, List.mem_append]
  constructor
  · rintro ⟨⟨p, s⟩, hm, h | h⟩
    · split at h
      · rename_i hp
        simp only at hp
        subst hp
        exact .inl ⟨s, hm, by simpa using h⟩
      · simp at h
    · split at h
      · rename_i hp
        simp only at hp
        subst hp
        exact .inr ⟨p, hm, by simpa using h⟩
      · simp at h
  · rintro (⟨s, hm, rfl⟩ | ⟨p, hm, rfl⟩)
    · exact ⟨_, hm, .inl (by simp)⟩
    · exact ⟨_, hm, .inr (by simp)⟩

/-- What the document shows of an ordered link between lanes: it is found in both directions. -/
theorem _root_.Pyodrx.Spec.Shows.inner {calls : List (RoadCall ℝ)} {L : List (CallEnd × CallEnd)} {doc : RDocument ℝ}
    (h : Shows calls L doc) (hs : Sound calls L) {c : RoadCall ℝ} (hc : c ∈ calls) {a : RRoad ℝ} (ha : a ∈ doc.roads)
    (sa : ShowsRoad c a) {p s : LaneName} (hps : (p, s) ∈ c.laneLinks) :
    (∃ x ∈ a.sections[p.1]?, ∃ l ∈ x.left ++ x.right, l.id = p.2 ∧ readLaneLinkTo (linkTag .end) s.2 ∈ l.links) ∧
    (∃ y ∈ a.sections[s.1]?, ∃ l ∈ y.left ++ y.right, l.id = s.2 ∧ readLaneLinkTo (linkTag .start) p.2 ∈ l.links) := by
  obtain ⟨-, q1, q2⟩ := hs.inner c hc p s hps
  have key : ∀ {n : LaneName}, (c.lane n).isSome → ∀ {l : RLink}, l ∈ c.innerLinks n →
      ∃ x ∈ a.sections[n.1]?, ∃ y ∈ x.left ++ x.right, y.id = n.2 ∧ l ∈ y.links := by
    intro n hn l hl
    rcases sa.section n.1 with ⟨-, u⟩ | ⟨t, x, u1, u2, u3⟩
    · simp [RoadCall.lane, u] at hn
    · rw [RoadCall.lane, u2] at hn
      obtain ⟨y, y1, y2⟩ := (u3.has n.2).mpr hn
      refine ⟨x, u1, y, y1, y2, ?_⟩
      obtain ⟨new, v1, -⟩ := h.onlyLanes c hc a ha sa.id n.1 x u1 y y1
      rw [v1, y2]
      exact List.mem_append_left _ hl
  exact ⟨key q1 (mem_innerLinks.mpr (.inl ⟨s, hps, rfl⟩)), key q2 (mem_innerLinks.mpr (.inr ⟨p, hps, rfl⟩))⟩

/-- All lane links of the document are right if and only if those between the sections of a road were ordered right. -/
theorem _root_.Pyodrx.Spec.Shows.right {calls : List (RoadCall ℝ)} {L : List (CallEnd × CallEnd)} {doc : RDocument ℝ}
    (h : Shows calls L doc) (hs : Sound calls L) :
    doc.LaneLinksRight ↔ ∀ c ∈ calls, ∀ p s, (p, s) ∈ c.laneLinks → c.LinkFits p s := by
  have hlen := h.roads.length_eq
  have call : ∀ {a}, a ∈ doc.roads → ∃ c ∈ calls, ShowsRoad c a := by
    intro a ha
    obtain ⟨i, hi, rfl⟩ := List.mem_iff_getElem.mp ha
    exact ⟨_, List.getElem_mem (by omega), h.roads.get (by omega) hi⟩
  have road : ∀ {c}, c ∈ calls → ∃ a ∈ doc.roads, ShowsRoad c a := by
    intro a ha
    obtain ⟨i, hi, rfl⟩ := List.mem_iff_getElem.mp ha
    exact ⟨_, List.getElem_mem (by omega), h.roads.get hi (by omega)⟩
  constructor
  · intro hr c hc p s hps
    obtain ⟨a, ha, sa⟩ := road hc
    obtain ⟨hlt, -, hsome⟩ := hs.inner c hc p s hps
    obtain ⟨⟨x, hx, l, hl, h1, h2⟩, ⟨y, hy, m, hm, h3, h4⟩⟩ := h.inner hs hc ha sa hps
    have hsl : s.1 < a.sections.length := (List.getElem?_eq_some_iff.mp hy).1
    constructor
    · obtain ⟨e, k, e1, e2⟩ := hr a ha _ x hx l hl _ h2
      obtain ⟨rfl, rfl⟩ := readLaneLinkTo_inj e1
      rw [RDocument.LeadsRight, if_pos (by omega), h1] at e2
      exact (sa.continues _ _ _).mp e2
    · obtain ⟨e, k, e1, e2⟩ := hr a ha _ y hy m hm _ h4
      obtain ⟨rfl, rfl⟩ := readLaneLinkTo_inj e1
      obtain ⟨j, hj⟩ : ∃ j, s.1 = j + 1 := ⟨s.1 - 1, by omega⟩
      rw [hj, RDocument.LeadsRight, h3] at e2
      have := (sa.continues _ _ _).mp e2
      rw [hj, Nat.add_sub_cancel]
      rwa [← hj] at this
  · intro hf a ha j s hj x hx l hl
    obtain ⟨c, hc, sa⟩ := call ha
    obtain ⟨new, v1, v2⟩ := h.onlyLanes c hc a ha sa.id j s hj x hx
    rw [v1] at hl
    rcases List.mem_append.mp hl with hl | hl
    · rcases mem_innerLinks.mp hl with ⟨t, ht, rfl⟩ | ⟨t, ht, rfl⟩
      · refine ⟨.end, t.2, rfl, ?_⟩
        obtain ⟨-, _, _, -, hsec, -⟩ := (hf c hc _ _ ht).1
        have hlen2 := sa.sections.length_eq
        have : j + 1 < c.sections.length := (List.getElem?_eq_some_iff.mp hsec).1
        rw [RDocument.LeadsRight, if_pos (by omega)]
        exact (sa.continues _ _ _).mpr (hf c hc _ _ ht).1
      · refine ⟨.start, t.2, rfl, ?_⟩
        have hlt := (hs.inner c hc _ _ ht).1
        cases j with
        | zero => exact absurd hlt (Nat.not_lt_zero _)
        | succ j => exact (sa.continues _ _ _).mpr (hf c hc _ _ ht).2
    · obtain ⟨d, hd, e, e', n, w1, w2, w3⟩ := v2 l hl
      obtain ⟨b, hb, sb⟩ := road hd
      have hse : a.sectionAt e = some s := by
        cases e
        · rw [if_pos rfl] at w1
          subst w1
          rw [RRoad.sectionAt, List.head?_eq_getElem?]; exact hj
        · rw [if_neg (by decide)] at w1
          subst w1
          rw [RRoad.sectionAt, List.getLast?_eq_getElem?]; exact hj
      obtain ⟨u1, u2⟩ := h.lanes c hc d hd a ha b hb sa.id sb.id e e' n w2 s hse x hx
      have hmem : l ∈ x.linksTo (linkTag e) := by
        rw [RLane.linksTo, List.mem_filter, v1]
        exact ⟨List.mem_append_right _ hl, by simpa using w3⟩
      rw [u1, List.mem_singleton] at hmem
      refine ⟨e, _, hmem, ?_⟩
      cases e
      · rw [if_pos rfl] at w1
        subst w1
        exact ⟨b, hb, e', (sa.names sb).mpr ⟨n, w2.1⟩, u2⟩
      · rw [if_neg (by decide)] at w1
        rw [RDocument.LeadsRight, if_neg (by omega)]
        exact ⟨b, hb, e', (sa.names sb).mpr ⟨n, w2.1⟩, u2⟩

/-- C77: a program whose roads may have several lane sections, with links between their lanes. In the document, every link
given to the `LaneLinker` is found in both directions, and all lane links are right - the lane that is named is there and
has the same edges - if and only if this was so for the links given to the `LaneLinker`. -/
theorem C77_document (calls : List (RoadCall ℝ)) (L : List (CallEnd × CallEnd)) (hs : Sound calls L)
    (junctions : List AnyJunction) (hj : ∀ j ∈ junctions, AnySound calls j) (st : GenState ℝ) (name date : String)
    (so : SOState ℝ) : ∃ p element doc, networkProgram calls junctions st = .ok p ∧
      OpenDrive.getElement ⟨p.world.net.geoms, p.world.lanes, so⟩ date ⟨name, p.world.net.roads, p.junctions⟩ = .ok element ∧
      readDocument element = some doc ∧
      (∀ c ∈ calls, ∀ a ∈ doc.roads, a.id = strInt c.id → ∀ p s, (p, s) ∈ c.laneLinks →
        (∃ x ∈ a.sections[p.1]?, ∃ l ∈ x.left ++ x.right, l.id = p.2 ∧ readLaneLinkTo (linkTag .end) s.2 ∈ l.links) ∧
        (∃ y ∈ a.sections[s.1]?, ∃ l ∈ y.left ++ y.right, l.id = s.2 ∧ readLaneLinkTo (linkTag .start) p.2 ∈ l.links) ∧
        (s.1 = p.1 + 1 → (a.Continues p.1 p.2 s.2 ↔ c.Continues p s))) ∧
      (doc.LaneLinksRight ↔ ∀ c ∈ calls, ∀ p s, (p, s) ∈ c.laneLinks → c.LinkFits p s) := by
  obtain ⟨p, element, doc, h1, h2, h3, -, h4, -⟩ := C76_document calls L hs junctions hj st name date so
  refine ⟨p, element, doc, h1, h2, h3, ?_, h4.right hs⟩
  intro c hc a ha hid p s hps
  have sa := h4.same hs hc ha hid
  obtain ⟨q1, q2⟩ := h4.inner hs hc ha sa hps
  refine ⟨q1, q2, fun hp => ?_⟩
  rw [sa.continues, ← hp]

end Pyodrx.Props
