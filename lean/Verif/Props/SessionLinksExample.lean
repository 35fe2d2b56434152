import Verif.Props.SessionLinks
import Verif.Props.SessionAdjustExample

/-! # A program that meets the hypotheses of C95: that of C92, with two roads and a connecting road -/

namespace Pyodrx.Props
open Pyodrx Pyodrx.Spec PyFloat

theorem connProg_laidOut (off : Int) (wd : Int := 3) : LaidOut (connProg false off wd) 0 where
  drawing := connProg_drawing false off wd
  document := ⟨"doc", by simp [connProg]⟩
  linked := connProg_linked false off wd
  fitting := connProg_fitting false off wd
  reached := ((C92_returns (connProg false off wd) (connProg_drawing false off wd) flStart flStart_blank 0 "doc" (by simp [connProg])
    (connProg_linked false off wd) (connProg_fitting false off wd)).1.mp (connProg_returns off wd).1)
  own :=
    { lanes := by
        rintro v i l t w j u ⟨-, _, _, _, h1⟩ ⟨-, _, _, _, h2⟩
        exact (connProg_road h1).2.1.symm.trans (connProg_road h2).2.1
      sections := by
        rintro v i l t sec ⟨-, _, _, _, h1⟩ h2
        have : sec = 0 ∨ sec = 1 ∨ sec = 2 := by
          obtain ⟨c, hc, hc'⟩ := List.mem_filterMap.mp h2
          cases c <;> simp at hc'
          case addLanesection x sec' lk =>
            obtain ⟨rfl, rfl⟩ := hc'
            simp [connProg, flLane] at hc
            omega
        rcases this with rfl | rfl | rfl <;> simp [sectionPuts, connProg, flLane, List.filter_cons] }

/-- `C95_connecting` applied: the lane of the connecting road continues lane -1 of both roads. -/
theorem connProg_links :
    let new := newLinks (runCalls (connProg false 0) flStart).2.laneObjs
      ((Call.adjust 0).step (runCalls (connProg false 0) flStart).2).2.laneObjs
    new 31 .predecessor = [laneLink .predecessor (-1)] ∧ new 31 .successor = [laneLink .successor (-1)] := by
  have added : ∀ v i t, AddsRoad (connProg false 0) 0 v i t → AddsLanes (connProg false 0) 0 v i v t := by
    rintro v i t ⟨h1, pv, l, n, ru, h2⟩
    obtain ⟨-, rfl, -⟩ := connProg_road h2
    exact ⟨h1, _, _, _, h2⟩
  obtain ⟨a1, a2, a3, -⟩ := connProg_added false 0
  have hsec : ∀ e, sectionCall 2 (connProg false 0) e = some 2 := by
    intro e
    cases e <;> simp [sectionCall, sectionCalls, connProg, flLane, List.filterMap_cons]
  have hx : (rightCalls 2 (connProg false 0))[0]? = some 31 := by
    simp [rightCalls, connProg, flLane, List.filterMap_cons]
  refine ⟨?_, ?_⟩
  · have := (C95_connecting (connProg false 0) flStart flStart_blank 0 (connProg_laidOut 0) 2 0 _ _ 2 0 7 (-1) (by decide)
      (added _ _ _ a3) (added _ _ _ a1) .start ⟨.predecessor, .int 1, some .road, some .end, none⟩
      (by simp [linkCall, connProg_preds]) rfl 2 (hsec _) 0 31).2 hx
    have off : offsetCall 2 (connProg false 0) .start = 0 := by simp [offsetCall, connProg_preds]
    rw [off] at this
    exact this
  · have := (C95_connecting (connProg false 0) flStart flStart_blank 0 (connProg_laidOut 0) 2 1 _ _ 2 1 7 (-1) (by decide)
      (added _ _ _ a3) (added _ _ _ a2) .end ⟨.successor, .int 2, some .road, some .start, none⟩
      (by simp [linkCall, connProg_succs]) rfl 2 (hsec _) 0 31).2 hx
    have off : offsetCall 2 (connProg false 0) .end = 0 := by simp [offsetCall, connProg_succs]
    rw [off] at this
    exact this

/-! The program of C88 (two normal roads that follow each other) meets them as well. -/

theorem flProg_road {v : Nat} {i : PyId} {pv l : Nat} {t : Int} {n ru : Option String} (h : .road v i pv l t n ru ∈ flProg) :
    pv = v ∧ l = v ∧ t = -1 ∧ n = none ∧ ru = none ∧ ((v = 0 ∧ i = .int 1) ∨ (v = 1 ∧ i = .int 2)) := by
  simp [flProg, flLane] at h
  rcases h with ⟨rfl, rfl, rfl, rfl, rfl, rfl, rfl⟩ | ⟨rfl, rfl, rfl, rfl, rfl, rfl, rfl⟩ <;> simp

theorem flProg_adds {v : Nat} {i : PyId} {t : Int} (h : AddsRoad flProg 0 v i t) :
    t = -1 ∧ ((v = 0 ∧ i = .int 1) ∨ (v = 1 ∧ i = .int 2)) := by
  obtain ⟨-, _, _, _, _, h2⟩ := h
  obtain ⟨-, -, h1, -, -, h2⟩ := flProg_road h2
  exact ⟨h1, h2⟩

theorem flProg_added : AddsRoad flProg 0 0 (.int 1) (-1) ∧ AddsRoad flProg 0 1 (.int 2) (-1) := by
  refine ⟨⟨?_, 0, 0, none, none, ?_⟩, ?_, 1, 1, none, none, ?_⟩ <;> simp [flProg]

theorem flProg_preds (v : Nat) : predecessorCalls v flProg =
    if 1 = v then [(⟨.predecessor, .int 1, some .road, some .end, none⟩, 0)] else [] := by
  by_cases h : 1 = v <;> simp [predecessorCalls, flProg, flLane, List.filterMap_cons, h]

theorem flProg_succs (v : Nat) : successorCalls v flProg =
    if 0 = v then [(⟨.successor, .int 2, some .road, some .start, none⟩, 0)] else [] := by
  by_cases h : 0 = v <;> simp [successorCalls, flProg, flLane, List.filterMap_cons, h]

theorem flProg_link {v : Nat} {x : Link × Int} (h : x ∈ predecessorCalls v flProg ∨ x ∈ successorCalls v flProg) :
    (v = 1 ∧ x = (⟨.predecessor, .int 1, some .road, some .end, none⟩, 0)) ∨
      (v = 0 ∧ x = (⟨.successor, .int 2, some .road, some .start, none⟩, 0)) := by
  rw [flProg_preds, flProg_succs] at h
  rcases h with h | h <;> split at h
  · next hv => simp at h; exact .inl ⟨hv.symm, h⟩
  · simp at h
  · next hv => simp at h; exact .inr ⟨hv.symm, h⟩
  · simp at h

theorem flProg_linked : LinkedProgram flProg 0 where
  adds := ⟨0, by simp [flProg]⟩
  ids := by
    intro v i t w j u h1 h2 h3
    obtain ⟨-, ⟨rfl, rfl⟩ | ⟨rfl, rfl⟩⟩ := flProg_adds h1 <;> obtain ⟨-, ⟨rfl, rfl⟩ | ⟨rfl, rfl⟩⟩ := flProg_adds h2 <;>
      first | rfl | exact absurd h3 (by decide)
  resolvable := by
    intro v i t x _ h2
    rcases flProg_link h2 with ⟨rfl, rfl⟩ | ⟨rfl, rfl⟩
    · exact ⟨_, _, _, flProg_added.1, rfl⟩
    · exact ⟨_, _, _, flProg_added.2, rfl⟩
  contacts := by
    intro v i t x _ h2 _
    rcases flProg_link h2 with ⟨rfl, rfl⟩ | ⟨rfl, rfl⟩ <;> simp
  connecting := by
    intro v i t x h1 h2 _
    exact absurd (flProg_adds h1).1 h2
  first := by
    intro v i t _ h2
    exact (flProg_adds h2).1
  posed := by
    intro v i pv l t n ru x y h _ _ h3
    simp [flProg, flLane] at h3
  usable := by
    intro v g h
    have : ∀ g, Spec.Usable (flGeom g) := by
      intro g
      unfold flGeom
      split <;> simp [Spec.Usable, flFile_values.1, flFile_values.2]
    simp [flProg, flLane] at h
    rcases h with ⟨_, rfl⟩ | ⟨_, rfl⟩ | ⟨_, rfl⟩ | ⟨_, rfl⟩ <;> exact this _

theorem flProg_linkCall {v : Nat} {e : ContactPoint} {l : Link} (h : linkCall v flProg e = some l) :
    (v = 1 ∧ e = .start ∧ l = ⟨.predecessor, .int 1, some .road, some .end, none⟩) ∨
      (v = 0 ∧ e = .end ∧ l = ⟨.successor, .int 2, some .road, some .start, none⟩) := by
  cases e
  · by_cases hv : 1 = v
    · simp [linkCall, flProg_preds, hv] at h; exact .inl ⟨hv.symm, rfl, h.symm⟩
    · simp [linkCall, flProg_preds, hv] at h
  · by_cases hv : 0 = v
    · simp [linkCall, flProg_succs, hv] at h; exact .inr ⟨hv.symm, rfl, h.symm⟩
    · simp [linkCall, flProg_succs, hv] at h

theorem flProg_lanes {v : Nat} {i : PyId} {l : Nat} {t : Int} (h : AddsLanes flProg 0 v i l t) : l = v ∧ AddsRoad flProg 0 v i t := by
  obtain ⟨h1, pv, n, ru, h2⟩ := h
  exact ⟨(flProg_road h2).2.1, h1, _, _, _, _, h2⟩

theorem flProg_fitting : FittingLanes flProg 0 where
  once := by
    intro v i l t sec x h1 h2 h3
    have h : .addLeftLane sec x ∈ flProg ∨ .addRightLane sec x ∈ flProg := by
      rcases List.mem_append.mp h3 with h3 | h3 <;> obtain ⟨c, hc, hc'⟩ := List.mem_filterMap.mp h3 <;> cases c <;> simp at hc' <;>
        obtain ⟨rfl, rfl⟩ := hc'
      · exact .inl hc
      · exact .inr hc
    simp [flProg, flLane] at h
    have : x = 11 ∨ x = 12 ∨ x = 21 ∨ x = 22 := by omega
    rcases this with rfl | rfl | rfl | rfl <;> simp [puts, flProg, flLane, List.filter_cons]
  joints := by
    intro v i l w j m a b _ h1 h2 h3 _ _ h4 _ _
    obtain ⟨rfl, -⟩ := flProg_lanes h1
    obtain ⟨rfl, -⟩ := flProg_lanes h2
    rcases flProg_linkCall h3 with ⟨_, h, _⟩ | ⟨rfl, -, rfl⟩
    · cases h
    rcases flProg_linkCall h4 with ⟨rfl, -, rfl⟩ | ⟨_, h, _⟩
    swap
    · cases h
    refine ⟨rfl, fun c hc => ?_, 0, 1, 1, ?_⟩
    · rcases flProg_linkCall hc with ⟨-, h, -⟩ | ⟨h, -⟩
      · cases h
      · cases h
    · simp [sectionCall, sectionCalls, FewerLanes, leftCalls, rightCalls, flProg, flLane, List.filterMap_cons]
  ends := by
    intro v i t h1 h2
    exact absurd (flProg_adds h1).1 h2
  lanes := by
    intro v i l t w j m u e a h1 h2 _ _ _
    exact absurd (flProg_adds (flProg_lanes h1).2).1 h2

theorem flProg_laidOut : LaidOut flProg 0 where
  drawing := flProg_drawing
  document := ⟨"doc", by simp [flProg]⟩
  linked := flProg_linked
  fitting := flProg_fitting
  reached := by
    have h0 : ReachedRoad flProg 0 0 := .anchor ⟨by simp [flProg], .inr ⟨by
      rintro w - ⟨i, pv, l, t, n, ru, x, y, h, -, h2⟩
      simp [flProg, flLane] at h2, by simp [roadCalls, flProg, flLane, List.filterMap_cons]⟩⟩
    intro v hv
    simp [flProg, flLane] at hv
    rcases hv with rfl | rfl
    · exact h0
    · exact .own (e := .start) (l := ⟨.predecessor, .int 1, some .road, some .end, none⟩) flProg_added.2 flProg_added.1
        (by simp [linkCall, flProg_preds]) (by simp) rfl h0
  own :=
    { lanes := by
        intro v i l t w j u h1 h2
        exact (flProg_lanes h1).1.symm.trans (flProg_lanes h2).1
      sections := by
        intro v i l t sec _ h2
        have : sec = 0 ∨ sec = 1 := by
          obtain ⟨c, hc, hc'⟩ := List.mem_filterMap.mp h2
          cases c <;> simp at hc'
          case addLanesection x sec' lk =>
            obtain ⟨rfl, rfl⟩ := hc'
            simp [flProg, flLane] at hc
            omega
        rcases this with rfl | rfl <;> simp [sectionPuts, flProg, flLane, List.filter_cons] }

/-- `C95_joint` applied: the lanes at the common end of the two roads are linked to each other, the others get no links. -/
theorem flProg_links :
    let new := newLinks (runCalls flProg flStart).2.laneObjs ((Call.adjust 0).step (runCalls flProg flStart).2).2.laneObjs
    new 11 .successor = [laneLink .successor 1] ∧ new 21 .predecessor = [laneLink .predecessor 1] ∧
    new 12 .successor = [laneLink .successor (-1)] ∧ new 22 .predecessor = [laneLink .predecessor (-1)] ∧ new 0 .successor = [] := by
  have added : ∀ v i t, AddsRoad flProg 0 v i t → AddsLanes flProg 0 v i v t := by
    rintro v i t ⟨h1, pv, l, n, ru, h2⟩
    obtain ⟨-, rfl, -⟩ := flProg_road h2
    exact ⟨h1, _, _, _, h2⟩
  have key := C95_joint flProg flStart flStart_blank 0 flProg_laidOut 0 1 _ _ 0 1 (by decide) (added _ _ _ flProg_added.1)
    (added _ _ _ flProg_added.2)
    ⟨⟨⟨.successor, .int 2, some .road, some .start, none⟩, by simp [linkCall, flProg_succs], rfl, rfl⟩,
      ⟨.predecessor, .int 1, some .road, some .end, none⟩, by simp [linkCall, flProg_preds], rfl, rfl⟩ 0 1
    (by simp [sectionCall, sectionCalls, flProg, flLane, List.filterMap_cons])
    (by simp [sectionCall, sectionCalls, flProg, flLane, List.filterMap_cons]) 0
  refine ⟨(key 11).1 ?_, (key 21).2.2.1 ?_, (key 12).2.1 ?_, (key 22).2.2.2 ?_, ?_⟩
  · simp [leftCalls, flProg, flLane, List.filterMap_cons]
  · simp [leftCalls, flProg, flLane, List.filterMap_cons]
  · simp [rightCalls, flProg, flLane, List.filterMap_cons]
  · simp [rightCalls, flProg, flLane, List.filterMap_cons]
  · by_contra hne
    obtain ⟨e, v, i, l, t, w, j, m, sec, -, -, -, -, -, hx, -⟩ := C95_no_others flProg flStart flStart_blank 0 flProg_laidOut 0 _ hne
    rcases List.mem_append.mp hx with h3 | h3 <;> obtain ⟨c, hc, hc'⟩ := List.mem_filterMap.mp h3 <;> cases c <;> simp at hc' <;>
      obtain ⟨rfl, rfl⟩ := hc' <;> simp [flProg, flLane] at hc

end Pyodrx.Props
