import Verif.Props.SessionAdjust
import Verif.Props.SessionProgramExample

/-! # Programs that meet the hypotheses of C92

Two roads and a connecting road between them; the roads are made, added and linked first and drawn afterwards. The second road
declares no link itself: it is reached only through the connecting road. A fourth road is added to another document, or (`lost`)
to the same one, where it is not reached. The start of the connecting road can have a lane offset. -/

namespace Pyodrx.Props
open Pyodrx Pyodrx.Spec PyFloat

noncomputable def connProg (lost : Bool) (off : Int) (wd : Int := 3) : List (Call (Fl double)) :=
  [.openDrive 0 "doc", .openDrive 1 "other",
   .planView 0 none none none, .planView 1 none none none, .planView 2 none none none, .planView 3 none none none,
   .lanes 0, .lanes 1, .lanes 2, .lanes 3,
   .road 0 (.int 1) 0 0 (-1) none none, .road 1 (.int 2) 1 1 (-1) none none, .road 2 (.int 100) 2 2 7 none none,
   .road 3 (.int 3) 3 3 (-1) none none,
   .addRoad 0 0, .addRoad 0 1, .addRoad 0 2, .addRoad (if lost then 0 else 1) 3,
   .addPredecessor 2 .road (.int 1) (some .end) off, .addSuccessor 2 .road (.int 2) (some .start) 0,
   .geometry 0 (flGeom 0), .geometry 1 (flGeom 3), .geometry 2 (flGeom 2), .geometry 3 (flGeom 1),
   .addGeometry 0 0 none, .addGeometry 1 1 none, .addGeometry 2 2 none, .addGeometry 3 3 none,
   flLane 0 wd, flLane 11 wd, flLane 12 wd, flLane 13 wd, flLane 21 wd, flLane 22 wd, flLane 31 wd,
   .laneSection 0 (ofInt 0) 0, .laneSection 1 (ofInt 0) 0, .laneSection 2 (ofInt 0) 0,
   .addLanesection 0 0 [], .addLanesection 1 1 [], .addLanesection 2 2 [],
   .addLeftLane 0 11, .addLeftLane 1 21, .addRightLane 0 12, .addRightLane 0 13, .addRightLane 1 22, .addRightLane 2 31,
   .object 50 (exPole none), .object 51 (exPole (some (.int 7))), .addObject 0 [51]]

theorem connProg_proper (lost : Bool) (off : Int) (wd : Int := 3) : Proper (connProg lost off wd) := by
  have := properCheck_sound (connProg lost off wd) [] [] (by simp) (by cases lost <;> rfl)
  simpa [Proper] using this

theorem connProg_drawing (lost : Bool) (off : Int) (wd : Int := 3) : Drawing (connProg lost off wd) where
  proper := connProg_proper lost off wd
  poses := by
    intro v x y h hm
    simp [connProg, flLane] at hm
    exact .inr (by rcases hm with ⟨_, a, b, c⟩ | ⟨_, a, b, c⟩ | ⟨_, a, b, c⟩ | ⟨_, a, b, c⟩ <;> exact ⟨a, b, c⟩)
  headings := by
    intro pv g h hm
    simp [connProg, flLane] at hm
    rcases hm with ⟨_, _, h⟩ | ⟨_, _, h⟩ | ⟨_, _, h⟩ | ⟨_, _, h⟩ <;> exact h
  nonempty := by
    intro v x y h hm
    simp [connProg, flLane] at hm
    rcases hm with ⟨rfl, _⟩ | ⟨rfl, _⟩ | ⟨rfl, _⟩ | ⟨rfl, _⟩
    · exact ⟨0, by simp [connProg]⟩
    · exact ⟨1, by simp [connProg]⟩
    · exact ⟨2, by simp [connProg]⟩
    · exact ⟨3, by simp [connProg]⟩
  own := by
    intro v i pv l t n ru v' i' l' t' n' ru' h h'
    simp [connProg, flLane] at h h'
    omega
  arcs := by
    intro v a h
    simp [connProg, flLane, flGeom] at h
    rw [h.2, flFile_values.1]; norm_num
  marks := by intro l m h; simp [connProg, flLane] at h
  signals := by intro v g h; simp [connProg, flLane] at h
  start := by intro v g h; simp [connProg, flLane] at h
  once := by intro v h; simp [connProg, flLane] at h

theorem connProg_road {lost : Bool} {off wd : Int} {v : Nat} {i : PyId} {pv l : Nat} {t : Int} {n ru : Option String}
    (h : .road v i pv l t n ru ∈ connProg lost off wd) :
    pv = v ∧ l = v ∧ n = none ∧ ru = none ∧ ((v = 0 ∧ i = .int 1 ∧ t = -1) ∨ (v = 1 ∧ i = .int 2 ∧ t = -1) ∨
      (v = 2 ∧ i = .int 100 ∧ t = 7) ∨ (v = 3 ∧ i = .int 3 ∧ t = -1)) := by
  simp [connProg, flLane] at h
  rcases h with h | h | h | h <;> obtain ⟨rfl, rfl, rfl, rfl, rfl, rfl, rfl⟩ := h <;> simp

theorem connProg_adds {lost : Bool} {off wd : Int} {v : Nat} {i : PyId} {t : Int} (h : AddsRoad (connProg lost off wd) 0 v i t) :
    (v = 0 ∧ i = .int 1 ∧ t = -1) ∨ (v = 1 ∧ i = .int 2 ∧ t = -1) ∨ (v = 2 ∧ i = .int 100 ∧ t = 7) ∨
      (v = 3 ∧ i = .int 3 ∧ t = -1 ∧ lost = true) := by
  obtain ⟨h1, _, _, _, _, h2⟩ := h
  obtain ⟨-, -, -, -, h2⟩ := connProg_road h2
  rcases h2 with h2 | h2 | h2 | ⟨rfl, h2, h3⟩
  · exact .inl h2
  · exact .inr (.inl h2)
  · exact .inr (.inr (.inl h2))
  · refine .inr (.inr (.inr ⟨rfl, h2, h3, ?_⟩))
    cases lost
    · simp [connProg, flLane] at h1
    · rfl

theorem connProg_added (lost : Bool) (off : Int) (wd : Int := 3) :
    AddsRoad (connProg lost off wd) 0 0 (.int 1) (-1) ∧ AddsRoad (connProg lost off wd) 0 1 (.int 2) (-1) ∧
    AddsRoad (connProg lost off wd) 0 2 (.int 100) 7 ∧ AddsRoad (connProg true off wd) 0 3 (.int 3) (-1) := by
  refine ⟨⟨?_, 0, 0, none, none, ?_⟩, ⟨?_, 1, 1, none, none, ?_⟩, ⟨?_, 2, 2, none, none, ?_⟩, ?_, 3, 3, none, none, ?_⟩ <;>
    simp [connProg]

theorem connProg_preds (lost : Bool) (off : Int) {wd : Int} (v : Nat) : predecessorCalls v (connProg lost off wd) =
    if 2 = v then [(⟨.predecessor, .int 1, some .road, some .end, none⟩, off)] else [] := by
  by_cases h : 2 = v <;> simp [predecessorCalls, connProg, flLane, List.filterMap_cons, h]

theorem connProg_succs (lost : Bool) (off : Int) {wd : Int} (v : Nat) : successorCalls v (connProg lost off wd) =
    if 2 = v then [(⟨.successor, .int 2, some .road, some .start, none⟩, 0)] else [] := by
  by_cases h : 2 = v <;> simp [successorCalls, connProg, flLane, List.filterMap_cons, h]

theorem connProg_link {lost : Bool} {off wd : Int} {v : Nat} {x : Link × Int}
    (h : x ∈ predecessorCalls v (connProg lost off wd) ∨ x ∈ successorCalls v (connProg lost off wd)) : v = 2 ∧
    (x = (⟨.predecessor, .int 1, some .road, some .end, none⟩, off) ∨ x = (⟨.successor, .int 2, some .road, some .start, none⟩, 0)) := by
  rw [connProg_preds, connProg_succs] at h
  split at h
  · next hv => simpa [hv.symm] using h
  · simp at h

theorem connProg_linked (lost : Bool) (off : Int) (wd : Int := 3) : LinkedProgram (connProg lost off wd) 0 where
  adds := ⟨0, by simp [connProg]⟩
  ids := by
    intro v i t w j u h1 h2 h3
    rcases connProg_adds h1 with ⟨rfl, rfl, rfl⟩ | ⟨rfl, rfl, rfl⟩ | ⟨rfl, rfl, rfl⟩ | ⟨rfl, rfl, rfl, -⟩ <;>
      rcases connProg_adds h2 with ⟨rfl, rfl, rfl⟩ | ⟨rfl, rfl, rfl⟩ | ⟨rfl, rfl, rfl⟩ | ⟨rfl, rfl, rfl, -⟩ <;>
        first | rfl | exact absurd h3 (by decide)
  resolvable := by
    intro v i t x _ h2
    obtain ⟨a1, a2, a3, -⟩ := connProg_added lost off wd
    rcases connProg_link h2 with ⟨rfl, rfl | rfl⟩
    · exact ⟨_, _, _, a1, rfl⟩
    · exact ⟨_, _, _, a2, rfl⟩
  contacts := by
    intro v i t x _ h2 _
    rcases connProg_link h2 with ⟨rfl, rfl | rfl⟩ <;> simp
  connecting := by
    intro v i t x _ _ h2
    rcases connProg_link h2 with ⟨rfl, rfl | rfl⟩ <;> refine ⟨by simp, fun w j u h3 h4 => ?_⟩ <;>
      rcases connProg_adds h3 with ⟨rfl, rfl, rfl⟩ | ⟨rfl, rfl, rfl⟩ | ⟨rfl, rfl, rfl⟩ | ⟨rfl, rfl, rfl, -⟩ <;>
        first | rfl | exact absurd (show ("100" : String) = "1" from h4) (by decide) | exact absurd (show ("100" : String) = "2" from h4) (by decide)
  first := by
    intro v i t h1 h2
    simp [roadCalls, connProg, flLane, List.filterMap_cons] at h1
    rcases connProg_adds h2 with ⟨rfl, rfl, rfl⟩ | ⟨rfl, rfl, rfl⟩ | ⟨rfl, rfl, rfl⟩ | ⟨rfl, rfl, rfl, -⟩ <;>
      first | rfl | exact absurd h1 (by decide)
  posed := by
    intro v i pv l t n ru x y h _ _ h3
    simp [connProg, flLane] at h3
  usable := by
    intro v g h
    have : ∀ g, Spec.Usable (flGeom g) := by
      intro g
      unfold flGeom
      split <;> simp [Spec.Usable, flFile_values.1, flFile_values.2]
    simp [connProg, flLane] at h
    rcases h with ⟨_, rfl⟩ | ⟨_, rfl⟩ | ⟨_, rfl⟩ | ⟨_, rfl⟩ <;> exact this _

theorem connProg_linkCall {lost : Bool} {off wd : Int} {v : Nat} {e : ContactPoint} {l : Link} (h : linkCall v (connProg lost off wd) e = some l) :
    v = 2 ∧ ((e = .start ∧ l = ⟨.predecessor, .int 1, some .road, some .end, none⟩) ∨
      (e = .end ∧ l = ⟨.successor, .int 2, some .road, some .start, none⟩)) := by
  by_cases hv : 2 = v <;> cases e <;> simp [linkCall, connProg_preds, connProg_succs, hv] at h <;> subst hv <;> simp [h]

theorem connProg_fitting (lost : Bool) (off : Int) (wd : Int := 3) : FittingLanes (connProg lost off wd) 0 where
  once := by
    intro v i l t sec x h1 h2 h3
    have h : .addLeftLane sec x ∈ connProg lost off wd ∨ .addRightLane sec x ∈ connProg lost off wd := by
      rcases List.mem_append.mp h3 with h3 | h3 <;> obtain ⟨c, hc, hc'⟩ := List.mem_filterMap.mp h3 <;> cases c <;> simp at hc' <;>
        obtain ⟨rfl, rfl⟩ := hc'
      · exact .inl hc
      · exact .inr hc
    simp [connProg, flLane] at h
    have : x = 11 ∨ x = 12 ∨ x = 13 ∨ x = 21 ∨ x = 22 ∨ x = 31 := by omega
    rcases this with rfl | rfl | rfl | rfl | rfl | rfl <;> simp [puts, connProg, flLane, List.filter_cons]
  joints := by
    intro v i l w j m a b _ _ _ h1 h2 h3 h4 _ _
    obtain ⟨rfl, h1⟩ := connProg_linkCall h1
    obtain ⟨rfl, h4⟩ := connProg_linkCall h4
    contradiction
  ends := by
    intro v i t h1 h2
    rcases connProg_adds h1 with ⟨rfl, rfl, rfl⟩ | ⟨rfl, rfl, rfl⟩ | ⟨rfl, rfl, rfl⟩ | ⟨rfl, rfl, rfl, -⟩ <;>
      first | exact absurd rfl h2 | skip
    refine ⟨⟨.predecessor, .int 1, some .road, some .end, none⟩, ⟨.successor, .int 2, some .road, some .start, none⟩, ?_, ?_, ?_⟩
    · simp [linkCall, connProg_preds]
    · simp [linkCall, connProg_succs]
    · simp
  lanes := by
    intro v i l t w j m u e a h1 h2 h3 h4 h5
    obtain ⟨h0, pv, n, ru, h1⟩ := h1
    obtain ⟨-, rfl, -⟩ := connProg_road h1
    obtain ⟨h0', pv', n', ru', h3⟩ := h3
    obtain ⟨-, rfl, -, -, h3⟩ := connProg_road h3
    obtain ⟨rfl, ⟨rfl, rfl⟩ | ⟨rfl, rfl⟩⟩ := connProg_linkCall h4
    · subst h5
      obtain rfl : m = 0 := by simp at h3; exact h3.1
      refine ⟨2, 0, 0, ?_, ?_, ?_, ?_⟩ <;>
        simp [sectionCall, sectionCalls, FewerLanes, leftCalls, rightCalls, connProg, flLane, List.filterMap_cons]
    · subst h5
      obtain rfl : m = 1 := by simp at h3; exact h3.1
      refine ⟨2, 1, 1, ?_, ?_, ?_, ?_⟩ <;>
        simp [sectionCall, sectionCalls, FewerLanes, leftCalls, rightCalls, connProg, flLane, List.filterMap_cons]

theorem connProg_anchor (lost : Bool) (off : Int) (wd : Int := 3) : AnchorRoad (connProg lost off wd) 0 0 := by
  refine ⟨by simp [connProg], .inr ⟨?_, by simp [roadCalls, connProg, flLane, List.filterMap_cons]⟩⟩
  rintro w - ⟨i, pv, l, t, n, ru, x, y, h, -, h2⟩
  simp [connProg, flLane] at h2

theorem connProg_reached {lost : Bool} {off wd : Int} {v : Nat} (h : ReachedRoad (connProg lost off wd) 0 v) : v ≠ 3 := by
  induction h with
  | anchor h =>
    rintro rfl
    rcases h.2 with ⟨i, pv, l, t, n, ru, x, y, h, -, h2⟩ | ⟨-, h⟩
    · simp [connProg, flLane] at h2
    · simp [roadCalls, connProg, flLane, List.filterMap_cons] at h
  | own h1 h2 h3 _ _ _ _ =>
    rintro rfl
    exact absurd (connProg_linkCall h3).1 (by decide)
  | connecting h1 h2 h3 h4 h5 _ _ =>
    rintro rfl
    rcases connProg_adds h1 with ⟨h, -⟩ | ⟨h, -⟩ | ⟨h, -⟩ | ⟨-, rfl, -⟩
    · cases h
    · cases h
    · cases h
    · obtain ⟨-, ⟨-, rfl⟩ | ⟨-, rfl⟩⟩ := connProg_linkCall h4 <;> exact absurd h5 (by decide)

/-- `C92_returns` applied: without the lost road `adjust_roads_and_lanes` returns, with it it raises. -/
theorem connProg_returns (off : Int) (wd : Int := 3) : ((Call.adjust 0).step (runCalls (connProg false off wd) flStart).2).1 = none ∧
    ((Call.adjust 0).step (runCalls (connProg true off wd) flStart).2).1 = some .undefinedRoadNetwork := by
  have key : ∀ lost, _ := fun lost => C92_returns (connProg lost off wd) (connProg_drawing lost off wd) flStart flStart_blank 0 "doc"
    (by simp [connProg]) (connProg_linked lost off wd) (connProg_fitting lost off wd)
  constructor
  · refine (key false).1.mpr fun v hv => ?_
    obtain ⟨a1, a2, a3, -⟩ := connProg_added false off wd
    have h0 := ReachedRoad.anchor (connProg_anchor false off wd)
    have h2 : ReachedRoad (connProg false off wd) 0 2 :=
      .own (e := .start) (l := ⟨.predecessor, .int 1, some .road, some .end, none⟩) a3 a1 (by simp [linkCall, connProg_preds])
        (by simp) rfl h0
    have h1 : ReachedRoad (connProg false off wd) 0 1 :=
      .connecting (e := .end) (l := ⟨.successor, .int 2, some .road, some .start, none⟩) a2 a3 (by decide)
        (by simp [linkCall, connProg_succs]) rfl h2
    simp [connProg, flLane] at hv
    rcases hv with rfl | rfl | rfl
    · exact h0
    · exact h1
    · exact h2
  · refine (key true).2 fun h => ?_
    exact connProg_reached (h 3 (by simp [connProg])) rfl

end Pyodrx.Props
