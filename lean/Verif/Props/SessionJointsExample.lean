import Verif.Props.SessionJoints
import Verif.Props.SessionLinksExample

/-! # A program that meets the hypotheses of C96: that of C92, with two roads and a connecting road -/

namespace Pyodrx.Props
open Pyodrx Pyodrx.Spec PyFloat

theorem connProg_declares {off wd : Int} {v w : Nat} {e e' : ContactPoint} (h : Declares (connProg false off wd) 0 v e w e') :
    v = 2 ∧ ((e = .start ∧ w = 0 ∧ e' = .end) ∨ (e = .end ∧ w = 1 ∧ e' = .start)) := by
  obtain ⟨i, t, j, u, a, -, h2, h3, -, h5, h6⟩ := h
  by_cases hv : 2 = v <;> cases e <;> simp [linkCall, connProg_preds, connProg_succs, hv] at h3
  all_goals
    subst h3
    refine ⟨hv.symm, ?_⟩
    rcases connProg_adds h2 with ⟨rfl, rfl, rfl⟩ | ⟨rfl, rfl, rfl⟩ | ⟨rfl, rfl, rfl⟩ | ⟨rfl, rfl, rfl, h⟩ <;>
      first | (simp at h6; simp [h6]; done) | exact absurd h5 (by decide)

theorem connProg_noLoops (off : Int) (wd : Int := 3) : NoLoopsProgram (connProg false off wd) 0 := by
  refine ⟨[((2, .start), (0, .end)), ((2, .end), (1, .start))], [1, 2], fun v e w e' h => ?_, by simp, fun v hv => ?_, by simp⟩
  · obtain ⟨rfl, ⟨rfl, rfl, rfl⟩ | ⟨rfl, rfl, rfl⟩⟩ := connProg_declares h <;> simp
  · refine ⟨?_, fun ⟨_, h⟩ => ?_⟩
    · simp at hv; rcases hv with rfl | rfl <;> simp [connProg]
    · rcases h with ⟨_, _, _, _, _, _, _, _, _, -, h⟩ | ⟨-, h⟩
      · simp [connProg, flLane] at h
      · simp [roadCalls, connProg, flLane, List.filterMap_cons] at h
        simp at hv; omega

/-- `C96_cross_section` applied: the connecting road begins where the first road ends, and ends where the second begins. -/
theorem connProg_joints :
    let s' := ((Call.adjust 0).step (runCalls (connProg false 0) flStart).2).2
    (∃ P Q, posePoint s' 2 .start = some P ∧ posePoint s' 0 .end = some Q ∧ (real P).x = (real Q).x ∧ (real P).y = (real Q).y) ∧
    ∃ P Q, posePoint s' 2 .end = some P ∧ posePoint s' 1 .start = some Q ∧ (real P).x = (real Q).x ∧ (real P).y = (real Q).y := by
  obtain ⟨a1, a2, a3, -⟩ := connProg_added false 0
  have d1 : Declares (connProg false 0) 0 2 .start 0 .end :=
    ⟨_, _, _, _, ⟨.predecessor, .int 1, some .road, some .end, none⟩, a3, a1, by simp [linkCall, connProg_preds], by simp, rfl, rfl⟩
  have d2 : Declares (connProg false 0) 0 2 .end 1 .start :=
    ⟨_, _, _, _, ⟨.successor, .int 2, some .road, some .start, none⟩, a3, a2, by simp [linkCall, connProg_succs], by simp, rfl, rfl⟩
  have z : ∀ v e, offsetCall v (connProg false 0) e = 0 := by
    intro v e
    by_cases hv : 2 = v <;> cases e <;> simp [offsetCall, connProg_preds, connProg_succs, hv]
  refine ⟨?_, ?_⟩
  · obtain ⟨P, Q, h1, h2, h3, h4, -⟩ := C96_cross_section (connProg false 0) flStart flStart_blank 0 (connProg_laidOut 0) (connProg_noLoops 0)
      2 0 _ _ d1 (.int 100) (.int 1) 2 0 2 0 7 (-1) none none none none (by simp [connProg]) (by simp [connProg]) (z _ _) (z _ _)
    exact ⟨P, Q, h1, h2, h3, h4⟩
  · obtain ⟨P, Q, h1, h2, h3, h4, -⟩ := C96_cross_section (connProg false 0) flStart flStart_blank 0 (connProg_laidOut 0) (connProg_noLoops 0)
      2 1 _ _ d2 (.int 100) (.int 2) 2 1 2 1 7 (-1) none none none none (by simp [connProg]) (by simp [connProg]) (z _ _) (z _ _)
    exact ⟨P, Q, h1, h2, h3, h4⟩

end Pyodrx.Props
