import Verif.Spec.SessionLinks
import Verif.Spec.NoLoops

/-! # Specification: joints of roads after `adjust_roads_and_lanes`, in programs of calls -/

namespace Pyodrx.Spec
open Pyodrx

variable {R : Rounding}

/-- The program declares that the end `e` of the road `v` is at the end `e'` of the road `w`; both are added to `o`. -/
def Declares (p : List (Call (Fl R))) (o v : Nat) (e : ContactPoint) (w : Nat) (e' : ContactPoint) : Prop :=
  ∃ i t j u a, AddsRoad p o v i t ∧ AddsRoad p o w j u ∧ linkCall v p e = some a ∧ a.elementType ≠ some .junction ∧
    a.elementId.toStr = j.toStr ∧ a.contactPoint = some e'

/-- The declared joints (each counted once, even if both roads declare it) are no more than the roads that have to be placed. If
every road is reached (C92) there are no fewer either: the joints form a tree around each anchor. -/
def NoLoopsProgram (p : List (Call (Fl R))) (o : Nat) : Prop :=
  ∃ (L : List ((Nat × ContactPoint) × (Nat × ContactPoint))) (placed : List Nat),
    (∀ v e w e', Declares p o v e w e' → ((v, e), (w, e')) ∈ L ∨ ((w, e'), (v, e)) ∈ L) ∧ placed.Nodup ∧
    (∀ v ∈ placed, .addRoad o v ∈ p ∧ ¬ AnchorRoad p o v) ∧ L.length ≤ placed.length

/-- What `get_start_point()` and `get_end_point()` of the PlanView `pv` return. -/
def posePoint (s : Session (Fl R)) (pv : Nat) : ContactPoint → Option (Pose (Fl R))
  | .start => (s.planviews.cell pv).start
  | .end => (s.planviews.cell pv).stop

/-- The point beside the pose at the distance `t` to the left. -/
noncomputable def beside (q : Pose ℝ) (t : ℝ) : ℝ × ℝ := (q.x - t * Real.sin q.h, q.y + t * Real.cos q.h)

/-- Left of one road is left of the other if an end meets a start, else right. -/
def sideSign (e e' : ContactPoint) : ℝ := if e = e' then -1 else 1

end Pyodrx.Spec
