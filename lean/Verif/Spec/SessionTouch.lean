import Verif.Spec.SessionDocument
import Verif.Spec.SessionJoints
import Verif.Spec.FloatFile
import Verif.Spec.Touch

/-! # Specification: linked lanes touch, in the document of a program of calls -/

namespace Pyodrx.Spec
open Pyodrx

variable {R : Rounding}

/-- The numbers of a lane of a document, as real numbers. (Its road mark does not matter here.) -/
def RLane.real (l : RLane (Fl R)) : RLane ℝ :=
  ⟨l.id, l.type, l.level, l.links, l.a.val, l.b.val, l.c.val, l.d.val, l.sOffset.val, none⟩

/-- The numbers of a lane section of a document, as real numbers. -/
def RSection.real (s : RSection (Fl R)) : RSection ℝ :=
  ⟨s.s.val, s.left.map RLane.real, s.center.map RLane.real, s.right.map RLane.real⟩

/-- The program makes the lane `x` so that it is `w` wide at the distance `u` from the start of its lane section. -/
def MadeWide (p : List (Call (Fl R))) (x : Nat) (u w : ℝ) : Prop :=
  ∃ t a b c d so, .lane x t a b c d so ∈ p ∧
    w = a.val + b.val * (u - so.val) + c.val * (u - so.val) ^ 2 + d.val * (u - so.val) ^ 3

/-- The lanes `xs` (from the reference line outwards) have counterparts among `ys`, of the same widths. -/
def SidesAgree (p : List (Call (Fl R))) (xs : List Nat) (u : ℝ) (ys : List Nat) (u' : ℝ) : Prop :=
  ∀ (n : Nat) (x : Nat), xs[n]? = some x → ∃ y w, ys[n]? = some y ∧ MadeWide p x u w ∧ MadeWide p y u' w

/-- The lanes of the section `a`, at the distance `u` from its start, have counterparts in the section `b`, at the distance `u'` from its
start: on the same side, or (if two starts or two ends of roads meet) on the other side. -/
def SectionsAgree (p : List (Call (Fl R))) (e : ContactPoint) (a : Nat) (u : ℝ) (e' : ContactPoint) (b : Nat) (u' : ℝ) : Prop :=
  if e = e' then SidesAgree p (leftCalls a p) u (rightCalls b p) u' ∧ SidesAgree p (rightCalls a p) u (leftCalls b p) u'
  else SidesAgree p (leftCalls a p) u (leftCalls b p) u' ∧ SidesAgree p (rightCalls a p) u (rightCalls b p) u'

/-- Lanes at the end `e` of the road `v` are linked to lanes at the end `e'` of the road `w`: `v` is a connecting road and declares this
link, or the two are normal roads that declare each other as successor and predecessor. -/
def LanesLinked (p : List (Call (Fl R))) (o v : Nat) (e : ContactPoint) (w : Nat) (e' : ContactPoint) : Prop :=
  ∃ i l t j m u, AddsLanes p o v i l t ∧ AddsLanes p o w j m u ∧ v ≠ w ∧
    ((t ≠ -1 ∧ ∃ a, linkCall v p e = some a ∧ a.elementId = j ∧ a.contactPoint = some e') ∨
      (t = -1 ∧ u = -1 ∧ ((e = .end ∧ e' = .start ∧ Consecutive p v i w j) ∨ (e = .start ∧ e' = .end ∧ Consecutive p w j v i))))

/-- The lane `i` of the section `S`, where the reference line is at `P`, and the lane `j` of the section `T`, where the reference line is at
`Q`, have the same outer and the same inner edge, but for errors: `c` (of the positions) and `r` (of the directions) times the distance from
the reference line. `u`, `u'` are the distances of the places from the starts of the sections. -/
structure NearlyTouch (c r : ℝ) (P : Pose ℝ) (S : RSection ℝ) (u : ℝ) (i : Int) (Q : Pose ℝ) (T : RSection ℝ) (u' : ℝ) (j : Int) : Prop where
  outer : |(beside P (S.outer u i)).1 - (beside Q (T.outer u' j)).1| ≤ c + |T.outer u' j| * r ∧
    |(beside P (S.outer u i)).2 - (beside Q (T.outer u' j)).2| ≤ c + |T.outer u' j| * r
  inner : |(beside P (S.outer u (inwards i))).1 - (beside Q (T.outer u' (inwards j))).1| ≤ c + |T.outer u' (inwards j)| * r ∧
    |(beside P (S.outer u (inwards i))).2 - (beside Q (T.outer u' (inwards j))).2| ≤ c + |T.outer u' (inwards j)| * r

/-- No road that the program adds has a lane offset at its ends. -/
def NoOffsets (p : List (Call (Fl R))) (o : Nat) : Prop := ∀ v e, .addRoad o v ∈ p → offsetCall v p e = 0

/-- Where lanes are linked they correspond, with the same constant widths. -/
def AgreeingProgram (p : List (Call (Fl R))) (o : Nat) : Prop :=
  ∀ v e w e' i l t j m u a b, LanesLinked p o v e w e' → AddsLanes p o v i l t → AddsLanes p o w j m u →
    sectionCall l p e = some a → sectionCall m p e' = some b → ∀ x y, SectionsAgree p e a x e' b y

end Pyodrx.Spec
