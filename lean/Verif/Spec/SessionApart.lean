import Verif.Spec.SessionProgram

/-! # Specification: two programs that have nothing to do with each other -/

namespace Pyodrx.Spec
open Pyodrx

variable {F : Type}

/-- The call gives ids to objects or signals, and for this looks at the ids that are in use in the whole process. -/
def GivesIds : Call F → Prop
  | .addObject _ _ => True
  | .addSignal _ _ => True
  | _ => False

/-- The program makes the object; it has to do with the ids in use if it adds objects or signals to roads. -/
def Concerns (p : List (Call F)) (x : Part) : Prop :=
  (∃ c ∈ p, Makes c x) ∨ (x = .usedIds ∧ ∃ c ∈ p, GivesIds c)

/-- The program uses objects only that it has made itself, after it made them. A planview is given a start pose completely or not at all
(otherwise the constructor raises and makes nothing). -/
structure OnItsOwn (p : List (Call F)) : Prop where
  uses : ∀ before c rest, p = before ++ c :: rest → ∀ x, Uses c x → ∃ d ∈ before, Makes d x
  poses : ∀ v x y h, .planView v x y h ∈ p → (x.isSome ∧ y.isSome ∧ h.isSome) ∨ (x = none ∧ y = none ∧ h = none)

/-- Nothing is concerned by both programs. -/
def Apart (p q : List (Call F)) : Prop := ∀ x, Concerns p x → ¬ Concerns q x

/-- The third list consists of the elements of the first and of the second one; the elements of each of the two are in their order. -/
inductive Merge {α : Type} : List α → List α → List α → Prop
  | nil : Merge [] [] []
  | left {l m n : List α} (a : α) : Merge l m n → Merge (a :: l) m (a :: n)
  | right {l m n : List α} (a : α) : Merge l m n → Merge l (a :: m) (a :: n)

/-- In the state `s`, the first object refers to the second one. -/
def Refers (s : Session F) : Part → Part → Prop
  | .planView v, y => ∃ g, y = .geometry g ∧ (g ∈ (s.planviews.cell v).raw ∨ ∃ a ∈ (s.planviews.cell v).adjGeoms, a.geom = g)
  | .laneSection v, y => ∃ l, y = .lane l ∧ (l = (s.sections.cell v).center ∨ l ∈ (s.sections.cell v).left ∨ l ∈ (s.sections.cell v).right)
  | .linker v, y => ∃ k ∈ s.linkers.cell v, y = .lane k.predecessor ∨ y = .lane k.successor
  | .lanes v, y => ∃ i ∈ s.lanesObjs.cell v, y = .laneSection i
  | .road v, y => y = .planView (s.roads.cell v).pv ∨ y = .lanes (s.roads.cell v).lanes ∨
    (∃ i ∈ (s.roads.cell v).attrs.objects, y = .object i) ∨ ∃ i ∈ (s.roads.cell v).attrs.signals, y = .signal i
  | .junction v, y => ∃ c ∈ (s.junctions.cell v).connections, y = .connection c
  | .openDrive v, y => (∃ kv ∈ (s.openDrives.cell v).roads, y = .road kv.2) ∨ ∃ j ∈ (s.openDrives.cell v).junctions, y = .junction j
  | _, _ => False

end Pyodrx.Spec
