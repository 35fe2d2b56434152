import Verif.Props.SessionApart
import Verif.Props.SessionAdjustExample
import Verif.Props.SessionIds

/-! # Programs that meet the hypotheses of C101, and programs that do not

The first program makes two roads, a connecting road and a road in another document, adjusts them and adds objects. The second one
has roads with the same ids, linked with each other, in a document of its own, and a junction. -/

namespace Pyodrx.Props
open Pyodrx Pyodrx.Spec PyFloat

noncomputable def apartFirst : List (Call (Fl double)) := connProg false 0 ++ [.adjust 0]

noncomputable def apartSecond : List (Call (Fl double)) :=
  [.openDrive 100 "doc", .planView 100 none none none, .planView 101 none none none, .lanes 100, .lanes 101,
   .road 100 (.int 1) 100 100 (-1) none none, .road 101 (.int 2) 101 101 (-1) none none, .addRoad 100 100, .addRoad 100 101,
   .geometry 100 (flGeom 0), .geometry 101 (flGeom 3), .addGeometry 100 100 none, .addGeometry 101 101 none,
   flLane 100, flLane 101, flLane 102, flLane 103, .laneSection 100 (ofInt 0) 100, .laneSection 101 (ofInt 0) 101,
   .addLanesection 100 100 [], .addLanesection 101 101 [], .addRightLane 100 102, .addRightLane 101 103,
   .addSuccessor 100 .road (.int 2) (some .start) 0, .addPredecessor 101 .road (.int 1) (some .end) 0, .adjust 100,
   .junction 100 "crossing" (.int 9), .connection 100 (.int 1) (.int 2) .start none, .addLanelink 100 (-1) (-1),
   .addConnection 100 100, .addJunction 100 100]

theorem apartFirst_own : OnItsOwn apartFirst where
  uses := by
    have h := properCheck_sound apartFirst [] [] (by simp) rfl
    intro before c rest hp x hx
    simpa using (h before c rest hp).1 x hx
  poses := by
    intro v x y h hm
    simp [apartFirst, connProg, flLane] at hm
    exact .inr (by rcases hm with ⟨_, a, b, c⟩ | ⟨_, a, b, c⟩ | ⟨_, a, b, c⟩ | ⟨_, a, b, c⟩ <;> exact ⟨a, b, c⟩)

theorem apartSecond_own : OnItsOwn apartSecond where
  uses := by
    have h := properCheck_sound apartSecond [] [] (by simp) rfl
    intro before c rest hp x hx
    simpa using (h before c rest hp).1 x hx
  poses := by
    intro v x y h hm
    simp [apartSecond, flLane] at hm
    exact .inr (by rcases hm with ⟨_, a, b, c⟩ | ⟨_, a, b, c⟩ <;> exact ⟨a, b, c⟩)

/-- The variable of the part. -/
def partVar : Part → Nat
  | .geometry v | .planView v | .lane v | .laneSection v | .linker v | .lanes v | .road v | .roadId v | .object v | .signal v
  | .connection v | .junction v | .openDrive v => v
  | .usedIds => 0

theorem makes_makerPart {F : Type} {c : Call F} {x : Part} (h : Makes c x) : makerPart c = some x := by
  cases c <;> simp_all [Makes, makerPart]

theorem apartFirst_vars : ∀ c ∈ apartFirst, ∀ x, makerPart c = some x → partVar x < 100 := by
  intro c hc x hx
  simp only [apartFirst, connProg, flLane, List.cons_append, List.nil_append, List.mem_cons, List.not_mem_nil, or_false] at hc
  rcases hc with rfl | hc
  · simp only [makerPart, Option.some.injEq] at hx; subst hx; decide
  repeat' first
    | (rcases hc with rfl | hc
       · simp [makerPart] at hx <;> subst hx <;> decide)
    | (subst hc; simp [makerPart] at hx)

theorem apartSecond_vars : ∀ c ∈ apartSecond, (∀ x, makerPart c = some x → x ≠ .usedIds ∧ 100 ≤ partVar x) ∧ ¬ GivesIds c := by
  intro c hc
  simp only [apartSecond, flLane, List.mem_cons, List.not_mem_nil, or_false] at hc
  repeat' first
    | (rcases hc with rfl | hc
       · simp [makerPart, GivesIds, partVar])
    | (subst hc; simp [makerPart, GivesIds, partVar])

theorem apart_first_second : Apart apartFirst apartSecond := by
  rintro x h1 (⟨c, hc, h2⟩ | ⟨-, c, hc, h2⟩)
  · have h2 := (apartSecond_vars c hc).1 x (makes_makerPart h2)
    rcases h1 with ⟨d, hd, h1⟩ | ⟨h1, -⟩
    · have := apartFirst_vars d hd x (makes_makerPart h1); omega
    · exact h2.1 h1
  · exact (apartSecond_vars c hc).2 h2

theorem merge_alternate {α : Type} (a b : α) {p q r : List α} (h : Merge p q r) : Merge (a :: p) (b :: q) (a :: b :: r) :=
  .left a (.right b h)

/-- The calls of the first program between those of the second one, one after the other. -/
example : ∃ r, Merge apartFirst apartSecond r ∧ r ≠ apartFirst ++ apartSecond ∧ ∀ (s : Session (Fl double)) (date : String),
    (runCalls r s).2.getElement 0 date = (runCalls apartFirst s).2.getElement 0 date ∧
      (runCalls r s).2.getElement 100 date = (runCalls apartSecond s).2.getElement 100 date := by
  refine ⟨.openDrive 0 "doc" :: .openDrive 100 "doc" :: (apartFirst.tail ++ apartSecond.tail),
    merge_alternate _ _ (merge_append _ _), ?_, fun s date => ?_⟩
  · simp [apartFirst, apartSecond, connProg]
  · have hm : Merge apartFirst apartSecond (.openDrive 0 "doc" :: .openDrive 100 "doc" :: (apartFirst.tail ++ apartSecond.tail)) :=
      merge_alternate _ _ (merge_append _ _)
    exact ⟨(C101_document apartFirst_own apartSecond_own apart_first_second hm s 0 date).1 ⟨"doc", by simp [apartFirst, connProg]⟩,
      (C101_document apartFirst_own apartSecond_own apart_first_second hm s 100 date).2 ⟨"doc", by simp [apartSecond]⟩⟩

/-- The second program again, after the first one. -/
example (s : Session (Fl double)) (date : String) :
    (runCalls (apartSecond ++ apartFirst ++ apartSecond) s).2.getElement 100 date = (runCalls apartSecond s).2.getElement 100 date :=
  (C101_twice apartSecond_own (fun c hc => (apartSecond_vars c hc).2) apartFirst s 100 date ⟨"doc", by simp [apartSecond]⟩).2

/-! ## The ids that are in use belong to the whole process -/

def poleProg {F : Type} [PyFloat F] (v : Nat) : List (Call F) :=
  [.openDrive v "doc", .planView v none none none, .lanes v, .road v (.int 1) v v (-1) none none, .addRoad v v,
   .object v (exPole (some (.int 7))), .addObject v [v]]

/-- **C101** (ids): both programs make everything they use, and both add an object to a road. The pole of the first one has the
id 7 that its maker gave it if the program runs alone, and another one if the second program ran before it. -/
theorem C101_ids {F : Type} [PyFloat F] (s : Session F) (h : s.reg = []) :
    OnItsOwn (poleProg (F := F) 0) ∧ OnItsOwn (poleProg (F := F) 1) ∧
      ((runCalls (poleProg 0) s).2.objs.cell 0).base.id = some (.int 7) ∧
      ((runCalls (poleProg 1 ++ poleProg 0) s).2.objs.cell 0).base.id = some (.str "0") := by
  have own : ∀ v, v = 0 ∨ v = 1 → OnItsOwn (poleProg (F := F) v) := by
    rintro v hv
    refine ⟨fun before c rest hp x hx => ?_, fun v x y h hm => ?_⟩
    · have h := properCheck_sound (poleProg (F := F) v) [] [] (by simp) (by rcases hv with rfl | rfl <;> rfl)
      simpa using (h before c rest hp).1 x hx
    · simp [poleProg] at hm
      exact .inr ⟨hm.2.1, hm.2.2.1, hm.2.2.2⟩
  refine ⟨own 0 (.inl rfl), own 1 (.inr rfl), ?_, ?_⟩
  · cases s; subst h; rfl
  · have e : freeCounter ["7"] 0 = 0 := by unfold freeCounter; rw [dif_neg (by decide)]
    have : ((runCalls (poleProg 1 ++ poleProg 0) s).2.objs.cell 0).base.id = some (.str (Nat.repr (freeCounter ["7"] 0))) := by
      cases s; subst h; rfl
    rw [this, e]; rfl

end Pyodrx.Props
