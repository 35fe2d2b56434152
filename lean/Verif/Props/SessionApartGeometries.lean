import Verif.Proofs.SessionApartGeometries
import Verif.Props.SessionApartExample

/-! # C101: programs that have nothing to do with each other and call `adjust_geometries` -/

namespace Pyodrx.Props
open Pyodrx PyFloat Pyodrx.Spec

section
variable {F : Type} [PyFloat F]

/-- **C101** (geometries): also if the programs call `adjust_geometries` of their planviews, forwards or backwards, before or after
`adjust_roads_and_lanes`, once or more often: every call raises what it raises if its program runs alone, and the documents are the same. -/
theorem C101_geometries {p q r : List (Act F)} (hp : OnItsOwn (likeCalls p)) (hq : OnItsOwn (likeCalls q))
    (ha : Apart (likeCalls p) (likeCalls q)) (hm : Merge p q r) (s : Session F) :
    Merge (runActs p s).1 (runActs q s).1 (runActs r s).1 ∧ ∀ o date,
      ((∃ name, .call (.openDrive o name) ∈ p) → (runActs r s).2.getElement o date = (runActs p s).2.getElement o date) ∧
      ((∃ name, .call (.openDrive o name) ∈ q) → (runActs r s).2.getElement o date = (runActs q s).2.getElement o date) := by
  obtain ⟨h0, h1, h2, c1, c2⟩ := acts_apart hp hq ha hm s
  exact ⟨h0, fun o date => ⟨fun ⟨n, hn⟩ => document_apart h1 c1 ⟨_, List.mem_map.mpr ⟨_, hn, rfl⟩, rfl⟩ date,
    fun ⟨n, hn⟩ => document_apart h2 c2 ⟨_, List.mem_map.mpr ⟨_, hn, rfl⟩, rfl⟩ date⟩⟩

/-- **C101** (geometries, start): and it does not matter what was in the process before, except for the ids in use, and for these only if the
program adds objects or signals. -/
theorem C101_geometries_start {p : List (Act F)} (hp : OnItsOwn (likeCalls p)) {s s' : Session F}
    (hr : (∃ c, .call c ∈ p ∧ GivesIds c) → s.reg = s'.reg) :
    (runActs p s).1 = (runActs p s').1 ∧ ∀ o, (∃ name, .call (.openDrive o name) ∈ p) → ∀ date,
      (runActs p s).2.getElement o date = (runActs p s').2.getElement o date := by
  have := acts_own hp (s := s) (s1 := s') fun ⟨c, hc, hg⟩ => hr (by
    obtain ⟨a, ha, rfl⟩ := List.mem_map.mp hc
    cases a with
    | call c => exact ⟨c, ha, hg⟩
    | geometries v b => exact absurd hg not_false)
  exact ⟨this.1, fun o ⟨n, hn⟩ date => this.2 o ⟨_, List.mem_map.mpr ⟨_, hn, rfl⟩, rfl⟩ date⟩

/-- The programs of calls among these programs. -/
theorem runActs_calls : ∀ (p : List (Call F)) (s : Session F), (runActs (p.map .call) s).2 = (runCalls p s).2 ∧
    (runActs (p.map .call) s).1 = (runCalls p s).1.map fun c => (.call c.1, c.2)
  | [], s => ⟨rfl, rfl⟩
  | c :: p, s => by
    have := runActs_calls p (c.step s).2
    simp only [List.map_cons, runActs, runCalls]
    exact ⟨this.1, congrArg _ this.2⟩

end

/-! Programs that meet the hypotheses: the second program of C101 with its planviews adjusted by hand, once before and once after
`adjust_roads_and_lanes`, in a process in which the first one runs. -/

noncomputable def actsSecond : List (Act (Fl double)) :=
  [.call (.openDrive 100 "doc"), .call (.planView 100 (some (ofInt 5)) (some (ofInt 0)) (some (ofInt 1))), .call (.lanes 100),
   .call (.road 100 (.int 1) 100 100 (-1) none none), .call (.addRoad 100 100), .call (.geometry 100 (flGeom 0)),
   .call (.addGeometry 100 100 none), .geometries 100 true, .call (.adjust 100), .geometries 100 false]

theorem actsSecond_own : OnItsOwn (likeCalls actsSecond) where
  uses := by
    have h := properCheck_sound (likeCalls actsSecond) [] [] (by simp) rfl
    intro before c rest hp x hx
    simpa using (h before c rest hp).1 x hx
  poses := by
    intro v x y h hm
    simp [likeCalls, actsSecond, Act.like] at hm
    obtain ⟨-, rfl, rfl, rfl⟩ := hm
    exact .inl ⟨rfl, rfl, rfl⟩

theorem actsFirst_like : likeCalls (apartFirst.map Act.call) = apartFirst := by
  simp [likeCalls, Act.like, Function.comp_def]

theorem acts_first_second : Apart (likeCalls (apartFirst.map Act.call)) (likeCalls actsSecond) := by
  have h2 : ∀ c ∈ likeCalls actsSecond, (∀ x, makerPart c = some x → x ≠ .usedIds ∧ 100 ≤ partVar x) ∧ ¬ GivesIds c := by
    intro c hc
    simp only [likeCalls, actsSecond, Act.like, List.map_cons, List.map_nil, List.mem_cons, List.not_mem_nil, or_false] at hc
    repeat' first
      | (rcases hc with rfl | hc
         · simp [makerPart, GivesIds, partVar])
      | (subst hc; simp [makerPart, GivesIds, partVar])
  rw [actsFirst_like]
  rintro x h1 (⟨c, hc, hx⟩ | ⟨-, c, hc, hx⟩)
  · have hx := (h2 c hc).1 x (makes_makerPart hx)
    rcases h1 with ⟨d, hd, h1⟩ | ⟨h1, -⟩
    · have := apartFirst_vars d hd x (makes_makerPart h1); omega
    · exact hx.1 h1
  · exact (h2 c hc).2 hx

/-- The second program runs in the middle of the first one, before `adjust_roads_and_lanes`. -/
example (s : Session (Fl double)) (date : String) :
    (runActs ((connProg false 0).map Act.call ++ actsSecond ++ [.call (.adjust 0)]) s).2.getElement 100 date =
        (runActs actsSecond s).2.getElement 100 date ∧
      (runActs ((connProg false 0).map Act.call ++ actsSecond ++ [.call (.adjust 0)]) s).2.getElement 0 date =
        (runActs (apartFirst.map .call) s).2.getElement 0 date := by
  have hm : ∀ (a b c : List (Act (Fl double))), Merge (a ++ c) b (a ++ b ++ c) := by
    intro a b c
    induction a with
    | nil => exact merge_append' c b
    | cons x a ih => exact .left x ih
  have h := (C101_geometries (by rw [actsFirst_like]; exact apartFirst_own) actsSecond_own acts_first_second
    (by rw [show apartFirst.map Act.call = (connProg false 0).map Act.call ++ [.call (.adjust 0)] by simp [apartFirst]]
        exact hm ((connProg false 0).map Act.call) actsSecond [.call (.adjust 0)]) s).2
  exact ⟨(h 100 date).2 ⟨"doc", by simp [actsSecond]⟩, (h 0 date).1 ⟨"doc", by simp [apartFirst, connProg]⟩⟩

end Pyodrx.Props
