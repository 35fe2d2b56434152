import Verif.Proofs.SessionApart

/-! # C101: programs that have nothing to do with each other -/

namespace Pyodrx.Props
open Pyodrx PyFloat Pyodrx.Spec

variable {F : Type} [PyFloat F]

/-- **C101** (document): two programs make their own objects and use only these, and they do not both add objects or signals to roads. However
their calls are interleaved in one process, every `OpenDrive` gets the document, or raises the exception, that it gets if its program runs
alone. -/
theorem C101_document {p q r : List (Call F)} (hp : OnItsOwn p) (hq : OnItsOwn q) (ha : Apart p q) (hm : Merge p q r) (s : Session F)
    (o : Nat) (date : String) :
    ((∃ name, .openDrive o name ∈ p) → (runCalls r s).2.getElement o date = (runCalls p s).2.getElement o date) ∧
      ((∃ name, .openDrive o name ∈ q) → (runCalls r s).2.getElement o date = (runCalls q s).2.getElement o date) := by
  obtain ⟨-, h1, h2, c1, c2⟩ := apart_run hp hq ha hm s
  exact ⟨fun ⟨n, hn⟩ => document_apart h1 c1 ⟨_, hn, rfl⟩ date, fun ⟨n, hn⟩ => document_apart h2 c2 ⟨_, hn, rfl⟩ date⟩

/-- **C101** (outcomes): and every call raises what it raises if its program runs alone. -/
theorem C101_outcomes {p q r : List (Call F)} (hp : OnItsOwn p) (hq : OnItsOwn q) (ha : Apart p q) (hm : Merge p q r) (s : Session F) :
    Merge (runCalls p s).1 (runCalls q s).1 (runCalls r s).1 :=
  (apart_run hp hq ha hm s).1

theorem merge_append {α : Type} : ∀ p q : List α, Merge p q (p ++ q)
  | [], [] => .nil
  | [], b :: q => .right b (merge_append [] q)
  | a :: p, q => .left a (merge_append p q)

theorem merge_append' {α : Type} : ∀ p q : List α, Merge p q (q ++ p)
  | [], [] => .nil
  | a :: p, [] => .left a (merge_append' p [])
  | p, b :: q => .right b (merge_append' p q)

/-- **C101** (again): a program that was run in a process before another one, or is run after it, does not change its documents. -/
theorem C101_again {p q : List (Call F)} (hp : OnItsOwn p) (hq : OnItsOwn q) (ha : Apart p q) (s : Session F) (o : Nat) (date : String)
    (ho : ∃ name, .openDrive o name ∈ p) :
    (runCalls (q ++ p) s).2.getElement o date = (runCalls p s).2.getElement o date ∧
      (runCalls (p ++ q) s).2.getElement o date = (runCalls p s).2.getElement o date :=
  ⟨(C101_document hp hq ha (merge_append' p q) s o date).1 ho, (C101_document hp hq ha (merge_append p q) s o date).1 ho⟩

/-- **C101** (start): what a program does does not depend on what was in the process before it, except for the ids in use, and for these
only if it adds objects or signals to roads. -/
theorem C101_start {p : List (Call F)} (hp : OnItsOwn p) {s s' : Session F} (hr : (∃ c ∈ p, GivesIds c) → s.reg = s'.reg) :
    (runCalls p s).1 = (runCalls p s').1 ∧ ∀ o, (∃ name, .openDrive o name ∈ p) → ∀ date,
      (runCalls p s).2.getElement o date = (runCalls p s').2.getElement o date :=
  ⟨(own_run hp hr).1, fun o ⟨_, hn⟩ date => (own_run hp hr).2 o ⟨_, hn, rfl⟩ date⟩

/-- **C101** (twice): a script that adds no objects and no signals, run again in the same process, after anything else was done there,
raises the same exceptions and makes the same documents. -/
theorem C101_twice {p : List (Call F)} (hp : OnItsOwn p) (hg : ∀ c ∈ p, ¬ GivesIds c) (other : List (Call F)) (s : Session F) (o : Nat)
    (date : String) (ho : ∃ name, .openDrive o name ∈ p) :
    (runCalls p (runCalls (p ++ other) s).2).1 = (runCalls p s).1 ∧
      (runCalls (p ++ other ++ p) s).2.getElement o date = (runCalls p s).2.getElement o date := by
  have h := C101_start hp (s := (runCalls (p ++ other) s).2) (s' := s) fun ⟨c, hc, hc'⟩ => absurd hc' (hg c hc)
  refine ⟨h.1, ?_⟩
  rw [runCalls_append (p ++ other) p s]
  exact h.2 o ho date

end Pyodrx.Props
