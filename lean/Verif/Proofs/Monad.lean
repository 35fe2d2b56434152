import Verif.Model.OpenDrive

/-! # Reasoning about `EStateM` programs -/

namespace Pyodrx

section
variable {σ α β : Type}

theorem bind_ok {x : EStateM PyErr σ α} {f : α → EStateM PyErr σ β} {s s' : σ} {b : β} :
    (x >>= f) s = .ok b s' ↔ ∃ a s₁, x s = .ok a s₁ ∧ f a s₁ = .ok b s' := by
  rw [show (x >>= f) s = EStateM.bind x f s from rfl]; unfold EStateM.bind
  cases h : x s with
  | ok a s₁ =>
    simp only [EStateM.Result.ok.injEq]
    constructor
    · intro h; exact ⟨a, s₁, ⟨rfl, rfl⟩, h⟩
    · rintro ⟨a', s', ⟨rfl, rfl⟩, h⟩; exact h
  | error e s₁ => simp

theorem bind_error {x : EStateM PyErr σ α} {f : α → EStateM PyErr σ β} {s s' : σ} {e : PyErr} :
    (x >>= f) s = .error e s' ↔
      x s = .error e s' ∨ ∃ a s₁, x s = .ok a s₁ ∧ f a s₁ = .error e s' := by
  rw [show (x >>= f) s = EStateM.bind x f s from rfl]; unfold EStateM.bind
  cases h : x s with
  | ok a s₁ =>
    simp only [EStateM.Result.ok.injEq, reduceCtorEq, false_or]
    constructor
    · intro h; exact ⟨a, s₁, ⟨rfl, rfl⟩, h⟩
    · rintro ⟨a', s', ⟨rfl, rfl⟩, h⟩; exact h
  | error e s₁ => simp

theorem bind_of_ok {x : EStateM PyErr σ α} {f : α → EStateM PyErr σ β} {s s₁ : σ} {a : α}
    (h : x s = .ok a s₁) : (x >>= f) s = f a s₁ := by
  rw [show (x >>= f) s = EStateM.bind x f s from rfl]; unfold EStateM.bind
  rw [h]

theorem bind_of_error {x : EStateM PyErr σ α} {f : α → EStateM PyErr σ β} {s s₁ : σ} {e : PyErr}
    (h : x s = .error e s₁) : (x >>= f) s = .error e s₁ := by
  rw [show (x >>= f) s = EStateM.bind x f s from rfl]; unfold EStateM.bind
  rw [h]

theorem pure_eq (a : α) (s : σ) : (pure a : EStateM PyErr σ α) s = .ok a s := rfl
theorem get_eq (s : σ) : (get : EStateM PyErr σ σ) s = .ok s s := rfl
theorem modify_eq (f : σ → σ) (s : σ) : (modify f : EStateM PyErr σ PUnit) s = .ok () (f s) := rfl
theorem raise_eq (e : PyErr) (s : σ) : (raise e : EStateM PyErr σ α) s = .error e s := rfl

theorem pure_ok {a b : α} {s s' : σ} :
    (pure a : EStateM PyErr σ α) s = .ok b s' ↔ b = a ∧ s' = s := by
  rw [pure_eq]; constructor
  · intro h; cases h; exact ⟨rfl, rfl⟩
  · rintro ⟨rfl, rfl⟩; rfl

theorem get_ok {a : σ} {s s' : σ} :
    (get : EStateM PyErr σ σ) s = .ok a s' ↔ a = s ∧ s' = s := by
  rw [get_eq]; constructor
  · intro h; cases h; exact ⟨rfl, rfl⟩
  · rintro ⟨rfl, rfl⟩; rfl

theorem raise_ok {e : PyErr} {a : α} {s s' : σ} :
    (raise e : EStateM PyErr σ α) s = .ok a s' ↔ False := by
  rw [raise_eq]; simp

theorem raise_error {e e' : PyErr} {s s' : σ} :
    (raise e : EStateM PyErr σ α) s = .error e' s' ↔ e' = e ∧ s' = s := by
  rw [raise_eq]; constructor
  · intro h; cases h; exact ⟨rfl, rfl⟩
  · rintro ⟨rfl, rfl⟩; rfl

theorem pure_error {a : α} {e : PyErr} {s s' : σ} :
    (pure a : EStateM PyErr σ α) s = .error e s' ↔ False := by
  rw [pure_eq]; simp

theorem get_error {e : PyErr} {s s' : σ} :
    (get : EStateM PyErr σ σ) s = .error e s' ↔ False := by
  rw [get_eq]; simp

theorem orRaise_ok {e : PyErr} {o : Option α} {a : α} {s s' : σ} :
    (orRaise e o : EStateM PyErr σ α) s = .ok a s' ↔ o = some a ∧ s' = s := by
  cases o with
  | none => simp [orRaise, raise]
  | some b =>
    show (pure b : EStateM PyErr σ α) s = _ ↔ _
    rw [pure_ok]; simp [eq_comm]

theorem orRaise_error {e e' : PyErr} {o : Option α} {s s' : σ} :
    (orRaise e o : EStateM PyErr σ α) s = .error e' s' ↔ o = none ∧ e' = e ∧ s' = s := by
  cases o with
  | none =>
    show (raise e : EStateM PyErr σ α) s = _ ↔ _
    rw [raise_error]; simp
  | some b =>
    show (pure b : EStateM PyErr σ α) s = _ ↔ _
    rw [pure_error]; simp

theorem liftExcept_ok {x : Except PyErr α} {a : α} {s s' : σ} :
    (liftExcept x : EStateM PyErr σ α) s = .ok a s' ↔ x = .ok a ∧ s' = s := by
  cases x with
  | error e => simp [liftExcept, raise]
  | ok b =>
    show (pure b : EStateM PyErr σ α) s = _ ↔ _
    rw [pure_ok]; simp [eq_comm]

theorem liftExcept_error {x : Except PyErr α} {e : PyErr} {s s' : σ} :
    (liftExcept x : EStateM PyErr σ α) s = .error e s' ↔ x = .error e ∧ s' = s := by
  cases x with
  | error e' =>
    show (raise e' : EStateM PyErr σ α) s = _ ↔ _
    rw [raise_error]; simp [eq_comm]
  | ok b =>
    show (pure b : EStateM PyErr σ α) s = _ ↔ _
    rw [pure_error]; simp

theorem liftExcept_of_ok {a : α} (s : σ) :
    (liftExcept (.ok a) : EStateM PyErr σ α) s = .ok a s := rfl
theorem orRaise_some {e : PyErr} {a : α} (s : σ) :
    (orRaise e (some a) : EStateM PyErr σ α) s = .ok a s := rfl

theorem ite_apply' {c : Prop} [Decidable c] {f g : EStateM PyErr σ α} {s : σ} :
    (if c then f else g) s = if c then f s else g s := by split <;> rfl

end

section
variable {F : Type}

theorem modifyPV_eq (f : PlanView F → PlanView F) (st : PVState F) :
    modifyPV f st = .ok () { st with pv := f st.pv } := rfl

theorem modifyPV_ok {f : PlanView F → PlanView F} {st st' : PVState F} {u : Unit} :
    modifyPV f st = .ok u st' ↔ st' = { st with pv := f st.pv } := by
  rw [modifyPV_eq]; constructor
  · intro h; cases h; rfl
  · rintro rfl; rfl

theorem modifyPV_error {f : PlanView F → PlanView F} {st st' : PVState F} {e : PyErr} :
    modifyPV f st = .error e st' ↔ False := by
  rw [modifyPV_eq]; simp

/-! ### Stores -/

@[simp] theorem Store.put_cell_same {α : Type} (st : Store α) (r : Nat) (a : α) :
    (st.put r a).cell r = a := by simp [Store.put, Store.modify]
theorem Store.put_cell_ne {α : Type} (st : Store α) {r i : Nat} (a : α) (h : i ≠ r) :
    (st.put r a).cell i = st.cell i := by simp [Store.put, Store.modify, h]
theorem Store.put_cell {α : Type} (st : Store α) (r i : Nat) (a : α) :
    (st.put r a).cell i = if i = r then a else st.cell i := by simp [Store.put, Store.modify]
@[simp] theorem Store.put_next {α : Type} (st : Store α) (r : Nat) (a : α) :
    (st.put r a).next = st.next := rfl
theorem Store.modify_cell {α : Type} (st : Store α) (r i : Nat) (f : α → α) :
    (st.modify r f).cell i = if i = r then f (st.cell r) else st.cell i := rfl
@[simp] theorem Store.modify_cell_same {α : Type} (st : Store α) (r : Nat) (f : α → α) :
    (st.modify r f).cell r = f (st.cell r) := by simp [Store.modify]
theorem Store.modify_cell_ne {α : Type} (st : Store α) {r i : Nat} (f : α → α) (h : i ≠ r) :
    (st.modify r f).cell i = st.cell i := by simp [Store.modify, h]
@[simp] theorem Store.modify_next {α : Type} (st : Store α) (r : Nat) (f : α → α) :
    (st.modify r f).next = st.next := rfl

/-! ### Dicts -/

theorem Dict.get?_set {α : Type} (d : Dict α) (k k' : String) (v : α) :
    (d.set k v).get? k' = if k = k' then some v else d.get? k' := by
  induction d with
  | nil => simp [Dict.set, Dict.get?]
  | cons kv d ih =>
    obtain ⟨k₀, v₀⟩ := kv
    unfold Dict.set
    by_cases h : k₀ = k
    · subst h
      simp only [if_true, Dict.get?]
      by_cases h2 : k₀ = k' <;> simp [h2]
    · simp only [h, if_false, Dict.get?, ih]
      by_cases h2 : k₀ = k'
      · subst h2; simp [Ne.symm h]
      · simp [h2]

theorem Dict.keys_set {α : Type} (d : Dict α) (k : String) (v : α) :
    (d.set k v).keys = if k ∈ d.keys then d.keys else d.keys ++ [k] := by
  induction d with
  | nil => simp [Dict.set, Dict.keys]
  | cons kv d ih =>
    obtain ⟨k₀, v₀⟩ := kv
    unfold Dict.set
    simp only [Dict.keys, List.map_cons, List.mem_cons] at ih ⊢
    by_cases h : k₀ = k
    · subst h; simp
    · simp only [h, if_false, List.map_cons, ih, Ne.symm h, false_or]
      split <;> simp_all

theorem Dict.get?_isSome {α : Type} (d : Dict α) (k : String) :
    (d.get? k).isSome ↔ k ∈ d.keys := by
  induction d with
  | nil => simp [Dict.get?, Dict.keys]
  | cons kv d ih =>
    obtain ⟨k₀, v₀⟩ := kv
    simp only [Dict.get?, Dict.keys, List.map_cons, List.mem_cons] at ih ⊢
    by_cases h : k₀ = k
    · simp [h]
    · simp [h, Ne.symm h, ih]

theorem Dict.get?_eq_none {α : Type} (d : Dict α) (k : String) :
    d.get? k = none ↔ k ∉ d.keys := by
  rw [← Dict.get?_isSome]; cases d.get? k <;> simp

theorem Dict.keys_set_of_mem {α : Type} (d : Dict α) (k : String) (v : α) (h : k ∈ d.keys) :
    (d.set k v).keys = d.keys := by rw [Dict.keys_set, if_pos h]

theorem Dict.mem_keys_of_get? {α : Type} {d : Dict α} {k : String} {v : α}
    (h : d.get? k = some v) : k ∈ d.keys := by
  rw [← Dict.get?_isSome, h]; rfl

end

end Pyodrx
