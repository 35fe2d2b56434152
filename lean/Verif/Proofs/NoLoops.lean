import Verif.Spec.NoLoops
import Verif.Proofs.Network
import Mathlib.Data.Sym.Sym2
import Mathlib.Data.List.Perm.Subperm

/-! # Networks without loops: every declared joint is used -/

namespace Pyodrx
open Spec

variable {F : Type} [PyFloat F]

/-- The end `e` of road `k` was attached to the end `e'` of road `nb` by a declared link. -/
def AttachedAt (roads0 roads : Dict (Road F)) (k : String) (e : ContactPoint) (nb : String) (e' : ContactPoint) : Prop :=
  ∃ r n p, PlacedBy roads0 k e nb e' ∧ roads.get? k = some r ∧ roads.get? nb = some n ∧
    r.planview.adjusted = true ∧ n.planview.adjusted = true ∧ neighbourPose n e' = .ok p ∧
    endPose r e = some (attachPose e (offsetAt r e) p)

/-- From the road one comes to an anchor through joints `S`. -/
inductive Rooted (A : String → Prop) (S : String → ContactPoint → String → ContactPoint → Prop) : String → Prop where
  | anchor {k : String} : A k → Rooted A S k
  | step {k nb : String} {e e' : ContactPoint} : S k e nb e' → Rooted A S nb → Rooted A S k

/-- The same through `n` joints. -/
def RootedIn (A : String → Prop) (S : String → ContactPoint → String → ContactPoint → Prop) : Nat → String → Prop
  | 0, k => A k
  | n + 1, k => ∃ e nb e', S k e nb e' ∧ RootedIn A S n nb

theorem Rooted.rootedIn {A : String → Prop} {S : String → ContactPoint → String → ContactPoint → Prop} {k : String}
    (h : Rooted A S k) : ∃ n, RootedIn A S n k := by
  induction h with
  | anchor h => exact ⟨0, h⟩
  | step h _ ih =>
    obtain ⟨n, ih⟩ := ih
    exact ⟨n + 1, _, _, _, h, ih⟩

/-- How each road was placed: `joint k = (e, nb, e')` says that its end `e` was put at the end `e'` of `nb`. -/
structure Placing (roads0 : Dict (Road F)) (S : String → ContactPoint → String → ContactPoint → Prop)
    (joint : String → ContactPoint × String × ContactPoint) : Prop where
  step : ∀ k ∈ roads0.keys, ¬ Anchor roads0 k → S k (joint k).1 (joint k).2.1 (joint k).2.2
  /-- no joint places two roads -/
  inj : ∀ k ∈ roads0.keys, ¬ Anchor roads0 k → ∀ k' ∈ roads0.keys, ¬ Anchor roads0 k' →
    s((k, (joint k).1), (joint k).2) = s((k', (joint k').1), (joint k').2) → k = k'
  /-- an anchor is reached -/
  depth : ∃ d : String → Nat, ∀ k ∈ roads0.keys, ¬ Anchor roads0 k → d (joint k).2.1 < d k

omit [PyFloat F] in
theorem exists_placing {roads0 : Dict (Road F)} {A : String → Prop}
    {S : String → ContactPoint → String → ContactPoint → Prop} (hA : ∀ k, A k → Anchor roads0 k)
    (h : ∀ k ∈ roads0.keys, Rooted A S k) : ∃ joint, Placing roads0 S joint := by
  classical
  let d : String → Nat := fun k => if h : ∃ n, RootedIn A S n k then Nat.find h else 0
  have key : ∀ k, ∃ j : ContactPoint × String × ContactPoint, k ∈ roads0.keys → ¬ Anchor roads0 k →
      S k j.1 j.2.1 j.2.2 ∧ d j.2.1 < d k := by
    intro k
    by_cases hk : k ∈ roads0.keys ∧ ¬ Anchor roads0 k
    · have hex := (h k hk.1).rootedIn
      have hd : d k = Nat.find hex := dif_pos hex
      have hsp := Nat.find_spec hex
      rw [← hd] at hsp
      cases hdk : d k with
      | zero => rw [hdk] at hsp; exact absurd (hA _ hsp) hk.2
      | succ n =>
        rw [hdk] at hsp
        obtain ⟨e, nb, e', ha, hg⟩ := hsp
        refine ⟨(e, nb, e'), fun _ _ => ⟨ha, ?_⟩⟩
        have hex' : ∃ n, RootedIn A S n nb := ⟨n, hg⟩
        have hd' : d nb = Nat.find hex' := dif_pos hex'
        have := Nat.find_min' hex' hg
        dsimp only
        omega
    · exact ⟨(.start, "", .start), fun h1 h2 => absurd ⟨h1, h2⟩ hk⟩
  choose joint hj using key
  refine ⟨joint, fun k hk ha => (hj k hk ha).1, ?_, d, fun k hk ha => (hj k hk ha).2⟩
  intro k hk ha k' hk' ha' he
  rw [Sym2.eq_iff] at he
  rcases he with ⟨h1, _⟩ | ⟨h1, h2⟩
  · exact congrArg Prod.fst h1
  · have d1 := (hj k hk ha).2
    have d2 := (hj k' hk' ha').2
    have e1 : k = (joint k').2.1 := congrArg Prod.fst h1
    have e2 : (joint k).2.1 = k' := congrArg Prod.fst h2
    rw [e2] at d1
    rw [← e1] at d2
    omega

section
variable {roads0 : Dict (Road F)} {S S' : String → ContactPoint → String → ContactPoint → Prop}
  {joint joint' : String → ContactPoint × String × ContactPoint}

omit [PyFloat F] in
/-- Without loops every declared joint was used to place one of its two roads. -/
theorem Placing.covers (h : Placing roads0 S joint)
    (hS : ∀ {k e nb e'}, S k e nb e' → PlacedBy roads0 k e nb e') (hl : NoLoops roads0) {k nb : String}
    {e e' : ContactPoint} (hp : PlacedBy roads0 k e nb e') :
    ∃ x ∈ roads0.keys, ¬ Anchor roads0 x ∧ s((x, (joint x).1), (joint x).2) = s((k, e), (nb, e')) := by
  obtain ⟨L, N, h1, h2, h3, h4⟩ := hl
  let toSym : RoadEnd × RoadEnd → Sym2 RoadEnd := fun j => s(j.1, j.2)
  let f : String → Sym2 RoadEnd := fun x => s((x, (joint x).1), (joint x).2)
  have hnd : (N.map f).Nodup := by
    refine List.Nodup.map_on (fun x hx y hy hxy => ?_) h2
    exact h.inj x (h3 x hx).1 (h3 x hx).2 y (h3 y hy).1 (h3 y hy).2 hxy
  have mem : ∀ {k e nb e'}, PlacedBy roads0 k e nb e' → s((k, e), (nb, e')) ∈ L.map toSym := by
    intro k e nb e' hp
    rw [List.mem_map]
    rcases h1 _ _ _ _ hp with hm | hm
    · exact ⟨_, hm, rfl⟩
    · exact ⟨_, hm, Sym2.eq_swap⟩
  have hsub : N.map f ⊆ L.map toSym := by
    intro j hj
    obtain ⟨x, hx, rfl⟩ := List.mem_map.mp hj
    exact mem (hS (h.step x (h3 x hx).1 (h3 x hx).2))
  have hperm := (List.subperm_of_subset hnd hsub).perm_of_length_le (by simpa using h4)
  have := hperm.symm.subset (mem hp)
  obtain ⟨x, hx, he⟩ := List.mem_map.mp this
  exact ⟨x, (h3 x hx).1, (h3 x hx).2, he⟩

omit [PyFloat F] in
/-- Without loops every declared joint joins. -/
theorem joined_of_noLoops {A : String → Prop} (hA : ∀ k, A k → Anchor roads0 k)
    (hS : ∀ {k e nb e'}, S k e nb e' → PlacedBy roads0 k e nb e') (h : ∀ k ∈ roads0.keys, Rooted A S k)
    (hl : NoLoops roads0) {k nb : String} {e e' : ContactPoint} (hp : PlacedBy roads0 k e nb e') :
    S k e nb e' ∨ S nb e' k e := by
  obtain ⟨joint, hj⟩ := exists_placing hA h
  obtain ⟨x, hx, ha, he⟩ := hj.covers hS hl hp
  have := hj.step x hx ha
  rw [Sym2.eq_iff] at he
  rcases he with ⟨h1, h2⟩ | ⟨h1, h2⟩
  · simp only [Prod.mk.injEq] at h1
    obtain ⟨rfl, rfl⟩ := h1
    left
    rwa [h2] at this
  · simp only [Prod.mk.injEq] at h1
    obtain ⟨rfl, rfl⟩ := h1
    right
    rwa [h2] at this

omit [PyFloat F] in
/-- Two placements of the same network without loops use each joint in the same direction. -/
theorem Placing.unique (h : Placing roads0 S joint) (h' : Placing roads0 S' joint')
    (hS : ∀ {k e nb e'}, S k e nb e' → PlacedBy roads0 k e nb e')
    (hS' : ∀ {k e nb e'}, S' k e nb e' → PlacedBy roads0 k e nb e') (hl : NoLoops roads0) :
    ∀ k ∈ roads0.keys, ¬ Anchor roads0 k → joint k = joint' k := by
  obtain ⟨d, hd⟩ := h.depth
  suffices ∀ n k, d k = n → k ∈ roads0.keys → ¬ Anchor roads0 k → joint k = joint' k from fun k => this _ k rfl
  intro n
  induction n using Nat.strong_induction_on with
  | _ n ih =>
    intro k hdk hk ha
    obtain ⟨x, hx, hxa, he⟩ := h'.covers hS' hl (hS (h.step k hk ha))
    rw [Sym2.eq_iff] at he
    rcases he with ⟨h1, h2⟩ | ⟨h1, h2⟩
    · simp only [Prod.mk.injEq] at h1
      obtain ⟨rfl, h1⟩ := h1
      exact Prod.ext h1.symm h2.symm
    · simp only [Prod.mk.injEq] at h1
      obtain ⟨rfl, h1⟩ := h1
      have hlt := hd k hk ha
      have hsame := ih _ (by omega) _ rfl hx hxa
      have : (joint k).2.1 = k := by
        refine h.inj _ hx hxa k hk ha ?_
        rw [hsame, h1, h2]
        exact Sym2.eq_swap
      rw [this] at hlt
      omega

end

theorem Grown.rooted {roads0 roads : Dict (Road F)} {k : String} (h : Grown roads0 roads k) :
    Rooted (Anchor roads0) (AttachedAt roads0 roads) k := by
  induction h with
  | anchor h _ _ _ _ => exact .anchor h
  | step h _ ih =>
    obtain ⟨e, e', r, n, p, h⟩ := h
    exact .step ⟨r, n, p, h⟩ ih

/-- After a normal return on fresh roads without loops every declared joint joins. -/
theorem startpoints_joined {net net' : Net F} (hn : net.roads.keys.Nodup) (hf : Fresh net.roads)
    (hl : NoLoops net.roads) (h : Net.adjustStartpoints net = .ok () net') {k nb : String} {e e' : ContactPoint}
    (hp : PlacedBy net.roads k e nb e') :
    AttachedAt net.roads net'.roads k e nb e' ∨ AttachedAt net.roads net'.roads nb e' k e := by
  refine joined_of_noLoops (fun _ h => h) (fun ⟨_, _, _, h, _⟩ => h) (fun k hk => ?_) hl hp
  obtain ⟨m, hh, _⟩ := startpoints_history hn hf h
  rw [← hh.same.1, ← Dict.get?_isSome, Option.isSome_iff_exists] at hk
  obtain ⟨r, hr⟩ := hk
  obtain ⟨r1, h1, h2⟩ := hh.inv rfl hf k r hr
  exact (h2.of_adjusted (startpoints_all hn hf h hr)).1.rooted

end Pyodrx
