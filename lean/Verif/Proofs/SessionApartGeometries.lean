import Verif.Spec.SessionApartGeometries
import Verif.Proofs.SessionApart

/-! # Programs that have nothing to do with each other, with `adjust_geometries` -/

namespace Pyodrx.Spec
open Pyodrx PyFloat

variable {F : Type} [PyFloat F] {D M : Part → Prop}

theorem geometries_patch (t : Session F) {s : Session F} (hs : Closed D s) {v : Nat} (b : Bool) (hD : ∀ x, D x → M x) (hv : D (.planView v)) :
    (Act.geometries v b).step (sessPatch M t s) =
        (((Act.geometries v b).step s).1, sessPatch M t ((Act.geometries v b).step s).2) ∧
      Closed D ((Act.geometries v b).step s).2 := by
  have pvs : ∀ v, D (.planView v) → PvIn (fun i => D (.geometry i)) (s.planviews.cell v) := fun v hv =>
    ⟨fun g hg => hs _ hv _ ⟨g, rfl, .inl hg⟩, fun a ha => hs _ hv _ ⟨_, rfl, .inr ⟨a, ha, rfl⟩⟩⟩
  have key := hom_adjustGeometries (M := fun i => M (.geometry i)) (G := fun i => D (.geometry i)) (fun i h => hD _ h) t.geoms b
    ⟨s.planviews.cell v, s.geoms⟩ (pvs v hv)
  have e1 : (sessPatch M t s).planviews.cell v = s.planviews.cell v := patch_mem (M := fun i => M (.planView i)) (hD _ hv)
  have e2 : ∀ st : PVState F, { sessPatch M t s with
      planviews := (sessPatch M t s).planviews.put v st.pv, geoms := Store.patch (fun i => M (.geometry i)) t.geoms st.geoms } =
      sessPatch M t { s with planviews := s.planviews.put v st.pv, geoms := st.geoms } := fun st => by
    simp only [sessPatch, patch_put (M := fun i => M (.planView i)) (hD _ hv)]
  have keep : ∀ pv : PlanView F, PvIn (fun i => D (.geometry i)) pv → ∀ w, D (.planView w) →
      PvIn (fun i => D (.geometry i)) ((s.planviews.put v pv).cell w) := fun pv hpv w hw => by
    simp only [Store.put, Store.modify]
    split
    · exact hpv
    · exact pvs w hw
  have e3 : pvPatch (fun i => M (.geometry i)) t.geoms ⟨s.planviews.cell v, s.geoms⟩ = ⟨s.planviews.cell v, (sessPatch M t s).geoms⟩ := rfl
  rw [e3] at key
  simp only [Act.step, Session.adjustGeometries, e1]
  cases hg : PlanView.adjustGeometries b ⟨s.planviews.cell v, s.geoms⟩ with
  | ok u st =>
    rw [hg] at key
    rw [key.1]
    exact ⟨congrArg (Prod.mk none) (e2 st), closed_planviews hs st.geoms (keep _ key.2.1)⟩
  | error e st =>
    rw [hg] at key
    rw [key.1]
    exact ⟨congrArg (Prod.mk (some e)) (e2 st), closed_planviews hs st.geoms (keep _ key.2)⟩

theorem act_patch (t : Session F) {a : Act F} (hf : Fits D M a.like) (hD : ∀ x, D x → M x) {s : Session F} (hs : Closed D s) :
    a.step (sessPatch M t s) = ((a.step s).1, sessPatch M t (a.step s).2) ∧ Closed (fun x => D x ∨ Makes a.like x) (a.step s).2 := by
  cases a with
  | call c => exact step_patch t hf hD hs
  | geometries v b =>
    obtain ⟨h1, h2⟩ := geometries_patch t hs b hD (hf.uses _ rfl)
    exact ⟨h1, fun x hx y hy => .inl (h2 x (hx.resolve_right not_false) y hy)⟩

theorem act_same {a : Act F} (hf : Fits D M a.like) (hD : ∀ x, D x → M x) {s s1 : Session F} (hs : Closed D s1) (h : SameIn M s s1) :
    (a.step s).1 = (a.step s1).1 ∧ SameIn M (a.step s).2 (a.step s1).2 ∧ ∀ x, ¬ Within M x → Agree x s (a.step s).2 := by
  have key := (act_patch (M := M) s hf hD hs).1
  rw [patch_self h] at key
  rw [key]
  exact ⟨rfl, fun x hx => (patch_in s _ hx).symm, fun x hx => patch_out s _ hx⟩

theorem merge_acts {M M' : Part → Prop} (hM : ∀ x, M x → ¬ M' x) {p q r : List (Act F)} (hm : Merge p q r) :
    ∀ (D D' : Part → Prop) (s s1 s2 : Session F), (∀ x, D x → M x) → (∀ x, D' x → M' x) → FitsAll M D (likeCalls p) →
      FitsAll M' D' (likeCalls q) → SameIn M s s1 → SameIn M' s s2 → Closed D s1 → Closed D' s2 →
      Merge (runActs p s1).1 (runActs q s2).1 (runActs r s).1 ∧
      SameIn M (runActs r s).2 (runActs p s1).2 ∧ SameIn M' (runActs r s).2 (runActs q s2).2 ∧
      Closed (DoneIn D (likeCalls p)) (runActs p s1).2 ∧ Closed (DoneIn D' (likeCalls q)) (runActs q s2).2 := by
  have nil : ∀ D : Part → Prop, DoneIn (F := F) D [] = D := fun D => by funext x; simp [DoneIn, Made]
  induction hm with
  | nil =>
    intro D D' s s1 s2 _ _ _ _ h1 h2 c1 c2
    simp only [likeCalls, List.map_nil]
    rw [nil, nil]
    exact ⟨.nil, h1, h2, c1, c2⟩
  | left c _ ih =>
    intro D D' s s1 s2 d1 d2 f1 f2 h1 h2 c1 c2
    obtain ⟨e, i1, i2⟩ := act_same f1.1 d1 c1 h1
    have := ih (fun x => D x ∨ Makes c.like x) D' (c.step s).2 (c.step s1).2 s2 (fun x hx => hx.elim (d1 x) (f1.1.makes x)) d2 f1.2 f2 i1
      (fun x hx => (i2 x fun hx' => within_not hM hx' hx).symm.trans (h2 x hx)) (act_patch s1 f1.1 d1 c1).2 c2
    rw [doneIn_cons] at this
    simp only [runActs]
    rw [e]
    exact ⟨.left _ this.1, this.2⟩
  | right c _ ih =>
    intro D D' s s1 s2 d1 d2 f1 f2 h1 h2 c1 c2
    obtain ⟨e, i1, i2⟩ := act_same f2.1 d2 c2 h2
    have := ih D (fun x => D' x ∨ Makes c.like x) (c.step s).2 s1 (c.step s2).2 d1 (fun x hx => hx.elim (d2 x) (f2.1.makes x)) f1 f2.2
      (fun x hx => (i2 x fun hx' => within_not hM hx hx').symm.trans (h1 x hx)) i1 c1 (act_patch s2 f2.1 d2 c2).2
    rw [doneIn_cons] at this
    simp only [runActs]
    rw [e]
    exact ⟨.right _ this.1, this.2⟩

theorem acts_apart {p q r : List (Act F)} (hp : OnItsOwn (likeCalls p)) (hq : OnItsOwn (likeCalls q)) (ha : Apart (likeCalls p) (likeCalls q))
    (hm : Merge p q r) (s : Session F) :
    Merge (runActs p s).1 (runActs q s).1 (runActs r s).1 ∧
      SameIn (Concerns (likeCalls p)) (runActs r s).2 (runActs p s).2 ∧ SameIn (Concerns (likeCalls q)) (runActs r s).2 (runActs q s).2 ∧
      Closed (Made (likeCalls p)) (runActs p s).2 ∧ Closed (Made (likeCalls q)) (runActs q s).2 := by
  have none_made : ∀ x, ¬ Made ([] : List (Call F)) x := fun x ⟨d, hd, _⟩ => by simp at hd
  have h := merge_acts ha hm (fun x => Made ([] : List (Call F)) x) (fun x => Made ([] : List (Call F)) x) s s s (fun x hx => absurd hx (none_made x))
    (fun x hx => absurd hx (none_made x)) (fitsAll_own hp _ [] rfl) (fitsAll_own hq _ [] rfl) (fun x _ => Agree.refl x s) (fun x _ => Agree.refl x s)
    (fun x hx => absurd hx (none_made x)) (fun x hx => absurd hx (none_made x))
  have e : ∀ p : List (Call F), DoneIn (fun x => Made ([] : List (Call F)) x) p = Made p := fun p => by
    funext x
    simp only [DoneIn, none_made, false_or]
  rw [e, e] at h
  exact h

/-! ## The state before a program -/

theorem act_start {a : Act F} {D : Part → Prop} {K : Prop} (hu : ∀ x, Uses a.like x → D x) (hk : GivesIds a.like → K)
    (hp : ∀ v x y h, a.like = .planView v x y h → ∃ pv, PlanView.new x y h = .ok pv) {s s1 : Session F}
    (h : SameIn (fun x => D x ∨ (x = .usedIds ∧ K)) s s1) (hs : Closed D s1) :
    (a.step s).1 = (a.step s1).1 ∧ SameIn (fun x => (D x ∨ Makes a.like x) ∨ (x = .usedIds ∧ K)) (a.step s).2 (a.step s1).2 ∧
      Closed (fun x => D x ∨ Makes a.like x) (a.step s1).2 := by
  cases a with
  | call c => exact step_start hu hk hp h hs
  | geometries v b =>
    have hf : Fits D (fun x => D x ∨ (x = .usedIds ∧ K)) (Act.geometries (F := F) v b).like :=
      ⟨hu, fun x hx => absurd hx not_false, fun hg => .inr ⟨rfl, hk hg⟩, hp⟩
    have hD : ∀ x, D x → D x ∨ (x = .usedIds ∧ K) := fun x hx => .inl hx
    obtain ⟨k1, k2, -⟩ := act_same hf hD hs h
    have e : ∀ x, Makes (Act.geometries (F := F) v b).like x = False := fun x => rfl
    simp only [e, or_false]
    exact ⟨k1, k2, (geometries_patch s1 hs b (M := D) (fun x h => h) (hu _ rfl)).2⟩

theorem acts_start {K : Prop} : ∀ (rest : List (Act F)) (before : List (Call F)) (s s1 : Session F), OnItsOwn (before ++ likeCalls rest) →
    (∀ c ∈ likeCalls rest, GivesIds c → K) → SameIn (fun x => Made before x ∨ (x = .usedIds ∧ K)) s s1 → Closed (Made before) s1 →
    (runActs rest s).1 = (runActs rest s1).1 ∧
      SameIn (fun x => Made (before ++ likeCalls rest) x ∨ (x = .usedIds ∧ K)) (runActs rest s).2 (runActs rest s1).2 ∧
      Closed (Made (before ++ likeCalls rest)) (runActs rest s1).2
  | [], before, s, s1, _, _, h, hs => by
    simp only [likeCalls, List.map_nil, List.append_nil]
    exact ⟨rfl, h, hs⟩
  | c :: rest, before, s, s1, hp, hk, h, hs => by
    have key := act_start (a := c) (hp.uses before c.like (likeCalls rest) rfl) (hk c.like (by simp [likeCalls])) (by
      intro v x y h e
      exact planView_ok x y h (hp.poses v x y h (by simp [likeCalls, e]))) h hs
    have e : (fun x => Made before x ∨ Makes c.like x) = Made (before ++ [c.like]) := by
      funext x
      simp only [made_append]
    have ih := acts_start rest (before ++ [c.like]) (c.step s).2 (c.step s1).2 (by simpa [likeCalls] using hp)
      (fun d hd => hk d (List.mem_cons_of_mem _ hd)) (by rw [← e]; exact key.2.1) (by rw [← e]; exact key.2.2)
    rw [show before ++ [c.like] ++ likeCalls rest = before ++ likeCalls (c :: rest) by simp [likeCalls]] at ih
    simp only [runActs]
    rw [key.1, ih.1]
    exact ⟨rfl, ih.2⟩

theorem acts_own {p : List (Act F)} (hp : OnItsOwn (likeCalls p)) {s s1 : Session F} (hr : (∃ c ∈ likeCalls p, GivesIds c) → s.reg = s1.reg) :
    (runActs p s).1 = (runActs p s1).1 ∧
      ∀ o, Made (likeCalls p) (.openDrive o) → ∀ date, (runActs p s).2.getElement o date = (runActs p s1).2.getElement o date := by
  have none_made : ∀ x, ¬ Made ([] : List (Call F)) x := fun x ⟨d, hd, _⟩ => by simp at hd
  obtain ⟨h1, h2, h3⟩ := acts_start (K := ∃ c ∈ likeCalls p, GivesIds c) p [] s s1 (by simpa using hp) (fun c hc hg => ⟨c, hc, hg⟩)
    (fun x hx => by
      cases x <;> simp only [Within] at hx <;> have hx := hx.resolve_left (none_made _) <;> first
        | exact hr hx.2
        | exact absurd hx.1 (by simp))
    (fun x hx => absurd hx (none_made x))
  rw [List.nil_append] at h2 h3
  refine ⟨h1, fun o ho date => ?_⟩
  have := getElement_patch (M := fun x => Made (likeCalls p) x ∨ (x = .usedIds ∧ ∃ c ∈ likeCalls p, GivesIds c)) (runActs p s).2 h3
    (fun x hx => .inl hx) (o := o) ho date
  rwa [patch_self h2] at this

end Pyodrx.Spec
