import Verif.Props.SessionDocument
import Verif.Proofs.FloatFile

/-! # C97: the geometries in the document of a program of calls -/

namespace Pyodrx.Props
open Pyodrx Pyodrx.Spec PyFloat

section
variable {F : Type} [PyFloat F]

/-- What no evaluation changes of the geometries `geoms0`. -/
def SameGiven (geoms0 : Store (Geom F)) (j : Nat) (c : Geom F) : Prop :=
  match geoms0.cell j with
  | .line l => c = .line l
  | .spiral s => c = .spiral s
  | .arc a => ∃ a', c = .arc a' ∧ a'.curvature = a.curvature
  | .poly x => ∃ len, c = .poly { x with length := len } ∧ (x.prange ≠ "normalized" → len = x.length)

/-- The returned length. -/
def LengthGiven (G : Geom F) (len : Option F) : Prop :=
  match G with
  | .line l => len = some l.length
  | .spiral s => len = s.length
  | .arc _ => True
  | .poly x => x.prange ≠ "normalized" → len = x.length

theorem same_end {geoms0 : Store (Geom F)} {j : Nat} {p : Pose F} {c c' : Geom F} {v : Pose F × Option F}
    (h : SameGiven geoms0 j c) (he : Geom.getEndData p c = .ok v c') : SameGiven geoms0 j c' ∧ LengthGiven (geoms0.cell j) v.2 := by
  unfold SameGiven at *
  generalize geoms0.cell j = G at h ⊢
  unfold Geom.getEndData at he
  cases G with
  | line l => simp only at h; subst h; cases he; exact ⟨rfl, rfl⟩
  | spiral s =>
    simp only at h; subst h
    simp only [Spiral.getEndData] at he
    split at he <;> cases he
    rename_i h1
    split at h1 <;> cases h1
    rename_i h2
    exact ⟨rfl, h2.symm⟩
  | arc a =>
    obtain ⟨a', rfl, h2⟩ := h
    simp only at he
    split at he <;> cases he
    rename_i h1
    unfold Arc.getEndData Arc.eval at h1
    simp only at h1
    split at h1 <;> cases h1
    exact ⟨⟨_, rfl, h2⟩, trivial⟩
  | poly x =>
    obtain ⟨len, rfl, h2⟩ := h
    simp only at he
    split at he <;> cases he
    rename_i h1
    unfold ParamPoly3.getEndData ParamPoly3.param at h1
    simp only at h1
    split at h1 <;> cases h1
    rename_i h3
    by_cases hn : x.prange = "normalized"
    · exact ⟨⟨_, rfl, fun h => absurd hn h⟩, fun h => absurd hn h⟩
    · rw [if_neg hn] at h3
      split at h3 <;> cases h3
      exact ⟨⟨_, rfl, fun h => h2 h⟩, fun h => h2 h⟩

theorem same_start {geoms0 : Store (Geom F)} {j : Nat} {p : Pose F} {c c' : Geom F} {v : Pose F × Option F}
    (h : SameGiven geoms0 j c) (he : Geom.getStartData p c = .ok v c') : SameGiven geoms0 j c' ∧ LengthGiven (geoms0.cell j) v.2 := by
  unfold SameGiven at *
  generalize geoms0.cell j = G at h ⊢
  unfold Geom.getStartData at he
  cases G with
  | line l => simp only at h; subst h; cases he; exact ⟨rfl, rfl⟩
  | spiral s =>
    simp only at h; subst h
    simp only [Spiral.getStartData] at he
    split at he <;> cases he
    rename_i h1
    split at h1 <;> cases h1
    rename_i h2
    exact ⟨rfl, h2.symm⟩
  | arc a =>
    obtain ⟨a', rfl, h2⟩ := h
    simp only at he
    split at he <;> cases he
    rename_i h1
    unfold Arc.getStartData Arc.eval at h1
    simp only at h1
    split at h1 <;> cases h1
    exact ⟨⟨_, rfl, h2⟩, trivial⟩
  | poly x =>
    obtain ⟨len, rfl, h2⟩ := h
    simp only at he
    split at he <;> cases he
    rename_i h1
    unfold ParamPoly3.getStartData ParamPoly3.param at h1
    simp only at h1
    split at h1 <;> cases h1
    rename_i h3
    by_cases hn : x.prange = "normalized"
    · exact ⟨⟨_, rfl, fun h => absurd hn h⟩, fun h => absurd hn h⟩
    · rw [if_neg hn] at h3
      split at h3 <;> cases h3
      exact ⟨⟨_, rfl, fun h => h2 h⟩, fun h => h2 h⟩

theorem kept_given (geoms0 : Store (Geom F)) : Kept (SameGiven geoms0) := fun _ _ _ _ _ h he => (same_end h he).1
theorem keptBack_given (geoms0 : Store (Geom F)) : KeptBack (SameGiven geoms0) := fun _ _ _ _ _ h he => (same_start h he).1

/-- The geometry that is read. -/
theorem given_shown {geoms0 : Store (Geom F)} {j : Nat} {c : Geom F} {g : RGeometry F} (h : SameGiven geoms0 j c)
    (hl : LengthGiven (geoms0.cell j) (some g.length)) (hc : readCurve c.getElement = some g.curve) : GeometryShown (geoms0.cell j) g := by
  unfold SameGiven LengthGiven GeometryShown at *
  generalize geoms0.cell j = G at h hl ⊢
  cases G with
  | line l =>
    simp only at h hl ⊢; subst h
    rw [readCurve_line] at hc
    exact ⟨(Option.some.inj hc).symm, Option.some.inj hl⟩
  | spiral s =>
    simp only at h hl ⊢; subst h
    rw [readCurve_spiral] at hc
    exact ⟨(Option.some.inj hc).symm, hl.symm⟩
  | arc a =>
    obtain ⟨a', rfl, h2⟩ := h
    rw [readCurve_arc] at hc
    simp only [← h2]
    exact (Option.some.inj hc).symm
  | poly x =>
    obtain ⟨len, rfl, h2⟩ := h
    obtain ⟨n, h3, h4⟩ := readCurve_poly hc
    refine ⟨n, h3, h4, fun hn => ?_⟩
    exact (hl fun hx => by rw [h4.mpr hx] at hn; cases hn).symm

/-- The geometries that are read of an adjusted planview are those that were added. -/
theorem planview_shown {geoms0 g g' : Store (Geom F)} {pv : PlanView F} {b : Bool} {st : PVState F}
    (hK : ∀ j, SameGiven geoms0 j (g.cell j)) (hK' : ∀ j, SameGiven geoms0 j (g'.cell j))
    (hadj : PlanView.adjustGeometries b ⟨pv, g⟩ = .ok () st) (h1 : pv.adjGeoms = [])
    {gs : List (RGeometry F)} (hgs : readPlanView (st.pv.getElement g') = some gs) :
    List.Forall₂ (fun j r => GeometryShown (geoms0.cell j) r) pv.raw gs := by
  have hrel := readPlanView_rel hgs
  cases b with
  | false =>
    obtain ⟨S, P, Q, len, l, c, hE, -, -, -, -, -, hs, -⟩ := adjust_forward_calls (kept_given geoms0) hadj hK
    simp only [h1, List.nil_append] at hE
    rw [hE] at hrel
    rw [List.forall₂_iff_get] at hrel ⊢
    obtain ⟨hlen, hget⟩ := hrel
    rw [List.length_mapIdx] at hlen
    refine ⟨hlen, fun i hi hi' => ?_⟩
    have := hget i (by simpa using hi) hi'
    simp only [List.get_eq_getElem, List.getElem_mapIdx] at this ⊢
    obtain ⟨-, -, -, -, t5, t6⟩ := this
    obtain ⟨k1, -, -, -, -, q', c', c'', k4, -⟩ := hs i hi
    exact given_shown (hK' _) (by rw [← t5]; exact (same_end k1 k4).2) t6
  | true =>
    match hr : pv.raw with
    | [] =>
      obtain ⟨S, Q, L, c, hE, -⟩ := adjust_backward_calls (kept_given geoms0) (keptBack_given geoms0) hadj hK
      simp only [hr, h1, List.map_nil, List.reverse_nil, List.mapIdx_nil, List.append_nil, List.map_eq_nil_iff] at hE
      rw [hE] at hrel
      cases hrel
      exact .nil
    | [i] =>
      obtain ⟨S, Q, L, c, hE, -, -, -, -, -, hs, -⟩ := adjust_backward_calls (kept_given geoms0) (keptBack_given geoms0) hadj hK
      obtain ⟨x, hx, -⟩ := backward_single_s hadj h1 hr
      rw [hx] at hrel
      cases hrel with
      | @cons _ gg _ _ hT hnil =>
        cases hnil
        obtain ⟨-, -, -, -, t5, t6⟩ := hT
        simp only [hr, h1, hx, List.map_nil, List.nil_append, List.map_cons, List.reverse_singleton,
          List.mapIdx_cons, List.mapIdx_nil, List.cons.injEq, and_true, AdjGeom.rest, Prod.mk.injEq] at hE
        obtain ⟨-, -, -, e4, e5⟩ := hE
        obtain ⟨k1, -, v, c', c'', k3, k4⟩ := hs 0 (by simp [hr])
        simp only [hr, List.reverse_singleton, List.getElem_singleton] at k1
        rw [e5] at t6
        refine .cons (given_shown (hK' _) ?_ t6) .nil
        rw [← t5, e4]
        exact (same_start (same_end k1 k3).1 k4).2
    | i :: j :: rest =>
      have := backward_unreadable (g' := g') hadj h1 (by rw [hr]; simp)
      rw [this] at hgs; cases hgs

theorem same_refl (geoms0 : Store (Geom F)) (j : Nat) : SameGiven geoms0 j (geoms0.cell j) := by
  unfold SameGiven
  generalize geoms0.cell j = G
  cases G with
  | line l => rfl
  | spiral s => rfl
  | arc a => exact ⟨a, rfl, rfl⟩
  | poly x => exact ⟨x.length, rfl, fun _ => rfl⟩

/-- The geometries that are read of the roads of a placed network are those that were added. -/
theorem network_shown {net net' : Net F} (hn : net.roads.keys.Nodup) (hf : Fresh net.roads) (h : Net.adjustStartpoints net = .ok () net')
    {k : String} {r : Road F} (hr : net'.roads.get? k = some r) (hadj : r.planview.adjusted = true) {gs : List (RGeometry F)}
    (hgs : readPlanView (r.planview.getElement net'.geoms) = some gs) :
    ∃ r0, net.roads.get? k = some r0 ∧ List.Forall₂ (fun j g => GeometryShown (net.geoms.cell j) g) r0.planview.raw gs := by
  obtain ⟨hs, ho⟩ := startpoints_onceK (kept_given net.geoms) (keptBack_given net.geoms) hn hf (same_refl net.geoms) h
  obtain ⟨r0, h0, h1⟩ := ho k r hr
  refine ⟨r0, h0, ?_⟩
  rcases h1 with ⟨_, h1⟩ | ⟨_, b, p, g, st, -, hg, e1, e2⟩
  · rw [hadj] at h1; cases h1
  · have hpv : r.planview = st.pv := by rw [e2]
    rw [hpv] at hgs
    exact planview_shown (pv := r0.planview.setStartPoint p) hg hs e1 (hf k r0 h0).2 hgs

end

end Pyodrx.Props
