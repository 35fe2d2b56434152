import Verif.Proofs.NetworkTotal
import Verif.Props.PlanView

/-! # Well-formed networks of real numbers -/

namespace Pyodrx
open Spec Props

theorem Evaluable.mono {g g' : Store (Geom ℝ)} {pv pv' : PlanView ℝ} (h : Evaluable g pv)
    (hs : SameShapes g g') (hf : pv.frame pv') : Evaluable g' pv' := by
  refine ⟨fun r hr => ?_, ?_⟩
  · rw [hs r]; exact h.1 r (by rwa [hf.2.1] at hr)
  · rw [hf.2.1, hf.2.2]; exact h.2

theorem bwdStep_total {st : PVState ℝ} {r : Nat} (hsh : (shapeOf (st.geoms.cell r)).isSome) :
    ∃ l st', PlanView.bwdStep r st = .ok (some l) st' ∧ SameShapes st.geoms st'.geoms := by
  obtain ⟨sh, hsh⟩ := Option.isSome_iff_exists.mp hsh
  obtain ⟨q1, g1, h1, hs1, hset1⟩ := callEnd_first (st := st) (r := r) hsh st.pv.present
  obtain ⟨q, g2, h2, hs2, hset2⟩ := settled_start_len g1 sh hs1 hset1 st.pv.present
  have h2' : callStart r st.pv.present { st with geoms := st.geoms.put r g1 } =
      .ok (q, some sh.len) { st with geoms := (st.geoms.put r g1).put r g2 } := by
    simp [callStart, h2]
  have key : AdjGeom.new st.pv.presentS st.pv.present r st =
      .ok ⟨some st.pv.presentS, st.pv.present.x, st.pv.present.y, st.pv.present.h, some sh.len, r⟩
        { st with geoms := st.geoms.put r g1 } := by
    unfold AdjGeom.new
    rw [bind_of_ok h1]; rfl
  refine ⟨sh.len, ?_⟩
  have hstep : ∃ pv, PlanView.bwdStep r st =
      .ok (some sh.len) ⟨pv, (st.geoms.put r g1).put r g2⟩ := by
    refine ⟨?_, ?_⟩
    rotate_left
    unfold PlanView.bwdStep
    rw [bind_of_ok (get_eq _), bind_of_ok key, bind_of_ok h2']
    rfl
  · obtain ⟨pv, hstep⟩ := hstep
    refine ⟨_, hstep, ?_⟩
    exact (SameShapes.put (hs1.trans hsh.symm)).trans
      (SameShapes.put (by simpa using hs2.trans hs1.symm))

theorem bwdLoop_total (rs : List Nat) : ∀ {st : PVState ℝ},
    (∀ r ∈ rs, (shapeOf (st.geoms.cell r)).isSome) →
    ∃ (ls : List ℝ) (st' : PVState ℝ), PlanView.bwdLoop rs st = .ok (ls.map some) st' ∧
      SameShapes st.geoms st'.geoms := by
  induction rs with
  | nil => intro st _; exact ⟨[], st, rfl, .refl _⟩
  | cons r rs ih =>
    intro st h
    obtain ⟨l, s1, h1, hs1⟩ := bwdStep_total (h r (by simp))
    obtain ⟨ls, s2, h2, hs2⟩ := ih (st := s1) (fun r' hr' => by rw [hs1 r']; exact h r' (by simp [hr']))
    refine ⟨l :: ls, s2, ?_, hs1.trans hs2⟩
    unfold PlanView.bwdLoop
    rw [bind_of_ok h1, bind_of_ok h2]
    rfl

theorem sLoop_total (ls : List ℝ) : ∀ (st : PVState ℝ), ∃ st', PlanView.sLoop ls st = .ok () st' := by
  induction ls with
  | nil => intro st; exact ⟨st, rfl⟩
  | cons l ls ih =>
    intro st
    unfold PlanView.sLoop
    rw [bind_of_ok (modifyPV_eq _ _), bind_of_ok (modifyPV_eq _ _)]
    exact ih _

/-- Adjusting an evaluable planview succeeds. -/
theorem adjust_total (b : Bool) (pv : PlanView ℝ) (geoms : Store (Geom ℝ)) (h : Evaluable geoms pv) :
    ∃ st, PlanView.adjustGeometries b ⟨pv, geoms⟩ = .ok () st ∧ SameShapes geoms st.geoms := by
  cases b with
  | false =>
    let pcs : List Piece := pv.raw.mapIdx fun i r =>
      ⟨r, (shapeOf (geoms.cell r)).getD ⟨0, 0, 0, 0⟩, pv.overridden[i]?⟩
    have hd : Describes geoms pcs := by
      intro pc hpc
      simp only [pcs, List.mem_mapIdx] at hpc
      obtain ⟨i, hi, rfl⟩ := hpc
      obtain ⟨sh, hsh⟩ := Option.isSome_iff_exists.mp (h.1 _ (List.getElem_mem hi))
      simp [hsh]
    have hh : ∀ j (hj : j < pcs.length), HeadingAt pv.overridden (0 + j) (pcs[j]).heading := by
      intro j hj
      simp only [pcs, List.getElem_mapIdx, Nat.zero_add]
      have hj' : j < pv.raw.length := by simpa [pcs] using hj
      rcases h.2 with h2 | h2
      · exact .inl ⟨h2, by simp [h2]⟩
      · exact .inr ⟨pv.overridden[j], by simp [h2, hj'], by simp [h2, hj']⟩
    obtain ⟨g', h1, h2, _⟩ := adjust_forward_real pv pcs geoms
      (by simp [pcs, List.mapIdx_eq_zipIdx_map, Function.comp_def]) hd hh
    exact ⟨_, h1, h2⟩
  | true =>
    unfold PlanView.adjustGeometries
    rw [bind_of_ok (get_eq _)]
    simp only [Bool.true_eq_false, if_false]
    rw [bind_of_ok (modifyPV_eq _ _)]
    obtain ⟨ls, s1, h1, hs1⟩ := bwdLoop_total pv.raw.reverse
      (st := ⟨{ pv with stop := some { pv.present with h := PyFloat.add pv.present.h PyFloat.pi } },
        geoms⟩) (fun r hr => h.1 r (by simpa using hr))
    rw [bind_of_ok h1, bind_of_ok (modifyPV_eq _ _), allSome_map_some, bind_of_ok (orRaise_some _),
      bind_of_ok (modifyPV_eq _ _)]
    obtain ⟨s2, h2⟩ := sLoop_total ls _
    rw [bind_of_ok h2, modifyPV_eq]
    refine ⟨_, rfl, ?_⟩
    have := (sLoop_gen _ h2).2.2.2.2.2.2
    dsimp only
    rw [this]
    exact hs1

/-- Real numbers. -/
noncomputable def realEval : Eval ℝ where
  Ok := Evaluable
  frame h hf := Evaluable.mono h (.refl _) hf
  adjust {g pv} h b := by
    obtain ⟨st, h1, h2⟩ := adjust_total b pv g h
    exact ⟨st, h1, fun pv' hpv' => Evaluable.mono hpv' h2 ⟨rfl, rfl, rfl⟩⟩

theorem Spec.WellFormed.placeable {net : Net ℝ} (h : WellFormed net) : Placeable realEval net :=
  { nonempty := h.nonempty, nodup := h.nodup, fresh := h.fresh, resolvable := h.resolvable, contacts := h.contacts,
    connecting := h.connecting, anchors := h.anchors, ok := h.evaluable }

end Pyodrx
