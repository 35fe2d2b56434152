import Verif.Props.SessionTouch
import Verif.Props.SessionDocumentExample

/-! # Programs that meet the hypotheses of C98: those of C92, with two roads and a connecting road; without and with a lane offset -/

namespace Pyodrx.Props
open Pyodrx Pyodrx.Spec PyFloat

theorem ofInt_small {n : Int} (h : 2 ≤ n ∧ n ≤ 4) : (ofInt n : Fl double).val = n := by
  have : roundDouble (n : ℤ) = (n : ℤ) := roundDouble_int (n := n) (e := 51) (by norm_num; omega) (by norm_num; omega)
  have e : (ofInt n : Fl double).val = double.rnd n := by simp
  rw [e]
  exact this

theorem connProg_made (off wd : Int) (h : 2 ≤ wd ∧ wd ≤ 4) {x : Nat} (hx : x ∈ [0, 11, 12, 13, 21, 22, 31]) (u : ℝ) :
    MadeWide (connProg false off wd) x u wd := by
  have h0 : (ofInt 0 : Fl double).val = 0 := Rounding.ofInt_zero _
  refine ⟨.driving, ofInt wd, ofInt 0, ofInt 0, ofInt 0, ofInt 0, ?_, ?_⟩
  · have e : ∀ y, flLane y wd = .lane y .driving (ofInt wd) (ofInt 0) (ofInt 0) (ofInt 0) (ofInt 0) := fun _ => rfl
    rw [← e]
    simp only [List.mem_cons, List.not_mem_nil, or_false] at hx
    rcases hx with rfl | rfl | rfl | rfl | rfl | rfl | rfl <;> simp [connProg]
  · rw [h0, ofInt_small h]; ring

theorem connProg_wide (off : Int) {x : Nat} (hx : x ∈ [0, 11, 12, 13, 21, 22, 31]) (u : ℝ) : MadeWide (connProg false off) x u 3 := by
  simpa using connProg_made off 3 (by norm_num) hx u

theorem connProg_sections (off : Int) (wd : Int := 3) : leftCalls 0 (connProg false off wd) = [11] ∧ rightCalls 0 (connProg false off wd) = [12, 13] ∧
    leftCalls 1 (connProg false off wd) = [21] ∧ rightCalls 1 (connProg false off wd) = [22] ∧
    leftCalls 2 (connProg false off wd) = [] ∧ rightCalls 2 (connProg false off wd) = [31] := by
  simp [leftCalls, rightCalls, connProg, flLane]

theorem connProg_lanesLinked {off wd : Int} {v w : Nat} {e e' : ContactPoint} (h : LanesLinked (connProg false off wd) 0 v e w e') :
    v = 2 ∧ ((e = .start ∧ w = 0 ∧ e' = .end) ∨ (e = .end ∧ w = 1 ∧ e' = .start)) := by
  have h' := h
  obtain ⟨i, l, t, j, m, u, -, -, hne, hc⟩ := h'
  rcases linked_declared _ 0 (connProg_laidOut off wd) h with hd | hd
  · exact connProg_declares hd
  · rcases hc with ⟨-, a, a1, a2, a3⟩ | ⟨-, -, ⟨-, -, ⟨a, a1, -⟩, b, b1, -⟩ | ⟨-, -, ⟨a, a1, -⟩, b, b1, -⟩⟩
    · exact absurd ((connProg_linkCall a1).1.trans (connProg_declares hd).1.symm) hne
    · exact absurd ((connProg_linkCall a1).1.trans (connProg_linkCall b1).1.symm) hne
    · exact absurd ((connProg_linkCall b1).1.trans (connProg_linkCall a1).1.symm) hne

theorem connProg_lanesOf {off wd : Int} {v : Nat} {i : PyId} {l : Nat} {t : Int} (h : AddsLanes (connProg false off wd) 0 v i l t) : l = v := by
  obtain ⟨-, pv, n, ru, h⟩ := h
  exact (connProg_road h).2.1

theorem connProg_section (off : Int) {wd : Int} {v : Nat} (hv : v = 0 ∨ v = 1 ∨ v = 2) (e : ContactPoint) :
    sectionCall v (connProg false off wd) e = some v := by
  rcases hv with rfl | rfl | rfl <;> cases e <;> simp [sectionCall, sectionCalls, connProg, flLane]

theorem connProg_agreeing (off : Int) : AgreeingProgram (connProg false off) 0 := by
  intro v e w e' i l t j m u a b hl hv hw ha hb x y
  obtain rfl := connProg_lanesOf hv
  obtain rfl := connProg_lanesOf hw
  obtain ⟨c1, c2, c3, c4, c5, c6⟩ := connProg_sections off
  obtain ⟨rfl, ⟨rfl, rfl, rfl⟩ | ⟨rfl, rfl, rfl⟩⟩ := connProg_lanesLinked hl
  · rw [connProg_section off (by simp)] at ha hb
    cases ha; cases hb
    rw [SectionsAgree, if_neg (by decide), c1, c2, c5, c6]
    refine ⟨by simp [SidesAgree], fun n z hz => ?_⟩
    cases n with
    | zero => simp at hz; subst hz; exact ⟨12, 3, rfl, connProg_wide off (by simp) x, connProg_wide off (by simp) y⟩
    | succ n => simp at hz
  · rw [connProg_section off (by simp)] at ha hb
    cases ha; cases hb
    rw [SectionsAgree, if_neg (by decide), c3, c4, c5, c6]
    refine ⟨by simp [SidesAgree], fun n z hz => ?_⟩
    cases n with
    | zero => simp at hz; subst hz; exact ⟨22, 3, rfl, connProg_wide off (by simp) x, connProg_wide off (by simp) y⟩
    | succ n => simp at hz

theorem connProg_noOffsets : NoOffsets (connProg false 0) 0 := by
  intro v e _
  by_cases hv : 2 = v <;> cases e <;> simp [offsetCall, connProg_preds, connProg_succs, hv]

theorem connProg_start (off : Int) (wd : Int := 3) : LanesLinked (connProg false off wd) 0 2 .start 0 .end ∧
    AddsLanes (connProg false off wd) 0 2 (.int 100) 2 7 ∧ AddsLanes (connProg false off wd) 0 0 (.int 1) 0 (-1) := by
  have h2 : AddsLanes (connProg false off wd) 0 2 (.int 100) 2 7 := ⟨by simp [connProg], 2, none, none, by simp [connProg]⟩
  have h0 : AddsLanes (connProg false off wd) 0 0 (.int 1) 0 (-1) := ⟨by simp [connProg], 0, none, none, by simp [connProg]⟩
  exact ⟨⟨_, _, _, _, _, _, h2, h0, by decide, .inl ⟨by decide, _, by simp [linkCall, connProg_preds]; rfl, rfl, rfl⟩⟩, h2, h0⟩

/-- `C98_document` applied, with accurate Fresnel integrals and arctan2. -/
theorem connProg_touch (f a : ℝ) (hf : FresnelAccurate double f) (ha : ArctanAccurate double a) (date : String)
    (element : Xml (Fl double)) (he : (runCalls (connProg false 0 ++ [.adjust 0]) flStart).2.getElement 0 date = .ok element)
    (doc : RDocument (Fl double)) (hdoc : readDocument element = some doc) (rd : RRoad (Fl double)) (hrd : rd ∈ doc.roads)
    (S : RSection (Fl double)) (hS : S ∈ rd.sections) (L : RLane (Fl double)) (hL : L ∈ S.left ++ S.center ++ S.right) (k : RLink)
    (hk : k ∈ L.links) : ∃ rd' ∈ doc.roads, ∃ S' ∈ rd'.sections, ∃ L' ∈ S'.left ++ S'.right, k.id = strInt L'.id := by
  obtain ⟨e, -, -, rd', h1, e', S', h2, -, L', h3, h4, -⟩ := C98_document f a hf ha (connProg false 0) flStart flStart_blank 0 (connProg_laidOut 0)
    (connProg_plain 0) (connProg_noLoops 0) (connProg_geometry 0) connProg_noOffsets (connProg_agreeing 0) date element he doc hdoc rd hrd S hS L hL
    k hk
  refine ⟨rd', h1, S', ?_, L', h3, by rw [h4]; rfl⟩
  cases e'
  · exact List.mem_of_mem_head? h2
  · exact List.mem_of_getLast? h2

/-- `C98_offset` applied: with the offset -1, the lane of the connecting road is linked to the lane -2 of the first road; all lanes are 3 wide,
and it does not lead across the reference line. -/
theorem connProg_offset (f a : ℝ) (hf : FresnelAccurate double f) (ha : ArctanAccurate double a) (date : String)
    (element : Xml (Fl double)) (he : (runCalls (connProg false (-1) ++ [.adjust 0]) flStart).2.getElement 0 date = .ok element)
    (doc : RDocument (Fl double)) (hdoc : readDocument element = some doc) :
    ∃ rd ∈ doc.roads, ∃ rd' ∈ doc.roads, ∃ S S', rd.endSection .start = some S ∧ rd'.endSection .end = some S' ∧ ∃ P Q,
      rd.NearlyAt f a .start P ∧ rd'.NearlyAt f a .end Q ∧ ∀ L ∈ S.right, L.linksTo "predecessor" = [readLaneLinkTo "predecessor" (L.id - 1)] ∧
        (MeetsNearly double.u (-1) .start P .end Q → L.id < 0 → ∀ L' ∈ S'.right, L'.id = L.id - 1 → ∀ x x',
          NearlyTouch (double.u * (1 * (|Q.x| + |Q.y| + 4 * |Q.h| + 50))) (double.u * (2.1 * |Q.h| + 16)) P S.real x L.id Q S'.real x' L'.id) := by
  obtain ⟨d1, d2, d3⟩ := connProg_start (-1)
  obtain ⟨c1, c2, -, -, c5, c6⟩ := connProg_sections (-1)
  obtain ⟨rd, h1, rd', h2, -, -, S, S', h5, h6, P, Q, h7, h8, -, h9⟩ := C98_offset f a hf ha (connProg false (-1)) flStart flStart_blank 0
    (connProg_laidOut (-1)) (connProg_plain (-1)) (connProg_noLoops (-1)) (connProg_geometry (-1)) date element he doc hdoc 2 0 .start .end
    (by decide) d1 _ _ 2 0 7 (-1) d2 (by decide) d3 2 0 (connProg_section _ (by simp) _) (connProg_section _ (by simp) _) (-1)
    (by simp [offsetCall, connProg_preds])
  refine ⟨rd, h1, rd', h2, S, S', h5, h6, P, Q, h7, h8, fun L hL => ?_⟩
  obtain ⟨k1, k2⟩ := h9 L (List.mem_append_right _ hL)
  refine ⟨k1, fun hm hneg L' hL' hid x x' => ?_⟩
  have := k2 x x' (fun y hy => connProg_wide (-1) (by rw [c5, c6] at hy; simp at hy; simp [hy]) x)
    (fun y hy => connProg_wide (-1) (by rw [c1, c2] at hy; simp at hy; rcases hy with rfl | rfl | rfl <;> simp) x') hm (by omega) L'
    (List.mem_append_right _ hL') hid
  simpa using this

end Pyodrx.Props
