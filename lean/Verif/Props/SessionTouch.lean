import Verif.Props.SessionDocumentJoints
import Verif.Spec.SessionTouch
import Verif.Proofs.Touch

/-! # C98: linked lanes touch, in the document of a program of calls -/

namespace Pyodrx.Props
open Pyodrx Pyodrx.Spec PyFloat

variable {R : Rounding}

/-! ## Sections -/

/-- The numbers of the lanes of a section without gaps. -/
theorem counted_section {S : RSection ℝ} {nl nr : Nat} (hl : S.left.map RLane.id = (List.range nl).map fun n : Nat => (n : Int) + 1)
    (hr : S.right.map RLane.id = (List.range nr).map fun n : Nat => -((n : Int) + 1)) :
    ((S.left ++ S.right).map RLane.id).Nodup ∧ ∀ l ∈ S.left ++ S.right, l.id ≠ 0 ∧
      (inwards l.id = 0 ∨ ∃ m ∈ S.left ++ S.right, m.id = inwards l.id) := by
  refine ⟨?_, fun l hl' => ?_⟩
  · rw [List.map_append, hl, hr, List.nodup_append]
    refine ⟨List.Nodup.map (fun a b h => by simpa using h) List.nodup_range,
      List.Nodup.map (fun a b h => by simpa using h) List.nodup_range, ?_⟩
    simp only [List.mem_map, List.mem_range]
    rintro _ ⟨i, _, rfl⟩ _ ⟨j, _, rfl⟩
    omega
  · have hmem : ∀ {k : Int}, k ∈ (S.left ++ S.right).map RLane.id ↔ (∃ n : Nat, n < nl ∧ k = (n : Int) + 1) ∨ ∃ n : Nat, n < nr ∧ k = -((n : Int) + 1) := by
      intro k
      rw [List.map_append, hl, hr]
      simp only [List.mem_append, List.mem_map, List.mem_range, eq_comm]
    have h1 := hmem.mp (List.mem_map_of_mem hl')
    have h2 : inwards l.id = 0 ∨ inwards l.id ∈ (S.left ++ S.right).map RLane.id := by
      rw [hmem]
      rcases h1 with ⟨n, h1, h2⟩ | ⟨n, h1, h2⟩
      · cases n with
        | zero => left; rw [h2]; rfl
        | succ n => right; left; exact ⟨n, by omega, by rw [h2, inwards, if_pos (by omega)]; push_cast; omega⟩
      · cases n with
        | zero => left; rw [h2]; rfl
        | succ n => right; right; exact ⟨n, by omega, by rw [h2, inwards, if_neg (by omega)]; push_cast; omega⟩
    refine ⟨?_, h2.imp_right fun h => ?_⟩
    · rcases h1 with ⟨n, -, h⟩ | ⟨n, -, h⟩ <;> omega
    · obtain ⟨m, m1, m2⟩ := List.mem_map.mp h
      exact ⟨m, m1, m2⟩

/-- Corresponding lanes have corresponding edges. -/
theorem outer_sections {S T : RSection ℝ} {σ : Int} (hσ : σ = 1 ∨ σ = -1) {u u' : ℝ}
    (hs : ((S.left ++ S.right).map RLane.id).Nodup ∧ ∀ l ∈ S.left ++ S.right, l.id ≠ 0 ∧
      (inwards l.id = 0 ∨ ∃ m ∈ S.left ++ S.right, m.id = inwards l.id))
    (ht : ((T.left ++ T.right).map RLane.id).Nodup)
    (h : ∀ l ∈ S.left ++ S.right, ∃ m ∈ T.left ++ T.right, m.id = σ * l.id ∧ m.widthAt u' = l.widthAt u)
    (n : Nat) : ∀ i : Int, i.natAbs = n → (i = 0 ∨ ∃ l ∈ S.left ++ S.right, l.id = i) → T.outer u' (σ * i) = σ * S.outer u i := by
  induction n with
  | zero =>
    intro i hi _
    rw [Int.natAbs_eq_zero.mp hi, mul_zero, outer_zero, outer_zero, mul_zero]
  | succ n ih =>
    intro i hi hl
    have h0 : i ≠ 0 := by rintro rfl; simp at hi
    obtain ⟨l, hl', rfl⟩ := hl.resolve_left h0
    obtain ⟨m, hm, m1, m2⟩ := h l hl'
    have hm0 : m.id ≠ 0 := by rw [m1]; rcases hσ with rfl | rfl <;> simpa using h0
    have e1 := outer_step hs.1 hl' h0 u
    have e2 := outer_step ht hm hm0 u'
    rw [m1, m2, inwards_mul hσ h0] at e2
    have hin : (inwards l.id).natAbs = n := by have := inwards_natAbs h0; omega
    have e3 := ih (inwards l.id) hin (hs.2 l hl').2
    rw [e2, e1, e3]
    have e4 : (σ * l.id).sign = σ * l.id.sign := by
      rcases hσ with rfl | rfl
      · simp
      · rw [neg_one_mul, Int.sign_neg, neg_one_mul]
    rw [e4]
    push_cast
    ring

/-- The lanes of a shown section. -/
theorem shown_lanes {p : List (Call (Fl R))} {sec : Nat} {S : RSection (Fl R)} (h : SectionShown p sec S) :
    (∀ (n : Nat) L, S.left[n]? = some L → ∃ x, (leftCalls sec p)[n]? = some x ∧ L.id = (n : Int) + 1 ∧ LaneShown p x L) ∧
    (∀ (n : Nat) L, S.right[n]? = some L → ∃ x, (rightCalls sec p)[n]? = some x ∧ L.id = -((n : Int) + 1) ∧ LaneShown p x L) ∧
    (∀ (n : Nat) x, (leftCalls sec p)[n]? = some x → ∃ L, S.left[n]? = some L ∧ L.id = (n : Int) + 1 ∧ LaneShown p x L) ∧
    (∀ (n : Nat) x, (rightCalls sec p)[n]? = some x → ∃ L, S.right[n]? = some L ∧ L.id = -((n : Int) + 1) ∧ LaneShown p x L) := by
  obtain ⟨h1, h2, h3, h4, -⟩ := h
  have gen : ∀ {xs : List Nat} {Ls : List (RLane (Fl R))} {f : Nat → Int}, List.Forall₂ (LaneShown p) xs Ls →
      Ls.map RLane.id = (List.range xs.length).map f →
      (∀ (n : Nat) L, Ls[n]? = some L → ∃ x, xs[n]? = some x ∧ L.id = f n ∧ LaneShown p x L) ∧
      (∀ (n : Nat) x, xs[n]? = some x → ∃ L, Ls[n]? = some L ∧ L.id = f n ∧ LaneShown p x L) := by
    intro xs Ls f a b
    obtain ⟨a1, a2⟩ := List.forall₂_iff_get.mp a
    have hb : ∀ (n : Nat) L, Ls[n]? = some L → L.id = f n := by
      intro n L hL
      have := congrArg (·[n]?) b
      simp only [List.getElem?_map, hL, Option.map_some] at this
      have hlt : n < xs.length := a1 ▸ (List.getElem?_eq_some_iff.mp hL).1
      rw [List.getElem?_range hlt] at this
      simpa using this
    refine ⟨fun n L hL => ?_, fun n x hx => ?_⟩
    · obtain ⟨k1, k2⟩ := List.getElem?_eq_some_iff.mp hL
      have hx : n < xs.length := a1 ▸ k1
      refine ⟨xs[n], List.getElem?_eq_getElem hx, hb n L hL, ?_⟩
      rw [← k2]
      exact a2 n hx k1
    · obtain ⟨k1, k2⟩ := List.getElem?_eq_some_iff.mp hx
      have hL : n < Ls.length := a1 ▸ k1
      refine ⟨Ls[n], List.getElem?_eq_getElem hL, hb n _ (List.getElem?_eq_getElem hL), ?_⟩
      rw [← k2]
      exact a2 n k1 hL
  exact ⟨(gen h1 h3).1, (gen h2 h4).1, (gen h1 h3).2, (gen h2 h4).2⟩

theorem real_width {p : List (Call (Fl R))} (hp : Proper p) {x : Nat} {L : RLane (Fl R)} (h : LaneShown p x L) {u w : ℝ}
    (hw : MadeWide p x u w) : L.real.widthAt u = w := by
  obtain ⟨t, a, b, c, d, so, h1, rfl⟩ := hw
  have := made_once hp (x := .lane x) h.1 h1 rfl rfl
  injection this with _ _ ha hb hc hd hso
  simp only [RLane.widthAt, RLane.real, ha, hb, hc, hd, hso]

/-- Agreeing sections, in a document. -/
theorem agree_lanes {p : List (Call (Fl R))} (hp : Proper p) {e e' : ContactPoint} {a b : Nat} {u u' : ℝ}
    (h : SectionsAgree p e a u e' b u') {S T : RSection (Fl R)} (hS : SectionShown p a S) (hT : SectionShown p b T) :
    ∀ L ∈ S.left ++ S.right, ∃ M ∈ T.left ++ T.right, M.id = turnSign e e' * L.id ∧ M.real.widthAt u' = L.real.widthAt u := by
  obtain ⟨s1, s2, -, -⟩ := shown_lanes hS
  obtain ⟨-, -, t3, t4⟩ := shown_lanes hT
  intro L hL
  have : (∃ n : Nat, S.left[n]? = some L) ∨ ∃ n : Nat, S.right[n]? = some L :=
    (List.mem_append.mp hL).imp List.getElem?_of_mem List.getElem?_of_mem
  unfold SectionsAgree at h
  unfold turnSign
  split at h
  · next he =>
    rw [if_pos he]
    rcases this with ⟨n, hn⟩ | ⟨n, hn⟩
    · obtain ⟨x, x1, x2, x3⟩ := s1 n L hn
      obtain ⟨y, w, y1, y2, y3⟩ := h.1 n x x1
      obtain ⟨M, m1, m2, m3⟩ := t4 n y y1
      exact ⟨M, List.mem_append_right _ (List.mem_of_getElem? m1), by omega, by rw [real_width hp m3 y3, real_width hp x3 y2]⟩
    · obtain ⟨x, x1, x2, x3⟩ := s2 n L hn
      obtain ⟨y, w, y1, y2, y3⟩ := h.2 n x x1
      obtain ⟨M, m1, m2, m3⟩ := t3 n y y1
      exact ⟨M, List.mem_append_left _ (List.mem_of_getElem? m1), by omega, by rw [real_width hp m3 y3, real_width hp x3 y2]⟩
  · next he =>
    rw [if_neg he]
    rcases this with ⟨n, hn⟩ | ⟨n, hn⟩
    · obtain ⟨x, x1, x2, x3⟩ := s1 n L hn
      obtain ⟨y, w, y1, y2, y3⟩ := h.1 n x x1
      obtain ⟨M, m1, m2, m3⟩ := t3 n y y1
      exact ⟨M, List.mem_append_left _ (List.mem_of_getElem? m1), by omega, by rw [real_width hp m3 y3, real_width hp x3 y2]⟩
    · obtain ⟨x, x1, x2, x3⟩ := s2 n L hn
      obtain ⟨y, w, y1, y2, y3⟩ := h.2 n x x1
      obtain ⟨M, m1, m2, m3⟩ := t4 n y y1
      exact ⟨M, List.mem_append_right _ (List.mem_of_getElem? m1), by omega, by rw [real_width hp m3 y3, real_width hp x3 y2]⟩

/-- The lanes of a shown section are numbered without gaps. -/
theorem real_counted {p : List (Call (Fl R))} {sec : Nat} {S : RSection (Fl R)} (h : SectionShown p sec S) :
    ((S.real.left ++ S.real.right).map RLane.id).Nodup ∧ ∀ l ∈ S.real.left ++ S.real.right, l.id ≠ 0 ∧
      (inwards l.id = 0 ∨ ∃ m ∈ S.real.left ++ S.real.right, m.id = inwards l.id) := by
  refine counted_section (nl := (leftCalls sec p).length) (nr := (rightCalls sec p).length) ?_ ?_
  · rw [← h.leftIds]; simp [RSection.real, RLane.real, Function.comp_def]
  · rw [← h.rightIds]; simp [RSection.real, RLane.real, Function.comp_def]

theorem mem_real {S : RSection (Fl R)} {l : RLane ℝ} : l ∈ S.real.left ++ S.real.right ↔ ∃ L ∈ S.left ++ S.right, L.real = l := by
  simp only [RSection.real, ← List.map_append, List.mem_map]

/-- The corresponding lane has corresponding edges, in a document. -/
theorem agree_outer {p : List (Call (Fl R))} (hp : Proper p) {e e' : ContactPoint} {a b : Nat} {u u' : ℝ}
    (h : SectionsAgree p e a u e' b u') {S T : RSection (Fl R)} (hS : SectionShown p a S) (hT : SectionShown p b T)
    {L : RLane (Fl R)} (hL : L ∈ S.left ++ S.right) :
    ∃ M ∈ T.left ++ T.right, M.id = turnSign e e' * L.id ∧
      T.real.outer u' M.id = turnSign e e' * S.real.outer u L.id ∧
      T.real.outer u' (inwards M.id) = turnSign e e' * S.real.outer u (inwards L.id) := by
  obtain ⟨M, m1, m2, -⟩ := agree_lanes hp h hS hT L hL
  have hs := real_counted hS
  have hσ := turnSign_cases e e'
  have key := outer_sections hσ (u := u) (u' := u') hs (real_counted hT).1 (by
    intro l hl
    obtain ⟨L, hL, rfl⟩ := mem_real.mp hl
    obtain ⟨M, k1, k2, k3⟩ := agree_lanes hp h hS hT L hL
    exact ⟨M.real, mem_real.mpr ⟨M, k1, rfl⟩, k2, k3⟩)
  have hl := mem_real.mpr ⟨L, hL, rfl⟩
  have h0 : L.id ≠ 0 := (hs.2 _ hl).1
  refine ⟨M, m1, m2, ?_, ?_⟩
  · rw [m2]; exact key _ _ rfl (.inr ⟨_, hl, rfl⟩)
  · rw [m2, inwards_mul hσ h0]; exact key _ _ rfl (hs.2 _ hl).2

/-! ## The document -/

/-- A section at an end of a road in the document. -/
theorem shown_end (p : List (Call (Fl R))) (o : Nat) (h : LaidOut p o) {doc : RDocument (Fl R)} (hdoc : DocumentShown p o doc)
    {rd : RRoad (Fl R)} (hrd : rd ∈ doc.roads) {v : Nat} {i : PyId} {l : Nat} {t : Int} (hv : AddsLanes p o v i l t) (hid : rd.id = i.toStr)
    {e : ContactPoint} {a : Nat} (ha : sectionCall l p e = some a) : ∃ S, rd.endSection e = some S ∧ SectionShown p a S := by
  obtain ⟨n, hn⟩ := List.getElem?_of_mem hrd
  obtain ⟨k1, k2⟩ := List.getElem?_eq_some_iff.mp hn
  obtain ⟨a1, a2⟩ := List.forall₂_iff_get.mp hdoc.roads
  have hlt : n < (keepFirst (roadCalls o p)).length := a1 ▸ k1
  have hsh := a2 n hlt k1
  simp only [List.get_eq_getElem] at hsh
  rw [k2] at hsh
  have hmem := roadCalls_mem.mp ((keepFirst_mem _ _).mp (List.getElem_mem hlt))
  generalize (keepFirst (roadCalls o p))[n] = w at hsh hmem
  obtain ⟨j, pw, m, n', ru', b1, b2, -, -, b3⟩ := hsh.made
  obtain ⟨c1, pv, n'', ru'', c2⟩ := hv
  have := h.linked.ids v i t w j _ ⟨c1, _, _, _, _, c2⟩ ⟨hmem, _, _, _, _, b1⟩ (hid.symm.trans b2)
  subst this
  have := made_once h.drawing.proper (x := .road v) c2 b1 rfl rfl
  injection this with _ _ _ e4
  subst e4
  have gen : ∀ {xs : List Nat} {ys : List (RSection (Fl R))}, List.Forall₂ (SectionShown p) xs ys →
      (xs.head? = some a → ∃ S, ys.head? = some S ∧ SectionShown p a S) := by
    rintro _ _ (_ | ⟨h1, h2⟩) h3
    · cases h3
    · cases h3; exact ⟨_, rfl, h1⟩
  cases e
  · exact gen b3 ha
  · have b4 := List.forall₂_reverse_iff.mpr b3
    have := gen b4 (by rw [List.head?_reverse]; exact ha)
    rw [List.head?_reverse] at this
    exact this

/-- The road of a document with an id is one. -/
theorem doc_unique (p : List (Call (Fl R))) (s : Session (Fl R)) (hs : Blank s) (o : Nat) (h : LaidOut p o) (date : String)
    (element : Xml (Fl R)) (he : (runCalls (p ++ [.adjust o]) s).2.getElement o date = .ok element) (doc : RDocument (Fl R))
    (hdoc : readDocument element = some doc) {rd rd' : RRoad (Fl R)} (hrd : rd ∈ doc.roads) (hrd' : rd' ∈ doc.roads) (hid : rd.id = rd'.id) :
    rd = rd' := by
  obtain ⟨name, ho⟩ := h.document
  have hp := proper_adjust h.drawing.proper ⟨name, ho⟩
  obtain ⟨-, hgood⟩ := drawing_adjusted p h.drawing s hs o name ho (laidOut_returns p s hs o h)
  have ho' : .openDrive o name ∈ p ++ [.adjust o] := List.mem_append_left _ ho
  have hids := laidOut_ids h
  generalize p ++ [.adjust o] = q at hp hgood hids ho' he
  obtain ⟨gs, -, -, rfl⟩ := doc_form q hp s o name ho' hids date element he doc hdoc hgood
  obtain ⟨v, hv, rfl⟩ := List.mem_map.mp hrd
  obtain ⟨w, hw, rfl⟩ := List.mem_map.mp hrd'
  have hv := roadCalls_mem.mp ((keepFirst_mem _ _).mp hv)
  have hw := roadCalls_mem.mp ((keepFirst_mem _ _).mp hw)
  obtain ⟨-, hu⟩ := num_program q hp s
  have rv := roadIs_program q hp s v (hu _ hv _ (.inr rfl))
  have rw' := roadIs_program q hp s w (hu _ hw _ (.inr rfl))
  have : v = w := hids _ _ _ _ _ _ _ _ _ _ _ _ _ _ hv hw rv.made rw'.made hid
  rw [this]

theorem linked_declared (p : List (Call (Fl R))) (o : Nat) (h : LaidOut p o) {v : Nat} {e : ContactPoint} {w : Nat} {e' : ContactPoint}
    (hl : LanesLinked p o v e w e') : Declares p o v e w e' ∨ Declares p o w e' v e := by
  have adds : ∀ {v i l t}, AddsLanes p o v i l t → AddsRoad p o v i t := fun ⟨a, pv, n, ru, b⟩ => ⟨a, _, _, _, _, b⟩
  obtain ⟨i, l, t, j, m, u, h1, h2, hne, ⟨ht, a, a1, a2, a3⟩ | ⟨rfl, rfl, ⟨rfl, rfl, hc⟩ | ⟨rfl, rfl, hc⟩⟩⟩ := hl
  · refine .inl ⟨i, t, j, u, a, adds h1, adds h2, a1, ?_, by rw [a2], a3⟩
    refine (h.linked.connecting v i t (a, offsetCall v p e) (adds h1) ht ?_).1
    cases e
    · left
      simp only [linkCall, Option.map_eq_some_iff] at a1
      obtain ⟨x, x1, rfl⟩ := a1
      simp only [offsetCall, x1, Option.map_some, Option.getD_some]
      exact List.mem_of_mem_head? (by simp [x1])
    · right
      simp only [linkCall, Option.map_eq_some_iff] at a1
      obtain ⟨x, x1, rfl⟩ := a1
      simp only [offsetCall, x1, Option.map_some, Option.getD_some]
      exact List.mem_of_mem_head? (by simp [x1])
  · obtain ⟨⟨a, a1, a2, a3⟩, b, b1, b2, b3⟩ := hc
    obtain ⟨c1, -⟩ := h.fitting.joints v i l w j m a b hne h1 h2 a1 a2 a3 b1 b2 b3
    exact .inl ⟨i, _, j, _, a, adds h1, adds h2, a1, by rw [a2]; simp, by rw [a3], c1⟩
  · obtain ⟨⟨a, a1, a2, a3⟩, b, b1, b2, b3⟩ := hc
    obtain ⟨c1, -⟩ := h.fitting.joints w j m v i l a b (Ne.symm hne) h2 h1 a1 a2 a3 b1 b2 b3
    exact .inr ⟨j, _, i, _, a, adds h2, adds h1, a1, by rw [a2]; simp, by rw [a3], c1⟩

/-- Linked lanes in the document. -/
theorem linked_target (p : List (Call (Fl R))) (s : Session (Fl R)) (hs : Blank s) (o : Nat) (h : LaidOut p o) (hpl : PlainLanes p)
    (date : String) (element : Xml (Fl R)) (he : (runCalls (p ++ [.adjust o]) s).2.getElement o date = .ok element)
    (doc : RDocument (Fl R)) (hdoc : readDocument element = some doc)
    {v w : Nat} {e e' : ContactPoint} (hl : LanesLinked p o v e w e') {i j : PyId} {l m : Nat} {t u : Int}
    (hv : AddsLanes p o v i l t) (hw : AddsLanes p o w j m u)
    {rd rd' : RRoad (Fl R)} (hrd : rd ∈ doc.roads) (hrd' : rd' ∈ doc.roads) (hid : rd.id = i.toStr) (hid' : rd'.id = j.toStr) :
    ∃ S, rd.endSection e = some S ∧ ∀ L ∈ S.left ++ S.right, L.linksTo (linkTag e) =
      [readLaneLinkTo (linkTag e) (turnSign e e' * L.id + if t = -1 then 0 else offsetCall v p e)] := by
  have same : ∀ {v i l t j m u}, AddsLanes p o v i l t → AddsLanes p o v j m u → i = j ∧ l = m ∧ t = u := by
    rintro v i l t j m u ⟨-, pv, n, ru, a⟩ ⟨-, pw, n', ru', b⟩
    have := made_once h.drawing.proper (x := .road v) a b rfl rfl
    injection this with _ a1 _ a2 a3
    exact ⟨a1, a2, a3⟩
  obtain ⟨i', l', t', j', m', u', h1, h2, hne, hc⟩ := hl
  obtain ⟨rfl, rfl, rfl⟩ := same hv h1
  obtain ⟨rfl, rfl, rfl⟩ := same hw h2
  rcases hc with ⟨ht, a, a1, a2, a3⟩ | ⟨rfl, rfl, ⟨rfl, rfl, hc⟩ | ⟨rfl, rfl, hc⟩⟩
  · obtain ⟨S, c1, c2⟩ := C97_connecting p s hs o h hpl date element he doc hdoc v w i j l m t u ht hv hw e a a1 a2 rd hrd hid
    refine ⟨S, c1, fun L hL => ?_⟩
    rw [if_neg ht, c2 L hL, a3]
    congr 3
    cases e <;> cases e' <;> rfl
  · obtain ⟨S, S', c1, -, c2, -⟩ := C97_consecutive p s hs o h hpl date element he doc hdoc v w i j l m hne hv hw hc rd rd' hrd hrd' hid hid'
    refine ⟨S, c1, fun L hL => ?_⟩
    show L.linksTo "successor" = _
    rw [c2 L hL]
    simp [turnSign, linkTag]
  · obtain ⟨S, S', -, c1, -, c2⟩ := C97_consecutive p s hs o h hpl date element he doc hdoc w v j i m l hne.symm hw hv hc rd' rd hrd' hrd hid' hid
    refine ⟨S', c1, fun L hL => ?_⟩
    show L.linksTo "predecessor" = _
    rw [c2 L hL]
    simp [turnSign, linkTag]

/-- The ends of the two roads in the document, where lanes are linked. -/
theorem linked_joint (f a : ℝ) (hf : FresnelAccurate R f) (ha : ArctanAccurate R a) (p : List (Call (Fl R))) (s : Session (Fl R)) (hs : Blank s)
    (o : Nat) (h : LaidOut p o) (hn : NoLoopsProgram p o) (hg : DrawnGeometry p o)
    (date : String) (element : Xml (Fl R)) (he : (runCalls (p ++ [.adjust o]) s).2.getElement o date = .ok element)
    (doc : RDocument (Fl R)) (hdoc : readDocument element = some doc)
    {v w : Nat} {e e' : ContactPoint} (hl : LanesLinked p o v e w e') {i j : PyId} {t u : Int} (hv : AddsRoad p o v i t) (hw : AddsRoad p o w j u) :
    ∃ rd ∈ doc.roads, ∃ rd' ∈ doc.roads, rd.id = i.toStr ∧ rd'.id = j.toStr ∧ ∃ P Q, rd.NearlyAt f a e P ∧ rd'.NearlyAt f a e' Q ∧
      (MeetsNearly R.u (offsetCall v p e) e P e' Q ∨ MeetsNearly R.u (offsetCall w p e') e' Q e P) := by
  rcases linked_declared p o h hl with hd | hd
  · exact C97_joints f a hf ha p s hs o h hn hg date element he doc hdoc v w e e' hd i j t u hv hw
  · obtain ⟨rd, h1, rd', h2, h3, h4, P, Q, h5, h6, h7⟩ :=
      C97_joints f a hf ha p s hs o h hn hg date element he doc hdoc w v e' e hd j i u t hw hv
    exact ⟨rd', h2, rd, h1, h4, h3, Q, P, h6, h5, h7.symm⟩

/-- Cross sections of road ends that meet, in either direction. -/
theorem meets_either {δ : ℝ} {e e' : ContactPoint} {P Q : Pose ℝ} (h : MeetsNearly δ 0 e P e' Q ∨ MeetsNearly δ 0 e' Q e P) :
    ∃ b, (b = |P.h| ∨ b = |Q.h|) ∧ ∀ d : ℝ,
      |(beside P d).1 - (beside Q (turnSign e e' * d)).1| ≤ 0 + |turnSign e e' * d| * (δ * (2.1 * b + 16)) ∧
      |(beside P d).2 - (beside Q (turnSign e e' * d)).2| ≤ 0 + |turnSign e e' * d| * (δ * (2.1 * b + 16)) := by
  have ht : ((turnSign e e' : Int) : ℝ) = sideSign e e' := by unfold turnSign sideSign; split <;> simp
  have e0 : ∀ d, |sideSign e e' * d| = |d| := by intro d; unfold sideSign; split <;> simp
  simp only [ht, e0, zero_add]
  rcases h with h | h
  · exact ⟨_, .inr rfl, fun d => meets_beside h d⟩
  · refine ⟨_, .inl rfl, fun d => ?_⟩
    have hm := meets_beside h (sideSign e e' * d)
    have e1 : sideSign e' e = sideSign e e' := by simp only [sideSign, eq_comm]
    have e2 : sideSign e e' * (sideSign e e' * d) = d := by unfold sideSign; split <;> ring
    have e3 : |sideSign e e' * d| = |d| := by unfold sideSign; split <;> simp
    rw [e1, e2, e3] at hm
    rw [abs_sub_comm (beside P d).1, abs_sub_comm (beside P d).2]
    exact hm

/-- C98: in the document of a laid out program without loops, where lanes are linked and no lane offset is given, and where the calls make
corresponding lanes of the two roads equally wide: every lane at that end of the road has exactly one link there, to the lane that
physically continues it: it exists in the lane section at that end of the other road, and both lanes have the same outer and the same inner
edge, up to rounding errors in the directions. (`x`, `x'`: the distances of the two road ends from the starts of their lane sections.) -/
theorem C98_lanes_touch (f a : ℝ) (hf : FresnelAccurate R f) (ha : ArctanAccurate R a) (p : List (Call (Fl R))) (s : Session (Fl R)) (hs : Blank s)
    (o : Nat) (h : LaidOut p o) (hpl : PlainLanes p) (hn : NoLoopsProgram p o) (hg : DrawnGeometry p o)
    (date : String) (element : Xml (Fl R)) (he : (runCalls (p ++ [.adjust o]) s).2.getElement o date = .ok element)
    (doc : RDocument (Fl R)) (hdoc : readDocument element = some doc)
    (v w : Nat) (e e' : ContactPoint) (hl : LanesLinked p o v e w e') (i j : PyId) (l m : Nat) (t u : Int)
    (hv : AddsLanes p o v i l t) (hw : AddsLanes p o w j m u) (hov : offsetCall v p e = 0) (how : offsetCall w p e' = 0)
    (sec sec' : Nat) (hsec : sectionCall l p e = some sec) (hsec' : sectionCall m p e' = some sec') :
    ∃ rd ∈ doc.roads, ∃ rd' ∈ doc.roads, rd.id = i.toStr ∧ rd'.id = j.toStr ∧
      ∃ S S', rd.endSection e = some S ∧ rd'.endSection e' = some S' ∧ ∃ P Q, rd.NearlyAt f a e P ∧ rd'.NearlyAt f a e' Q ∧
        ∃ b, (b = |P.h| ∨ b = |Q.h|) ∧ ∀ x x', SectionsAgree p e sec x e' sec' x' →
          ∀ L ∈ S.left ++ S.right, ∃ L' ∈ S'.left ++ S'.right, L'.id = turnSign e e' * L.id ∧
            L.linksTo (linkTag e) = [readLaneLinkTo (linkTag e) L'.id] ∧
            NearlyTouch 0 (R.u * (2.1 * b + 16)) P S.real x L.id Q S'.real x' L'.id := by
  have adds : ∀ {v i l t}, AddsLanes p o v i l t → AddsRoad p o v i t := fun ⟨a, pv, n, ru, b⟩ => ⟨a, _, _, _, _, b⟩
  obtain ⟨rd, h1, rd', h2, h3, h4, P, Q, h5, h6, h7⟩ :=
    linked_joint f a hf ha p s hs o h hn hg date element he doc hdoc hl (adds hv) (adds hw)
  obtain ⟨element', he', hshown⟩ := C97_adjusted p s hs o h date
  have : element' = element := by rw [he] at he'; cases he'; rfl
  subst this
  have hsh := hshown doc hdoc
  obtain ⟨S, s1, s2⟩ := shown_end p o h hsh h1 hv h3 hsec
  obtain ⟨S', s1', s2'⟩ := shown_end p o h hsh h2 hw h4 hsec'
  rw [hov, how] at h7
  obtain ⟨b, b1, b2⟩ := meets_either h7
  refine ⟨rd, h1, rd', h2, h3, h4, S, S', s1, s1', P, Q, h5, h6, b, b1, fun x x' hag L hL => ?_⟩
  obtain ⟨S0, k1, k2⟩ := linked_target p s hs o h hpl date element' he doc hdoc hl hv hw h1 h2 h3 h4
  rw [s1] at k1; cases k1
  obtain ⟨L', l1, l2, l3, l4⟩ := agree_outer h.drawing.proper hag s2 s2' hL
  refine ⟨L', l1, l2, ?_, ?_, ?_⟩
  · rw [k2 L hL, l2, hov, ite_self, add_zero]
  · rw [l3]; exact b2 _
  · rw [l4]; exact b2 _

/-- The sections where lanes are linked. -/
theorem linked_section (p : List (Call (Fl R))) (o : Nat) (h : LaidOut p o) {v : Nat} {e : ContactPoint} {w : Nat} {e' : ContactPoint}
    (hl : LanesLinked p o v e w e') {j : PyId} {m : Nat} {u : Int} (hw : AddsLanes p o w j m u) : ∃ sec, sectionCall m p e' = some sec := by
  have same : ∀ {v i l t j m u}, AddsLanes p o v i l t → AddsLanes p o v j m u → i = j ∧ l = m ∧ t = u := by
    rintro v i l t j m u ⟨-, pv, n, ru, a⟩ ⟨-, pw, n', ru', b⟩
    have := made_once h.drawing.proper (x := .road v) a b rfl rfl
    injection this with _ a1 _ a2 a3
    exact ⟨a1, a2, a3⟩
  obtain ⟨i', l', t', j', m', u', h1, h2, hne, hc⟩ := hl
  obtain ⟨rfl, rfl, rfl⟩ := same hw h2
  rcases hc with ⟨ht, a, a1, a2, a3⟩ | ⟨rfl, rfl, ⟨rfl, rfl, hc⟩ | ⟨rfl, rfl, hc⟩⟩
  · obtain ⟨_, _, tc, -, -, c3, -⟩ := h.fitting.lanes v i' l' t' w j m u e a h1 ht h2 a1 a2
    exact ⟨tc, by rw [a3] at c3; exact c3⟩
  · obtain ⟨⟨a, a1, a2, a3⟩, b, b1, b2, b3⟩ := hc
    obtain ⟨-, -, sa, sb, last, -, c, -⟩ := h.fitting.joints v i' l' w j m a b hne h1 h2 a1 a2 a3 b1 b2 b3
    exact ⟨sb, c⟩
  · obtain ⟨⟨a, a1, a2, a3⟩, b, b1, b2, b3⟩ := hc
    obtain ⟨-, -, sa, sb, last, c, -⟩ := h.fitting.joints w j m v i' l' a b (Ne.symm hne) h2 h1 a1 a2 a3 b1 b2 b3
    exact ⟨sa, c⟩

/-- C98: so in the document of such a program without lane offsets, whose linked lanes have equal, constant widths, *every* link of *every*
lane leads to a lane of another road that continues it. -/
theorem C98_document (f a : ℝ) (hf : FresnelAccurate R f) (ha : ArctanAccurate R a) (p : List (Call (Fl R))) (s : Session (Fl R)) (hs : Blank s)
    (o : Nat) (h : LaidOut p o) (hpl : PlainLanes p) (hn : NoLoopsProgram p o) (hg : DrawnGeometry p o)
    (hz : NoOffsets p o) (hag : AgreeingProgram p o)
    (date : String) (element : Xml (Fl R)) (he : (runCalls (p ++ [.adjust o]) s).2.getElement o date = .ok element)
    (doc : RDocument (Fl R)) (hdoc : readDocument element = some doc) (rd : RRoad (Fl R)) (hrd : rd ∈ doc.roads)
    (S : RSection (Fl R)) (hS : S ∈ rd.sections) (L : RLane (Fl R)) (hL : L ∈ S.left ++ S.center ++ S.right) (k : RLink) (hk : k ∈ L.links) :
    ∃ e, rd.endSection e = some S ∧ L.linksTo (linkTag e) = [k] ∧ ∃ rd' ∈ doc.roads, ∃ e' S', rd'.endSection e' = some S' ∧ rd.id ≠ rd'.id ∧
      ∃ L' ∈ S'.left ++ S'.right, k = readLaneLinkTo (linkTag e) L'.id ∧ ∃ P Q, rd.NearlyAt f a e P ∧ rd'.NearlyAt f a e' Q ∧
        ∃ b, (b = |P.h| ∨ b = |Q.h|) ∧ ∀ x x', NearlyTouch 0 (R.u * (2.1 * b + 16)) P S.real x L.id Q S'.real x' L'.id := by
  obtain ⟨n1, e, v, i, l, w, j, m, n2, n3, n4, n5, n6, n7, n8⟩ :=
    C97_no_other_links p s hs o h hpl date element he doc hdoc rd hrd S hS L hL k hk
  have hside : L ∈ S.left ++ S.right := by
    simp only [List.mem_append] at hL ⊢
    tauto
  obtain ⟨e', hl⟩ : ∃ e', LanesLinked p o v e w e' := by
    rcases n8 with ⟨q1, rfl, q2⟩ | ⟨q1, rfl, q2⟩ | ⟨q1, lk, q2, q3⟩
    · exact ⟨.start, i, l, _, j, m, _, n5, n7, n4, .inr ⟨q1, rfl, .inl ⟨rfl, rfl, q2⟩⟩⟩
    · exact ⟨.end, i, l, _, j, m, _, n5, n7, n4, .inr ⟨q1, rfl, .inr ⟨rfl, rfl, q2⟩⟩⟩
    · have hx : ∃ y, (y ∈ predecessorCalls v p ∨ y ∈ successorCalls v p) ∧ y.1 = lk := by
        cases e
        · simp only [linkCall, Option.map_eq_some_iff] at q2
          obtain ⟨y, y1, rfl⟩ := q2
          exact ⟨y, .inl (List.mem_of_mem_head? (by simp [y1])), rfl⟩
        · simp only [linkCall, Option.map_eq_some_iff] at q2
          obtain ⟨y, y1, rfl⟩ := q2
          exact ⟨y, .inr (List.mem_of_mem_head? (by simp [y1])), rfl⟩
      obtain ⟨y, y1, rfl⟩ := hx
      obtain ⟨c1, pv, c2, c3, c4⟩ := n5
      have ha : AddsRoad p o v i rd.junction := ⟨c1, _, _, _, _, c4⟩
      have y2 := (h.linked.connecting v i _ y ha q1 y1).1
      have y3 := h.linked.contacts v i _ y ha y1 y2
      obtain ⟨e', y4⟩ := Option.ne_none_iff_exists'.mp y3
      exact ⟨e', i, l, _, j, m, _, ⟨c1, pv, c2, c3, c4⟩, n7, n4, .inl ⟨q1, y.1, q2, q3, y4⟩⟩
  have adds : ∀ {v i l t}, AddsLanes p o v i l t → AddsRoad p o v i t := fun ⟨a, pv, n, ru, b⟩ => ⟨a, _, _, _, _, b⟩
  obtain ⟨sec, hsec⟩ : ∃ sec, sectionCall l p e = some sec := by
    have := doc_sections_of p s hs o h date element he doc hdoc hrd n5 n6 e
    rw [n3] at this
    obtain ⟨sec, h1, -⟩ := Option.map_eq_some_iff.mp this.symm
    exact ⟨sec, h1⟩
  obtain ⟨sec', hsec'⟩ := linked_section p o h hl n7
  obtain ⟨rd1, h1, rd', h2, h3, h4, S1, S', s1, s1', P, Q, h5, h6, b, b1, h8⟩ :=
    C98_lanes_touch f a hf ha p s hs o h hpl hn hg date element he doc hdoc v w e e' hl i j l m _ _ n5 n7 (hz v e n5.1) (hz w e' n7.1)
      sec sec' hsec hsec'
  have := doc_unique p s hs o h date element he doc hdoc hrd h1 (n6.trans h3.symm)
  subst this
  rw [n3] at s1; cases s1
  have hh := hag v e w e' i l _ j m _ sec sec' hl n5 n7 hsec hsec'
  obtain ⟨L', l1, l2, l3, -⟩ := h8 0 0 (hh 0 0) L hside
  have hmem : k ∈ L.linksTo (linkTag e) := by
    simp only [RLane.linksTo, List.mem_filter]
    exact ⟨hk, by simp [n2]⟩
  rw [l3, List.mem_singleton] at hmem
  refine ⟨e, n3, by rw [l3, hmem], rd', h2, e', S', s1', ?_, L', l1, hmem, P, Q, h5, h6, b, b1, fun x x' => ?_⟩
  · intro hid
    exact n4 (h.linked.ids v i _ w j _ (adds n5) (adds n7) (by rw [← n6, ← h4, hid]))
  · obtain ⟨L2, -, k2, -, k4⟩ := h8 x x' (hh x x') L hside
    rw [k2, ← l2] at k4
    exact k4

/-! ## Lane offsets -/

theorem outer_wide_section {S : RSection ℝ} {u w : ℝ}
    (hs : ((S.left ++ S.right).map RLane.id).Nodup ∧ ∀ l ∈ S.left ++ S.right, l.id ≠ 0 ∧
      (inwards l.id = 0 ∨ ∃ m ∈ S.left ++ S.right, m.id = inwards l.id))
    (hw : ∀ l ∈ S.left ++ S.right, l.widthAt u = w)
    (n : Nat) : ∀ i : Int, i.natAbs = n → (i = 0 ∨ ∃ l ∈ S.left ++ S.right, l.id = i) → S.outer u i = w * i := by
  induction n with
  | zero =>
    intro i hi _
    rw [Int.natAbs_eq_zero.mp hi, outer_zero]
    simp
  | succ n ih =>
    intro i hi hl
    have h0 : i ≠ 0 := by rintro rfl; simp at hi
    obtain ⟨l, hl', rfl⟩ := hl.resolve_left h0
    have e1 := outer_step hs.1 hl' h0 u
    have hin : (inwards l.id).natAbs = n := by have := inwards_natAbs h0; omega
    rw [e1, hw l hl', ih (inwards l.id) hin (hs.2 l hl').2]
    have : ((inwards l.id : Int) : ℝ) + ((Int.sign l.id : Int) : ℝ) = l.id := by
      rw [← Int.cast_add]
      congr 1
      rcases lt_trichotomy l.id 0 with h1 | h1 | h1
      · rw [inwards, if_neg (by omega), Int.sign_eq_neg_one_of_neg h1]; omega
      · exact absurd h1 h0
      · rw [inwards, if_pos h1, Int.sign_eq_one_of_pos h1]; omega
    rw [← this]
    ring

/-- A section whose lanes are made `w` wide, in a document. -/
theorem wide_outer {p : List (Call (Fl R))} (hp : Proper p) {a : Nat} {u w : ℝ} (h : ∀ x ∈ leftCalls a p ++ rightCalls a p, MadeWide p x u w)
    {S : RSection (Fl R)} (hS : SectionShown p a S) {L : RLane (Fl R)} (hL : L ∈ S.left ++ S.right) :
    L.id ≠ 0 ∧ S.real.outer u L.id = w * L.id ∧ S.real.outer u (inwards L.id) = w * inwards L.id := by
  have hs := real_counted hS
  obtain ⟨s1, s2, -, -⟩ := shown_lanes hS
  have hw : ∀ l ∈ S.real.left ++ S.real.right, l.widthAt u = w := by
    intro l hl
    obtain ⟨L, hL, rfl⟩ := mem_real.mp hl
    rcases List.mem_append.mp hL with hL | hL
    · obtain ⟨n, hn⟩ := List.getElem?_of_mem hL
      obtain ⟨x, x1, -, x3⟩ := s1 n L hn
      exact real_width hp x3 (h x (List.mem_append_left _ (List.mem_of_getElem? x1)))
    · obtain ⟨n, hn⟩ := List.getElem?_of_mem hL
      obtain ⟨x, x1, -, x3⟩ := s2 n L hn
      exact real_width hp x3 (h x (List.mem_append_right _ (List.mem_of_getElem? x1)))
  have hl := mem_real.mpr ⟨L, hL, rfl⟩
  exact ⟨(hs.2 _ hl).1, outer_wide_section hs hw _ _ rfl (.inr ⟨_, hl, rfl⟩), outer_wide_section hs hw _ _ rfl (hs.2 _ hl).2⟩

theorem meets_offset {δ : ℝ} (hδ : 0 ≤ δ) {n : Int} {e e' : ContactPoint} (hne : e ≠ e') {P Q : Pose ℝ} (h : MeetsNearly δ n e P e' Q) (i : Int) :
    |(beside P (3 * i)).1 - (beside Q (3 * (i + n : Int))).1| ≤
        δ * (|(n : ℝ)| * (|Q.x| + |Q.y| + 4 * |Q.h| + 50)) + |(3 * (i + n : Int) : ℝ)| * (δ * (2.1 * |Q.h| + 16)) ∧
    |(beside P (3 * i)).2 - (beside Q (3 * (i + n : Int))).2| ≤
        δ * (|(n : ℝ)| * (|Q.x| + |Q.y| + 4 * |Q.h| + 50)) + |(3 * (i + n : Int) : ℝ)| * (δ * (2.1 * |Q.h| + 16)) := by
  obtain ⟨k1, k2⟩ := meets_direction h
  obtain ⟨h1, h2, -⟩ := h
  rw [sideSign, if_neg hne, one_mul] at k1 k2
  have m1 : δ * (|(n : ℝ)| * (|Q.x| + 4 * |Q.h| + 50)) ≤ δ * (|(n : ℝ)| * (|Q.x| + |Q.y| + 4 * |Q.h| + 50)) :=
    mul_le_mul_of_nonneg_left (mul_le_mul_of_nonneg_left (by linarith [abs_nonneg Q.y]) (abs_nonneg _)) hδ
  have m2 : δ * (|(n : ℝ)| * (|Q.y| + 4 * |Q.h| + 50)) ≤ δ * (|(n : ℝ)| * (|Q.x| + |Q.y| + 4 * |Q.h| + 50)) :=
    mul_le_mul_of_nonneg_left (mul_le_mul_of_nonneg_left (by linarith [abs_nonneg Q.x]) (abs_nonneg _)) hδ
  constructor
  · have : (beside P (3 * i)).1 - (beside Q (3 * (i + n : Int))).1 =
        (P.x - (Q.x - 3 * n * Real.sin P.h)) + -((3 * (i + n : Int) : ℝ) * (Real.sin P.h - Real.sin Q.h)) := by
      simp only [beside]; push_cast; ring
    rw [this]
    refine (abs_add_le _ _).trans (add_le_add (h1.trans m1) ?_)
    rw [abs_neg, abs_mul]
    exact mul_le_mul_of_nonneg_left k1 (abs_nonneg _)
  · have : (beside P (3 * i)).2 - (beside Q (3 * (i + n : Int))).2 =
        (P.y - (Q.y + 3 * n * Real.cos P.h)) + (3 * (i + n : Int) : ℝ) * (Real.cos P.h - Real.cos Q.h) := by
      simp only [beside]; push_cast; ring
    rw [this]
    refine (abs_add_le _ _).trans (add_le_add (h2.trans m2) ?_)
    rw [abs_mul]
    exact mul_le_mul_of_nonneg_left k2 (abs_nonneg _)

/-- C98: with a lane offset `n` at the end of a connecting road, where an end meets a start and all lanes of both roads are 3 wide (the
width is hard-coded): if the road was placed there by this offset, the link of a lane that does not lead across the reference line leads
to the lane that continues it, provided that lane exists. -/
theorem C98_offset (f a : ℝ) (hf : FresnelAccurate R f) (ha : ArctanAccurate R a) (p : List (Call (Fl R))) (s : Session (Fl R)) (hs : Blank s)
    (o : Nat) (h : LaidOut p o) (hpl : PlainLanes p) (hn : NoLoopsProgram p o) (hg : DrawnGeometry p o)
    (date : String) (element : Xml (Fl R)) (he : (runCalls (p ++ [.adjust o]) s).2.getElement o date = .ok element)
    (doc : RDocument (Fl R)) (hdoc : readDocument element = some doc)
    (v w : Nat) (e e' : ContactPoint) (hne : e ≠ e') (hl : LanesLinked p o v e w e') (i j : PyId) (l m : Nat) (t u : Int)
    (hv : AddsLanes p o v i l t) (ht : t ≠ -1) (hw : AddsLanes p o w j m u)
    (sec sec' : Nat) (hsec : sectionCall l p e = some sec) (hsec' : sectionCall m p e' = some sec') (n : Int) (hoff : offsetCall v p e = n) :
    ∃ rd ∈ doc.roads, ∃ rd' ∈ doc.roads, rd.id = i.toStr ∧ rd'.id = j.toStr ∧
      ∃ S S', rd.endSection e = some S ∧ rd'.endSection e' = some S' ∧ ∃ P Q, rd.NearlyAt f a e P ∧ rd'.NearlyAt f a e' Q ∧
        (MeetsNearly R.u n e P e' Q ∨ MeetsNearly R.u (offsetCall w p e') e' Q e P) ∧
        ∀ L ∈ S.left ++ S.right, L.linksTo (linkTag e) = [readLaneLinkTo (linkTag e) (L.id + n)] ∧
          ∀ x x', (∀ y ∈ leftCalls sec p ++ rightCalls sec p, MadeWide p y x 3) →
            (∀ y ∈ leftCalls sec' p ++ rightCalls sec' p, MadeWide p y x' 3) → MeetsNearly R.u n e P e' Q → (0 < L.id ↔ 0 < L.id + n) →
            ∀ L' ∈ S'.left ++ S'.right, L'.id = L.id + n →
              NearlyTouch (R.u * (|(n : ℝ)| * (|Q.x| + |Q.y| + 4 * |Q.h| + 50))) (R.u * (2.1 * |Q.h| + 16)) P S.real x L.id Q S'.real x' L'.id := by
  have adds : ∀ {v i l t}, AddsLanes p o v i l t → AddsRoad p o v i t := fun ⟨a, pv, n, ru, b⟩ => ⟨a, _, _, _, _, b⟩
  obtain ⟨rd, h1, rd', h2, h3, h4, P, Q, h5, h6, h7⟩ :=
    linked_joint f a hf ha p s hs o h hn hg date element he doc hdoc hl (adds hv) (adds hw)
  obtain ⟨element', he', hshown⟩ := C97_adjusted p s hs o h date
  have : element' = element := by rw [he] at he'; cases he'; rfl
  subst this
  have hsh := hshown doc hdoc
  obtain ⟨S, s1, s2⟩ := shown_end p o h hsh h1 hv h3 hsec
  obtain ⟨S', s1', s2'⟩ := shown_end p o h hsh h2 hw h4 hsec'
  rw [hoff] at h7
  refine ⟨rd, h1, rd', h2, h3, h4, S, S', s1, s1', P, Q, h5, h6, h7, fun L hL => ?_⟩
  obtain ⟨S0, k1, k2⟩ := linked_target p s hs o h hpl date element' he doc hdoc hl hv hw h1 h2 h3 h4
  rw [s1] at k1; cases k1
  have hσ : turnSign e e' = 1 := by rw [turnSign, if_neg hne]
  refine ⟨by rw [k2 L hL, hσ, one_mul, if_neg ht, hoff], fun x x' hx hx' hm hsgn L' hL' hid => ?_⟩
  obtain ⟨q0, q1, q2⟩ := wide_outer h.drawing.proper hx s2 hL
  obtain ⟨r0, r1, r2⟩ := wide_outer h.drawing.proper hx' s2' hL'
  have hin : inwards L'.id = inwards L.id + n := by
    rw [hid] at r0 ⊢
    unfold inwards
    split <;> split <;> omega
  refine ⟨?_, ?_⟩
  · rw [q1, r1, hid]
    exact meets_offset R.u_nonneg hne hm L.id
  · rw [q2, r2, hin]
    exact meets_offset R.u_nonneg hne hm (inwards L.id)

end Pyodrx.Props
