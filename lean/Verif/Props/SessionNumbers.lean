import Verif.Proofs.SessionNumbers
import Verif.Props.Document
import Verif.Props.SessionProgramExample

/-! # C89: lanes, lane sections and connections in programs of calls -/

namespace Pyodrx.Props
open Pyodrx Pyodrx.Spec PyFloat

section
variable {F : Type} [PyFloat F]

/-- C89: whatever a program does in between (and `adjust_roads_and_lanes`, with or without an exception, at any time), a lane section
has the centre that it was made with and the lanes that were added to it, in this order; a `Lanes` object has the sections that
were added to it. -/
theorem C89_sections (p : List (Call F)) (hp : Proper p) (s : Session F) :
    (∀ v sc ce, .laneSection v sc ce ∈ p → ((runCalls p s).2.sections.cell v).s = sc ∧
      ((runCalls p s).2.sections.cell v).center = ce ∧ ((runCalls p s).2.sections.cell v).left = leftCalls v p ∧
      ((runCalls p s).2.sections.cell v).right = rightCalls v p) ∧
    ∀ v, .lanes v ∈ p → (runCalls p s).2.lanesObjs.cell v = sectionCalls v p := by
  obtain ⟨h, -⟩ := num_program p hp s
  refine ⟨fun v sc ce hv => ?_, fun v hv => h.lanes v ⟨_, hv, rfl⟩⟩
  obtain ⟨sc', ce', h1, h2⟩ := h.secs v ⟨_, hv, rfl⟩
  have := made_once hp (x := .laneSection v) hv h1 rfl rfl
  cases this
  rw [h2]
  exact ⟨rfl, rfl, rfl, rfl⟩

theorem laneId_run (rest : List (Call F)) (l : Nat) : ∀ s : Session F, (∀ d ∈ rest, ¬ Makes d (.lane l)) →
    (∀ d ∈ rest, ∀ b n, ¬ Numbers b d l n) →
    ((runCalls rest s).2.laneObjs.cell l).laneId = (s.laneObjs.cell l).laneId := by
  induction rest with
  | nil => intro s _ _; rfl
  | cons c rest ih =>
    intro s h1 h2
    refine (ih _ (fun d hd => h1 d (List.mem_cons_of_mem _ hd)) (fun d hd => h2 d (List.mem_cons_of_mem _ hd))).trans ?_
    exact laneId_keep c s l (h1 c (by simp)) (h2 c (by simp))

/-- C89: the number of a lane is the one of the last call that puts it somewhere: 0 in the middle of a section, else its place on the
left or (negative) on the right. A lane object that is put into a second section therefore loses its number in the first one. -/
theorem C89_lane_number (before rest : List (Call F)) (c : Call F) (hp : Proper (before ++ c :: rest)) (s : Session F)
    (l : Nat) (n : Int) (hn : Numbers before c l n) (hlast : ∀ d ∈ rest, ∀ b m, ¬ Numbers b d l m) :
    ((runCalls (before ++ c :: rest) s).2.laneObjs.cell l).laneId = some n := by
  obtain ⟨p1, p2⟩ := hp before c rest rfl
  have hb : Proper before := by
    intro b d r e
    exact hp b d (r ++ c :: rest) (by rw [e]; simp)
  obtain ⟨h, -⟩ := num_program before hb s
  rw [runCalls_append]
  show ((runCalls rest (c.step (runCalls before s).2).2).2.laneObjs.cell l).laneId = some n
  have hl : Uses c (.lane l) := by
    cases c <;> first | exact hn.elim | skip
    · exact congrArg _ hn.1
    · exact .inr (congrArg _ hn.1)
    · exact .inr (congrArg _ hn.1)
  obtain ⟨d0, hd0, hd0'⟩ := p1 _ hl
  rw [laneId_run rest l _ (fun d hd hm => by
    obtain ⟨a, b, rfl⟩ := List.append_of_mem hd
    exact (hp (before ++ c :: a) d b (by simp)).2 _ hm ⟨d0, by simp [hd0], hd0'⟩) hlast]
  cases c <;> first | exact hn.elim | skip
  case laneSection v sc ce =>
    obtain ⟨rfl, rfl⟩ := hn
    simp [Call.step, Call.run, LaneSection.new, Store.modify, Lane.setLaneId]
  case addLeftLane v x =>
    obtain ⟨rfl, rfl⟩ := hn
    obtain ⟨sc, ce, -, h2⟩ := h.secs v (p1 _ (.inl rfl))
    simp [Call.step, Call.run, LaneSection.addLeftLane, Store.modify, Lane.setLaneId, h2]
  case addRightLane v x =>
    obtain ⟨rfl, rfl⟩ := hn
    obtain ⟨sc, ce, -, h2⟩ := h.secs v (p1 _ (.inl rfl))
    simp [Call.step, Call.run, LaneSection.addRightLane, Store.modify, Lane.setLaneId, h2]

theorem leftCalls_split (v l i : Nat) (p : List (Call F)) (h : (leftCalls v p)[i]? = some l) :
    ∃ before rest, p = before ++ .addLeftLane v l :: rest ∧ (leftCalls v before).length = i := by
  induction p generalizing i with
  | nil => simp [leftCalls] at h
  | cons c p ih =>
    have e : leftCalls v (c :: p) = leftCalls v [c] ++ leftCalls v p := leftCalls_append v [c] p
    rw [e] at h
    by_cases hc : ∃ x, c = .addLeftLane v x
    · obtain ⟨x, rfl⟩ := hc
      have e1 : leftCalls v [Call.addLeftLane (F := F) v x] = [x] := by simp [leftCalls]
      rw [e1] at h
      cases i with
      | zero => cases h; exact ⟨[], p, rfl, rfl⟩
      | succ i =>
        obtain ⟨b, r, h1, h2⟩ := ih i (by simpa using h)
        refine ⟨.addLeftLane v x :: b, r, by rw [h1]; rfl, ?_⟩
        rw [show (Call.addLeftLane v x :: b : List (Call F)) = [.addLeftLane v x] ++ b from rfl, leftCalls_append, e1]
        simp [h2]
    · have e1 : leftCalls v [c] = [] := by
        refine List.eq_nil_iff_forall_not_mem.mpr fun x hx => hc ⟨x, ?_⟩
        exact (List.mem_singleton.mp (leftCalls_mem.mp hx)).symm
      rw [e1] at h
      obtain ⟨b, r, h1, h2⟩ := ih i (by simpa using h)
      refine ⟨c :: b, r, by rw [h1]; rfl, ?_⟩
      rw [show (c :: b : List (Call F)) = [c] ++ b from rfl, leftCalls_append, e1]
      simp [h2]

theorem rightCalls_split (v l i : Nat) (p : List (Call F)) (h : (rightCalls v p)[i]? = some l) :
    ∃ before rest, p = before ++ .addRightLane v l :: rest ∧ (rightCalls v before).length = i := by
  induction p generalizing i with
  | nil => simp [rightCalls] at h
  | cons c p ih =>
    have e : rightCalls v (c :: p) = rightCalls v [c] ++ rightCalls v p := rightCalls_append v [c] p
    rw [e] at h
    by_cases hc : ∃ x, c = .addRightLane v x
    · obtain ⟨x, rfl⟩ := hc
      have e1 : rightCalls v [Call.addRightLane (F := F) v x] = [x] := by simp [rightCalls]
      rw [e1] at h
      cases i with
      | zero => cases h; exact ⟨[], p, rfl, rfl⟩
      | succ i =>
        obtain ⟨b, r, h1, h2⟩ := ih i (by simpa using h)
        refine ⟨.addRightLane v x :: b, r, by rw [h1]; rfl, ?_⟩
        rw [show (Call.addRightLane v x :: b : List (Call F)) = [.addRightLane v x] ++ b from rfl, rightCalls_append, e1]
        simp [h2]
    · have e1 : rightCalls v [c] = [] := by
        refine List.eq_nil_iff_forall_not_mem.mpr fun x hx => hc ⟨x, ?_⟩
        exact (List.mem_singleton.mp (rightCalls_mem.mp hx)).symm
      rw [e1] at h
      obtain ⟨b, r, h1, h2⟩ := ih i (by simpa using h)
      refine ⟨c :: b, r, by rw [h1]; rfl, ?_⟩
      rw [show (c :: b : List (Call F)) = [c] ++ b from rfl, rightCalls_append, e1]
      simp [h2]

theorem puts_append (l : Nat) (p q : List (Call F)) : puts l (p ++ q) = puts l p ++ puts l q := List.filter_append ..

theorem numbers_puts {b : List (Call F)} {c : Call F} {l : Nat} {n : Int} (h : Numbers b c l n) (q : List (Call F)) :
    puts l (c :: q) = c :: puts l q := by
  cases c <;> first | exact h.elim | (simp [puts, h.1])

/-- C89: if every lane is put into one place only, all sections are numbered 1, 2, … on the left, -1, -2, … on the right. -/
theorem C89_numbered (p : List (Call F)) (hp : Proper p) (s : Session F) (v : Nat) (sc : F) (ce : Nat)
    (hv : .laneSection v sc ce ∈ p) (i l : Nat) (hone : (puts l p).length = 1) :
    (((runCalls p s).2.sections.cell v).left[i]? = some l → ((runCalls p s).2.laneObjs.cell l).laneId = some ((i : Int) + 1)) ∧
    (((runCalls p s).2.sections.cell v).right[i]? = some l → ((runCalls p s).2.laneObjs.cell l).laneId = some (-((i : Int) + 1))) := by
  obtain ⟨-, -, e3, e4⟩ := (C89_sections p hp s).1 v sc ce hv
  rw [e3, e4]
  have key : ∀ (before rest : List (Call F)) (c : Call F) (n : Int), p = before ++ c :: rest → Numbers before c l n →
      ((runCalls p s).2.laneObjs.cell l).laneId = some n := by
    rintro before rest c n rfl hn
    refine C89_lane_number before rest c hp s l n hn fun d hd b m hm => ?_
    obtain ⟨a, a', rfl⟩ := List.append_of_mem hd
    rw [puts_append, numbers_puts hn, puts_append, numbers_puts hm] at hone
    simp at hone
    omega
  refine ⟨fun h => ?_, fun h => ?_⟩
  · obtain ⟨b, r, h1, h2⟩ := leftCalls_split v l i p h
    exact key b r _ _ h1 ⟨rfl, by rw [h2]⟩
  · obtain ⟨b, r, h1, h2⟩ := rightCalls_split v l i p h
    exact key b r _ _ h1 ⟨rfl, by rw [h2]⟩

/-- C89: a lane that is only used as a centre, in however many sections, has the number 0. -/
theorem C89_center (p : List (Call F)) (hp : Proper p) (s : Session F) (v : Nat) (sc : F) (l : Nat)
    (hv : .laneSection v sc l ∈ p) (hl : ∀ sec, .addLeftLane sec l ∉ p) (hr : ∀ sec, .addRightLane sec l ∉ p) :
    ((runCalls p s).2.laneObjs.cell l).laneId = some 0 := by
  have key : ∀ (q : List (Call F)) (b : List (Call F)) , p = b ++ q → (∃ v sc, .laneSection v sc l ∈ q) →
      ((runCalls p s).2.laneObjs.cell l).laneId = some 0 := by
    intro q
    induction q with
    | nil => rintro b - ⟨v, sc, h⟩; cases h
    | cons c q ih =>
      rintro b hb ⟨v, sc, h⟩
      by_cases hq : ∃ v sc, .laneSection v sc l ∈ q
      · exact ih (b ++ [c]) (by rw [hb]; simp) hq
      · rcases List.mem_cons.mp h with h | h
        · subst hb
          subst h
          refine C89_lane_number b q _ hp s l 0 ⟨rfl, rfl⟩ fun d hd b' m hm => ?_
          cases d <;> first | exact hm.elim | skip
          · obtain ⟨rfl, -⟩ := hm; exact hq ⟨_, _, hd⟩
          · obtain ⟨rfl, -⟩ := hm; exact hl _ (List.mem_append_right _ (List.mem_cons_of_mem _ hd))
          · obtain ⟨rfl, -⟩ := hm; exact hr _ (List.mem_append_right _ (List.mem_cons_of_mem _ hd))
        · exact absurd ⟨v, sc, h⟩ hq
  exact key p [] rfl ⟨v, sc, hv⟩

/-- C89: every `OpenDrive` of a program can be emitted at its end, whatever exceptions were caught on the way. -/
theorem C89_emits (p : List (Call F)) (hp : Proper p) (s : Session F) (o : Nat) (name : String) (ho : .openDrive o name ∈ p)
    (date : String) : ∃ element, (runCalls p s).2.getElement o date = .ok element := by
  obtain ⟨h, hu⟩ := num_program p hp s
  refine (C43_error _ date _).1.mpr ?_
  intro kv hkv sec hsec r hr
  simp only [Session.readOpenDrive, List.mem_map] at hkv
  obtain ⟨⟨k, v⟩, hv, rfl⟩ := hkv
  have hm := h.odrs o ⟨_, ho, rfl⟩ _ hv
  have hl := h.roads _ hm
  simp only [Session.readRoad, List.mem_map] at hsec
  obtain ⟨w, hw, rfl⟩ := hsec
  rw [h.lanes _ hl, sectionCalls_mem] at hw
  obtain ⟨ls, hw⟩ := hw
  obtain ⟨sc, ce, c1, c2⟩ := h.secs w (hu _ hw _ (.inr (.inl rfl)))
  show ((runCalls p s).2.laneObjs.cell r).laneId ≠ none
  have hn : ∃ b c q n, p = b ++ c :: q ∧ Numbers b c r n := by
    rw [c2] at hr
    simp only [List.mem_append, List.mem_singleton] at hr
    rcases hr with (hr | hr) | hr
    · obtain ⟨b, q, e⟩ := List.append_of_mem (leftCalls_mem.mp hr)
      exact ⟨b, _, q, _, e, rfl, rfl⟩
    · obtain ⟨b, q, e⟩ := List.append_of_mem c1
      exact ⟨b, _, q, 0, e, hr, rfl⟩
    · obtain ⟨b, q, e⟩ := List.append_of_mem (rightCalls_mem.mp hr)
      exact ⟨b, _, q, _, e, rfl, rfl⟩
  have key : ∀ (q : List (Call F)) (b : List (Call F)), p = b ++ q →
      (∃ b' c q' n, q = b' ++ c :: q' ∧ Numbers (b ++ b') c r n) → ((runCalls p s).2.laneObjs.cell r).laneId ≠ none := by
    intro q
    induction q with
    | nil => rintro b - ⟨b', c, q', n, e, -⟩; simp at e
    | cons d q ih =>
      rintro b hb ⟨b', c, q', n, e, hn1⟩
      by_cases hq : ∃ b' c q' n, q = b' ++ c :: q' ∧ Numbers (b ++ [d] ++ b') c r n
      · exact ih (b ++ [d]) (by rw [hb]; simp) hq
      · cases b' with
        | nil =>
          cases e
          subst hb
          have hn1 : Numbers b d r n := by rwa [List.append_nil] at hn1
          rw [C89_lane_number b q d hp s r n hn1 fun d' hd' b' m hm1 => ?_]
          · simp
          · obtain ⟨a, a', rfl⟩ := List.append_of_mem hd'
            cases d' <;> first | exact hm1.elim | exact hq ⟨a, _, a', _, rfl, hm1.1, rfl⟩
        | cons x b' =>
          cases e
          exact absurd ⟨b', c, q', n, rfl, by simpa using hn1⟩ hq
  obtain ⟨b, c, q, n, e, hn⟩ := hn
  exact key p [] rfl ⟨b, c, q, n, e, by simpa using hn⟩

/-- C89: a junction has the connections that were added to it, in this order, each with the lane links that were added to it before
or after. A connection made without an id gets its place in the junction that it is first added to (0, 1, …) and keeps it. -/
theorem C89_connections (p : List (Call F)) (hp : Proper p) (s : Session F) :
    (∀ j name id, .junction j name id ∈ p → (runCalls p s).2.readJunction ((runCalls p s).2.junctions.cell j) =
      ⟨name, id, (connectionCalls j p).map (runCalls p s).2.connections.cell, (connectionCalls j p).length⟩) ∧
    ∀ before rest j x inc con cp id, p = before ++ .addConnection j x :: rest → .connection x inc con cp id ∈ p →
      (∀ j', .addConnection j' x ∉ before) → (runCalls p s).2.connections.cell x =
        ⟨inc, con, cp, some (id.getD (connectionCalls j before).length), laneLinkCalls x p⟩ := by
  obtain ⟨h, -⟩ := num_program p hp s
  refine ⟨fun j name id hj => ?_, ?_⟩
  · obtain ⟨name', id', h1, h2⟩ := h.junctions j ⟨_, hj, rfl⟩
    have := made_once hp (x := .junction j) hj h1 rfl rfl
    cases this
    rw [h2]; rfl
  · rintro before rest j x inc con cp id rfl hx hfirst
    obtain ⟨inc1, con1, cp1, id1, i1, a1, a2, -, -⟩ := con_program _ hp s x ⟨_, hx, rfl⟩
    have := made_once hp (x := .connection x) hx a1 rfl rfl
    cases this
    rw [a2]
    have hb : Proper before := by
      intro b d r e
      exact hp b d (r ++ .addConnection j x :: rest) (by rw [e]; simp)
    obtain ⟨p1, p2⟩ := hp before _ rest rfl
    have hmade : Made before (.connection x) := p1 _ (.inr rfl)
    obtain ⟨inc2, con2, cp2, id2, i2, b1, b2, b3, -⟩ := con_program before hb s x hmade
    have := made_once hp (x := .connection x) hx (List.mem_append_left _ b1) rfl rfl
    cases this
    have hi := b3 fun ⟨j', hj'⟩ => hfirst j' hj'
    subst hi
    obtain ⟨hn, -⟩ := num_program before hb s
    obtain ⟨nm, jid, -, hj⟩ := hn.junctions j (p1 _ (.inl rfl))
    have hid : (((Call.addConnection j x).step (runCalls before s).2).2.connections.cell x).id =
        some (i2.getD (connectionCalls j before).length) := by
      simp only [Call.step, Call.run, Store.modify, if_true, b2, hj, Connection.setId]
      cases i2 <;> rfl
    have keep : ∀ (q : List (Call F)) (s' : Session F) (n : Int), (∀ d ∈ q, ¬ Makes d (.connection x)) →
        (s'.connections.cell x).id = some n → ((runCalls q s').2.connections.cell x).id = some n := by
      intro q
      induction q with
      | nil => exact fun s' n _ h => h
      | cons d q ih =>
        intro s' n h1 h2
        exact ih _ n (fun d' hd' => h1 d' (List.mem_cons_of_mem _ hd')) (conId_keep d s' x n (h1 d (by simp)) h2)
    have hfin := keep rest _ _ (fun d hd hm => by
      obtain ⟨a, b, rfl⟩ := List.append_of_mem hd
      obtain ⟨d0, hd0, hd0'⟩ := hmade
      exact (hp (before ++ .addConnection j x :: a) d b (by simp)).2 _ hm ⟨d0, by simp [hd0], hd0'⟩) hid
    have hrun : (runCalls (before ++ .addConnection j x :: rest) s).2 =
        (runCalls rest ((Call.addConnection j x).step (runCalls before s).2).2).2 := by rw [runCalls_append]; rfl
    rw [← hrun, a2] at hfin
    rw [show i1 = _ from hfin]

/-- C89 (finding): a connection object that was first the `n`-th of another junction keeps the id `n`: the connection that is then
added as the `n`-th to this junction has the same id. -/
theorem C89_duplicate_id (p before rest before' rest' : List (Call F)) (hp : Proper p) (s : Session F) (j j' x y : Nat)
    (inc con inc' con' : PyId) (cp cp' : ContactPoint) (hx : .connection x inc con cp none ∈ p)
    (hy : .connection y inc' con' cp' none ∈ p) (e : p = before ++ .addConnection j' x :: rest)
    (e' : p = before' ++ .addConnection j y :: rest') (h1 : ∀ i, .addConnection i x ∉ before)
    (h2 : ∀ i, .addConnection i y ∉ before') (hn : (connectionCalls j' before).length = (connectionCalls j before').length) :
    ((runCalls p s).2.connections.cell x).id = ((runCalls p s).2.connections.cell y).id := by
  rw [(C89_connections p hp s).2 before rest j' x _ _ _ _ e hx h1, (C89_connections p hp s).2 before' rest' j y _ _ _ _ e' hy h2]
  simp [hn]

/-! Programs that meet the hypotheses. -/

theorem proper_by (p : List (Call F)) (h : properCheck [] (p.map fun c => (makerPart c, userParts c)) = true) : Proper p := by
  have := properCheck_sound p [] [] (by simp) h
  simpa [Proper] using this

/-- Two junctions that share the connection 1. -/
def exSharedCon : List (Call F) :=
  [.junction 0 "a" (.int 10), .junction 1 "b" (.int 11), .connection 0 (.int 1) (.int 2) .start none,
   .connection 1 (.int 1) (.int 3) .start none, .connection 2 (.int 4) (.int 5) .start none,
   .addConnection 0 0, .addConnection 0 1, .addLanelink 1 1 1, .addConnection 1 1, .addConnection 1 2]

/-- Both connections of the junction 1 get the id 1. -/
example (s : Session F) : ((runCalls exSharedCon s).2.readJunction ((runCalls exSharedCon s).2.junctions.cell 1)).connections.map
    Connection.id = [some 1, some 1] := by rfl

example (s : Session F) : ((runCalls (F := F) exSharedCon s).2.connections.cell 1).id = ((runCalls exSharedCon s).2.connections.cell 2).id :=
  C89_duplicate_id exSharedCon (exSharedCon.take 6) (exSharedCon.drop 7) (exSharedCon.take 9) [] (proper_by _ rfl) s 1 0 1 2 (.int 1) (.int 3) (.int 4) (.int 5)
    .start .start    (by simp [exSharedCon]) (by simp [exSharedCon]) rfl rfl (by simp [exSharedCon]) (by simp [exSharedCon]) rfl

/-- A lane that is put on the right of a second section. -/
def exMovedLane : List (Call F) :=
  [.lane 0 .driving (ofInt 0) (ofInt 0) (ofInt 0) (ofInt 0) (ofInt 0), .lane 1 .driving (ofInt 3) (ofInt 0) (ofInt 0) (ofInt 0) (ofInt 0),
   .laneSection 0 (ofInt 0) 0, .laneSection 1 (ofInt 9) 0, .addLeftLane 0 1, .addRightLane 1 1]

/-- It is emitted on the left of the first section with the number -1. -/
example (s : Session F) : ((runCalls exMovedLane s).2.sections.cell 0).left = [1] ∧
    ((runCalls (F := F) exMovedLane s).2.laneObjs.cell 1).laneId = some (-1) :=
  ⟨((C89_sections exMovedLane (proper_by _ rfl) s).1 0 (ofInt 0) 0 (by simp [exMovedLane])).2.2.1,
    C89_lane_number (exMovedLane.take 5) [] (.addRightLane 1 1) (proper_by _ rfl) s 1 (-1) ⟨rfl, rfl⟩ (by simp)⟩

end

/-- The hypotheses of `C89_numbered`, `C89_center` and `C89_emits` hold of the program of C88, also after `adjust_roads_and_lanes`. -/
example (s : Session (Fl double)) : ((runCalls (flProg ++ [.adjust 0]) s).2.laneObjs.cell 12).laneId = some (-1) ∧
    ((runCalls (flProg ++ [.adjust 0]) s).2.laneObjs.cell 0).laneId = some 0 ∧
    ∃ x, (runCalls (flProg ++ [.adjust 0]) s).2.getElement 0 "today" = .ok x := by
  have hp : Proper (flProg ++ [.adjust 0]) := proper_by _ rfl
  have hl : ((runCalls (flProg ++ [.adjust 0]) s).2.sections.cell 0).right = [12] := by
    rw [((C89_sections _ hp s).1 0 (ofInt 0) 0 (by simp [flProg])).2.2.2]
    rfl
  refine ⟨?_, ?_, ?_⟩
  · exact (C89_numbered _ hp s 0 (ofInt 0) 0 (by simp [flProg]) 0 12 rfl).2 (by rw [hl]; rfl)
  · exact C89_center _ hp s 0 (ofInt 0) 0 (by simp [flProg]) (by simp [flProg, flLane]) (by simp [flProg, flLane])
  · exact C89_emits _ hp s 0 "doc" (by simp [flProg]) "today"

end Pyodrx.Props
