import Std.Data.String.ToInt
import Verif.Spec.Junction
import Verif.Props.LaneLinks

/-! # C50: `create_junction` -/

namespace Pyodrx.Props
open Spec

variable {F : Type}

theorem createJunctionLinks_eq (c : Connection) (n : Nat) (rl s fo tof : Int) :
    createJunctionLinks c n rl s fo tof = { c with links := c.links ++
      ((List.range n).map fun i : Nat =>
        (rl * ((i : Int) + 1) + fo, rl * s * ((i : Int) + 1) + tof)) } := by
  unfold createJunctionLinks
  have : ∀ (l : List Nat) (c : Connection), l.foldl (fun c (i : Nat) =>
      c.addLanelink (rl * ((i : Int) + 1) + fo) (rl * s * ((i : Int) + 1) + tof)) c =
      { c with links := c.links ++ (l.map fun i : Nat =>
        (rl * ((i : Int) + 1) + fo, rl * s * ((i : Int) + 1) + tof)) } := by
    intro l
    induction l with
    | nil => intro c; simp
    | cons i l ih => intro c; rw [List.foldl_cons, ih]; simp [Connection.addLanelink]
  exact this _ _

theorem getRoadById_some (roads : List (Road F)) (id : PyId) (h : ∃ r ∈ roads, r.id = id) :
    ∃ r ∈ roads, getRoadById roads id = some r ∧ r.id = id := by
  unfold getRoadById
  obtain ⟨r, hr, hid⟩ := h
  cases hf : roads.find? fun r => r.id = id with
  | none =>
    rw [List.find?_eq_none] at hf
    exact absurd hid (by simpa using hf r hr)
  | some r' => exact ⟨r', List.mem_of_find?_eq_some hf, rfl, by simpa using List.find?_some hf⟩

theorem junctionSign_succ (jr : Road F) (roads : List (Road F)) (hn : ∀ r ∈ roads, r.roadType = -1)
    (s : Link) (hs : jr.successor = some s) (h : ∃ r ∈ roads, r.id = s.elementId) :
    junctionSign jr roads s.elementId = .ok (some (directionSign .end s.contactPoint)) := by
  obtain ⟨r, hr, h1, h2⟩ := getRoadById_some roads s.elementId h
  simp only [junctionSign, h1, getRelatedLanesection, hn r hr, relatedOwn, hs, h2, Except.map,
    ne_eq, not_true_eq_false, if_false, if_true]
  congr 2
  cases hc : s.contactPoint with
  | none => simp [directionSign]
  | some cp => cases cp <;> simp [directionSign]

theorem junctionSign_pred (jr : Road F) (roads : List (Road F)) (hn : ∀ r ∈ roads, r.roadType = -1)
    (p s : Link) (hp : jr.predecessor = some p) (hs : jr.successor = some s)
    (hne : p.elementId ≠ s.elementId) (h : ∃ r ∈ roads, r.id = p.elementId) :
    junctionSign jr roads p.elementId = .ok (some (directionSign .start p.contactPoint)) := by
  obtain ⟨r, hr, h1, h2⟩ := getRoadById_some roads p.elementId h
  simp only [junctionSign, h1, getRelatedLanesection, hn r hr, relatedOwn, relatedOwn.predBranch, hs,
    hp, h2, Except.map, ne_eq, not_true_eq_false, if_false, if_true, hne.symm]
  congr 2
  cases hc : p.contactPoint with
  | none => simp [directionSign]
  | some cp => cases cp <;> simp [directionSign]

theorem secAt_last (r : Road F) (h : r.lanesections ≠ []) :
    ∃ sec, secAt r (some (-1)) = .ok sec ∧ sectionAt r .end = some sec := by
  have hl : 0 < r.lanesections.length := List.length_pos_iff.mpr h
  obtain ⟨sec, hsec⟩ : ∃ sec, r.lanesections.getLast? = some sec := by
    cases hc : r.lanesections.getLast? with
    | none => exact absurd (List.getLast?_eq_none_iff.mp hc) h
    | some sec => exact ⟨sec, rfl⟩
  refine ⟨sec, ?_, hsec⟩
  have : pyGet? r.lanesections (-1) = some sec := by
    rw [List.getLast?_eq_getElem?] at hsec
    simp only [pyGet?]
    rw [if_neg (by omega), if_pos (by simp; omega)]
    simpa using hsec
  simp [secAt, this]

theorem secAt_first (r : Road F) (h : r.lanesections ≠ []) :
    ∃ sec, secAt r (some 0) = .ok sec ∧ sectionAt r .start = some sec := by
  cases hc : r.lanesections with
  | nil => exact absurd hc h
  | cons sec l => exact ⟨sec, by simp [secAt, pyGet?, hc], by simp [sectionAt, hc]⟩

theorem junctionConnections_eq (jr : Road F) (roads : List (Road F)) (j : Junction)
    (hn : ∀ r ∈ roads, r.roadType = -1) (h : Connects roads jr) :
    ∃ c1 c2, junctionConnections jr roads j = .ok
        { j with connections := j.connections ++ [c1, c2], idCounter := j.idCounter + 2 } ∧
      ConnectionAt jr .end j.idCounter c1 ∧ ConnectionAt jr .start (j.idCounter + 1) c2 := by
  obtain ⟨p, s, hp, hs, hne, hrp, hrs⟩ := h.ends
  obtain ⟨s1, e1, e1'⟩ := secAt_last jr h.lanes
  obtain ⟨s0, e0, e0'⟩ := secAt_first jr h.lanes
  let c1 : Connection := ⟨s.elementId, jr.id, .end, some j.idCounter,
    ((List.range s1.right.length).map fun i : Nat => ((-1) * ((i : Int) + 1) + 0,
      (-1) * directionSign .end s.contactPoint * ((i : Int) + 1) + jr.laneOffsetSuc)) ++
    ((List.range s1.left.length).map fun i : Nat => (1 * ((i : Int) + 1) + 0,
      1 * directionSign .end s.contactPoint * ((i : Int) + 1) + jr.laneOffsetSuc))⟩
  let c2 : Connection := ⟨p.elementId, jr.id, .start, some (j.idCounter + 1),
    ((List.range s0.right.length).map fun i : Nat => ((-1) * ((i : Int) + 1) + jr.laneOffsetPred,
      (-1) * directionSign .start p.contactPoint * ((i : Int) + 1) + 0)) ++
    ((List.range s0.left.length).map fun i : Nat => (1 * ((i : Int) + 1) + jr.laneOffsetPred,
      1 * directionSign .start p.contactPoint * ((i : Int) + 1) + 0))⟩
  refine ⟨c1, c2, ?_, ?_, ?_⟩
  · unfold junctionConnections
    simp only [hs, hp, junctionSign_succ jr roads hn s hs hrs, junctionSign_pred jr roads hn p s hp hs
      hne hrp, e1, e0, createJunctionLinks?, bind, Except.bind, pure, Except.pure,
      createJunctionLinks_eq, Connection.new, Junction.addConnection, Connection.setId,
      List.nil_append, List.append_assoc, List.singleton_append]
    have e : j.idCounter + 1 + 1 = j.idCounter + 2 := by omega
    rw [e]
  · refine ⟨rfl, rfl, rfl, s, s1, hs, e1', rfl, ?_⟩
    simp only [laneNumbers, laneOffsetAt, List.map_append, List.map_map, Function.comp_def, if_true, c1]
    congr 1 <;> refine List.map_congr_left fun a _ => ?_ <;> ring_nf
  · refine ⟨rfl, rfl, rfl, p, s0, hp, e0', rfl, ?_⟩
    simp only [laneNumbers, laneOffsetAt, List.map_append, List.map_map, Function.comp_def,
      reduceCtorEq, if_false, c2]
    congr 1 <;> refine List.map_congr_left fun a _ => ?_ <;> ring_nf

/-- C50: `create_junction` returns a junction with two connections per connecting road, in order,
numbered from 0: one for the end of the connecting road and one for its start. -/
theorem C50_create_junction (jrs : List (Road F)) (id : PyId) (roads : List (Road F))
    (hn : ∀ r ∈ roads, r.roadType = -1) (h : ∀ jr ∈ jrs, Connects roads jr) :
    ∃ j, createJunction jrs id roads = .ok j ∧ j.name = "my junction" ∧ j.id = id ∧
      j.connections.length = 2 * jrs.length ∧
      ∀ (k : Nat) (jr : Road F), jrs[k]? = some jr → ∃ c1 c2,
        j.connections[2 * k]? = some c1 ∧ j.connections[2 * k + 1]? = some c2 ∧
        ConnectionAt jr .end (2 * k) c1 ∧ ConnectionAt jr .start (2 * k + 1) c2 := by
  have key : ∀ (l : List (Road F)) (j0 : Junction), (∀ jr ∈ l, Connects roads jr) →
      ∃ j cs, l.foldlM (fun j jr => junctionConnections jr roads j) j0 = Except.ok j ∧
        j.name = j0.name ∧ j.id = j0.id ∧ j.connections = j0.connections ++ cs ∧
        cs.length = 2 * l.length ∧
        ∀ (k : Nat) (jr : Road F), l[k]? = some jr → ∃ c1 c2,
          cs[2 * k]? = some c1 ∧ cs[2 * k + 1]? = some c2 ∧
          ConnectionAt jr .end (j0.idCounter + 2 * k) c1 ∧
          ConnectionAt jr .start (j0.idCounter + 2 * k + 1) c2 := by
    intro l
    induction l with
    | nil => intro j0 _; exact ⟨j0, [], rfl, rfl, rfl, by simp, rfl, by simp⟩
    | cons jr l ih =>
      intro j0 hl
      obtain ⟨c1, c2, h1, h2, h3⟩ := junctionConnections_eq jr roads j0 hn (hl jr (by simp))
      obtain ⟨j, cs, h4, h5, h6, h7, h8, h9⟩ := ih { j0 with
        connections := j0.connections ++ [c1, c2], idCounter := j0.idCounter + 2 }
        (fun x hx => hl x (by simp [hx]))
      refine ⟨j, c1 :: c2 :: cs, ?_, h5, h6, by simp [h7], by simp [h8]; omega, ?_⟩
      · rw [List.foldlM_cons, h1]; exact h4
      · intro k jr' hk
        cases k with
        | zero =>
          simp only [List.getElem?_cons_zero, Option.some.injEq] at hk
          subst hk
          exact ⟨c1, c2, rfl, rfl, by simpa using h2, by simpa using h3⟩
        | succ k =>
          obtain ⟨d1, d2, g1, g2, g3, g4⟩ := h9 k jr' (by simpa using hk)
          refine ⟨d1, d2, ?_, ?_, ?_, ?_⟩
          · rw [show 2 * (k + 1) = 2 * k + 2 by omega]; simpa using g1
          · rw [show 2 * (k + 1) + 1 = 2 * k + 1 + 2 by omega]; simpa using g2
          · have : j0.idCounter + 2 * ((k + 1 : Nat) : Int) = j0.idCounter + 2 + 2 * (k : Int) := by
              push_cast; omega
            rw [this]; exact g3
          · have : j0.idCounter + 2 * ((k + 1 : Nat) : Int) + 1 = j0.idCounter + 2 + 2 * (k : Int) + 1 := by
              push_cast; omega
            rw [this]; exact g4
  obtain ⟨j, cs, h1, h2, h3, h4, h5, h6⟩ := key jrs (Junction.new "my junction" id) h
  refine ⟨j, h1, h2, h3, ?_, ?_⟩
  · rw [h4]; simpa [Junction.new] using h5
  · intro k jr hk
    obtain ⟨c1, c2, g1, g2, g3, g4⟩ := h6 k jr hk
    rw [h4]
    exact ⟨c1, c2, by simpa [Junction.new] using g1, by simpa [Junction.new] using g2,
      by simpa [Junction.new] using g3, by simpa [Junction.new] using g4⟩

theorem mem_laneNumbers (sec : LaneSection F) (m : Int) :
    m ∈ laneNumbers sec ↔ m ≠ 0 ∧ m ≤ sec.left.length ∧ -(sec.right.length : Int) ≤ m := by
  simp only [laneNumbers, List.mem_append, List.mem_map, List.mem_range]
  constructor
  · rintro (⟨i, hi, rfl⟩ | ⟨i, hi, rfl⟩) <;> omega
  · rintro ⟨h0, h1, h2⟩
    rcases Int.lt_or_gt_of_ne h0 with h | h
    · exact .inl ⟨(-m - 1).toNat, by omega, by omega⟩
    · exact .inr ⟨(m - 1).toNat, by omega, by omega⟩

theorem laneLink_inj {k : LinkKind} {a b : Int} (h : laneLink k a = laneLink k b) : a = b := by
  simp only [laneLink, Link.mk.injEq, PyId.str.injEq, true_and, and_true] at h
  exact Int.repr_injective h

theorem directionSign_cases (e : ContactPoint) (o : Option ContactPoint) :
    directionSign e o = 1 ∨ directionSign e o = -1 := by
  unfold directionSign
  split <;> simp

/-- C50: the junction and the lanes agree. For a connecting road with as many left as right lanes,
attached with its end `e` to a normal road as in C28, and without a lane offset if `e` is the end: the
connection for `e` has a lane link from lane `m` of the normal road to lane `n` of the connecting road
if and only if `create_lane_links` gives the lane with number `n` its new link to lane `m`. -/
theorem C50_agrees (c r : Road F) (e : ContactPoint) (l : Link) (h : Attached c r e l)
    (csec rsec : LaneSection F) (lanes : Store (Lane F)) (hc : sectionAt c e = some csec)
    (hr : r.lanesections = [rsec]) (hnum : Numbered lanes rsec) (hcn : Numbered lanes csec)
    (hl : csec.left.length ≤ rsec.left.length) (hrt : csec.right.length ≤ rsec.right.length)
    (hd : (csec.left ++ csec.right).Nodup) (heq : csec.left.length = csec.right.length)
    (hoff : e = .start ∨ laneOffsetAt c e = 0)
    (id : Int) (conn : Connection) (hconn : ConnectionAt c e id conn) :
    ∃ lanes', createLaneLinks c r lanes = .ok () lanes' ∧
      ∀ m n, (m, n) ∈ conn.links ↔ ∃ p ∈ csec.left ++ csec.right, (lanes.cell p).laneId = some n ∧
        lanes'.cell p = { lanes.cell p with
          links := (lanes.cell p).links ++ [laneLink (kindAt e) m] } := by
  obtain ⟨lanes', h1, _, h2, h3, _⟩ := C28_links c r e l h csec rsec lanes hc hr hnum hl hrt hd
  refine ⟨lanes', h1, fun m n => ?_⟩
  obtain ⟨l', sec', hl', hsec', _, hlinks⟩ := hconn.incoming
  obtain rfl : l' = l := Option.some.inj (hl'.symm.trans h.link)
  obtain rfl : sec' = csec := Option.some.inj (hsec'.symm.trans hc)
  -- both sides say: `n` is a lane number and `m = sign * n + offset`
  have left : (m, n) ∈ conn.links ↔ n ∈ laneNumbers sec' ∧
      m = directionSign e l'.contactPoint * n + laneOffsetAt c e := by
    rw [hlinks, List.mem_map]
    simp only [mem_laneNumbers]
    rcases directionSign_cases e l'.contactPoint with hs | hs <;> rw [hs] <;>
    · constructor
      · rintro ⟨k, hk, he⟩
        split at he
        · rcases hoff with rfl | h0
          · simp at *
          · rw [h0] at he ⊢
            simp only [Prod.mk.injEq] at he
            omega
        · simp only [Prod.mk.injEq] at he
          omega
      · rintro ⟨hn, hm⟩
        first
        | refine ⟨n, by omega, ?_⟩
          split
          · rcases hoff with rfl | h0
            · simp at *
            · rw [h0] at hm ⊢
              simp only [Prod.mk.injEq]
              omega
          · simp only [Prod.mk.injEq]
            omega
        | refine ⟨-n, by omega, ?_⟩
          split
          · rcases hoff with rfl | h0
            · simp at *
            · rw [h0] at hm ⊢
              simp only [Prod.mk.injEq]
              omega
          · simp only [Prod.mk.injEq]
            omega
  rw [left]
  constructor
  · rintro ⟨hn, rfl⟩
    simp only [laneNumbers, List.mem_append, List.mem_map, List.mem_range] at hn
    rcases hn with ⟨i, hi, rfl⟩ | ⟨i, hi, rfl⟩
    · have hp := List.getElem?_eq_getElem hi
      exact ⟨_, by simp, hcn.2 i _ hp, h3 i _ hp⟩
    · have hp := List.getElem?_eq_getElem hi
      exact ⟨_, by simp, hcn.1 i _ hp, h2 i _ hp⟩
  · rintro ⟨p, hp, hn, hlk⟩
    rw [List.mem_append] at hp
    have fin : ∀ m', lanes'.cell p = { lanes.cell p with
          links := (lanes.cell p).links ++ [laneLink (kindAt e) m'] } → m = m' := by
      intro m' h'
      rw [hlk] at h'
      have := congrArg Lane.links h'
      simp only [List.append_cancel_left_eq, List.cons.injEq, and_true] at this
      exact laneLink_inj this
    rcases hp with hp | hp
    · obtain ⟨i, hi⟩ := List.getElem?_of_mem hp
      have := (List.getElem?_eq_some_iff.mp hi).1
      have hnn := hcn.1 i p hi
      rw [hn, Option.some.injEq] at hnn
      subst hnn
      exact ⟨(mem_laneNumbers _ _).mpr (by omega), fin _ (h2 i p hi)⟩
    · obtain ⟨i, hi⟩ := List.getElem?_of_mem hp
      have := (List.getElem?_eq_some_iff.mp hi).1
      have hnn := hcn.2 i p hi
      rw [hn, Option.some.injEq] at hnn
      subst hnn
      exact ⟨(mem_laneNumbers _ _).mpr (by omega), fin _ (h3 i p hi)⟩

/-- C50 (violation): with a lane offset at the end, the connection names a lane of the connecting road
that does not exist. -/
theorem C50_offset_names_missing_lane (c : Road F) (id : Int) (conn : Connection)
    (hconn : ConnectionAt c .end id conn) (csec : LaneSection F) (hc : sectionAt c .end = some csec)
    (hl : csec.left ≠ []) (heq : csec.left.length = csec.right.length) (hoff : laneOffsetAt c .end ≠ 0) :
    ∃ m n, (m, n) ∈ conn.links ∧ n ∉ (0 :: laneNumbers csec) := by
  obtain ⟨l', sec', hl', hsec', _, hlinks⟩ := hconn.incoming
  obtain rfl : sec' = csec := Option.some.inj (hsec'.symm.trans hc)
  have hp := List.length_pos_iff.mpr hl
  simp only [hlinks, if_true, List.mem_map, Prod.mk.injEq, List.mem_cons, mem_laneNumbers]
  rcases directionSign_cases .end l'.contactPoint with hs | hs <;> rw [hs] <;>
  rcases Int.lt_or_gt_of_ne hoff with ho | ho
  · exact ⟨_, _, ⟨-(sec'.right.length : Int), by omega, rfl, rfl⟩, by omega⟩
  · exact ⟨_, _, ⟨(sec'.left.length : Int), by omega, rfl, rfl⟩, by omega⟩
  · exact ⟨_, _, ⟨(sec'.left.length : Int), by omega, rfl, rfl⟩, by omega⟩
  · exact ⟨_, _, ⟨-(sec'.right.length : Int), by omega, rfl, rfl⟩, by omega⟩

/-- C50 (violation): the same for any numbers of lanes on the two sides (a one-way ramp, say), if the connecting
road ends at the start of the other road: a lane offset at the end always makes the connection name a lane of the
connecting road that does not exist, or its centre lane. -/
theorem C50_offset_one_sided (c : Road F) (id : Int) (conn : Connection)
    (hconn : ConnectionAt c .end id conn) (csec : LaneSection F) (hc : sectionAt c .end = some csec)
    (hl : csec.left ++ csec.right ≠ []) (hcp : ∀ l, c.successor = some l → l.contactPoint = some .start)
    (hoff : laneOffsetAt c .end ≠ 0) :
    ∃ m n, (m, n) ∈ conn.links ∧ n ∉ laneNumbers csec := by
  obtain ⟨l', sec', hl', hsec', _, hlinks⟩ := hconn.incoming
  obtain rfl : sec' = csec := Option.some.inj (hsec'.symm.trans hc)
  have hp := List.length_pos_iff.mpr hl
  rw [List.length_append] at hp
  have hs : directionSign .end l'.contactPoint = 1 := by rw [hcp l' hl']; rfl
  simp only [hlinks, if_true, List.mem_map, Prod.mk.injEq, mem_laneNumbers, hs]
  rcases Int.lt_or_gt_of_ne hoff with ho | ho
  · by_cases hr : sec'.right.length = 0
    · exact ⟨_, _, ⟨1, by omega, rfl, rfl⟩, by omega⟩
    · exact ⟨_, _, ⟨-(sec'.right.length : Int), by omega, rfl, rfl⟩, by omega⟩
  · by_cases hr : sec'.left.length = 0
    · exact ⟨_, _, ⟨-1, by omega, rfl, rfl⟩, by omega⟩
    · exact ⟨_, _, ⟨(sec'.left.length : Int), by omega, rfl, rfl⟩, by omega⟩

/-- C50: a connecting road with no successor, or whose successor is not in the list of roads, makes
`create_junction` raise `AttributeError`. -/
theorem C50_missing_road (pre : List (Road F)) (jr : Road F) (post : List (Road F)) (id : PyId)
    (roads : List (Road F)) (hn : ∀ r ∈ roads, r.roadType = -1) (h : ∀ x ∈ pre, Connects roads x)
    (hm : ∀ s, jr.successor = some s → ∀ r ∈ roads, r.id ≠ s.elementId) :
    createJunction (pre ++ jr :: post) id roads = .error .attributeError := by
  obtain ⟨j, hj, _⟩ := C50_create_junction pre id roads hn h
  unfold createJunction at hj ⊢
  rw [List.foldlM_append, hj]
  have : junctionConnections jr roads j = .error .attributeError := by
    unfold junctionConnections
    cases hs : jr.successor with
    | none => rfl
    | some s =>
      have : getRoadById roads s.elementId = none := by
        unfold getRoadById
        rw [List.find?_eq_none]
        intro r hr
        simpa using hm s hs r hr
      simp [junctionSign, this, bind, Except.bind]
  simp [bind, Except.bind, List.foldlM_cons, this]

end Pyodrx.Props
