import Verif.Spec.Links
import Verif.Proofs.Monad

/-! # Properties C24, C33, C34: road links and junction connections -/

namespace Pyodrx.Props
open Pyodrx Spec

variable {F : Type}

/-! ## C24, C34 -/

/-- What is true of a road after any history of link calls. -/
structure LinkInv (r : Road F) (links : List Link) : Prop where
  eq : r.links = links
  suc : r.successor = links.find? (·.kind = .successor)
  pred : r.predecessor = links.find? (·.kind = .predecessor)
  nb : r.neighborAdded = (links.filter (·.kind = .neighbor)).length
  suc1 : (links.filter (·.kind = .successor)).length ≤ 1
  pred1 : (links.filter (·.kind = .predecessor)).length ≤ 1
  nb2 : (links.filter (·.kind = .neighbor)).length ≤ 2

theorem find?_none_iff_all (links : List Link) (k : LinkKind) :
    (links.find? (·.kind = k)) = none ↔ links.all (·.kind ≠ k) = true := by
  simp [List.find?_eq_none]

theorem filter_nil_of_all {links : List Link} {k : LinkKind}
    (h : links.all (·.kind ≠ k) = true) : links.filter (·.kind = k) = [] := by
  simpa [List.filter_eq_nil_iff] using h

theorem op_step (op : RoadOp) (r : Road F) (links : List Link) (h : LinkInv r links) :
    (op.acceptable links = true →
      ∃ r', op.run r = .ok () r' ∧ LinkInv r' (links ++ [op.link])) ∧
    (op.acceptable links = false → op.run r = .error .valueError r) := by
  obtain ⟨h1, h2, h3, h4, h5, h6, h7⟩ := h
  cases op with
  | successor et id cp off =>
    constructor <;> intro ha
    · have ha : links.all (·.kind ≠ .successor) = true := ha
      have hs : r.successor = none := h2.trans ((find?_none_iff_all _ _).mpr ha)
      have hf := filter_nil_of_all ha
      refine ⟨{ r with
          successor := some ⟨.successor, id, some et, cp, none⟩
          links := r.links ++ [⟨.successor, id, some et, cp, none⟩]
          laneOffsetSuc := off },
        by simp [RoadOp.run, Road.addSuccessor, hs, Link.new], ?_⟩
      constructor <;> simp [RoadOp.link, h1, h3, h4, hf, (find?_none_iff_all _ _).mpr ha, h6, h7]
    · have ha : links.all (·.kind ≠ .successor) = false := ha
      have hs : r.successor.isSome = true := by
        rw [h2]
        cases hx : links.find? (·.kind = .successor) with
        | none => rw [(find?_none_iff_all _ _).mp hx] at ha; cases ha
        | some _ => rfl
      simp [RoadOp.run, Road.addSuccessor, hs]
  | predecessor et id cp off =>
    constructor <;> intro ha
    · have ha : links.all (·.kind ≠ .predecessor) = true := ha
      have hs : r.predecessor = none := h3.trans ((find?_none_iff_all _ _).mpr ha)
      have hf := filter_nil_of_all ha
      refine ⟨{ r with
          predecessor := some ⟨.predecessor, id, some et, cp, none⟩
          links := r.links ++ [⟨.predecessor, id, some et, cp, none⟩]
          laneOffsetPred := off },
        by simp [RoadOp.run, Road.addPredecessor, hs, Link.new], ?_⟩
      constructor <;> simp [RoadOp.link, h1, h2, h4, hf, (find?_none_iff_all _ _).mpr ha, h5, h7]
    · have ha : links.all (·.kind ≠ .predecessor) = false := ha
      have hs : r.predecessor.isSome = true := by
        rw [h3]
        cases hx : links.find? (·.kind = .predecessor) with
        | none => rw [(find?_none_iff_all _ _).mp hx] at ha; cases ha
        | some _ => rfl
      simp [RoadOp.run, Road.addPredecessor, hs]
  | neighbor et id dir =>
    constructor <;> intro ha
    · have ha : (decide ((links.filter (·.kind = .neighbor)).length < 2) && dir.isSome) = true := ha
      simp only [Bool.and_eq_true, decide_eq_true_eq] at ha
      have hn : ¬ r.neighborAdded > 1 := by rw [h4]; omega
      have hne : dir ≠ none := by rintro rfl; simp at ha
      refine ⟨{ r with
          links := r.links ++ [⟨.neighbor, id, some et, none, dir⟩]
          neighborAdded := r.neighborAdded + 1 },
        by simp [RoadOp.run, Road.addNeighbor, hn, Link.new, hne], ?_⟩
      constructor <;> simp [RoadOp.link, h1, h2, h3, h4, h5, h6]
      omega
    · have ha : (decide ((links.filter (·.kind = .neighbor)).length < 2) && dir.isSome) = false := ha
      by_cases hn : r.neighborAdded > 1
      · simp [RoadOp.run, Road.addNeighbor, hn]
      · have h8 : (links.filter (·.kind = .neighbor)).length < 2 := by rw [← h4]; omega
        simp only [h8, decide_true, Bool.true_and] at ha
        have : dir = none := by cases dir <;> simp_all
        simp [RoadOp.run, Road.addNeighbor, hn, Link.new, this]

theorem runOps_inv (ops : List RoadOp) : ∀ (r : Road F) (links : List Link), LinkInv r links →
    LinkInv (runOps ops r) (acceptedFrom links ops) := by
  induction ops with
  | nil => intro r links h; exact h
  | cons op ops ih =>
    intro r links h
    have := op_step op r links h
    simp only [runOps, List.foldl_cons, acceptedFrom]
    by_cases ha : op.acceptable links = true
    · rw [if_pos ha]
      obtain ⟨r', h1, h2⟩ := this.1 ha
      rw [h1]
      exact ih r' _ h2
    · rw [if_neg ha, this.2 (by simpa using ha)]
      exact ih r _ h

theorem new_inv (id : PyId) (pv : PlanView F) (secs : List (LaneSection F)) (rt : Int)
    (name rule : Option String) : LinkInv (Road.new id pv secs rt name rule) [] := by
  constructor <;> simp [Road.new]

/-- C24: after any history of calls on a new road, its links are exactly the acceptable calls, in
order; hence at most one successor, one predecessor and two neighbours. -/
theorem C24_links (id : PyId) (pv : PlanView F) (secs : List (LaneSection F)) (rt : Int)
    (name rule : Option String) (ops : List RoadOp) :
    let r := runOps ops (Road.new id pv secs rt name rule)
    r.links = acceptedFrom [] ops ∧
    (r.links.filter (·.kind = .successor)).length ≤ 1 ∧
    (r.links.filter (·.kind = .predecessor)).length ≤ 1 ∧
    (r.links.filter (·.kind = .neighbor)).length ≤ 2 := by
  have h := runOps_inv ops _ _ (new_inv id pv secs rt name rule)
  simp only
  rw [h.eq]
  exact ⟨rfl, h.suc1, h.pred1, h.nb2⟩

/-- C24: the next call succeeds iff it is acceptable; otherwise it raises `ValueError` and changes
nothing. -/
theorem C24_next_call (id : PyId) (pv : PlanView F) (secs : List (LaneSection F)) (rt : Int)
    (name rule : Option String) (ops : List RoadOp) (op : RoadOp) :
    let r := runOps ops (Road.new id pv secs rt name rule)
    (op.acceptable r.links = true → ∃ r', op.run r = .ok () r') ∧
    (op.acceptable r.links = false → op.run r = .error .valueError r) := by
  have h := runOps_inv ops _ _ (new_inv id pv secs rt name rule)
  have hs := op_step op _ _ h
  simp only
  rw [h.eq]
  constructor
  · intro ha
    obtain ⟨r', h1, _⟩ := hs.1 ha
    exact ⟨r', h1⟩
  · exact hs.2

/-- C24: the first successor (predecessor) call of a history wins. -/
theorem C24_first_wins (id : PyId) (pv : PlanView F) (secs : List (LaneSection F)) (rt : Int)
    (name rule : Option String) (ops : List RoadOp) :
    let r := runOps ops (Road.new id pv secs rt name rule)
    r.successor = (ops.map (·.link)).find? (·.kind = .successor) ∧
    r.predecessor = (ops.map (·.link)).find? (·.kind = .predecessor) := by
  have h := runOps_inv ops _ _ (new_inv id pv secs rt name rule)
  have key : ∀ (k : LinkKind), (k = .successor ∨ k = .predecessor) → ∀ (ops : List RoadOp)
      (prev : List Link), (acceptedFrom prev ops).find? (·.kind = k) =
        (prev.find? (·.kind = k)).or ((ops.map (·.link)).find? (·.kind = k)) := by
    intro k hk ops
    induction ops with
    | nil => intro prev; simp [acceptedFrom]
    | cons op ops ih =>
      intro prev
      simp only [acceptedFrom, ih, List.map_cons, List.find?_cons]
      by_cases ha : op.acceptable prev = true
      · rw [if_pos ha]
        simp only [List.find?_append, List.find?_cons, List.find?_nil]
        cases prev.find? (·.kind = k) with
        | some l => simp
        | none =>
          by_cases hkk : op.link.kind = k <;> simp [hkk]
      · rw [if_neg ha]
        cases hp : prev.find? (·.kind = k) with
        | some l => simp
        | none =>
          have hall := (find?_none_iff_all _ _).mp hp
          by_cases hkk : op.link.kind = k
          · exfalso
            apply ha
            rcases hk with rfl | rfl <;> cases op <;> simp_all [RoadOp.acceptable, RoadOp.link]
          · simp [hkk]
  exact ⟨by rw [h.suc, key _ (Or.inl rfl)]; rfl, by rw [h.pred, key _ (Or.inr rfl)]; rfl⟩

theorem accepted_kind (ops : List RoadOp) : ∀ prev : List Link, (∀ l ∈ prev, l.kind ≠ .pyNone) →
    ∀ l ∈ acceptedFrom prev ops, l.kind ≠ .pyNone := by
  induction ops with
  | nil => intro prev h; exact h
  | cons op ops ih =>
    intro prev h
    refine ih _ ?_
    split
    · intro l hl
      rcases List.mem_append.mp hl with hl | hl
      · exact h l hl
      · rw [List.mem_singleton.mp hl]; cases op <;> simp [RoadOp.link]
    · exact h

/-- The links a road can have are all shown. -/
theorem accepted_filter (ops : List RoadOp) :
    (acceptedFrom [] ops).filter (·.kind ≠ .pyNone) = acceptedFrom [] ops :=
  List.filter_eq_self.mpr fun l hl => by simpa using accepted_kind ops [] (by simp) l hl

/-- C24: the emitted `<link>` element has exactly the accepted calls as children, in order. -/
theorem C24_emitted (id : PyId) (pv : PlanView F) [PyFloat F] (secs : List (LaneSection F))
    (rt : Int) (name rule : Option String) (ops : List RoadOp) (hp : Heap F) (x : Xml F)
    (hx : (runOps ops (Road.new id pv secs rt name rule)).getElement hp = .ok x) :
    x.children.head? = some (.elem "link" [] ((acceptedFrom [] ops).map Link.getElement)) := by
  have h := (runOps_inv ops _ _ (new_inv id pv secs rt name rule)).eq
  generalize runOps ops (Road.new id pv secs rt name rule) = r at hx h
  unfold Road.getElement at hx
  cases hl : Lanes.getElement hp.lanes r.lanesections with
  | error e => rw [hl] at hx; cases hx
  | ok v =>
    rw [hl] at hx
    cases hx
    simp only [Links.getElement, h, accepted_filter]
    rfl

/-- A history with rejected calls. -/
example : acceptedFrom [] [.successor .road (.int 1) (some .start) 0, .neighbor .road (.int 5) none,
    .successor .road (.int 2) (some .end) 0, .neighbor .road (.int 6) (some .same)] =
    [⟨.successor, .int 1, some .road, some .start, none⟩,
     ⟨.neighbor, .int 6, some .road, none, some .same⟩] := by decide

/-! ## C34 -/

theorem lastOfKind_eq {β : Type} (k : LinkKind) (f : Link → β) (ls : List Link) : ∀ acc,
    lastOfKind k f ls acc = (((ls.filter (·.kind = k)).getLast?).map f).or acc := by
  induction ls with
  | nil => intro acc; simp [lastOfKind]
  | cons l ls ih =>
    intro acc
    simp only [lastOfKind, ih, List.filter_cons]
    by_cases h : l.kind = k
    · simp only [h, if_true, decide_true]
      cases hl : ls.filter (·.kind = k) with
      | nil => simp
      | cons a b =>
        rw [List.getLast?_cons_cons]
        cases hg : (a :: b).getLast? with
        | none => simp at hg
        | some v => simp
    · simp [h]

/-- C34: the getters return the attribute of the last link of their kind, `None` iff there is none. -/
theorem C34_getters (ls : List Link) :
    let suc := (ls.filter (·.kind = .successor)).getLast?
    let pred := (ls.filter (·.kind = .predecessor)).getLast?
    Links.getSuccessorId ls = suc.map (·.elementId) ∧
    Links.getPredecessorId ls = pred.map (·.elementId) ∧
    Links.getSuccessorType ls = suc.bind (·.elementType) ∧
    Links.getPredecessorType ls = pred.bind (·.elementType) ∧
    Links.getSuccessorContactPoint ls = suc.bind (·.contactPoint) ∧
    Links.getPredecessorContactPoint ls = pred.bind (·.contactPoint) := by
  simp only [Links.getSuccessorId, Links.getPredecessorId, Links.getSuccessorType,
    Links.getPredecessorType, Links.getSuccessorContactPoint, Links.getPredecessorContactPoint,
    lastOfKind_eq, Option.or_none]
  refine ⟨trivial, trivial, ?_, ?_, ?_, ?_⟩ <;> (generalize List.getLast? _ = o; cases o <;> rfl)

theorem find?_eq_getLast?_filter (ls : List Link) (k : LinkKind)
    (h : (ls.filter (·.kind = k)).length ≤ 1) :
    (ls.filter (·.kind = k)).getLast? = ls.find? (·.kind = k) := by
  rw [← List.head?_filter]
  cases hf : ls.filter (·.kind = k) with
  | nil => rfl
  | cons a b =>
    rw [hf] at h
    cases b with
    | nil => rfl
    | cons c d => simp at h

/-- C34: for a Road, after any history of calls, they agree with `road.successor` and
`road.predecessor`. -/
theorem C34_road (id : PyId) (pv : PlanView F) (secs : List (LaneSection F)) (rt : Int)
    (name rule : Option String) (ops : List RoadOp) :
    let r := runOps ops (Road.new id pv secs rt name rule)
    Links.getSuccessorId r.links = r.successor.map (·.elementId) ∧
    Links.getPredecessorId r.links = r.predecessor.map (·.elementId) ∧
    Links.getSuccessorType r.links = r.successor.bind (·.elementType) ∧
    Links.getPredecessorType r.links = r.predecessor.bind (·.elementType) ∧
    Links.getSuccessorContactPoint r.links = r.successor.bind (·.contactPoint) ∧
    Links.getPredecessorContactPoint r.links = r.predecessor.bind (·.contactPoint) := by
  have h := runOps_inv ops _ _ (new_inv id pv secs rt name rule)
  have hg := C34_getters (runOps ops (Road.new id pv secs rt name rule)).links
  simp only at hg ⊢
  rw [h.suc, h.pred]
  rw [h.eq, find?_eq_getLast?_filter _ _ h.suc1, find?_eq_getLast?_filter _ _ h.pred1] at hg
  rw [h.eq]
  exact hg

/-! ## C33 -/

/-- Add connections to a junction, in order. -/
def addConnections (j : Junction) (cs : List Connection) : Junction :=
  cs.foldl Junction.addConnection j

theorem addConnections_eq (cs : List Connection) : ∀ (j : Junction),
    (addConnections j cs).connections =
      j.connections ++ (cs.mapIdx fun i c => c.setId (j.idCounter + i)) ∧
    (addConnections j cs).idCounter = j.idCounter + cs.length := by
  induction cs with
  | nil => intro j; simp [addConnections]
  | cons c cs ih =>
    intro j
    obtain ⟨h1, h2⟩ := ih (j.addConnection c)
    simp only [addConnections, List.foldl_cons] at h1 h2 ⊢
    constructor
    · rw [h1]
      simp only [Junction.addConnection, List.mapIdx_cons, List.append_assoc, List.cons_append,
        List.nil_append, Int.natCast_zero, Int.add_zero]
      congr 2
      apply List.mapIdx_eq_mapIdx_iff.mpr
      intro i hi
      congr 1
      push_cast; omega
    · rw [h2]; simp [Junction.addConnection]; omega

/-- C33: the i-th connection keeps an explicit id and otherwise gets the id `i`; nothing else about
it changes, and the order is kept. -/
theorem C33_ids (name : String) (id : PyId) (cs : List Connection) :
    (addConnections (Junction.new name id) cs).connections =
      cs.mapIdx fun i c => { c with id := some (c.id.getD i) } := by
  rw [(addConnections_eq cs _).1]
  simp only [Junction.new, List.nil_append, Int.zero_add]
  apply List.mapIdx_eq_mapIdx_iff.mpr
  intro i hi
  unfold Connection.setId
  generalize cs[i] = c
  obtain ⟨_, _, _, o, _⟩ := c
  cases o <;> simp

/-- C33: without explicit ids the ids are 0, 1, 2, ... and hence pairwise distinct. -/
theorem C33_unique (name : String) (id : PyId) (cs : List Connection) (h : ∀ c ∈ cs, c.id = none) :
    (addConnections (Junction.new name id) cs).connections.map (·.id) =
      (List.range cs.length).map (fun i : Nat => some (i : Int)) ∧
    ((addConnections (Junction.new name id) cs).connections.map (·.id)).Nodup := by
  have hm : (addConnections (Junction.new name id) cs).connections.map (·.id) =
      (List.range cs.length).map (fun i : Nat => some (i : Int)) := by
    rw [C33_ids]
    apply List.ext_getElem
    · simp
    · intro i h1 h2
      have hi : i < cs.length := by simpa using h1
      simp [h _ (List.getElem_mem hi)]
  refine ⟨hm, ?_⟩
  rw [hm]
  refine List.Pairwise.map _ ?_ List.nodup_range
  intro a b hab
  simp only [ne_eq, Option.some.injEq]
  omega

/-- C33: mixing explicit and automatic ids can collide. -/
theorem C33_collision : ∃ cs : List Connection, ¬ ((addConnections (Junction.new "j" (.int 1))
    cs).connections.map (·.id)).Nodup :=
  ⟨[⟨.int 1, .int 100, .start, some 1, []⟩, ⟨.int 2, .int 101, .start, none, []⟩], by decide⟩

end Pyodrx.Props
