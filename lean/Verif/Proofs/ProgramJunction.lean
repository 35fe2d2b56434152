import Verif.Proofs.ProgramDoc

/-! # The junctions of a program that fits together -/

namespace Pyodrx
open Spec Props

section
variable {calls : List (RoadCall ℝ)} {L : List (CallEnd × CallEnd)} {st st' : GenState ℝ} {roads : List (Road ℝ)}
  {w' : World ℝ} {name date : String} {so : SOState ℝ} {js : List Junction} {doc : RDocument ℝ}

theorem pickRoads_ok (roads : List (Road ℝ)) (l : List Nat) (h : ∀ i ∈ l, i < roads.length) :
    ∃ rs, pickRoads roads l = .ok rs ∧ rs.length = l.length ∧ ∀ (m i : Nat), l[m]? = some i → rs[m]? = roads[i]? := by
  induction l with
  | nil => exact ⟨[], rfl, rfl, by simp⟩
  | cons i l ih =>
    obtain ⟨rs, h1, h2, h3⟩ := ih fun i hi => h i (by simp [hi])
    have hi := h i (by simp)
    refine ⟨roads[i] :: rs, ?_, by simp [h2], ?_⟩
    · unfold pickRoads
      rw [List.getElem?_eq_getElem hi]
      simp only [h1]; rfl
    · intro m i' hm
      cases m with
      | zero => simp at hm; subst hm; simp [hi]
      | succ m => simpa using h3 m i' (by simpa using hm)

theorem Prepared.at (h : Prepared calls st st' roads) {i : Nat} {c : RoadCall ℝ} (hc : calls[i]? = some c) :
    ∃ r, roads[i]? = some r ∧ Ready st st' c r := by
  obtain ⟨h1, rfl⟩ := List.getElem?_eq_some_iff.mp hc
  have hlen := h.ready.length_eq
  have h2 : i < roads.length := by omega
  exact ⟨roads[i], List.getElem?_eq_getElem h2, h.ready.get h1 h2⟩

/-- A junction of the program. -/
def MadeJunction (calls : List (RoadCall ℝ)) (roads : List (Road ℝ)) (j : JunctionCall) (x : Junction) : Prop :=
  x.name = "my junction" ∧ x.id = .int j.id ∧ x.connections.length = 2 * j.connecting.length ∧
    ∀ (m i : Nat) (r : Road ℝ), j.connecting[m]? = some i → roads[i]? = some r → ∃ c1 c2,
      x.connections[2 * m]? = some c1 ∧ x.connections[2 * m + 1]? = some c2 ∧
      ConnectionAt r .end (2 * m) c1 ∧ ConnectionAt r .start (2 * m + 1) c2

theorem Prepared.junction (h : Prepared calls st st' roads) (hs : Sound calls L) {j : JunctionCall}
    (hj : JunctionSound calls j) : ∃ cs rs x, pickRoads roads j.connecting = .ok cs ∧ pickRoads roads j.roads = .ok rs ∧
      createJunction cs (.int j.id) rs = .ok x ∧ MadeJunction calls roads j x := by
  have hlen := h.ready.length_eq
  have lt : ∀ {i : Nat} {c : RoadCall ℝ}, calls[i]? = some c → i < roads.length := by
    intro i c hc
    obtain ⟨h1, -⟩ := List.getElem?_eq_some_iff.mp hc
    omega
  obtain ⟨cs, c1, c2, c3⟩ := pickRoads_ok roads j.connecting fun i hi => by
    obtain ⟨c, hc, -⟩ := hj.connecting i hi
    exact lt hc
  obtain ⟨rs, r1, r2, r3⟩ := pickRoads_ok roads j.roads fun i hi => by
    obtain ⟨c, hc, -⟩ := hj.roads i hi
    exact lt hc
  have hrs : ∀ i d, i ∈ j.roads → calls[i]? = some d → ∃ r ∈ rs, Ready st st' d r := by
    intro i d hi hd
    obtain ⟨m, hm⟩ := List.mem_iff_getElem?.mp hi
    obtain ⟨r, hr, hb⟩ := h.at hd
    exact ⟨r, List.mem_of_getElem? ((r3 m i hm).trans hr), hb⟩
  have back : ∀ {l : List Nat} {ys : List (Road ℝ)}, ys.length = l.length →
      (∀ (m i : Nat), l[m]? = some i → ys[m]? = roads[i]?) → ∀ r ∈ ys, ∃ i ∈ l, roads[i]? = some r := by
    intro l ys h1 h2 r hr
    obtain ⟨m, hm⟩ := List.mem_iff_getElem?.mp hr
    obtain ⟨k, -⟩ := List.getElem?_eq_some_iff.mp hm
    have hk : m < l.length := by omega
    refine ⟨l[m], List.getElem_mem hk, ?_⟩
    rw [← h2 m _ (List.getElem?_eq_getElem hk), hm]
  obtain ⟨x, x1, x2, x3, x4, x5⟩ := C50_create_junction cs (.int j.id) rs (by
      intro r hr
      obtain ⟨i, hi, hr'⟩ := back r2 r3 r hr
      obtain ⟨d, hd, ht⟩ := hj.roads i hi
      obtain ⟨r', e1, hb⟩ := h.at hd
      rw [hr'] at e1
      cases e1
      rw [hb.type]; exact ht) (by
      intro r hr
      obtain ⟨i, hi, hr'⟩ := back c2 c3 r hr
      obtain ⟨c, hc, ht, hn⟩ := hj.connecting i hi
      obtain ⟨r', e1, hb⟩ := h.at hc
      rw [hr'] at e1
      cases e1
      obtain ⟨k, e, n, k', e', n', j1, j2, hne⟩ := hs.connecting c (List.mem_of_getElem? hc) ht
      have named : ∀ {e l}, c.link e = some l → ∃ y ∈ rs, y.id = .int l.id := by
        intro e l hl
        obtain ⟨i', hi', d, hd, hid⟩ := hn e l hl
        obtain ⟨y, hy, hy'⟩ := hrs i' d hi' hd
        exact ⟨y, hy, by rw [hy'.id, hid]⟩
      refine ⟨⟨_, _, Joins.toLink hb j1, Joins.toLink hb j2, ?_, named j1, named j2⟩, ?_⟩
      · intro hh
        exact hne (PyId.int.inj hh)
      · intro h0
        have := hb.shape.length_eq
        rw [h0, List.length_nil] at this
        exact hs.sections c (List.mem_of_getElem? hc) (List.length_eq_zero_iff.mp this))
  refine ⟨cs, rs, x, c1, r1, x1, x2, x3, by rw [x4, c2], ?_⟩
  intro m i r hm hr
  exact x5 m r ((c3 m i hm).trans hr)

/-- The junction that was ordered. -/
def MadeAny (calls : List (RoadCall ℝ)) (roads : List (Road ℝ)) : AnyJunction → Junction → Prop
  | .create j, x => MadeJunction calls roads j x
  | .drawn j, x => x = j.make

theorem Prepared.junctions (h : Prepared calls st st' roads) (hs : Sound calls L) (js : List AnyJunction)
    (hj : ∀ j ∈ js, AnySound calls j) : ∃ xs, makeJunctions roads js = .ok xs ∧
      List.Forall₂ (MadeAny calls roads) js xs := by
  induction js with
  | nil => exact ⟨[], rfl, .nil⟩
  | cons j js ih =>
    obtain ⟨xs, h1, h2⟩ := ih fun j hj' => hj j (by simp [hj'])
    cases j with
    | create j =>
      obtain ⟨cs, rs, x, k1, k2, k3, k4⟩ := h.junction hs (hj (.create j) (by simp))
      refine ⟨x :: xs, ?_, .cons k4 h2⟩
      simp only [makeJunctions, AnyJunction.make, k1, k2, k3, h1, bind, Except.bind]
    | drawn j =>
      refine ⟨j.make :: xs, ?_, .cons rfl h2⟩
      simp only [makeJunctions, AnyJunction.make, h1, bind, Except.bind]

theorem ConnectionCall.make_eq (c : ConnectionCall) : c.make = ⟨.int c.incoming, .int c.connecting, c.contact, c.id, c.laneLinks⟩ := by
  have key : ∀ (l : List (Int × Int)) (x : Connection),
      l.foldl (fun x l => x.addLanelink l.1 l.2) x = { x with links := x.links ++ l } := by
    intro l
    induction l with
    | nil => intro x; simp
    | cons a l ih => intro x; rw [List.foldl_cons, ih]; simp [Connection.addLanelink]
  rw [ConnectionCall.make, key]
  simp [Connection.new]

theorem DrawnJunction.make_eq (j : DrawnJunction) : j.make.name = j.name ∧ j.make.id = .int j.id ∧
    j.make.connections = j.connections.mapIdx fun i c => c.make.setId i := by
  have key : ∀ (l : List ConnectionCall) (x : Junction), l.foldl (fun x c => x.addConnection c.make) x =
      ⟨x.name, x.id, x.connections ++ l.mapIdx fun i c => c.make.setId (x.idCounter + i), x.idCounter + l.length⟩ := by
    intro l
    induction l with
    | nil => intro x; simp
    | cons a l ih =>
      intro x
      rw [List.foldl_cons, ih, List.mapIdx_cons]
      simp only [Junction.addConnection, List.append_assoc, List.cons_append, List.nil_append, List.length_cons, Nat.cast_add,
        Nat.cast_one, Nat.cast_zero, add_zero]
      have e : ∀ i : Nat, x.idCounter + 1 + (i : Int) = x.idCounter + ((i : Int) + 1) := fun i => by omega
      have e' : x.idCounter + 1 + (l.length : Int) = x.idCounter + ((l.length : Int) + 1) := by omega
      simp only [e, e']
  rw [DrawnJunction.make, key]
  simp [Junction.new]

theorem shown_make (c : ConnectionCall) (i : Nat) : shownConnection (c.make.setId i) = c.shown i := by
  rw [ConnectionCall.make_eq]
  cases h : c.id <;> simp [Connection.setId, shownConnection, ConnectionCall.shown, connectionIdText, h, PyId.toStr]

/-- The lanes of a connection. -/
theorem Finished.connection (h : Finished calls L st st' roads w' name date so js doc) {c : RoadCall ℝ} (hc : c ∈ calls)
    (ht : c.roadType ≠ -1) {r : Road ℝ} (hb : Ready st st' c r) {e e' : ContactPoint} {k n : Int} (hj : c.Joins e k e' n)
    {id : Int} {x : Connection} (hx : ConnectionAt r e id x) : ShowsConnection doc c e k e' n (shownConnection x) := by
  obtain ⟨l, sec, h1, h2, h3, h4⟩ := hx.incoming
  have hl := Joins.toLink hb hj
  rw [h1] at hl
  cases hl
  have hoff : laneOffsetAt r e = n := by
    have := hb.offset e
    rw [show c.link e = _ from hj] at this
    cases e <;> exact this
  obtain ⟨sc, hsc⟩ := h.sound.sectionAt hc e
  obtain ⟨sec', s2, -, s4, s5, -⟩ := hb.sectionAt hsc
  rw [s2] at h2
  cases h2
  have hnum : laneNumbers sec = ((List.range sc.right.length).map fun i : Nat => -((i : Int) + 1)) ++
      ((List.range sc.left.length).map fun i : Nat => (i : Int) + 1) := by rw [laneNumbers, s4, s5]
  have hmem : ∀ i, i ∈ laneNumbers sec ↔ ∃ w, c.HasLane e i w := by
    intro i
    rw [hnum, RoadCall.hasLane_iff hsc, ← mem_lane_ids, List.mem_append, List.mem_append, or_comm]
  have hnd : (laneNumbers sec).Nodup := by
    rw [hnum, List.nodup_append]
    refine ⟨List.Nodup.map (fun a b h => by simpa using h) List.nodup_range,
      List.Nodup.map (fun a b h => by simpa using h) List.nodup_range, ?_⟩
    simp only [List.mem_map, List.mem_range]
    rintro _ ⟨i, _, rfl⟩ _ ⟨j, _, rfl⟩
    omega
  obtain ⟨d, hd, hdk⟩ := h.sound.id_mem (h.sound.named c hc e _ hj)
  have hdk : d.id = k := hdk
  subst hdk
  have hlj : LanesJoin c e d e' n := ⟨hj, .inl ht⟩
  have hlinks : (shownConnection x).laneLinks = (laneNumbers sec).map fun m =>
      if e = .end then (m, turnSign e e' * m + n) else (m + n, turnSign e e' * m) := by
    show x.links = _
    rw [h4, hoff]
    simp only [LinkCall.toLink, directionSign_turnSign]
  have hσ := turnSign_cases e e'
  refine ⟨?_, ?_, hx.contact, ?_, ?_⟩
  · show x.incomingRoad.toStr = _
    rw [h3]; rfl
  · show x.connectingRoad.toStr = _
    rw [hx.connecting, hb.id]; rfl
  · intro hn hsym
    have hto : (shownConnection x).laneLinks = (laneNumbers sec).map fun m =>
        (m + if e = .end then 0 else n, turnSign e e' * m) := by
      rw [hlinks]
      refine List.map_congr_left fun m _ => ?_
      split
      · rename_i he
        rw [hn he]
        simp
      · rfl
    have hlane : ∀ m, (∃ w, c.HasLane e (turnSign e e' * m) w) ↔ ∃ w, c.HasLane e m w := by
      intro m
      rcases hsym with h1 | h1
      · rw [turnSign, if_neg h1, one_mul]
      · rcases hσ with h2 | h2 <;> rw [h2]
        · rw [one_mul]
        · rw [neg_one_mul]
          exact ⟨fun hm => neg_neg m ▸ h1 _ hm, h1 m⟩
    have hsq : turnSign e e' * turnSign e e' = 1 := by rcases hσ with h2 | h2 <;> rw [h2] <;> rfl
    refine ⟨?_, ?_, ?_⟩
    · rw [hto, List.map_map]
      refine List.Nodup.map (fun a b hab => ?_) hnd
      have hab : turnSign e e' * a = turnSign e e' * b := hab
      rcases hσ with h2 | h2 <;> rw [h2] at hab <;> omega
    · intro i
      rw [hto, List.map_map, List.mem_map]
      constructor
      · rintro ⟨m, hm, rfl⟩
        exact (hlane m).mpr ((hmem m).mp hm)
      · intro hi
        refine ⟨turnSign e e' * i, (hmem _).mpr ((hlane i).mpr hi), ?_⟩
        show turnSign e e' * (turnSign e e' * i) = i
        rw [← mul_assoc, hsq, one_mul]
    · intro a ha b hb' ia ib y hy
      rw [hto] at hy
      obtain ⟨m, hm, rfl⟩ := List.mem_map.mp hy
      obtain ⟨v, hv⟩ := (hlane m).mpr ((hmem m).mp hm)
      have := h.touch hc hd ha hb' (h.same hc ha ia) (h.same hd hb' ib) hlj hv
      rw [← mul_assoc, hsq, one_mul] at this
      convert this using 2
      split
      · rename_i he; exact (hn he).symm
      · rfl
  · intro he hn a ha b hb' ia ib y hy htouch
    rw [hlinks] at hy
    obtain ⟨m, hm, rfl⟩ := List.mem_map.mp hy
    have sa := h.same hc ha ia
    have sb := h.same hd hb' ib
    rw [if_pos he] at htouch
    obtain ⟨hne, -, h3w, -⟩ := h.sound.offset c hc ht e _ e' n hj hn
    rw [turnSign, if_neg hne, one_mul] at htouch
    obtain ⟨v, hv⟩ := htouch.lane.1
    have := h.touch hc hd ha hb' sa sb hlj (sa.hasLane.mp hv)
    rw [turnSign, if_neg hne, one_mul] at this
    obtain ⟨p, q, -, hq, -⟩ := h.meets hc hd ha hb' sa sb hj
    have := touch_unique hq (h.written.counted hb' e') (w := 3) (by norm_num)
      (fun j v hv => h3w d hd rfl j v (sb.hasLane.mp hv)) htouch this
    omega

theorem Finished.created (h : Finished calls L st st' roads w' name date so js doc) {j : JunctionCall} {x : Junction}
    (hjs : JunctionSound calls j) (hx : MadeJunction calls roads j x) : ShowsJunctionCall calls doc j (shownJunction x) := by
  obtain ⟨x1, x2, x3, x4⟩ := hx
  refine ⟨x1, ?_, ?_, ?_⟩
  · show (x).id.toStr = _
    rw [x2]; rfl
  · show ((x).connections.map shownConnection).length = _
    rw [List.length_map, x3]
  · intro m i' c hm' hc e k e' n hjn
    obtain ⟨r, hr, hb⟩ := h.prepared.at hc
    obtain ⟨c', hc', ht, -⟩ := hjs.connecting i' (List.mem_of_getElem? hm')
    rw [hc] at hc'
    cases hc'
    obtain ⟨c1, c2, y1, y2, y3, y4⟩ := x4 m i' r hm' hr
    have hc := List.mem_of_getElem? hc
    cases e
    · refine ⟨shownConnection c2, ?_, ?_, h.connection hc ht hb hjn y4⟩
      · show ((x).connections.map shownConnection)[2 * m + 1]? = _
        rw [List.getElem?_map, y2]; rfl
      · show connectionIdText c2.id = _
        rw [y4.id]; rfl
    · refine ⟨shownConnection c1, ?_, ?_, h.connection hc ht hb hjn y3⟩
      · show ((x).connections.map shownConnection)[2 * m]? = _
        rw [List.getElem?_map, y1]; rfl
      · show connectionIdText c1.id = _
        rw [y3.id]
        simp [connectionIdText]

theorem Finished.junctions (h : Finished calls L st st' roads w' name date so js doc) {js0 : List AnyJunction}
    (hj : ∀ j ∈ js0, AnySound calls j) (hm : List.Forall₂ (MadeAny calls roads) js0 js) :
    List.Forall₂ (ShowsAny calls doc) js0 doc.junctions := by
  have hdoc : doc.junctions = js.map shownJunction := by
    obtain ⟨element, he, hdoc⟩ := h.written.read
    obtain ⟨gs, -, rfl⟩ := document_read he h.written.good hdoc
    rfl
  rw [hdoc, List.forall₂_map_right_iff]
  rw [List.forall₂_iff_get] at hm ⊢
  refine ⟨hm.1, fun i h1 h2 => ?_⟩
  have hx := hm.2 i h1 h2
  have hj := hj _ (List.getElem_mem h1)
  simp only [List.get_eq_getElem] at hx ⊢
  generalize js[i] = x at hx
  generalize js0[i] = j at hx hj
  cases j with
  | create j => exact h.created hj hx
  | drawn j =>
    obtain rfl : x = j.make := hx
    obtain ⟨m1, m2, m3⟩ := j.make_eq
    refine ⟨m1, ?_, ?_, ?_⟩
    · show j.make.id.toStr = _
      rw [m2]; rfl
    · show j.make.connections.map shownConnection = _
      rw [m3, List.mapIdx_eq_zipIdx_map, List.mapIdx_eq_zipIdx_map, List.map_map]
      exact List.map_congr_left fun p _ => shown_make p.1 p.2
    · intro y hy c hc ht hid e' n hjn a ha b hb ia ib i w hi _
      obtain ⟨d, hd, sb⟩ := h.call hb
      have hy : d.id = y.incoming := strInt_injective (sb.id.symm.trans ib)
      rw [← hy] at hjn
      exact h.touch hc hd ha hb (h.same hc ha (by rw [hid]; exact ia)) sb ⟨hjn, .inl ht⟩ hi

end

end Pyodrx
