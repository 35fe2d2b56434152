import Verif.Proofs.Program
import Verif.Props.Tree
import Verif.Props.JunctionProgram

/-! # The network of a program that fits together -/

namespace Pyodrx
open Spec Props

/-- The roads of a program with their links, as they are added to the `OpenDrive`. -/
structure Prepared (calls : List (RoadCall ℝ)) (st st' : GenState ℝ) (roads : List (Road ℝ)) : Prop where
  ready : List.Forall₂ (Ready st st') calls roads
  disjoint : roads.Pairwise (fun p q => ∀ x ∈ lanesOf p, x ∉ lanesOf q)

/-- Their network. -/
def netOf (roads : List (Road ℝ)) (st' : GenState ℝ) : Net ℝ := ⟨roads.foldl addRoad [], st'.geoms⟩

section
variable {calls : List (RoadCall ℝ)} {L : List (CallEnd × CallEnd)} {st st' : GenState ℝ} {roads : List (Road ℝ)}

theorem Prepared.call (h : Prepared calls st st' roads) {r : Road ℝ} (hr : r ∈ roads) : ∃ c ∈ calls, Ready st st' c r := by
  obtain ⟨i, hi⟩ := List.mem_iff_getElem?.mp hr
  have hlen := h.ready.length_eq
  obtain ⟨hi', rfl⟩ := List.getElem?_eq_some_iff.mp hi
  have hb := h.ready.get (i := i) (by omega) hi'
  exact ⟨_, List.getElem_mem _, hb⟩

theorem Prepared.road (h : Prepared calls st st' roads) {c : RoadCall ℝ} (hc : c ∈ calls) : ∃ r ∈ roads, Ready st st' c r := by
  obtain ⟨i, hi⟩ := List.mem_iff_getElem?.mp hc
  have hlen := h.ready.length_eq
  obtain ⟨hi', rfl⟩ := List.getElem?_eq_some_iff.mp hi
  have hb := h.ready.get (i := i) hi' (by omega)
  exact ⟨_, List.getElem_mem _, hb⟩

theorem Prepared.ids (h : Prepared calls st st' roads) :
    roads.map (fun r => r.id.toStr) = (calls.map (·.id)).map strInt := by
  have := h.ready
  clear h
  induction this with
  | nil => rfl
  | cons hb _ ih => rw [List.map_cons, List.map_cons, List.map_cons, ih, hb.id]; rfl

theorem Prepared.nodup (h : Prepared calls st st' roads) (hs : Sound calls L) : (roads.map fun r => r.id.toStr).Nodup := by
  rw [h.ids]
  exact hs.ids.map strInt_injective

theorem Prepared.keys (h : Prepared calls st st' roads) (hs : Sound calls L) :
    (netOf roads st').roads.keys = (calls.map (·.id)).map strInt := by
  rw [netOf, (foldl_addRoad_distinct roads (h.nodup hs)).1, h.ids]

theorem _root_.Pyodrx.Spec.Sound.same (hs : Sound calls L) {c d : RoadCall ℝ} (hc : c ∈ calls) (hd : d ∈ calls) (h : c.id = d.id) : c = d :=
  List.inj_on_of_nodup_map hs.ids hc hd h

/-- The roads of the network and the calls belong together. -/
theorem Prepared.get (h : Prepared calls st st' roads) (hs : Sound calls L) {k : String} {r : Road ℝ}
    (hk : (netOf roads st').roads.get? k = some r) : ∃ c ∈ calls, k = strInt c.id ∧ Ready st st' c r := by
  obtain ⟨hr, rfl⟩ := ((foldl_addRoad_distinct roads (h.nodup hs)).2 k r).mp hk
  obtain ⟨c, hc, hb⟩ := h.call hr
  exact ⟨c, hc, by rw [hb.id]; rfl, hb⟩

theorem Prepared.find (h : Prepared calls st st' roads) (hs : Sound calls L) {c : RoadCall ℝ} (hc : c ∈ calls) :
    ∃ r, (netOf roads st').roads.get? (strInt c.id) = some r ∧ Ready st st' c r := by
  obtain ⟨r, hr, hb⟩ := h.road hc
  exact ⟨r, ((foldl_addRoad_distinct roads (h.nodup hs)).2 _ r).mpr ⟨hr, by rw [hb.id]; rfl⟩, hb⟩

theorem Prepared.unfixed (h : Prepared calls st st' roads) (hs : Sound calls L) {k : String} {r : Road ℝ}
    (hk : (netOf roads st').roads.get? k = some r) {c : RoadCall ℝ} (hc : c ∈ calls) (hid : k = strInt c.id) :
    r.planview.fixed = c.start.isSome := by
  obtain ⟨d, hd, rfl, hb⟩ := h.get hs hk
  obtain rfl := hs.same hc hd (strInt_injective hid).symm
  obtain ⟨refs, e, -⟩ := hb.plan
  rw [e]; rfl

theorem Prepared.anchor (h : Prepared calls st st' roads) (hs : Sound calls L) (k : Int) :
    Anchor (netOf roads st').roads (strInt k) ↔ Begins calls k := by
  have none_iff : (∀ k r, (netOf roads st').roads.get? k = some r → r.planview.fixed = false) ↔ ∀ c ∈ calls, c.start = none := by
    constructor
    · intro hf c hc
      obtain ⟨r, hr, -⟩ := h.find hs hc
      have := hf _ r hr
      rw [h.unfixed hs hr hc rfl] at this
      simpa using this
    · intro hn k r hr
      obtain ⟨c, hc, rfl, -⟩ := h.get hs hr
      rw [h.unfixed hs hr hc rfl, hn c hc]; rfl
  constructor
  · rintro (⟨r, hr, hf⟩ | ⟨hn, hk⟩)
    · obtain ⟨c, hc, e, -⟩ := h.get hs hr
      rw [h.unfixed hs hr hc e] at hf
      exact .inl ⟨c, hc, (strInt_injective e).symm, hf⟩
    · rw [h.keys hs, List.head?_map, Option.map_eq_some_iff] at hk
      obtain ⟨i, hi, e⟩ := hk
      refine .inr ⟨none_iff.mp hn, ?_⟩
      rw [hi, strInt_injective e]
  · rintro (⟨c, hc, rfl, hst⟩ | ⟨hn, hk⟩)
    · obtain ⟨r, hr, -⟩ := h.find hs hc
      exact .inl ⟨r, hr, by rw [h.unfixed hs hr hc rfl]; exact hst⟩
    · refine .inr ⟨none_iff.mpr hn, ?_⟩
      rw [h.keys hs, List.head?_map, hk]; rfl

/-- What a link of a road says, in terms of the calls. -/
theorem Ready.joins {c : RoadCall ℝ} {r : Road ℝ} (h : Ready st st' c r) {e : ContactPoint} {l : Link}
    (hl : linkAt r e = some l) : ∃ x, c.link e = some x ∧ l = x.toLink e := by
  rw [h.link, Option.map_eq_some_iff] at hl
  obtain ⟨x, h1, h2⟩ := hl
  exact ⟨x, h1, h2.symm⟩

theorem _root_.Pyodrx.Spec.Sound.road_link (hs : Sound calls L) {c : RoadCall ℝ} (hc : c ∈ calls) {e : ContactPoint} {x : LinkCall}
    (hx : c.link e = some x) (ht : x.elementType ≠ .junction) : ∃ e', x.contact = some e' ∧ c.Joins e x.id e' x.offset := by
  have ht' : x.elementType = .road := by cases h : x.elementType <;> simp_all
  obtain ⟨e', he'⟩ := Option.ne_none_iff_exists'.mp (hs.contact c hc e x hx ht')
  refine ⟨e', he', ?_⟩
  rw [RoadCall.Joins, hx]
  cases x
  simp_all

theorem Joins.toLink {c : RoadCall ℝ} {r : Road ℝ} (h : Ready st st' c r) {e e' : ContactPoint} {k n : Int}
    (hj : c.Joins e k e' n) : linkAt r e = some ⟨kindAt e, .int k, some .road, some e', none⟩ := by
  rw [h.link, hj]; rfl

theorem linkAt_cases {r : Road ℝ} {l : Link} (h : r.predecessor = some l ∨ r.successor = some l) :
    ∃ e, linkAt r e = some l := by
  rcases h with h | h
  · exact ⟨.start, h⟩
  · exact ⟨.end, h⟩

theorem _root_.Pyodrx.Spec.Sound.id_mem (hs : Sound calls L) {k : Int} (h : k ∈ calls.map (·.id)) : ∃ d ∈ calls, d.id = k := by
  simpa [List.mem_map] using h

/-- A link that is not to a junction joins the road to a road. -/
theorem Prepared.join (h : Prepared calls st st' roads) (hs : Sound calls L) {c : RoadCall ℝ} (hc : c ∈ calls) {r : Road ℝ}
    (hb : Ready st st' c r) {e : ContactPoint} {l : Link} (hl : linkAt r e = some l) (ht : l.elementType ≠ some .junction) :
    ∃ d ∈ calls, ∃ e' n, c.Joins e d.id e' n ∧ l = ⟨kindAt e, .int d.id, some .road, some e', none⟩ ∧
      offsetAt r e = n := by
  obtain ⟨x, hx, rfl⟩ := hb.joins hl
  obtain ⟨e', h1, h2⟩ := hs.road_link hc hx (fun h => ht (by simp [LinkCall.toLink, h]))
  obtain ⟨d, hd, hid⟩ := hs.id_mem (hs.named c hc e x hx)
  refine ⟨d, hd, e', x.offset, by rw [hid]; exact h2, ?_, ?_⟩
  · have h3 := h2
    rw [RoadCall.Joins, hx] at h3
    have h4 : x.elementType = .road := by cases x; simp at h3; exact h3.1
    simp [LinkCall.toLink, h1, h4, hid]
  · rw [hb.offset, hx]; rfl

theorem Prepared.placed (h : Prepared calls st st' roads) (hs : Sound calls L) {k nb : String} {e e' : ContactPoint}
    (hp : PlacedBy (netOf roads st').roads k e nb e') :
    ∃ c ∈ calls, ∃ d ∈ calls, k = strInt c.id ∧ nb = strInt d.id ∧
      ((∃ n, c.Joins e d.id e' n) ∨ d.roadType ≠ -1 ∧ ∃ n, d.Joins e' c.id e n) := by
  have conn : ∀ {c : String} {r : Road ℝ} {l : Link} (e : ContactPoint), (netOf roads st').roads.get? c = some r →
      r.roadType ≠ -1 → linkAt r e = some l → ∃ d ∈ calls, ∃ f ∈ calls, c = strInt d.id ∧
        l.elementId.toStr = strInt f.id ∧ d.roadType ≠ -1 ∧ ∃ n, d.Joins e f.id (l.contactPoint.getD .end) n := by
    intro c r l e hr ht hl
    obtain ⟨d, hd, rfl, hb⟩ := h.get hs hr
    rw [hb.type] at ht
    obtain ⟨x, hx, rfl⟩ := hb.joins hl
    obtain ⟨k, e1, n, k', e2, n', j1, j2, -⟩ := hs.connecting d hd ht
    have hne : x.elementType ≠ .junction := by
      cases e
      · rw [RoadCall.Joins, hx] at j1; cases j1; simp
      · rw [RoadCall.Joins, hx] at j2; cases j2; simp
    obtain ⟨f, hf, e', n, q1, q2, -⟩ := h.join hs hd hb hl (by simpa [LinkCall.toLink] using hne)
    refine ⟨d, hd, f, hf, rfl, by rw [q2]; rfl, ht, n, ?_⟩
    rw [q2]; exact q1
  cases hp with
  | pred hr hl ht hcp =>
    obtain ⟨c, hc, rfl, hb⟩ := h.get hs hr
    obtain ⟨d, hd, e', n, q1, rfl, -⟩ := h.join hs hc hb (e := .start) hl ht
    cases hcp
    exact ⟨c, hc, d, hd, rfl, rfl, .inl ⟨n, q1⟩⟩
  | succ hr hl ht hcp =>
    obtain ⟨c, hc, rfl, hb⟩ := h.get hs hr
    obtain ⟨d, hd, e', n, q1, rfl, -⟩ := h.join hs hc hb (e := .end) hl ht
    cases hcp
    exact ⟨c, hc, d, hd, rfl, rfl, .inl ⟨n, q1⟩⟩
  | connPred hr ht hl =>
    obtain ⟨d, hd, f, hf, q1, q2, q3, n, q4⟩ := conn .start hr ht hl
    exact ⟨f, hf, d, hd, q2, q1, .inr ⟨q3, n, q4⟩⟩
  | connSucc hr ht hl =>
    obtain ⟨d, hd, f, hf, q1, q2, q3, n, q4⟩ := conn .end hr ht hl
    exact ⟨f, hf, d, hd, q2, q1, .inr ⟨q3, n, q4⟩⟩

/-- And conversely. -/
theorem Prepared.places (h : Prepared calls st st' roads) (hs : Sound calls L) {c : RoadCall ℝ} (hc : c ∈ calls) {e e' : ContactPoint}
    {k n : Int} (hj : c.Joins e k e' n) : PlacedBy (netOf roads st').roads (strInt c.id) e (strInt k) e' ∧
      (c.roadType ≠ -1 → PlacedBy (netOf roads st').roads (strInt k) e' (strInt c.id) e) := by
  obtain ⟨r, hr, hb⟩ := h.find hs hc
  have hl := Joins.toLink hb hj
  have ht : r.roadType = c.roadType := hb.type
  cases e
  · exact ⟨.pred hr hl (by simp) rfl, fun hc => .connPred hr (by rw [ht]; exact hc) hl⟩
  · exact ⟨.succ hr hl (by simp) rfl, fun hc => .connSucc hr (by rw [ht]; exact hc) hl⟩

/-- The joints in terms of the keys of the network. -/
def keyed (L : List (CallEnd × CallEnd)) : List (RoadEnd × RoadEnd) :=
  L.map fun x => ((strInt x.1.1, x.1.2), (strInt x.2.1, x.2.2))

theorem mem_keyed {k k' : Int} {e e' : ContactPoint} :
    ((strInt k, e), (strInt k', e')) ∈ keyed L ↔ ((k, e), (k', e')) ∈ L := by
  simp only [keyed, List.mem_map, Prod.mk.injEq]
  constructor
  · rintro ⟨⟨⟨a, b⟩, ⟨c, d⟩⟩, hm, ⟨h1, rfl⟩, h2, rfl⟩
    rw [← strInt_injective h1, ← strInt_injective h2]
    exact hm
  · intro h
    exact ⟨_, h, ⟨rfl, rfl⟩, rfl, rfl⟩

theorem Prepared.tree (h : Prepared calls st st' roads) (hs : Sound calls L) : Tree (netOf roads st').roads (keyed L) := by
  have hk : (keyed L).map (·.1.1) = (L.map (·.1.1)).map strInt := by simp [keyed, Function.comp_def]
  refine ⟨?_, ?_, ?_, ?_, ?_⟩
  · intro k e nb e' hp
    obtain ⟨c, hc, d, hd, rfl, rfl, ⟨n, hj⟩ | ⟨-, n, hj⟩⟩ := h.placed hs hp
    · rw [mem_keyed, mem_keyed]
      exact hs.complete c hc e d.id e' n hj
    · rw [mem_keyed, mem_keyed]
      exact (hs.complete d hd e' c.id e n hj).symm
  · rw [hk]; exact hs.once.map strInt_injective
  · intro k
    rw [hk, h.keys hs]
    constructor
    · intro hk
      obtain ⟨i, hi, rfl⟩ := List.mem_map.mp hk
      rw [hs.all] at hi
      exact ⟨List.mem_map_of_mem hi.1, fun ha => hi.2 ((h.anchor hs i).mp ha)⟩
    · rintro ⟨hk, ha⟩
      obtain ⟨i, hi, rfl⟩ := List.mem_map.mp hk
      exact List.mem_map_of_mem ((hs.all i).mpr ⟨hi, fun hb => ha ((h.anchor hs i).mpr hb)⟩)
  · intro k e nb e' hm
    obtain ⟨⟨⟨k, e⟩, ⟨k', e'⟩⟩, hm', he⟩ := List.mem_map.mp hm
    cases he
    rcases hs.declared k e k' e' hm' with ⟨c, hc, rfl, n, hj⟩ | ⟨c, hc, rfl, ht, n, hj⟩
    · exact (h.places hs hc hj).1
    · exact (h.places hs hc hj).2 ht
  · intro i k nb hi
    rw [keyed, List.getElem?_map, Option.map_eq_some_iff] at hi
    obtain ⟨⟨a, b⟩, hi, he⟩ := hi
    cases he
    rcases hs.outwards i a b hi with hh | ⟨j, hj, y, hy, e⟩
    · exact .inl ((h.anchor hs _).mpr hh)
    · refine .inr ⟨j, hj, _, by rw [keyed, List.getElem?_map, hy]; rfl, ?_⟩
      show strInt y.1.1 = strInt b.1
      rw [e]

/-! ## Geometries -/

/-- The geometries of a road. -/
noncomputable def piecesOf (net : Net ℝ) (k : String) : List Piece :=
  match net.roads.get? k with
  | some r => r.planview.raw.map fun g => ⟨g, (shapeOf (net.geoms.cell g)).getD (.ofHeading (fun _ => 0) 0), none⟩
  | none => []

theorem Prepared.cell {c : RoadCall ℝ} {r : Road ℝ} (hb : Ready st st' c r) {g : Nat} (hg : g ∈ r.planview.raw) :
    st'.geoms.cell g ∈ c.geometry := by
  obtain ⟨refs, e, e1, -⟩ := hb.plan
  rw [e] at hg
  rw [← e1]
  exact List.mem_map_of_mem hg

theorem Prepared.drawn (h : Prepared calls st st' roads) (hs : Sound calls L) :
    DrawnNet (netOf roads st') (piecesOf (netOf roads st')) := by
  refine ⟨?_, ?_, ?_⟩
  · rw [h.keys hs]; exact hs.ids.map strInt_injective
  · intro k r hk
    obtain ⟨c, hc, rfl, hb⟩ := h.get hs hk
    have hin : ∀ e l, linkAt r e = some l → l ∈ r.links ∧ l.kind = kindAt e := by
      intro e l hl
      refine ⟨?_, ?_⟩
      · rw [hb.links]
        cases e <;> simp [hl]
      · obtain ⟨x, -, rfl⟩ := hb.joins hl; rfl
    refine ⟨by rw [hb.id]; rfl, hin .start, hin .end, ?_⟩
    have hp : piecesOf (netOf roads st') (strInt c.id) = r.planview.raw.map fun g =>
        ⟨g, (shapeOf (st'.geoms.cell g)).getD (.ofHeading (fun _ => 0) 0), none⟩ := by
      rw [piecesOf, hk]; rfl
    obtain ⟨refs, e1, e2, e3⟩ := hb.plan
    obtain ⟨g1, g2⟩ := hs.geometry c hc
    have hraw : r.planview.raw = refs := by rw [e1]
    have hmem : ∀ g ∈ r.planview.raw, st'.geoms.cell g ∈ c.geometry := fun g hg => Prepared.cell hb hg
    rw [hp]
    refine ⟨⟨_, _, _, _, newView c.start, ?_⟩, ?_, ?_, ?_, ?_⟩
    · rw [addAll_eq, e1]
      simp [startView, emptyPlanView, Function.comp_def]
    · intro hnil
      rw [List.map_eq_nil_iff, hraw] at hnil
      rw [hnil] at e2
      exact g1 e2.symm
    · intro pc hpc
      obtain ⟨g, hg, rfl⟩ := List.mem_map.mp hpc
      obtain ⟨s, hsh⟩ := Option.isSome_iff_exists.mp (g2 _ (hmem g hg)).2.1
      show shapeOf (st'.geoms.cell g) = _
      rw [hsh]; rfl
    · intro pc hpc
      obtain ⟨g, hg, rfl⟩ := List.mem_map.mp hpc
      rfl
    · intro pc hpc
      obtain ⟨g, hg, rfl⟩ := List.mem_map.mp hpc
      have := (g2 _ (hmem g hg)).2.2
      show KnownRange (st'.geoms.cell g)
      cases hcell : st'.geoms.cell g <;> first | trivial | exact this _ hcell
  · intro k pc hA hpc
    show NotPoly (st'.geoms.cell pc.ref)
    rw [piecesOf] at hpc
    cases hk : (netOf roads st').roads.get? k with
    | none => rw [hk] at hpc; cases hpc
    | some r =>
      rw [hk] at hpc
      obtain ⟨c, hc, rfl, hb⟩ := h.get hs hk
      obtain ⟨refs, e1, e2, e3⟩ := hb.plan
      have hraw : r.planview.raw = refs := by rw [e1]
      simp only [hraw] at hpc
      have href : refs = [pc.ref] := by
        have := congrArg (List.map Piece.ref) hpc
        simpa [Function.comp_def] using this
      rw [href] at e2
      rw [h.anchor hs] at hA
      have := (hs.poly c hc).resolve_left hA
      rw [← e2] at this
      cases hcell : st'.geoms.cell pc.ref <;> first | trivial | exact absurd (by rw [List.map_cons, hcell]; rfl) (this _)

end

end Pyodrx
