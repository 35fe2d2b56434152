import Verif.Props.ReadNetwork
import Verif.Props.JunctionClosing
import Verif.Spec.ReadJunction

/-! # Property C66: the junction in the written file -/

namespace Pyodrx.Props
open Pyodrx Spec

theorem knownRange_complete {st : GenState ℝ} {so : SOState ℝ} {pcs : List Piece} {r : Road ℝ} (h : Complete st so pcs r) :
    ∀ pc ∈ pcs, KnownRange (st.geoms.cell pc.ref) := by
  intro pc hpc
  have := h.range pc hpc
  cases hg : st.geoms.cell pc.ref with
  | poly g => exact this g hg
  | line _ => trivial
  | spiral _ => trivial
  | arc _ => trivial

/-- What a reader sees of a road that was laid out forward. -/
theorem Laid.read {net0 net : Net ℝ} {pcs : String → List Piece} {pos : String → Option (Pose ℝ)}
    (hL : Laid net0 pcs pos net) (hP : Plans net0 pcs) {k : String} {r0 r : Road ℝ} (h0 : net0.roads.get? k = some r0)
    (hr : net.roads.get? k = some r) {p : Pose ℝ} (hp : pos k = some p) (hne : pcs k ≠ [])
    (hkn : ∀ pc ∈ pcs k, KnownRange (net0.geoms.cell pc.ref)) :
    ∃ gs, readPlanView (r.planview.getElement net.geoms) = some gs ∧ gs ≠ [] ∧
      r.planview.start = some p ∧ r.planview.stop = some (finish p (pcs k)) ∧
      Chained 0 p gs r.planview.getTotalLength (finish p (pcs k)) := by
  have e := hL.roads k r0 h0
  rw [hr] at e
  have e : r.planview = laid r0.planview (pcs k) p := by
    rw [Option.some.inj e]; simp [placedRoad, hp]
  have hd := hL.describes hP h0
  have hkn' : ∀ pc ∈ pcs k, KnownRange (net.geoms.cell pc.ref) := fun pc hpc =>
    SameCurves.knownRange ⟨hL.shapes, hL.elements⟩ (hkn pc hpc)
  obtain ⟨gs, g1, g2, -, -, g5⟩ := readLayout net.geoms (pcs k) hd hkn' 0 p
  refine ⟨gs, ?_, ?_, by rw [e]; rfl, by rw [e]; rfl, ?_⟩
  · rw [e]
    simpa only [readPlanView, PlanView.getElement, Xml.tag_elem, if_true, Xml.children_elem, laid] using g1
  · rintro rfl
    have := congrArg List.length g2
    simp at this
    exact hne (List.length_eq_zero_iff.mp this.symm)
  · have := g5 (hP.free k r0 h0)
    rw [e]
    simpa [PlanView.getTotalLength, laid] using this

section
variable {st : GenState ℝ} {nl nr : Nat} {arm : Nat → List Piece} {startnum : Int}
  {roads : List (Road ℝ)} {angles : List ℝ} {r sp ap : ℝ} {junction : Int}

/-- The run of the program. -/
structure Run (st : GenState ℝ) (nl : Nat) (arm : Nat → List Piece) (startnum : Int) (roads : List (Road ℝ))
    (angles : List ℝ) (r sp ap : ℝ) (junction : Int) (res : JunctionProgram ℝ)
    (roads' : List (Road ℝ)) (st' : GenState ℝ) (pcs : String → List Piece) (pos : String → Option (Pose ℝ)) : Prop where
  built : JBuilt st st' nl startnum roads roads' res.connecting angles r sp ap junction
  plans : Plans ⟨docRoads roads' res.connecting, st'.geoms⟩ pcs
  arms : ∀ (i : Nat) (a : Road ℝ), roads[i]? = some a → pcs a.id.toStr = arm i
  laid : Laid ⟨docRoads roads' res.connecting, st'.geoms⟩ pcs pos res.world.net
  all : ∀ k ∈ allIds roads startnum, (pos k).isSome
  lanes : ∀ x, ∃ new, res.world.lanes.cell x = { st'.lanes.cell x with links := (st'.lanes.cell x).links ++ new } ∧
    ∀ l ∈ new, ∃ n, l.elementId = .str (strInt n)
  name : res.junction.name = "my junction"
  id : res.junction.id = .int junction
  connections : ∀ c ∈ res.junction.connections, (∃ a ∈ roads, c.incomingRoad = a.id) ∧ ∃ n, c.connectingRoad = .int n

theorem junction_run_steps (hA : Arms st nl nr arm startnum roads) (hnl : 1 ≤ nl) (hnn : nl ≤ nr)
    (hang : roads.length ≤ angles.length) (hr : 0 < r) (hsmall : r ≤ 1000000000) (hsp : 0 < sp)
    (hap : 0 < ap) (hj : junction ≠ -1) (hid : strInt junction ∈ allIds roads startnum) :
    ∃ res roads' st' pcs pos, junctionProgram roads angles r junction sp ap startnum st = .ok res ∧
      createJunctionRoads angles r junction sp ap startnum (roads, st) = .ok res.connecting (roads', st') ∧
      createJunction res.connecting (.int junction) roads' = .ok res.junction ∧
      World.adjustRoadsAndLanes ⟨⟨docRoads roads' res.connecting, st'.geoms⟩, st'.lanes⟩ = .ok () res.world ∧
      Run st nl arm startnum roads angles r sp ap junction res roads' st' pcs pos := by
  obtain ⟨jrs, roads', st', h1, hB⟩ := junction_built (ap := ap) (junction := junction) hA hnl hang hr
    hsmall hsp
  obtain ⟨hc1, hc2⟩ := junction_connects hA hB
  obtain ⟨jn, j1, j2, j3, j4, j5⟩ := C50_create_junction jrs (.int junction) roads' hc1 hc2
  obtain ⟨pcs, hP, harm, hturn⟩ := docRoads_plans hA hB hr hsp hap
  obtain ⟨net', pos, a1, a2, a3, a4⟩ := junction_placed hA hB hj hid pcs hP harm
  have hn : (docRoads roads' jrs).keys.Nodup := by rw [docRoads_keys hA hB]; exact arms_nodup hA
  obtain ⟨lanes', w1, -, w2⟩ := C30_all_links ⟨docRoads roads' jrs, st'.geoms⟩ net' st'.lanes hn
    (docRoads_fresh hP) a1 (docRoads_linkable hA hB hj hnn)
  refine ⟨⟨jrs, jn, ⟨net', lanes'⟩⟩, roads', st', pcs, pos, ?_, h1, j1, w1, hB, hP, harm, a2, ?_, ?_, j2, j3, ?_⟩
  · unfold junctionProgram
    rw [h1]
    dsimp only
    rw [j1]
    dsimp only
    rw [show (roads' ++ jrs).foldl addRoad [] = docRoads roads' jrs from rfl, w1]
  · intro k hk
    rcases List.mem_append.mp hk with hk | hk
    · obtain ⟨a, ha, rfl⟩ := List.mem_map.mp hk
      obtain ⟨i, hi⟩ := List.mem_iff_getElem?.mp ha
      rw [← idOf_eq hi]
      by_cases h0 : i = 0
      · subst h0; rw [a3]; rfl
      · have hlt := (List.getElem?_eq_some_iff.mp hi).1
        obtain ⟨rest, hp, -⟩ := pairs_split roads.length (by omega)
        have hx : (pairs roads.length)[i - 1]? = some (0, i) := by
          rw [hp, List.getElem?_append_left (by simp; omega), List.getElem?_map,
            List.getElem?_range (by omega)]
          simp; omega
        obtain ⟨q, -, -, h⟩ := a4 (i - 1) 0 i hx
        rw [h rfl]; rfl
    · obtain ⟨idx, hidx, rfl⟩ := List.mem_map.mp hk
      have hlt : idx < (pairs roads.length).length := by simpa using hidx
      obtain ⟨q, -, h, -⟩ := a4 idx _ _ (List.getElem?_eq_getElem hlt)
      rw [h]; rfl
  · intro x
    obtain ⟨new, e, hperm⟩ := w2 x
    exact ⟨new, e, fun l hl => dueAt_ids (hperm.mem_iff.mp hl)⟩
  · intro c hc
    obtain ⟨k, hk⟩ := List.mem_iff_getElem?.mp hc
    have hlt : k / 2 < jrs.length := by
      have := (List.getElem?_eq_some_iff.mp hk).1
      have : k < jn.connections.length := this
      omega
    have hjr := List.getElem?_eq_getElem hlt
    obtain ⟨c1, c2, e1, e2, f1, f2⟩ := j5 _ _ hjr
    obtain ⟨jr, g1, g2⟩ := hB.conn (k / 2) _ _ (List.getElem?_eq_getElem (by rw [← hB.count]; exact hlt))
    rw [hjr] at g1; cases g1
    obtain ⟨ri, rj, lp, ls, k1, k2, rfl, rfl, k3, k4, k5⟩ := g2.links
    have hk : jn.connections[k]? = some c := hk
    rcases Nat.mod_two_eq_zero_or_one k with h | h
    · rw [show 2 * (k / 2) = k by omega, hk] at e1
      cases e1
      obtain ⟨l, -, v1, -, v3, -⟩ := f1.incoming
      rw [linkAt, k4] at v1; cases v1
      exact ⟨⟨rj, List.mem_of_getElem? k2, v3⟩, _, f1.connecting.trans g2.id⟩
    · rw [show 2 * (k / 2) + 1 = k by omega, hk] at e2
      cases e2
      obtain ⟨l, -, v1, -, v3, -⟩ := f2.incoming
      rw [linkAt, k3] at v1; cases v1
      exact ⟨⟨ri, List.mem_of_getElem? k1, v3⟩, _, f2.connecting.trans g2.id⟩

theorem junction_run (hA : Arms st nl nr arm startnum roads) (hnl : 1 ≤ nl) (hnn : nl ≤ nr)
    (hang : roads.length ≤ angles.length) (hr : 0 < r) (hsmall : r ≤ 1000000000) (hsp : 0 < sp)
    (hap : 0 < ap) (hj : junction ≠ -1) (hid : strInt junction ∈ allIds roads startnum) :
    ∃ res roads' st' pcs pos, junctionProgram roads angles r junction sp ap startnum st = .ok res ∧
      Run st nl arm startnum roads angles r sp ap junction res roads' st' pcs pos := by
  obtain ⟨res, roads', st', pcs, pos, h1, -, -, -, h⟩ := junction_run_steps hA hnl hnn hang hr hsmall hsp hap hj hid
  exact ⟨res, roads', st', pcs, pos, h1, h⟩

variable {res : JunctionProgram ℝ} {roads' : List (Road ℝ)} {st' : GenState ℝ} {pcs : String → List Piece}
  {pos : String → Option (Pose ℝ)} {so : SOState ℝ}

theorem junctionPlan_raw {geoms : Store (Geom ℝ)} {pv : PlanView ℝ} {α : ℝ} (h : JunctionPlan geoms pv r sp ap α) :
    pv.raw ≠ [] ∧ ∀ g ∈ pv.raw, KnownRange (geoms.cell g) := by
  rcases h with ⟨-, g, h1, h2⟩ | ⟨-, g1, g2, g3, σ, h1, -, h2, h3, h4⟩
  · rw [h1.raw]
    refine ⟨by simp, ?_⟩
    intro x hx
    simp only [List.mem_singleton] at hx
    subst hx; rw [h2]; trivial
  · rw [h1.raw]
    refine ⟨by simp, ?_⟩
    intro x hx
    simp only [List.mem_cons, List.not_mem_nil, or_false] at hx
    rcases hx with rfl | rfl | rfl
    · rw [h2]; trivial
    · rw [h3]; trivial
    · rw [h4]; trivial

section
variable (hA : Arms st nl nr arm startnum roads)
  (hR : Run st nl arm startnum roads angles r sp ap junction res roads' st' pcs pos)
  (hC : ∀ (i : Nat) (a : Road ℝ), roads[i]? = some a → Complete st so (arm i) a)
include hA hR

theorem Run.keys : res.world.net.roads.keys = allIds roads startnum :=
  hR.laid.keys.trans (docRoads_keys hA hR.built)

theorem Run.origin {k : String} {ro : Road ℝ} (h : res.world.net.roads.get? k = some ro) :
    ∃ r0, (docRoads roads' res.connecting).get? k = some r0 ∧ ro = { r0 with planview := ro.planview } := by
  have hk : k ∈ (docRoads roads' res.connecting).keys := by
    rw [← hR.laid.keys]; exact Dict.mem_keys_of_get? h
  rw [← Dict.get?_isSome] at hk
  obtain ⟨r0, h0⟩ := Option.isSome_iff_exists.mp hk
  obtain ⟨r1, h1, -, h2⟩ := hR.laid.isAdjusted hR.plans (k := k) (r := r0) h0
  rw [h] at h1; cases h1
  exact ⟨r0, h0, h2⟩

include hC

theorem Run.pieces {k : String} {ro : Road ℝ} (h : res.world.net.roads.get? k = some ro) :
    pcs k ≠ [] ∧ ∀ pc ∈ pcs k, KnownRange (st'.geoms.cell pc.ref) := by
  obtain ⟨r0, h0, -⟩ := hR.origin hA h
  rcases docRoads_cases hA hR.built h0 with ⟨i, a, g1, rfl, rfl⟩ | ⟨idx, i, j, g1, rfl, g3, g4⟩
  · rw [hR.arms i a g1]
    refine ⟨(hC i a g1).geometry, fun pc hpc => ?_⟩
    rw [hR.built.old.oldGeoms _ ((hA.arm i a g1).geoms pc hpc)]
    exact knownRange_complete (hC i a g1) pc hpc
  · obtain ⟨ai, aj, -, -, hpl⟩ := g4.plan
    obtain ⟨e1, e2⟩ := junctionPlan_raw hpl
    rw [(hR.plans.fresh _ _ h0).raw] at e1 e2
    refine ⟨by rintro he; rw [he] at e1; simp at e1, fun pc hpc => e2 _ (List.mem_map.mpr ⟨pc, hpc, rfl⟩)⟩

theorem Run.read {k : String} {ro : Road ℝ} (h : res.world.net.roads.get? k = some ro) :
    ∃ gs p q, readPlanView (ro.planview.getElement res.world.net.geoms) = some gs ∧ gs ≠ [] ∧
      ro.planview.start = some p ∧ ro.planview.stop = some q ∧ Chained 0 p gs ro.planview.getTotalLength q := by
  obtain ⟨r0, h0, -⟩ := hR.origin hA h
  obtain ⟨p, hp⟩ := Option.isSome_iff_exists.mp (hR.all k (by rw [← hR.keys hA]; exact Dict.mem_keys_of_get? h))
  have hx := hR.pieces hA hC h
  obtain ⟨gs, g1, g2, g3, g4, g5⟩ := hR.laid.read hR.plans h0 h hp hx.1 hx.2
  exact ⟨gs, p, _, g1, g2, g3, g4, g5⟩

/-- Geometries bring no texts but the two names of ranges. -/
theorem Run.geomTexts {k : String} {ro : Road ℝ} (h : res.world.net.roads.get? k = some ro) :
    ∀ g ∈ ro.planview.adjGeoms, ∀ u ∈ geomTexts (res.world.net.geoms.cell g.geom), printable u = true := by
  obtain ⟨r0, h0, -⟩ := hR.origin hA h
  obtain ⟨p, hp⟩ := Option.isSome_iff_exists.mp (hR.all k (by rw [← hR.keys hA]; exact Dict.mem_keys_of_get? h))
  have e := hR.laid.roads k r0 h0
  rw [h] at e
  have e : ro.planview = Props.laid r0.planview (pcs k) p := by
    rw [Option.some.inj e]; simp [placedRoad, hp]
  intro g hg u hu
  rw [e] at hg
  have hg : g.geom ∈ (layout 0 p (pcs k)).map (·.geom) := List.mem_map.mpr ⟨g, hg, rfl⟩
  rw [layout_refs] at hg
  obtain ⟨pc, hpc, hgr⟩ := List.mem_map.mp hg
  rw [← hgr] at hu
  have hk : KnownRange (res.world.net.geoms.cell pc.ref) :=
    SameCurves.knownRange ⟨hR.laid.shapes, hR.laid.elements⟩ ((hR.pieces hA hC h).2 pc hpc)
  cases hx : res.world.net.geoms.cell pc.ref with
  | poly q =>
    rw [hx] at hu hk
    rw [List.mem_singleton.mp hu]
    rcases hk with hk | hk <;> rw [hk] <;> decide
  | line _ => rw [hx] at hu; cases hu
  | spiral _ => rw [hx] at hu; cases hu
  | arc _ => rw [hx] at hu; cases hu

theorem Run.lane {k : String} {ro : Road ℝ} (h : res.world.net.roads.get? k = some ro) :
    ∀ sec ∈ ro.lanesections, ∀ x ∈ sec.left ++ [sec.center] ++ sec.right,
      (res.world.lanes.cell x).laneId ≠ none ∧ GoodMark (res.world.lanes.cell x) := by
  obtain ⟨r0, h0, e⟩ := hR.origin hA h
  intro sec hsec x hx
  obtain ⟨new, hnew, -⟩ := hR.lanes x
  rw [hnew]
  show (st'.lanes.cell x).laneId ≠ none ∧ ∀ m, (st'.lanes.cell x).roadmark = some m → m.line.isSome → m.width.isSome
  rw [e] at hsec
  rcases docRoads_cases hA hR.built h0 with ⟨i, a, g1, rfl, rfl⟩ | ⟨idx, i, j, g1, rfl, g3, g4⟩
  · have hsec : sec ∈ a.lanesections := by
      have := (joinJunction_fields junction (armEnd i) a).2.1
      simpa [this] using hsec
    obtain ⟨c1, c2, c3⟩ := (hC i a g1).lanes sec hsec x hx
    rw [hR.built.old.oldLanes x c1]
    exact ⟨c2, c3⟩
  · obtain ⟨ri, risec, y, csec, -, -, -, u1, u2⟩ := g4.lanes
    rw [show ({ r0 with planview := ro.planview } : Road ℝ).lanesections = r0.lanesections from rfl, u1,
      List.mem_singleton] at hsec
    subst hsec
    have hstd : ∀ {w : ℝ} {t : RoadMarkType} {id : Int} {l : Lane ℝ}, StdLane w t id l → l.laneId ≠ none ∧
        ∀ m, l.roadmark = some m → m.line.isSome → m.width.isSome := by
      intro w t id l hl
      refine ⟨by rw [hl.number]; simp, fun m hm hline => ?_⟩
      obtain ⟨m', h1, h2⟩ := hl.mark
      rw [hm] at h1; cases h1
      rw [h2.line] at hline; simp at hline
    simp only [List.mem_append, List.mem_singleton] at hx
    rcases hx with (hx | rfl) | hx
    · obtain ⟨m, hm⟩ := List.mem_iff_getElem?.mp hx
      exact hstd (u2.left m x hm)
    · obtain ⟨c1, -, -, m', c2, c3⟩ := u2.center
      refine ⟨by rw [c1]; simp, fun m hm hline => ?_⟩
      rw [hm] at c2; cases c2
      rw [c3.line] at hline; simp at hline
    · obtain ⟨m, hm⟩ := List.mem_iff_getElem?.mp hx
      exact hstd (u2.right m x hm)

theorem Run.good {k : String} {ro : Road ℝ} (h : res.world.net.roads.get? k = some ro) :
    GoodRoad ⟨res.world.net.geoms, res.world.lanes, so⟩ ro := by
  refine ⟨fun sec hsec x hx => (hR.lane hA hC h sec hsec x hx).2, ?_⟩
  obtain ⟨r0, h0, e⟩ := hR.origin hA h
  rw [e]
  show ∀ i ∈ r0.signals, (so.sigs.cell i).base.typ = .str (so.sigs.cell i).type
  rcases docRoads_cases hA hR.built h0 with ⟨i, a, g1, rfl, rfl⟩ | ⟨idx, i, j, g1, rfl, g3, g4⟩
  · have : (joinJunction junction (armEnd i) a).signals = a.signals := by cases armEnd i <;> rfl
    rw [this]
    exact (hC i a g1).signals
  · rw [g4.empty.2.1]; simp

/-- The document: it can be emitted and read, and shows the roads and the junction. -/
theorem Run.document (name date : String) : ∃ (element : Xml ℝ) (gs : Road ℝ → List (RGeometry ℝ)),
    OpenDrive.getElement ⟨res.world.net.geoms, res.world.lanes, so⟩ date
      ⟨name, res.world.net.roads, [res.junction]⟩ = .ok element ∧
    readDocument element = some ⟨name, res.world.net.roads.map (fun kv =>
      shownRoad ⟨res.world.net.geoms, res.world.lanes, so⟩ kv.2 (gs kv.2)), [shownJunction res.junction]⟩ ∧
    ∀ k ro, res.world.net.roads.get? k = some ro → gs ro ≠ [] ∧ ∃ p q, ro.planview.start = some p ∧
      ro.planview.stop = some q ∧ Chained 0 p (gs ro) ro.planview.getTotalLength q := by
  have hnd : res.world.net.roads.keys.Nodup := by rw [hR.keys hA]; exact arms_nodup hA
  obtain ⟨element, he⟩ := (C43_error ⟨res.world.net.geoms, res.world.lanes, so⟩ date
    ⟨name, res.world.net.roads, [res.junction]⟩).1.mpr (by
      intro kv hkv sec hsec x hx
      exact (hR.lane hA hC (Dict.mem_get? hnd hkv) sec hsec x hx).1)
  refine ⟨element, fun ro => (readPlanView (ro.planview.getElement res.world.net.geoms)).getD [], he, ?_, ?_⟩
  · refine C59_document _ date _ element he
      (fun ro => (readPlanView (ro.planview.getElement res.world.net.geoms)).getD []) ?_
    intro kv hkv
    have hk := Dict.mem_get? hnd hkv
    refine ⟨hR.good hA hC hk, ?_⟩
    obtain ⟨gs, p, q, g1, -⟩ := hR.read hA hC hk
    show readPlanView (kv.2.planview.getElement res.world.net.geoms) = _
    rw [g1]; rfl
  · intro k ro hk
    obtain ⟨gs, p, q, g1, g2, g3, g4, g5⟩ := hR.read hA hC hk
    beta_reduce
    rw [g1]
    exact ⟨g2, p, q, g3, g4, g5⟩

/-- The texts in the document: those of the given roads, and some that are plain. -/
theorem Run.texts (name date s : String) (h : s ∈ userTexts ⟨res.world.net.geoms, res.world.lanes, so⟩ date
    ⟨name, res.world.net.roads, [res.junction]⟩) :
    s ∈ name :: date :: roads.flatMap (roadTexts ⟨st.geoms, st.lanes, so⟩) ∨ printable s = true := by
  have hnd : res.world.net.roads.keys.Nodup := by rw [hR.keys hA]; exact arms_nodup hA
  have hjoin : ∀ (i : Nat) (a : Road ℝ), (joinJunction junction (armEnd i) a).name = a.name ∧
      (joinJunction junction (armEnd i) a).rule = a.rule ∧
      (∀ u, u ∈ linkTexts (joinJunction junction (armEnd i) a).links → u ∈ linkTexts a.links) ∧
      (joinJunction junction (armEnd i) a).lanesections = a.lanesections ∧
      (joinJunction junction (armEnd i) a).signals = a.signals ∧
      (joinJunction junction (armEnd i) a).objects = a.objects := by
    intro i a
    cases armEnd i <;> refine ⟨rfl, rfl, ?_, rfl, rfl, rfl⟩ <;>
      simp [joinJunction, linkTexts, idTexts]
  have hint : ∀ {x : PyId} {n : Int} {u : String}, x = .int n → u ∈ idTexts x → printable u = true := by
    rintro x n u rfl hu; cases hu
  have harmText : ∀ {a : Road ℝ} {u : String}, a ∈ roads → u ∈ roadTexts ⟨st.geoms, st.lanes, so⟩ a →
      u ∈ name :: date :: roads.flatMap (roadTexts ⟨st.geoms, st.lanes, so⟩) := by
    intro a u ha hu
    exact List.mem_cons_of_mem _ (List.mem_cons_of_mem _ (List.mem_flatMap.mpr ⟨a, ha, hu⟩))
  simp only [userTexts, List.mem_append, List.mem_cons, List.not_mem_nil, or_false, List.flatMap_cons, List.flatMap_nil,
    List.append_nil] at h
  rcases h with ((rfl | rfl) | h) | h
  · simp
  · simp
  · obtain ⟨kv, hkv, h⟩ := List.mem_flatMap.mp h
    have hk := Dict.mem_get? hnd hkv
    obtain ⟨r0, h0, e⟩ := hR.origin hA hk
    have hgeom := hR.geomTexts hA hC hk
    have hlane : ∀ x u, u ∈ linkTexts (res.world.lanes.cell x).links → u ∈ linkTexts (st'.lanes.cell x).links ∨
        printable u = true := by
      intro x u hu
      obtain ⟨new, hnew, hn⟩ := hR.lanes x
      rw [hnew] at hu
      simp only [linkTexts, List.flatMap_append, List.mem_append] at hu
      refine hu.imp (fun h => h) fun hu => ?_
      obtain ⟨l, hl, hu⟩ := List.mem_flatMap.mp hu
      obtain ⟨n, hn⟩ := hn l hl
      rw [hn] at hu
      rw [List.mem_singleton.mp hu]; exact printable_strInt n
    rw [roadTexts] at h
    simp only [List.mem_append] at h
    rcases docRoads_cases hA hR.built h0 with ⟨i, a, g1, -, rfl⟩ | ⟨idx, i, j, g1, -, g3, g4⟩
    · have ha := List.mem_of_getElem? g1
      obtain ⟨b1, b2, b3, b4, b5, b6⟩ := hjoin i a
      have f1 : kv.2.name = a.name := by rw [e]; exact b1
      have f2 : kv.2.rule = a.rule := by rw [e]; exact b2
      have f3 : kv.2.id = a.id := by rw [e]; exact joinJunction_id _ _ _
      have f4 : kv.2.links = (joinJunction junction (armEnd i) a).links := by rw [e]
      have f5 : kv.2.lanesections = a.lanesections := by rw [e]; exact b4
      have f6 : kv.2.signals = a.signals := by rw [e]; exact b5
      have f7 : kv.2.objects = a.objects := by rw [e]; exact b6
      rw [f1, f2, f3, f4, f5, f6, f7] at h
      rcases h with ((((((h | h) | h) | h) | h) | h) | h) | h
      · exact .inl (harmText ha (by simp only [roadTexts, List.mem_append]; tauto))
      · exact .inl (harmText ha (by simp only [roadTexts, List.mem_append]; tauto))
      · exact .inl (harmText ha (by simp only [roadTexts, List.mem_append]; tauto))
      · have := b3 s h
        exact .inl (harmText ha (by simp only [roadTexts, List.mem_append]; tauto))
      · obtain ⟨g, hg, h⟩ := List.mem_flatMap.mp h
        exact .inr (hgeom g hg s h)
      · obtain ⟨sec, hsec, h⟩ := List.mem_flatMap.mp h
        obtain ⟨x, hx, h⟩ := List.mem_flatMap.mp h
        rcases hlane x s h with h | h
        · rw [hR.built.old.oldLanes x ((hC i a g1).lanes sec hsec x hx).1] at h
          have : s ∈ a.lanesections.flatMap (sectionTexts st.lanes) :=
            List.mem_flatMap.mpr ⟨sec, hsec, List.mem_flatMap.mpr ⟨x, hx, h⟩⟩
          exact .inl (harmText ha (by simp only [roadTexts, List.mem_append]; tauto))
        · exact .inr h
      · exact .inl (harmText ha (by simp only [roadTexts, List.mem_append]; tauto))
      · exact .inl (harmText ha (by simp only [roadTexts, List.mem_append]; tauto))
    · obtain ⟨b1, b2, b3, b4⟩ := g4.empty
      obtain ⟨ri, rj, lp, ls, k1, k2, rfl, rfl, k3, k4, k5⟩ := g4.links
      obtain ⟨ri', risec, y, csec, -, -, -, u1, u2⟩ := g4.lanes
      have f1 : kv.2.name = none := by rw [e]; exact b3
      have f2 : kv.2.rule = none := by rw [e]; exact b4
      have f3 : kv.2.id = r0.id := by rw [e]
      have f4 : kv.2.links = r0.links := by rw [e]
      have f5 : kv.2.lanesections = r0.lanesections := by rw [e]
      have f6 : kv.2.signals = [] := by rw [e]; exact b2
      have f7 : kv.2.objects = [] := by rw [e]; exact b1
      rw [f1, f2, f3, f4, f5, f6, f7, k5, u1] at h
      rcases h with ((((((h | h) | h) | h) | h) | h) | h) | h
      · cases h
      · cases h
      · exact .inr (hint g4.id h)
      · simp only [linkTexts, List.flatMap_cons, List.flatMap_nil, List.append_nil, List.mem_append] at h
        rcases h with h | h
        · exact .inl (harmText (List.mem_of_getElem? k1) (by simp only [roadTexts, List.mem_append]; tauto))
        · exact .inl (harmText (List.mem_of_getElem? k2) (by simp only [roadTexts, List.mem_append]; tauto))
      · obtain ⟨g, hg, h⟩ := List.mem_flatMap.mp h
        exact .inr (hgeom g hg s h)
      · simp only [List.flatMap_cons, List.flatMap_nil, List.append_nil] at h
        obtain ⟨x, hx, h⟩ := List.mem_flatMap.mp h
        rcases hlane x s h with h | h
        · have : (st'.lanes.cell x).links = [] := by
            simp only [List.mem_append, List.mem_singleton] at hx
            rcases hx with (hx | rfl) | hx
            · obtain ⟨m, hm⟩ := List.mem_iff_getElem?.mp hx
              exact (u2.left m x hm).links
            · exact u2.center.2.1
            · obtain ⟨m, hm⟩ := List.mem_iff_getElem?.mp hx
              exact (u2.right m x hm).links
          rw [this] at h; cases h
        · exact .inr h
      · cases h
      · cases h
  · simp only [junctionTexts, hR.name, hR.id, List.mem_append, List.mem_singleton] at h
    rcases h with (rfl | h) | h
    · right; decide
    · cases h
    · obtain ⟨c, hc, h⟩ := List.mem_flatMap.mp h
      obtain ⟨⟨a, ha, e1⟩, n, e2⟩ := hR.connections c hc
      rcases List.mem_append.mp h with h | h
      · rw [e1] at h
        exact .inl (harmText ha (by simp only [roadTexts, List.mem_append]; tauto))
      · exact .inr (hint e2 h)

end

theorem meets_same (e : ContactPoint) (p : Pose ℝ) (e' : ContactPoint) (q : Pose ℝ)
    (h : p = (match e, e' with | .start, .end => q | .end, .start => q | _, _ => turned q)) : Meets 0 e p e' q := by
  refine ⟨?_, ?_, ?_⟩
  · rw [h]; cases e <;> cases e' <;> simp [turned]
  · rw [h]; cases e <;> cases e' <;> simp [turned]
  · rw [h]
    cases e <;> cases e' <;> simp only [outgoing, turned, SameHeading]
    · exact ⟨0, by push_cast; ring⟩
    · exact ⟨0, by push_cast; ring⟩
    · exact ⟨-1, by push_cast; ring⟩
    · exact ⟨0, by push_cast; ring⟩

theorem map_range {α β : Type} (l : List α) (f : α → β) (g : Nat → β)
    (h : ∀ (m : Nat) (x : α), l[m]? = some x → f x = g m) : l.map f = (List.range l.length).map g := by
  refine List.ext_getElem? fun m => ?_
  rw [List.getElem?_map, List.getElem?_map]
  cases hx : l[m]? with
  | none => rw [List.getElem?_eq_none (by simpa using hx)]; rfl
  | some x =>
    rw [List.getElem?_range (List.getElem?_eq_some_iff.mp hx).1]
    simp [h m x hx]

/-- How a linked lane is shown. -/
theorem laneLinked_shown {lanes : Store (Lane ℝ)} {i x : Nat} {m : Int} (h : LaneLinked lanes i m x) :
    let l := shownLane (lanes.cell x) ((lanes.cell x).laneId.getD 0)
    l.linksTo "predecessor" = [readLaneLinkTo "predecessor" (if i = 0 then l.id else -l.id)] ∧
      l.linksTo "successor" = [readLaneLinkTo "successor" l.id] ∧
      ∀ k ∈ l.links, k.tag = "predecessor" ∨ k.tag = "successor" := by
  have hall : shownLinks (lanes.cell x).links = (lanes.cell x).links.map shownLink := by
    rw [shownLinks, List.filter_eq_self.mpr]
    intro l hl
    rcases h.only l hl with e | e <;> simp [e]
  have hf : ∀ (kind : LinkKind) (tag : String), kind.text = tag → (∀ k : LinkKind, k.text = tag → k = kind) →
      (shownLinks (lanes.cell x).links).filter (·.tag = tag) =
        ((lanes.cell x).links.filter (·.kind = kind)).map shownLink := by
    intro kind tag h1 h2
    rw [hall, List.filter_map]
    congr 1
    refine List.filter_congr fun k _ => ?_
    refine decide_eq_decide.mpr ?_
    exact ⟨fun e => h2 _ e, fun e => by show k.kind.text = tag; rw [e]; exact h1⟩
  refine ⟨?_, ?_, ?_⟩
  · show (shownLinks (lanes.cell x).links).filter (·.tag = "predecessor") = _
    rw [hf .predecessor "predecessor" rfl (by intro k; cases k <;> decide), h.pred]
    simp [shownLane, h.number, shownLink, laneLink, readLaneLinkTo, LinkKind.text, PyId.toStr]
  · show (shownLinks (lanes.cell x).links).filter (·.tag = "successor") = _
    rw [hf .successor "successor" rfl (by intro k; cases k <;> decide), h.succ]
    simp [shownLane, h.number, shownLink, laneLink, readLaneLinkTo, LinkKind.text, PyId.toStr]
  · intro k hk
    obtain ⟨l, hl, rfl⟩ := List.mem_map.mp (show k ∈ (lanes.cell x).links.map shownLink by rw [← hall]; exact hk)
    rcases h.only l hl with e | e <;> simp [shownLink, e, LinkKind.text]

/-- C66: the document of the junction program (C61) can be emitted and read, and a reader finds the junction in it:
all roads, each one line; the connecting roads, linked to the roads they join and beginning (from the first
road also ending) exactly there, their lanes linked to the lanes they continue; and the junction with the
connections and lane links for both ends of every connecting road. The poses of the document are those of
the placed network. -/
theorem C66_document (hA : Arms st nl nr arm startnum roads) (hnl : 1 ≤ nl) (hnn : nl ≤ nr)
    (hu : roads.Pairwise fun p q => ∀ x ∈ lanesOf p, x ∉ lanesOf q)
    (hang : roads.length ≤ angles.length) (hr : 0 < r) (hsmall : r ≤ 1000000000) (hsp : 0 < sp)
    (hap : 0 < ap) (hj : junction ≠ -1) (hid : strInt junction ∈ allIds roads startnum)
    (hC : ∀ (i : Nat) (a : Road ℝ), roads[i]? = some a → Complete st so (arm i) a) (name date : String) :
    ∃ res element doc, junctionProgram roads angles r junction sp ap startnum st = .ok res ∧
      OpenDrive.getElement ⟨res.world.net.geoms, res.world.lanes, so⟩ date
        ⟨name, res.world.net.roads, [res.junction]⟩ = .ok element ∧
      readDocument element = some doc ∧ doc.name = name ∧
      doc.ShowsJunction (roads.map fun a => a.id.toStr) junction startnum nl ∧
      ∀ rd ∈ doc.roads, ∀ p q, Stands res.world.net rd.id p q →
        rd.poseAt .start = some p ∧ rd.poseAt .end = some q := by
  obtain ⟨res, roads', st', pcs, pos, hrun, hR⟩ := junction_run hA hnl hnn hang hr hsmall hsp hap hj hid
  obtain ⟨element, gs, he, hdoc, hgs⟩ := hR.document hA hC name date
  obtain ⟨res1, start, p1, p2, p3, p4, p5, p6, p7, p8, -⟩ := C61_junction_program hA hnl hnn hang hr hsmall hsp hap hj hid
  rw [hrun] at p1; cases p1
  obtain ⟨res2, l1, l2, -⟩ := C61_lanes hA hnl hnn hu hang hr hsmall hsp hap hj hid
  rw [hrun] at l1; cases l1
  have hnd : res.world.net.roads.keys.Nodup := by rw [p2]; exact arms_nodup hA
  have hidk : ∀ {k : String} {ro : Road ℝ}, res.world.net.roads.get? k = some ro → ro.id.toStr = k := by
    intro k ro h
    obtain ⟨r0, h0, e⟩ := hR.origin hA h
    rw [e]; exact ((docRoads_get hA hR.built k r0).mp h0).2
  let hp : Heap ℝ := ⟨res.world.net.geoms, res.world.lanes, so⟩
  let shown : Road ℝ → RRoad ℝ := fun ro => shownRoad hp ro (gs ro)
  have hpose : ∀ k ro, res.world.net.roads.get? k = some ro → ∀ p q, Stands res.world.net k p q →
      (shown ro).poseAt .start = some p ∧ (shown ro).poseAt .end = some q := by
    rintro k ro hk p q ⟨ro', s1, -, s2, s3⟩
    rw [hk] at s1; cases s1
    obtain ⟨g1, p', q', g2, g3, g4⟩ := hgs k ro hk
    rw [s2] at g2; cases g2
    rw [s3] at g3; cases g3
    exact chained_ends g4 g1
  have hmem : ∀ rd, rd ∈ res.world.net.roads.map (fun kv => shownRoad hp kv.2 (gs kv.2)) ↔
      ∃ ro, res.world.net.roads.get? rd.id = some ro ∧ rd = shown ro := by
    intro rd
    rw [List.mem_map]
    constructor
    · rintro ⟨⟨k, ro⟩, hkv, rfl⟩
      have hk := Dict.mem_get? hnd hkv
      refine ⟨ro, ?_, rfl⟩
      show res.world.net.roads.get? ro.id.toStr = some ro
      rw [hidk hk]; exact hk
    · rintro ⟨ro, h1, h2⟩
      exact ⟨(rd.id, ro), Dict.get?_some_mem h1, h2.symm⟩
  have harm : ∀ (i : Nat) (a : Road ℝ), roads[i]? = some a → ∃ pv, res.world.net.roads.get? a.id.toStr =
      some { joinJunction junction (armEnd i) a with planview := pv } := by
    intro i a ha
    obtain ⟨r', e1, -, e2⟩ := hR.laid.isAdjusted hR.plans (k := a.id.toStr) (docRoads_arm hA hR.built ha)
    exact ⟨r'.planview, by rw [e1, ← e2]⟩
  have harmEnd : ∀ i, armEnd i = junctionEnd i := fun _ => rfl
  have hlen : (roads.map fun a => a.id.toStr).length = roads.length := by simp
  refine ⟨res, element, _, hrun, he, hdoc, rfl, ⟨?_, ?_, ?_, ?_, ?_⟩, ?_⟩
  · rw [hlen]
    show _ = allIds roads startnum
    rw [← p2]
    show (res.world.net.roads.map fun kv => shownRoad hp kv.2 (gs kv.2)).map RRoad.id = res.world.net.roads.map (·.1)
    rw [List.map_map]
    refine List.map_congr_left fun kv hkv => ?_
    exact hidk (Dict.mem_get? hnd hkv)
  · intro rd hrd
    obtain ⟨ro, h1, rfl⟩ := (hmem rd).mp hrd
    obtain ⟨-, p, q, -, -, g4⟩ := hgs _ ro h1
    exact ⟨p, q, g4⟩
  · intro i id hi
    rw [List.getElem?_map, Option.map_eq_some_iff] at hi
    obtain ⟨a, ha, rfl⟩ := hi
    obtain ⟨pv, e⟩ := harm i a ha
    refine ⟨shown ({ joinJunction junction (armEnd i) a with planview := pv } : Road ℝ), (hmem _).mpr ⟨_, ?_, rfl⟩, ?_, ?_, ?_⟩
    · show res.world.net.roads.get? (joinJunction junction (armEnd i) a).id.toStr = _
      rw [joinJunction_id]; exact e
    · show (joinJunction junction (armEnd i) a).id.toStr = _
      rw [joinJunction_id]
    · show (joinJunction junction (armEnd i) a).roadType = -1
      rw [(joinJunction_fields _ _ _).2.2, (hA.arm i a ha).normal]
    · show _ ∈ shownLinks (joinJunction junction (armEnd i) a).links
      rw [harmEnd]
      cases junctionEnd i <;> simp [joinJunction, shownLinks, shownLink, linkTag, LinkKind.text, PyId.toStr]
  · intro idx i j a b hp' ha ia hb ib
    obtain ⟨roA, ea, rfl⟩ := (hmem a).mp ha
    obtain ⟨roB, eb, rfl⟩ := (hmem b).mp hb
    rw [List.getElem?_map, Option.map_eq_some_iff] at ia ib
    obtain ⟨A, hAi, iA⟩ := ia
    obtain ⟨B, hBj, iB⟩ := ib
    rw [← iA] at ea
    rw [← iB] at eb
    rw [hlen] at hp'
    obtain ⟨jr, c1, -, c3⟩ := docRoads_conn hA hR.built hp'
    obtain ⟨pv, c4⟩ := p4 idx jr c1
    obtain ⟨ri, rj, lp, ls, k1, k2, rfl, rfl, k3, k4, k5⟩ := c3.links
    rw [hAi] at k1; cases k1
    rw [hBj] at k2; cases k2
    have hidc : jr.id.toStr = strInt (startnum + idx) := by rw [c3.id]; rfl
    obtain ⟨p, q, s1, s2, s3, -⟩ := p8.connecting idx i j hp'
    obtain ⟨o1, o2⟩ := hpose _ _ c4 p q s1
    obtain ⟨o3, o4⟩ := hpose _ _ ea _ _ (p8.arms i A hAi)
    obtain ⟨o5, o6⟩ := hpose _ _ eb _ _ (p8.arms j B hBj)
    refine ⟨shown ({ jr with planview := pv } : Road ℝ), (hmem _).mpr ⟨_, ?_, rfl⟩, hidc, ?_⟩
    · show res.world.net.roads.get? jr.id.toStr = _
      rw [hidc]; exact c4
    refine ⟨c3.type, ?_, ?_, ?_, ?_⟩
    · show shownLinks jr.links = _
      rw [k5, ← iA, ← iB]
      simp [shownLinks, shownLink, LinkKind.text, junctionEnd]
    · by_cases h0 : i = 0
      · subst h0
        refine ⟨p, _, o1, o4, meets_same _ _ _ _ ?_⟩
        simpa [junctionEnd] using s2
      · refine ⟨p, start i, o1, ?_, meets_same _ _ _ _ ?_⟩
        · simpa [junctionEnd, h0] using o3
        · simpa [junctionEnd, h0] using s2
    · intro h0
      exact ⟨q, _, o2, o5, meets_same _ _ _ _ (s3 h0)⟩
    · obtain ⟨jr', sec, d1, d2, d3, d4, d5, d6⟩ := l2 idx i j hp'
      rw [c4] at d1; cases d1
      refine ⟨shownSection res.world.lanes sec, ?_, ?_, ?_, ?_⟩
      · show jr.lanesections.map _ = _
        rw [show jr.lanesections = [sec] from d2]; rfl
      · show (shownLanes res.world.lanes sec.left).map RLane.id = _
        rw [shownLanes, List.map_map, ← d3]
        refine map_range _ _ _ fun m x hx => ?_
        simp [shownLane, (d5 m x hx).number]
      · show (shownLanes res.world.lanes sec.right).map RLane.id = _
        rw [shownLanes, List.map_map, ← d4]
        refine map_range _ _ _ fun m x hx => ?_
        simp [shownLane, (d6 m x hx).number]
      · intro l hl
        have hl : l ∈ shownLanes res.world.lanes sec.left ++ shownLanes res.world.lanes sec.right := hl
        rcases List.mem_append.mp hl with hl | hl
        · obtain ⟨x, hx, rfl⟩ := List.mem_map.mp hl
          obtain ⟨m, hm⟩ := List.mem_iff_getElem?.mp hx
          exact laneLinked_shown (d5 m x hm)
        · obtain ⟨x, hx, rfl⟩ := List.mem_map.mp hl
          obtain ⟨m, hm⟩ := List.mem_iff_getElem?.mp hx
          exact laneLinked_shown (d6 m x hm)
  · refine ⟨shownJunction res.junction, rfl, hR.name, ?_, ?_, ?_⟩
    · show res.junction.id.toStr = _
      rw [p5]; rfl
    · simp [shownJunction, p6]
    · intro idx i j a b hp' ia ib
      rw [List.getElem?_map, Option.map_eq_some_iff] at ia ib
      obtain ⟨A, hAi, rfl⟩ := ia
      obtain ⟨B, hBj, rfl⟩ := ib
      rw [hlen] at hp'
      obtain ⟨jr, c1, -, c3⟩ := docRoads_conn hA hR.built hp'
      obtain ⟨ri, rj, lp, ls, k1, k2, rfl, rfl, k3, k4, k5⟩ := c3.links
      rw [hAi] at k1; cases k1
      rw [hBj] at k2; cases k2
      obtain ⟨ri', risec, y, sec, -, -, -, u1, u2⟩ := c3.lanes
      have hnum : laneNumbers sec = bothSides nl := by simp only [laneNumbers, bothSides, u2.countL, u2.countR]
      obtain ⟨cn1, cn2, e1, e2, f1, f2⟩ := p7 idx jr c1
      show (res.junction.connections.map shownConnection)[2 * idx]? = _ ∧
        (res.junction.connections.map shownConnection)[2 * idx + 1]? = _
      rw [List.getElem?_map, List.getElem?_map, e1, e2]
      obtain ⟨l1, s1, v1, v2, v3, v4⟩ := f1.incoming
      obtain ⟨l2, s2, w1, w2, w3, w4⟩ := f2.incoming
      rw [linkAt, k4] at v1; cases v1
      rw [linkAt, k3] at w1; cases w1
      simp only [sectionAt, u1, List.getLast?_singleton, List.head?_cons, Option.some.injEq] at v2 w2
      subst v2
      subst w2
      constructor
      · simp [shownConnection, connectionIdText, f1.id, v3, f1.connecting, f1.contact, v4, hnum, c3.id, PyId.toStr,
          directionSign, laneOffsetAt, c3.offsets.2]
      · simp only [Option.map_some, shownConnection, connectionIdText, f2.id, w3, f2.connecting, f2.contact, w4, hnum, c3.id,
          PyId.toStr, laneOffsetAt, c3.offsets.1]
        by_cases h0 : i = 0 <;> simp [h0, directionSign]
  · intro rd hrd p q hs
    obtain ⟨ro, h1, rfl⟩ := (hmem rd).mp hrd
    exact hpose _ ro h1 p q hs

/-- C66: and so in the file. If the given roads have no texts with characters that XML does not allow (and,
for pretty printing, no line breaks and tabs), the file can be written and what a reader finds in it is the
document of `C66_document`. `show'` prints numbers, `readNum` reads them (see C64). -/
theorem C66_file (hA : Arms st nl nr arm startnum roads) (hnl : 1 ≤ nl) (hnn : nl ≤ nr)
    (hu : roads.Pairwise fun p q => ∀ x ∈ lanesOf p, x ∉ lanesOf q)
    (hang : roads.length ≤ angles.length) (hr : 0 < r) (hsmall : r ≤ 1000000000) (hsp : 0 < sp)
    (hap : 0 < ap) (hj : junction ≠ -1) (hid : strInt junction ∈ allIds roads startnum)
    (hC : ∀ (i : Nat) (a : Road ℝ), roads[i]? = some a → Complete st so (arm i) a) (name date : String)
    (hrep : ∀ a ∈ roads, ∀ i ∈ a.objects, RepeatsNamed (so.objs.cell i))
    (hlegal : ∀ s ∈ name :: date :: roads.flatMap (roadTexts ⟨st.geoms, st.lanes, so⟩), ∀ c ∈ s.toList,
      XmlParser.isXmlChar c = true) (pretty : Bool)
    (hplain : pretty = true → ∀ s ∈ name :: date :: roads.flatMap (roadTexts ⟨st.geoms, st.lanes, so⟩),
      ∀ c ∈ s.toList, c ≠ '\n' ∧ c ≠ '\r' ∧ c ≠ '\t') :
    ∃ res element doc, junctionProgram roads angles r junction sp ap startnum st = .ok res ∧
      OpenDrive.getElement ⟨res.world.net.geoms, res.world.lanes, so⟩ date
        ⟨name, res.world.net.roads, [res.junction]⟩ = .ok element ∧
      doc.name = name ∧ doc.ShowsJunction (roads.map fun a => a.id.toStr) junction startnum nl ∧
      (∀ rd ∈ doc.roads, ∀ p q, Stands res.world.net rd.id p q →
        rd.poseAt .start = some p ∧ rd.poseAt .end = some q) ∧
      ∀ (show' : ℝ → String) (readNum : String → Option ℝ), readNum "None" = none →
        (∀ x, Occurs (.num x) element → readNum (show' x) = some x) →
        (∀ x, ∀ c ∈ (show' x).toList, XmlParser.isXmlChar c = true ∧ c ≠ '\n' ∧ c ≠ '\r' ∧ c ≠ '\t') →
        ∀ filename : Option String, ∃ text,
          OpenDrive.writeXml show' ⟨res.world.net.geoms, res.world.lanes, so⟩ date
            ⟨name, res.world.net.roads, [res.junction]⟩ filename pretty =
              .ok (filename.getD (name ++ ".xodr"), text) ∧
          readFile readNum text = some doc := by
  obtain ⟨res, roads', st', pcs, pos, hrun, hR⟩ := junction_run hA hnl hnn hang hr hsmall hsp hap hj hid
  obtain ⟨res1, element, doc, h1, he, hdoc, hname, hshows, hpose⟩ :=
    C66_document hA hnl hnn hu hang hr hsmall hsp hap hj hid hC name date
  rw [hrun] at h1; cases h1
  refine ⟨res, element, doc, hrun, he, hname, hshows, hpose, ?_⟩
  intro show' readNum hnone hnum hshow filename
  have hnd : res.world.net.roads.keys.Nodup := by rw [hR.keys hA]; exact arms_nodup hA
  have hrep' : ∀ kv ∈ res.world.net.roads, ∀ i ∈ kv.2.objects, RepeatsNamed (so.objs.cell i) := by
    intro kv hkv i hi
    obtain ⟨r0, h0, e⟩ := hR.origin hA (Dict.mem_get? hnd hkv)
    rw [e] at hi
    rcases docRoads_cases hA hR.built h0 with ⟨m, a, g1, -, rfl⟩ | ⟨idx, m, j, g1, -, g3, g4⟩
    · have hi : i ∈ (joinJunction junction (armEnd m) a).objects := hi
      rw [show (joinJunction junction (armEnd m) a).objects = a.objects by cases armEnd m <;> rfl] at hi
      exact hrep a (List.mem_of_getElem? g1) i hi
    · have hi : i ∈ r0.objects := hi
      rw [g4.empty.1] at hi; cases hi
  obtain ⟨l1, l2⟩ := C63_texts show' ⟨res.world.net.geoms, res.world.lanes, so⟩ date
    ⟨name, res.world.net.roads, [res.junction]⟩ element he hrep'
  have hl := l1 (fun x c hc => (hshow x c hc).1) (by
    intro s hs c hc
    rcases hR.texts hA hC name date s hs with h | h
    · exact hlegal s h c hc
    · exact printable_legal (printable_mem h hc).1 (printable_mem h hc).2)
  cases pretty with
  | false =>
    obtain ⟨text, h1, -, h3⟩ := C63_plain show' _ date _ filename element he hrep' hl
    exact ⟨text, h1, (readFile_of hnone he hnum hrep' h3).trans hdoc⟩
  | true =>
    obtain ⟨text, h1, -, h3⟩ := C63_pretty show' _ date _ filename element he hrep' hl
    refine ⟨text, h1, (readFile_of hnone he hnum hrep' (h3.mpr (l2 (fun x c hc => (hshow x c hc).2) ?_))).trans hdoc⟩
    intro s hs c hc
    rcases hR.texts hA hC name date s hs with h | h
    · exact hplain rfl s h c hc
    · exact printable_plain (printable_mem h hc).1

/-- Gaps in the network are gaps in the document. -/
theorem closes_of {res : JunctionProgram ℝ} {doc : RDocument ℝ} {d e : ℝ} (hA : Arms st nl nr arm startnum roads)
    (hS : doc.ShowsJunction (roads.map fun a => a.id.toStr) junction startnum nl)
    (hpose : ∀ rd ∈ doc.roads, ∀ p q, Stands res.world.net rd.id p q →
      rd.poseAt .start = some p ∧ rd.poseAt .end = some q)
    (hnear : ∀ (idx i j : Nat) (b : Road ℝ), (pairs roads.length)[idx]? = some (i, j) → roads[j]? = some b →
      ∃ p q p' q', Stands res.world.net (strInt (startnum + idx)) p q ∧
        Stands res.world.net b.id.toStr p' q' ∧ Near d e q p') : doc.Closes d e := by
  have hlen : (roads.map fun a => a.id.toStr).length = roads.length := by simp
  have hnd : (doc.roads.map RRoad.id).Nodup := by
    rw [hS.roads, hlen]; exact arms_nodup hA
  have huniq : ∀ x ∈ doc.roads, ∀ y ∈ doc.roads, x.id = y.id → x = y := List.inj_on_of_nodup_map hnd
  rintro c hc b hb hcj ⟨l, hl, htag, hlid⟩
  have hcid : c.id ∈ doc.roads.map RRoad.id := List.mem_map.mpr ⟨c, hc, rfl⟩
  rw [hS.roads] at hcid
  rcases List.mem_append.mp hcid with h | h
  · obtain ⟨i, hi⟩ := List.mem_iff_getElem?.mp h
    obtain ⟨a, ha, e1, e2, -⟩ := hS.given i c.id hi
    rw [huniq a ha c hc e1] at e2
    exact absurd e2 hcj
  · obtain ⟨idx, hidx, hci⟩ := List.mem_map.mp h
    rw [hlen] at hidx
    have hlt : idx < (pairs roads.length).length := by simpa using hidx
    obtain ⟨⟨i, j⟩, hp⟩ : ∃ x, (pairs roads.length)[idx]? = some x := ⟨_, List.getElem?_eq_getElem hlt⟩
    have hij := pairs_lt hp
    have hi : roads[i]? = some roads[i] := List.getElem?_eq_getElem (by omega)
    have hj' : roads[j]? = some roads[j] := List.getElem?_eq_getElem (by omega)
    obtain ⟨a, ha, a1, -⟩ := hS.given i _ (by rw [List.getElem?_map, hi]; rfl)
    obtain ⟨b', hb', b1, -⟩ := hS.given j _ (by rw [List.getElem?_map, hj']; rfl)
    obtain ⟨c', hc', c1, c2⟩ := hS.connecting idx i j a b' (by rw [hlen]; exact hp) ha
      (by rw [List.getElem?_map, hi, a1]; rfl) hb' (by rw [List.getElem?_map, hj', b1]; rfl)
    rw [huniq c' hc' c hc (c1.trans hci)] at c2
    rw [c2.links] at hl
    have hbb : b = b' := by
      refine huniq b hb b' hb' ?_
      rw [← hlid]
      simp only [List.mem_cons, List.not_mem_nil, or_false] at hl
      rcases hl with rfl | rfl
      · exact absurd htag (show ¬ "predecessor" = "successor" by decide)
      · rfl
    subst hbb
    obtain ⟨p, q, p', q', s1, s2, s3⟩ := hnear idx i j _ hp hj'
    rw [hci] at s1
    rw [show roads[j].id.toStr = b.id from b1.symm] at s2
    exact ⟨q, p', (hpose c hc p q s1).2, (hpose b hb p' q' s2).1, s3⟩

/-- C66: at right angles, the connecting roads of the document also end where they lead to, up to the rounding
of the start curvature of the clothoids (C62). -/
theorem C66_right_angles (hA : Arms st nl nr arm startnum roads) (hnl : 1 ≤ nl) (hnn : nl ≤ nr)
    (hu : roads.Pairwise fun p q => ∀ x ∈ lanesOf p, x ∉ lanesOf q)
    (hang : roads.length ≤ angles.length) (hr : 0 < r) (hsmall : r ≤ 100000000) (hsp : 0 < sp)
    (hap : 0 < ap) (hsum : ap + 2 * sp = 1) (hj : junction ≠ -1)
    (hid : strInt junction ∈ allIds roads startnum) (hright : RightAngled roads.length angles)
    (hC : ∀ (i : Nat) (a : Road ℝ), roads[i]? = some a → Complete st so (arm i) a) (name date : String) :
    ∃ res element doc, junctionProgram roads angles r junction sp ap startnum st = .ok res ∧
      OpenDrive.getElement ⟨res.world.net.geoms, res.world.lanes, so⟩ date
        ⟨name, res.world.net.roads, [res.junction]⟩ = .ok element ∧
      readDocument element = some doc ∧
      doc.ShowsJunction (roads.map fun a => a.id.toStr) junction startnum nl ∧
      doc.Closes (70 * r ^ 2 / 1000000000) (4 * r / 1000000000) := by
  obtain ⟨res, element, doc, h1, h2, h3, -, h4, h5⟩ :=
    C66_document hA hnl hnn hu hang hr (by linarith) hsp hap hj hid hC name date
  obtain ⟨res', k1, k2⟩ := C62_right_angles hA hnl hnn hang hr hsmall hsp hap hsum hj hid hright
  rw [h1] at k1; cases k1
  refine ⟨res, element, doc, h1, h2, h3, h4, closes_of hA h4 h5 ?_⟩
  intro idx i j b hp hb
  obtain ⟨p, q, p', q', s1, s2, -, s3⟩ := k2 idx i j b hp hb
  exact ⟨p, q, p', q', s1, s2, s3⟩

end

/-! ## Non-vacuity: `examples/full_junction.py` -/

/-- The roads made by the loop of the example are complete and bring no texts. -/
theorem straightRoads_complete (length : ℝ) (n : Nat) (w : ℝ) :
    ∀ (m i : Nat) (st : GenState ℝ) (roads : List (Road ℝ)) (st' : GenState ℝ),
      straightRoads length n w i m st = .ok roads st' → OnlyNew st st' ∧ ∀ a ∈ roads,
      (∃ g, a.planview.raw = [g] ∧ st'.geoms.cell g = .line ⟨length⟩) ∧ Unlinked a ∧ a.planview.adjGeoms = [] ∧
      (∃ n, a.id = .int n) ∧
      ∀ sec ∈ a.lanesections, ∀ x ∈ sec.left ++ [sec.center] ++ sec.right, x < st'.lanes.next ∧
        (st'.lanes.cell x).laneId ≠ none ∧ (st'.lanes.cell x).links = [] ∧
        ∀ m, (st'.lanes.cell x).roadmark = some m → m.line = none := by
  intro m
  induction m with
  | zero =>
    intro i st roads st' h
    cases h
    exact ⟨⟨le_rfl, le_rfl, fun _ _ => rfl, fun _ _ => rfl⟩, by simp⟩
  | succ m ih =>
    intro i st roads st' h
    obtain ⟨ro, st1, sec, g, h1, h2, h3, h4, h5, h6, h7, h8, h9, h10⟩ :=
      C46_create_straight_road (.int i) length (-1) n w st
    have hg : g < st1.geoms.next := by
      rw [createStraightRoad_eq] at h1
      cases h1
      have := h5.raw
      change [st.geoms.next] = [g] at this
      rw [List.singleton_inj] at this
      rw [← this]
      simp [Store.alloc]
    unfold straightRoads at h
    rw [bind_of_ok h1] at h
    cases hs : straightRoads length n w (i + 1) m st1 with
    | error e s => rw [bind_of_error hs] at h; cases h
    | ok ros st2 =>
      rw [bind_of_ok hs] at h
      cases h
      obtain ⟨k1, k2⟩ := ih _ _ _ _ hs
      refine ⟨⟨h10.geoms.trans k1.geoms, h10.lanes.trans k1.lanes, ?_, ?_⟩, ?_⟩
      · intro x hx
        rw [k1.oldGeoms x (lt_of_lt_of_le hx h10.geoms), h10.oldGeoms x hx]
      · intro x hx
        rw [k1.oldLanes x (lt_of_lt_of_le hx h10.lanes), h10.oldLanes x hx]
      · intro a ha
        rcases List.mem_cons.mp ha with rfl | ha
        · refine ⟨⟨g, h5.raw, by rw [k1.oldGeoms g hg, h8]⟩, h4, h5.unadjusted.2.1, ⟨_, h2⟩, ?_⟩
          intro sec' hsec x hx
          rw [h6, List.mem_singleton] at hsec
          subst hsec
          have hlt : x < st1.lanes.next := by
            refine (h7.new x ?_).2
            simp only [List.mem_append, List.mem_cons, List.not_mem_nil, or_false] at hx ⊢
            tauto
          have hstd : ∀ {t : RoadMarkType} {id : Int}, StdLane w t id (st1.lanes.cell x) →
              (st1.lanes.cell x).laneId ≠ none ∧ (st1.lanes.cell x).links = [] ∧
              ∀ m, (st1.lanes.cell x).roadmark = some m → m.line = none := by
            intro t id hl
            refine ⟨by rw [hl.number]; simp, hl.links, fun m hm => ?_⟩
            obtain ⟨m', e1, e2⟩ := hl.mark
            rw [hm] at e1; cases e1
            exact e2.line
          refine ⟨lt_of_lt_of_le hlt k1.lanes, ?_⟩
          rw [k1.oldLanes x hlt]
          simp only [List.mem_append, List.mem_singleton] at hx
          rcases hx with (hx | rfl) | hx
          · obtain ⟨m, hm⟩ := List.mem_iff_getElem?.mp hx
            exact hstd (h7.left m x hm)
          · obtain ⟨c1, c2, -, m', c3, c4⟩ := h7.center
            refine ⟨by rw [c1]; simp, c2, fun m hm => ?_⟩
            rw [hm] at c3; cases c3
            exact c4.line
          · obtain ⟨m, hm⟩ := List.mem_iff_getElem?.mp hx
            exact hstd (h7.right m x hm)
        · exact k2 a ha

/-- C66: the example as it is, with four roads 100 m long and radius 8: the file that is written (pretty printed,
as by default) shows a reader the four roads, the six connecting roads and the junction; every connecting road is
joined to both of its roads, within 5 micrometres where it ends. -/
theorem C66_example (st : GenState ℝ) (so : SOState ℝ) : ∃ roads st' res element doc,
    straightRoads 100 1 3 0 4 st = .ok roads st' ∧
    junctionProgram roads [0, 1 * 2 * Real.pi / 4, 2 * 2 * Real.pi / 4, 3 * 2 * Real.pi / 4] 8 1
      (1 / 3) (1 / 3) 100 st' = .ok res ∧
    OpenDrive.getElement ⟨res.world.net.geoms, res.world.lanes, so⟩ "today"
      ⟨"myroad", res.world.net.roads, [res.junction]⟩ = .ok element ∧
    doc.ShowsJunction ["0", "1", "2", "3"] 1 100 1 ∧ doc.Closes 0.000005 0.0000001 ∧
    ∃ (show' : ℝ → String) (readNum : String → Option ℝ) (text : List Char),
      OpenDrive.writeXml show' ⟨res.world.net.geoms, res.world.lanes, so⟩ "today"
        ⟨"myroad", res.world.net.roads, [res.junction]⟩ none true = .ok ("myroad.xodr", text) ∧
      readFile readNum text = some doc := by
  obtain ⟨roads, st', arm, h1, h2, h3, h5, h6, h4, -⟩ := C61_example 4 1 (by norm_num) le_rfl 100 3 st
    [0, 1 * 2 * Real.pi / 4, 2 * 2 * Real.pi / 4, 3 * 2 * Real.pi / 4] (by simp) 8 (1 / 3) (1 / 3)
    (by norm_num) (by norm_num) (by norm_num) (by norm_num) 1 (by norm_num) 100 (by norm_num)
  obtain ⟨-, hc⟩ := straightRoads_complete _ _ _ _ _ _ _ _ h1
  have hids : roads.map (fun a => a.id.toStr) = ["0", "1", "2", "3"] := by
    obtain ⟨roads', st'', e1, -, -, e2, -⟩ := straightRoads_arms 100 1 3 100 4 0 st
    rw [h1] at e1; cases e1
    have : ["0", "1", "2", "3"] = (List.range roads.length).map fun k : Nat => strInt k := by rw [h2]; decide +kernel
    rw [this]
    refine map_range _ _ _ fun k a hk => ?_
    rw [(e2 k a hk).1]; simp [PyId.toStr]
  have hC : ∀ (i : Nat) (a : Road ℝ), roads[i]? = some a → Complete st' so (arm i) a := by
    intro i a ha
    obtain ⟨⟨g, c1, c2⟩, c3, -, -, c4⟩ := hc a (List.mem_of_getElem? ha)
    obtain ⟨g', e⟩ := h5 i (by rw [← h2]; exact (List.getElem?_eq_some_iff.mp ha).1)
    have hraw := (h3.arm i a ha).plan.raw
    rw [c1, e] at hraw
    simp only [List.map_cons, List.map_nil, List.cons.injEq, and_true] at hraw
    refine ⟨by rw [e]; simp, ?_, ?_, ?_⟩
    · intro pc hpc q hq
      rw [e, List.mem_singleton] at hpc
      subst hpc
      rw [← hraw, c2] at hq
      cases hq
    · intro sec hsec x hx
      obtain ⟨x1, x2, -, x4⟩ := c4 sec hsec x hx
      refine ⟨x1, x2, fun m hm hl => ?_⟩
      rw [x4 m hm] at hl; cases hl
    · rw [c3.empty.2.1]; simp
  have htexts : ∀ s ∈ "myroad" :: "today" :: roads.flatMap (roadTexts ⟨st'.geoms, st'.lanes, so⟩), printable s = true := by
    intro s hs
    simp only [List.mem_cons] at hs
    rcases hs with rfl | rfl | hs
    · decide
    · decide
    · obtain ⟨a, ha, hs⟩ := List.mem_flatMap.mp hs
      obtain ⟨-, c3, c5, ⟨k, c6⟩, c4⟩ := hc a ha
      obtain ⟨d1, d2, d3, d4⟩ := c3.empty
      rw [roadTexts, d1, d2, d3, d4, c3.links, c5, c6] at hs
      simp only [Option.toList_none, idTexts, linkTexts, List.flatMap_nil, List.append_nil, List.nil_append] at hs
      obtain ⟨sec, hsec, hs⟩ := List.mem_flatMap.mp hs
      obtain ⟨x, hx, hs⟩ := List.mem_flatMap.mp hs
      rw [(c4 sec hsec x hx).2.2.1] at hs
      cases hs
  obtain ⟨res, element, doc, r1, r2, -, r3, r4, r5⟩ := C66_file (r := 8) (sp := 1 / 3) (ap := 1 / 3) (junction := 1)
    (angles := [0, 1 * 2 * Real.pi / 4, 2 * 2 * Real.pi / 4, 3 * 2 * Real.pi / 4])
    h3 le_rfl le_rfl h6 (by simp [h2]) (by norm_num) (by norm_num) (by norm_num) (by norm_num) (by norm_num) h4 hC
    "myroad" "today" (fun a ha => by rw [(hc a ha).2.1.empty.1]; simp)
    (fun s hs c hc => printable_legal (printable_mem (htexts s hs) hc).1 (printable_mem (htexts s hs) hc).2) true
    (fun _ s hs c hc => printable_plain (printable_mem (htexts s hs) hc).1)
  obtain ⟨res', k1, k2⟩ := C62_right_angles (r := 8) (sp := 1 / 3) (ap := 1 / 3) (junction := 1)
    (angles := [0, 1 * 2 * Real.pi / 4, 2 * 2 * Real.pi / 4, 3 * 2 * Real.pi / 4])
    h3 le_rfl le_rfl (by simp [h2]) (by norm_num) (by norm_num) (by norm_num) (by norm_num)
    (by norm_num) (by norm_num) h4 (by rw [h2]; exact four_way)
  rw [r1] at k1; cases k1
  have hclose := closes_of (d := 0.000005) (e := 0.0000001) h3 r3 r4 (by
    intro idx i j b hp hb
    obtain ⟨p, q, p', q', c1, c2, -, n1, n2, n3⟩ := k2 idx i j b hp hb
    exact ⟨p, q, p', q', c1, c2, n1.trans (by norm_num), n2.trans (by norm_num), n3.trans (by norm_num)⟩)
  rw [hids] at r3
  obtain ⟨show', readNum, p1, p2, p3⟩ := exists_printer element
  obtain ⟨text, t1, t2⟩ := r5 show' readNum p1 p2 p3 none
  exact ⟨roads, st', res, element, doc, h1, r1, r2, r3, hclose, show', readNum, text, t1, t2⟩

end Pyodrx.Props
