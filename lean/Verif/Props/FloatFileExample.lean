import Verif.Props.FloatFile

/-! # A network in doubles that meets the hypotheses of C86

Road 1 consists of a line, a ParamPoly3 and an arc; road 2, a spiral, follows it. Both have a lane on either side. -/

namespace Pyodrx.Props
open Pyodrx Pyodrx.Spec PyFloat

noncomputable def flLanes : Store (Lane (Fl double)) :=
  { cell := fun r => { (Lane.new .driving (ofInt 3) (ofInt 0) (ofInt 0) (ofInt 0) (ofInt 0)) with laneId := some (exLaneNo r) }
    next := 30 }

noncomputable def flSec (left right : List Nat) : LaneSection (Fl double) :=
  ⟨ofInt 0, 0, left, right, left.length + 1, -(right.length + 1)⟩

noncomputable def flLaneRoad (id : Int) (gs : List Nat) (pred succ : Option Link)
    (left right : List Nat) : Road (Fl double) :=
  { Road.new (.int id) ⟨⟨ofInt 0, ofInt 0, ofInt 0⟩, ofInt 0, false, none, none, gs, [], [], false⟩ [flSec left right] (-1)
      none none with predecessor := pred, successor := succ, links := pred.toList ++ succ.toList }

noncomputable def flR1 : Road (Fl double) := flLaneRoad 1 [0, 1, 2] none
  (some ⟨.successor, .int 2, some .road, some .start, none⟩) [11] [12]
noncomputable def flR2 : Road (Fl double) := flLaneRoad 2 [3]
  (some ⟨.predecessor, .int 1, some .road, some .end, none⟩) none [21] [22]

noncomputable def flGeom : Nat → Geom (Fl double)
  | 0 => .line ⟨ofInt 2⟩
  | 1 => .poly ⟨ofInt 0, ofInt 1, ofInt 0, ofInt 0, ofInt 0, ofInt 0, ofInt 1, ofInt 0, "normalized", none⟩
  | 2 => .arc ⟨ofInt 1, some (ofInt 2), none⟩
  | _ => .spiral ⟨ofInt 0, ofInt 1, some (ofInt 2)⟩

noncomputable def flFileNet : Net (Fl double) :=
  { roads := [("1", flR1), ("2", flR2)], geoms := ⟨flGeom, 4⟩ }

theorem flFileNet_get {k : String} {r : Road (Fl double)} (h : flFileNet.roads.get? k = some r) :
    (k = "1" ∧ r = flR1) ∨ (k = "2" ∧ r = flR2) := by
  simp only [flFileNet, Dict.get?] at h
  repeat' split at h
  all_goals first | (cases h; done) | skip
  all_goals (cases h; subst_vars; simp)

theorem flFileNet_keys : flFileNet.roads.keys = ["1", "2"] := rfl

theorem flFileNet_linked : WellLinked flFileNet := by
  have e1 : strInt 1 = "1" := by decide
  have e2 : strInt 2 = "2" := by decide
  refine ⟨by simp [flFileNet], by rw [flFileNet_keys]; decide, ?_, ?_, ?_, ?_, ?_⟩
  · intro k r h
    rcases flFileNet_get h with ⟨_, rfl⟩ | ⟨_, rfl⟩ <;> exact ⟨rfl, rfl⟩
  · intro k r l h hl
    rw [flFileNet_keys]
    rcases flFileNet_get h with ⟨_, rfl⟩ | ⟨_, rfl⟩ <;>
      rcases hl with hl | hl <;> cases hl <;> simp [PyId.toStr, e1, e2]
  · intro k r l h hl ht
    rcases flFileNet_get h with ⟨_, rfl⟩ | ⟨_, rfl⟩ <;>
      rcases hl with hl | hl <;> cases hl <;> simp
  · intro k r l h ht hl
    rcases flFileNet_get h with ⟨_, rfl⟩ | ⟨_, rfl⟩ <;> exact absurd rfl ht
  · intro k r h ha
    rcases ha with ⟨r', h', hf⟩ | ⟨_, h'⟩
    · rcases flFileNet_get h' with ⟨_, rfl⟩ | ⟨_, rfl⟩ <;> cases hf
    · rw [flFileNet_keys] at h'
      rcases flFileNet_get h with ⟨rfl, rfl⟩ | ⟨rfl, rfl⟩ <;>
        first | rfl | exact absurd h' (by decide)

theorem flFileNet_anchor : Anchor flFileNet.roads "1" := by
  refine .inr ⟨fun k r h => ?_, rfl⟩
  rcases flFileNet_get h with ⟨_, rfl⟩ | ⟨_, rfl⟩ <;> rfl

theorem flFileNet_reachable : ∀ k ∈ flFileNet.roads.keys, Reachable flFileNet.roads k := by
  have e1 : strInt 1 = "1" := by decide
  have h1 : Reachable flFileNet.roads "1" := .anchor flFileNet_anchor
  have h2 : Reachable flFileNet.roads "2" := by
    refine .step (nb := "1") (e := .start) (e' := .end) ?_ h1
    have := PlacedBy.pred (roads := flFileNet.roads) (k := "2") (cp := .end)
      (l := ⟨.predecessor, .int 1, some .road, some .end, none⟩) rfl rfl (by simp) rfl
    simpa only [PyId.toStr, e1] using this
  intro k hk
  rw [flFileNet_keys] at hk
  simp only [List.mem_cons, List.not_mem_nil, or_false] at hk
  rcases hk with rfl | rfl <;> assumption

theorem flFile_values : (ofInt 1 : Fl double).val = 1 ∧ (ofInt 2 : Fl double).val = 2 :=
  ⟨Rounding.ofInt_one _, by have := double.two; simpa using this⟩

theorem flFileNet_usable : UsableRoads flFileNet := by
  have : ∀ g, Spec.Usable (flGeom g) := by
    intro g
    unfold flGeom
    split <;> simp [Spec.Usable, flFile_values.1, flFile_values.2]
  intro k r h
  rcases flFileNet_get h with ⟨_, rfl⟩ | ⟨_, rfl⟩ <;> exact ⟨fun g _ => this g, .inl rfl⟩

theorem flFileNet_drawn : DrawnNetFl flFileNet := by
  have e1 : strInt 1 = "1" := by decide
  have e2 : strInt 2 = "2" := by decide
  refine ⟨flFileNet_linked.nodup, ?_, ?_, ?_⟩
  · intro k r h
    refine ⟨?_, ?_, ?_, none, none, none, _, r.planview.raw.map fun g => (g, none), rfl, ?_, ?_, ?_⟩
    · rcases flFileNet_get h with ⟨rfl, rfl⟩ | ⟨rfl, rfl⟩ <;> assumption
    · intro l hl
      rcases flFileNet_get h with ⟨rfl, rfl⟩ | ⟨rfl, rfl⟩ <;> cases hl <;> simp [flR1, flR2, flLaneRoad]
    · intro l hl
      rcases flFileNet_get h with ⟨rfl, rfl⟩ | ⟨rfl, rfl⟩ <;> cases hl <;> simp [flR1, flR2, flLaneRoad]
    · rcases flFileNet_get h with ⟨_, rfl⟩ | ⟨_, rfl⟩ <;>
        simp [addEach, PlanView.addGeometry, flR1, flR2, flLaneRoad, Road.new]
    · rcases flFileNet_get h with ⟨_, rfl⟩ | ⟨_, rfl⟩ <;> simp [flR1, flR2, flLaneRoad, Road.new]
    · intro c hc
      obtain ⟨g, _, rfl⟩ := List.mem_map.mp hc
      rfl
  · intro r a hr
    simp only [flFileNet] at hr
    unfold flGeom at hr
    split at hr <;> cases hr
    rw [flFile_values.1]; norm_num
  · intro k r i h hA hi
    rcases flFileNet_get h with ⟨rfl, rfl⟩ | ⟨rfl, rfl⟩
    · exact absurd flFileNet_anchor hA
    · cases hi; rfl

theorem flNumbered {left right : List Nat}
    (h1 : ∀ (i : Nat) (h : i < left.length), exLaneNo left[i] = (i : Int) + 1)
    (h2 : ∀ (i : Nat) (h : i < right.length), exLaneNo right[i] = -((i : Int) + 1)) :
    Numbered flLanes (flSec left right) := by
  constructor
  · intro i r h
    obtain ⟨h3, rfl⟩ := List.getElem?_eq_some_iff.mp h
    exact congrArg some (h1 i h3)
  · intro i r h
    obtain ⟨h3, rfl⟩ := List.getElem?_eq_some_iff.mp h
    exact congrArg some (h2 i h3)

theorem flNum1 : Numbered flLanes (flSec [11] [12]) := flNumbered (by decide) (by decide)
theorem flNum2 : Numbered flLanes (flSec [21] [22]) := flNumbered (by decide) (by decide)

theorem flFollows : Follows flR1 flR2 := ⟨⟨_, rfl, rfl, rfl⟩, ⟨_, rfl, rfl, rfl⟩⟩

theorem flJoint : Joint flR1 flR2 (flSec [11] [12]) (flSec [21] [22]) (flSec [21] [22]) flLanes :=
  ⟨rfl, rfl, flFollows, fun l h => by cases h; rfl, fun l h => (by cases h), rfl, rfl, rfl, flNum1⟩

theorem flFileNet_linkable : Linkable flFileNet.roads flLanes := by
  refine ⟨?_, ?_, ?_, ?_⟩
  · intro k1 k2 a b hne ha hb ta tb ⟨⟨l, f1, f2, f3⟩, _⟩
    rcases flFileNet_get ha with ⟨rfl, rfl⟩ | ⟨rfl, rfl⟩ <;> cases f1 <;>
      rcases flFileNet_get hb with ⟨rfl, rfl⟩ | ⟨rfl, rfl⟩ <;> cases f3
    exact ⟨_, _, _, flJoint, flNum2, ⟨rfl, rfl⟩, ⟨rfl, rfl⟩⟩
  · intro k c hc tc
    rcases flFileNet_get hc with ⟨rfl, rfl⟩ | ⟨rfl, rfl⟩ <;> exact absurd rfl tc
  · intro k1 k2 c r hc hr tc
    rcases flFileNet_get hc with ⟨rfl, rfl⟩ | ⟨rfl, rfl⟩ <;> exact absurd rfl tc
  · intro k1 k2 c r e l hc hr tc
    rcases flFileNet_get hc with ⟨rfl, rfl⟩ | ⟨rfl, rfl⟩ <;> exact absurd rfl tc

theorem fresnel_double : FresnelAccurate double 1 :=
  ⟨by norm_num, fun z => ⟨by rw [one_mul]; exact double.err _, by rw [one_mul]; exact double.err _⟩⟩

theorem arctan_double : ArctanAccurate double 4 := by
  refine ⟨by norm_num, fun y x => ?_⟩
  refine (double.err _).trans (mul_le_mul_of_nonneg_left ?_ double.u_nonneg)
  refine (Complex.abs_arg_le_pi _).trans ?_
  linarith [Real.pi_lt_d2]

/-- All hypotheses of `C86_document`, `C86_readable` and `C86_file` hold of the example: the file is written and read, and
in it road 2 leads to the anchor, road 1, which is nearly one line. -/
theorem flFileNet_read (so : SOState (Fl double)) : ∃ (w' : World (Fl double)) (text : List Char)
    (doc : RDocument (Fl double)) (show' : Fl double → String) (readNum : String → Option (Fl double)),
    World.adjustRoadsAndLanes ⟨flFileNet, flLanes⟩ = .ok () w' ∧
    OpenDrive.writeXml show' ⟨w'.net.geoms, w'.lanes, so⟩ "today" ⟨"doc", w'.net.roads, []⟩ none true =
      .ok ("doc.xodr", text) ∧ readFile readNum text = some doc ∧
    doc.roads.map RRoad.id = ["1", "2"] ∧ ∀ rd ∈ doc.roads, rd.OneLineNearly 1 4 ∧
      doc.LeadsNearly 1 4 (Anchor flFileNet.roads) (declaredOffset flFileNet.roads) rd := by
  obtain ⟨net', hadj⟩ := (C69_succeeds_iff flFileNet flFileNet_linked flFileNet_usable).mpr flFileNet_reachable
  obtain ⟨lanes', h, _, hc⟩ := C30_all_links flFileNet net' flLanes flFileNet_linked.nodup
    flFileNet_linked.fresh hadj flFileNet_linkable
  have hkeys : net'.roads.keys = flFileNet.roads.keys :=
    (C18_placed_once flFileNet net' flFileNet_linked.nodup flFileNet_linked.fresh hadj).1
  have hnd : net'.roads.keys.Nodup := by rw [hkeys]; exact flFileNet_linked.nodup
  have hcell : ∀ x, (lanes'.cell x).laneId = some (exLaneNo x) ∧ (lanes'.cell x).roadmark = none := by
    intro x
    obtain ⟨new, e, _⟩ := hc x
    rw [e]; exact ⟨rfl, rfl⟩
  have hsame : ∀ kv ∈ net'.roads, ∃ r0, flFileNet.roads.get? kv.1 = some r0 ∧
      kv.2 = { r0 with planview := kv.2.planview } := by
    intro kv hkv
    obtain ⟨r0, h0, e, _⟩ := flFileNet_drawn.read hadj (Dict.mem_get? hnd hkv)
    exact ⟨r0, h0, e⟩
  obtain ⟨element, he⟩ := (C43_error ⟨net'.geoms, lanes', so⟩ "today" ⟨"doc", net'.roads, []⟩).1.mpr (by
    intro kv _ sec _ r _
    rw [show (Heap.lanes ⟨net'.geoms, lanes', so⟩) = lanes' from rfl, (hcell r).1]; simp)
  have hgood : ∀ kv ∈ net'.roads, GoodRoad ⟨net'.geoms, lanes', so⟩ kv.2 := by
    intro kv hkv
    refine ⟨fun sec _ l _ m hm => ?_, fun i hi => ?_⟩
    · rw [show (Heap.lanes ⟨net'.geoms, lanes', so⟩) = lanes' from rfl, (hcell l).2] at hm
      cases hm
    · obtain ⟨r0, h0, e⟩ := hsame kv hkv
      rw [e] at hi
      rcases flFileNet_get h0 with ⟨_, rfl⟩ | ⟨_, rfl⟩ <;> cases hi
  have hone : ∀ k r, flFileNet.roads.get? k = some r → ¬ Anchor flFileNet.roads k → r.planview.raw.length = 1 := by
    intro k r h hA
    rcases flFileNet_get h with ⟨rfl, rfl⟩ | ⟨rfl, rfl⟩
    · exact absurd flFileNet_anchor hA
    · rfl
  have hrange : ∀ i, ∀ x, polyOf (flGeom i) = some x → x.prange = "normalized" ∨ x.prange = "arcLength" := by
    intro i x hx
    unfold flGeom at hx
    split at hx <;> cases hx
    exact .inl rfl
  obtain ⟨show', readNum, p1, p2, p3⟩ := exists_printer element
  have hrep : ∀ kv ∈ net'.roads, ∀ i ∈ kv.2.objects, RepeatsNamed (so.objs.cell i) := by
    intro kv hkv i hi
    obtain ⟨r0, h0, e⟩ := hsame kv hkv
    rw [e] at hi
    rcases flFileNet_get h0 with ⟨_, rfl⟩ | ⟨_, rfl⟩ <;> cases hi
  have htexts : ∀ s ∈ userTexts ⟨net'.geoms, lanes', so⟩ "today" ⟨"doc", net'.roads, []⟩, printable s = true := by
    intro s hs
    simp only [userTexts, List.mem_append, List.flatMap_nil, List.not_mem_nil, or_false, List.mem_cons] at hs
    rcases hs with (rfl | rfl) | hs
    · decide
    · decide
    obtain ⟨kv, hkv, hs⟩ := List.mem_flatMap.mp hs
    obtain ⟨r0, h0, e⟩ := hsame kv hkv
    have hg : ∀ g : Nat, ∀ s ∈ geomTexts (net'.geoms.cell g), printable s = true := by
      intro g s hs
      have hK := ((startpoints_onceK (kept_all flFileNet.geoms) (keptBack_all flFileNet.geoms) flFileNet_linked.nodup
        flFileNet_linked.fresh (fun j => ⟨⟨⟨rfl, fun a ha => flFileNet_drawn.arcs j a ha⟩, rfl⟩, rfl⟩) hadj).1 g).2
      cases hx : net'.geoms.cell g with
      | poly p =>
        rw [SamePoly, hx] at hK
        have := hrange g _ hK.symm
        simp only at this
        rw [hx] at hs
        have hs' : s = p.prange := by simpa [geomTexts] using hs
        rw [hs']
        rcases this with h | h <;> rw [h] <;> decide
      | line _ => rw [hx] at hs; cases hs
      | spiral _ => rw [hx] at hs; cases hs
      | arc _ => rw [hx] at hs; cases hs
    have hsec : ∀ sec : LaneSection (Fl double), ∀ s ∈ sectionTexts lanes' sec, printable s = true := by
      intro sec s hs
      obtain ⟨x, _, hs⟩ := List.mem_flatMap.mp hs
      obtain ⟨l, hl, hs⟩ := List.mem_flatMap.mp hs
      obtain ⟨new, e, hperm⟩ := hc x
      rw [e] at hl
      have hl : l ∈ new := by simpa [flLanes, Lane.new] using hl
      obtain ⟨n, hn⟩ := dueAt_ids (hperm.mem_iff.mp hl)
      rw [hn] at hs
      rw [List.mem_singleton.mp hs]
      exact printable_strInt n
    unfold roadTexts at hs
    simp only [List.mem_append] at hs
    have e1 : kv.2.name = none ∧ kv.2.rule = none ∧ idTexts kv.2.id = [] ∧ linkTexts kv.2.links = [] ∧
        kv.2.signals = [] ∧ kv.2.objects = [] := by
      rw [e]
      rcases flFileNet_get h0 with ⟨_, rfl⟩ | ⟨_, rfl⟩ <;> exact ⟨rfl, rfl, rfl, rfl, rfl, rfl⟩
    obtain ⟨a1, a2, a3, a4, a5, a6⟩ := e1
    rw [a1, a2, a3, a4, a5, a6] at hs
    rcases hs with ((((((hs | hs) | hs) | hs) | hs) | hs) | hs) | hs
    · cases hs
    · cases hs
    · cases hs
    · cases hs
    · obtain ⟨g, _, hs⟩ := List.mem_flatMap.mp hs
      exact hg _ s hs
    · obtain ⟨sec, _, hs⟩ := List.mem_flatMap.mp hs
      exact hsec sec s hs
    · cases hs
    · cases hs
  obtain ⟨text, doc, t1, t2, t3⟩ := C86_file 1 4 fresnel_double arctan_double ⟨flFileNet, flLanes⟩ ⟨net', lanes'⟩
    flFileNet_drawn h ⟨"doc", net'.roads, []⟩ ⟨net'.geoms, lanes', so⟩ "today" rfl rfl hgood element he hone
    (fun _ _ _ i _ x hx => hrange i x hx) show' readNum p1 p2 hrep p3
    (fun s hs c hc => printable_legal (printable_mem (htexts s hs) hc).1 (printable_mem (htexts s hs) hc).2)
    none true (fun _ s hs c hc => printable_plain (printable_mem (htexts s hs) hc).1)
  exact ⟨_, text, doc, show', readNum, h, t1, t2, t3⟩

end Pyodrx.Props
