import Verif.Proofs.Order
import Verif.Props.NoLoops
import Verif.Props.NetworkLinks
import Verif.Proofs.Trace

/-! # C72: in a network without loops the order in which roads were added does not matter -/

namespace Pyodrx.Props
open Pyodrx Spec

section
variable {F : Type}

theorem _root_.Pyodrx.Dict.get?_mem {α : Type} {d : Dict α} {k : String} {v : α} (h : d.get? k = some v) : (k, v) ∈ d := by
  induction d with
  | nil => simp [Dict.get?] at h
  | cons kv d ih =>
    obtain ⟨k0, v0⟩ := kv
    unfold Dict.get? at h
    split at h
    · rename_i hk; cases h; simp [hk]
    · exact List.mem_cons_of_mem _ (ih h)

theorem _root_.Pyodrx.Dict.get?_of_perm {α : Type} {a b : Dict α} (hp : a.Perm b) (hn : a.keys.Nodup) (k : String) :
    a.get? k = b.get? k := by
  have hk : (a.keys).Perm b.keys := hp.map _
  cases h : a.get? k with
  | some r => exact (Dict.mem_get? (hk.nodup_iff.mp hn) (hp.mem_iff.mp (Dict.get?_mem h))).symm
  | none =>
    symm
    rw [Dict.get?_eq_none] at h ⊢
    rwa [← hk.mem_iff]

theorem _root_.Pyodrx.Dict.perm_of_get? {α : Type} {a b : Dict α} (ha : a.keys.Nodup) (hb : b.keys.Nodup)
    (h : ∀ k, a.get? k = b.get? k) : a.Perm b := by
  have nd : ∀ {d : Dict α}, d.keys.Nodup → d.Nodup := fun h => List.Nodup.of_map _ h
  rw [List.perm_ext_iff_of_nodup (nd ha) (nd hb)]
  rintro ⟨k, v⟩
  constructor
  · exact fun hm => Dict.get?_mem (by rw [← h]; exact Dict.mem_get? ha hm)
  · exact fun hm => Dict.get?_mem (by rw [h]; exact Dict.mem_get? hb hm)

theorem _root_.Pyodrx.Spec.Reordered.nodup {a b : Net F} (h : Reordered a b) (hn : a.roads.keys.Nodup) :
    b.roads.keys.Nodup := by
  have hk : (a.roads.keys).Perm b.roads.keys := h.roads.map _
  exact hk.nodup_iff.mp hn

theorem _root_.Pyodrx.Spec.Reordered.anchor {a b : Net F} (h : Reordered a b) (hn : a.roads.keys.Nodup) (k : String) :
    Anchor a.roads k ↔ Anchor b.roads k := by
  have hg := Dict.get?_of_perm h.roads hn
  constructor
  · rintro (⟨r, h1, h2⟩ | ⟨h1, h2⟩)
    · exact .inl ⟨r, by rw [← hg]; exact h1, h2⟩
    · rcases h.first with hf | ⟨k0, r0, h3, h4⟩
      · exact .inr ⟨fun k' r hr => h1 k' r (by rw [hg]; exact hr), by rw [← hf]; exact h2⟩
      · rw [h1 k0 r0 h3] at h4; simp at h4
  · rintro (⟨r, h1, h2⟩ | ⟨h1, h2⟩)
    · exact .inl ⟨r, by rw [hg]; exact h1, h2⟩
    · rcases h.first with hf | ⟨k0, r0, h3, h4⟩
      · exact .inr ⟨fun k' r hr => h1 k' r (by rw [← hg]; exact hr), by rw [hf]; exact h2⟩
      · rw [hg] at h3
        rw [h1 k0 r0 h3] at h4; simp at h4

/-- C72: whichever of the two orders the roads were added in, every road gets the same planview, number for number,
and every geometry object ends in the same state: the results differ in the order of the roads only. In every
arithmetic. -/
theorem C72_order [PyFloat F] (a b a' b' : Net F) (hr : Reordered a b) (hn : a.roads.keys.Nodup) (hf : Fresh a.roads)
    (hp : Private a.roads) (hl : NoLoops a.roads)
    (ha : Net.adjustStartpoints a = .ok () a') (hb : Net.adjustStartpoints b = .ok () b') :
    a'.roads.Perm b'.roads ∧ a'.geoms = b'.geoms := by
  obtain ⟨h1, h2⟩ := order_irrelevant hn (hr.nodup hn) hf hp hl (Dict.get?_of_perm hr.roads hn) hr.geoms (hr.anchor hn) ha hb
  obtain ⟨_, hha, _⟩ := startpoints_history hn hf ha
  obtain ⟨_, hhb, _⟩ := startpoints_history (hr.nodup hn)
    (fun k r h => hf k r (by rw [Dict.get?_of_perm hr.roads hn]; exact h)) hb
  exact ⟨Dict.perm_of_get? (by rw [hha.same.1]; exact hn) (by rw [hhb.same.1]; exact hr.nodup hn) h1, h2⟩

theorem getElement_perm [PyFloat F] (oa ob : OpenDrive F) (hp : Heap F) (date : String) (hname : oa.name = ob.name)
    (hroads : oa.roads.Perm ob.roads) (hj : oa.junctions = ob.junctions) (xa : Xml F)
    (hx : oa.getElement hp date = .ok xa) : ∃ header junctions ra rb, xa = .elem "OpenDRIVE" [] ([header] ++ ra ++ junctions) ∧
      ob.getElement hp date = .ok (.elem "OpenDRIVE" [] ([header] ++ rb ++ junctions)) ∧ ra.Perm rb ∧
      oa.roads.mapM (fun kv => kv.2.getElement hp) = .ok ra ∧ junctions = oa.junctions.map Junction.getElement := by
  have key : ∀ {f : String × Road F → Except PyErr (Xml F)} {l l' : List (String × Road F)}, l.Perm l' → ∀ {r},
      l.mapM f = .ok r → ∃ r', l'.mapM f = .ok r' ∧ r.Perm r' := by
    intro f l l' hlp
    induction hlp with
    | nil => intro r h; exact ⟨r, h, .refl _⟩
    | cons x _ ih =>
      intro r h
      rw [List.mapM_cons] at h ⊢
      cases hx : f x with
      | error e => rw [hx] at h; cases h
      | ok y =>
        rw [hx] at h
        rename_i l1 l2 _
        cases hl : l1.mapM f with
        | error e => rw [hl] at h; cases h
        | ok ys =>
          rw [hl] at h
          cases h
          obtain ⟨ys', h1, h2⟩ := ih hl
          exact ⟨y :: ys', by rw [h1]; rfl, h2.cons y⟩
    | swap x y l =>
      intro r h
      rw [List.mapM_cons, List.mapM_cons] at h ⊢
      cases hx : f x with
      | error e =>
        rw [hx] at h
        cases hy : f y <;> rw [hy] at h <;> cases h
      | ok x' =>
        cases hy : f y with
        | error e => rw [hy] at h; cases h
        | ok y' =>
          rw [hx, hy] at h
          cases hl : l.mapM f with
          | error e => rw [hl] at h; cases h
          | ok ys =>
            rw [hl] at h
            cases h
            exact ⟨x' :: y' :: ys, rfl, .swap _ _ _⟩
    | trans _ _ ih1 ih2 =>
      intro r h
      obtain ⟨r1, h1, h2⟩ := ih1 h
      obtain ⟨r2, h3, h4⟩ := ih2 h1
      exact ⟨r2, h3, h2.trans h4⟩
  unfold OpenDrive.getElement at hx ⊢
  cases hr : oa.roads.mapM (fun kv => kv.2.getElement hp) with
  | error e => rw [hr] at hx; cases hx
  | ok ra =>
    rw [hr] at hx
    cases hx
    obtain ⟨rb, h1, h2⟩ := key hroads hr
    refine ⟨headerElement oa.name date, oa.junctions.map Junction.getElement, ra, rb, rfl, ?_, h2, rfl, rfl⟩
    rw [h1, hname, hj]
    rfl

/-- C72: and therefore the two files have the same content, the `road` elements being in another order. -/
theorem C72_document [PyFloat F] (a b a' b' : Net F) (hr : Reordered a b) (hn : a.roads.keys.Nodup) (hf : Fresh a.roads)
    (hp : Private a.roads) (hl : NoLoops a.roads)
    (ha : Net.adjustStartpoints a = .ok () a') (hb : Net.adjustStartpoints b = .ok () b')
    (name date : String) (junctions : List Junction) (heap : Heap F) (xa : Xml F)
    (hx : OpenDrive.getElement { heap with geoms := a'.geoms } date ⟨name, a'.roads, junctions⟩ = .ok xa) :
    ∃ header roads roads' jns, xa = .elem "OpenDRIVE" [] ([header] ++ roads ++ jns) ∧
      OpenDrive.getElement { heap with geoms := b'.geoms } date ⟨name, b'.roads, junctions⟩ =
        .ok (.elem "OpenDRIVE" [] ([header] ++ roads' ++ jns)) ∧ roads.Perm roads' ∧
      roads.length = a.roads.length ∧ jns.length = junctions.length := by
  obtain ⟨h1, h2⟩ := C72_order a b a' b' hr hn hf hp hl ha hb
  obtain ⟨hd, js, ra, rb, e1, e2, e3, e4, e5⟩ := getElement_perm ⟨name, a'.roads, junctions⟩ ⟨name, b'.roads, junctions⟩
    { heap with geoms := a'.geoms } date rfl h1 rfl xa hx
  obtain ⟨_, hha, _⟩ := startpoints_history hn hf ha
  have hlen : ∀ {f : String × Road F → Except PyErr (Xml F)} {l : List (String × Road F)} {r}, l.mapM f = .ok r →
      r.length = l.length := by
    intro f l
    induction l with
    | nil => intro r h; cases h; rfl
    | cons x l ih =>
      intro r h
      rw [List.mapM_cons] at h
      cases hx : f x with
      | error e => rw [hx] at h; cases h
      | ok y =>
        rw [hx] at h
        cases hl : l.mapM f with
        | error e => rw [hl] at h; cases h
        | ok ys =>
          rw [hl] at h
          cases h
          simp [ih hl]
  refine ⟨hd, ra, rb, js, e1, by rw [← h2]; exact e2, e3, ?_, by rw [e5]; simp⟩
  rw [hlen e4]
  have := congrArg List.length hha.same.1
  simpa [Dict.keys] using this

theorem orderedPairs_perm {l l' : List String} (h : l.Perm l') : (orderedPairs l).Perm (orderedPairs l') := by
  unfold orderedPairs
  refine (h.flatMap_right _).trans ?_
  exact List.Perm.flatMap_left _ fun a _ => (h.filter _).map _

/-- C72: `adjust_roads_and_lanes` on both orders: the same roads, the same geometries, and every lane has the same
links (in some order). -/
theorem C72_lanes [PyFloat F] (a b a' b' : Net F) (hr : Reordered a b) (hn : a.roads.keys.Nodup) (hf : Fresh a.roads)
    (hp : Private a.roads) (hl : NoLoops a.roads) (lanes : Store (Lane F)) (hL : Linkable a.roads lanes)
    (ha : Net.adjustStartpoints a = .ok () a') (hb : Net.adjustStartpoints b = .ok () b') :
    ∃ la lb, World.adjustRoadsAndLanes ⟨a, lanes⟩ = .ok () ⟨a', la⟩ ∧
      World.adjustRoadsAndLanes ⟨b, lanes⟩ = .ok () ⟨b', lb⟩ ∧
      a'.roads.Perm b'.roads ∧ a'.geoms = b'.geoms ∧
      ∀ x, (la.cell x).links.Perm (lb.cell x).links ∧ la.cell x = { lb.cell x with links := (la.cell x).links } := by
  have hg := Dict.get?_of_perm hr.roads hn
  have hLb : Linkable b.roads lanes := by
    constructor
    · intro k1 k2 r1 r2 h h1 h2; exact hL.joints k1 k2 r1 r2 h (by rw [hg]; exact h1) (by rw [hg]; exact h2)
    · intro k c h; exact hL.ends k c (by rw [hg]; exact h)
    · intro k1 k2 c r h1 h2; exact hL.normal k1 k2 c r (by rw [hg]; exact h1) (by rw [hg]; exact h2)
    · intro k1 k2 c r e l h1 h2; exact hL.lanes k1 k2 c r e l (by rw [hg]; exact h1) (by rw [hg]; exact h2)
  obtain ⟨la, a1, _, a3⟩ := C30_all_links a a' lanes hn hf ha hL
  obtain ⟨lb, b1, _, b3⟩ := C30_all_links b b' lanes (hr.nodup hn) (fun k r h => hf k r (by rw [hg]; exact h)) hb hLb
  obtain ⟨c1, c2⟩ := C72_order a b a' b' hr hn hf hp hl ha hb
  refine ⟨la, lb, a1, b1, c1, c2, fun x => ?_⟩
  obtain ⟨na, q1, q2⟩ := a3 x
  obtain ⟨nb, w1, w2⟩ := b3 x
  have hdue : (dueAt a.roads lanes x).Perm (dueAt b.roads lanes x) := by
    unfold dueAt
    simp only [← hg]
    exact (orderedPairs_perm (hr.roads.map _)).flatMap_right _
  refine ⟨?_, ?_⟩
  · rw [q1, w1]
    exact ((q2.trans hdue).trans w2.symm).append_left _
  · rw [q1, w1]

end

theorem _root_.Pyodrx.Spec.Reordered.wellFormed {a b : Net ℝ} (h : Reordered a b) (hw : WellFormed a) : WellFormed b := by
  have hg := Dict.get?_of_perm h.roads hw.nodup
  have hk := Dict.mem_keys_congr hg
  refine ⟨?_, h.nodup hw.nodup, ?_, ?_, ?_, ?_, ?_, ?_⟩
  · intro e
    have := h.roads.length_eq
    rw [e] at this
    exact hw.nonempty (List.length_eq_zero_iff.mp this)
  · intro k r hr; exact hw.fresh k r (by rw [hg]; exact hr)
  · intro k r l hr hl; exact (hk _).mp (hw.resolvable k r l (by rw [hg]; exact hr) hl)
  · intro k r l hr; exact hw.contacts k r l (by rw [hg]; exact hr)
  · intro k r hr; rw [← h.geoms]; exact hw.evaluable k r (by rw [hg]; exact hr)
  · intro k r l hr ht hl
    obtain ⟨h1, h2⟩ := hw.connecting k r l (by rw [hg]; exact hr) ht hl
    exact ⟨h1, fun t ht => h2 t (by rw [hg]; exact ht)⟩
  · intro k r hr ha; exact hw.anchors k r (by rw [hg]; exact hr) ((h.anchor hw.nodup k).mpr ha)

theorem _root_.Pyodrx.Spec.Reordered.wellLinked {F : Type} {a b : Net F} (h : Reordered a b) (hw : WellLinked a) :
    WellLinked b := by
  have hg := Dict.get?_of_perm h.roads hw.nodup
  have hk := Dict.mem_keys_congr hg
  refine ⟨?_, h.nodup hw.nodup, ?_, ?_, ?_, ?_, ?_⟩
  · intro e
    have := h.roads.length_eq
    rw [e] at this
    exact hw.nonempty (List.length_eq_zero_iff.mp this)
  · intro k r hr; exact hw.fresh k r (by rw [hg]; exact hr)
  · intro k r l hr hl; exact (hk _).mp (hw.resolvable k r l (by rw [hg]; exact hr) hl)
  · intro k r l hr; exact hw.contacts k r l (by rw [hg]; exact hr)
  · intro k r l hr ht hl
    obtain ⟨h1, h2⟩ := hw.connecting k r l (by rw [hg]; exact hr) ht hl
    exact ⟨h1, fun t ht => h2 t (by rw [hg]; exact ht)⟩
  · intro k r hr ha; exact hw.anchors k r (by rw [hg]; exact hr) ((h.anchor hw.nodup k).mpr ha)

theorem _root_.Pyodrx.Spec.Reordered.reachable {F : Type} {a b : Net F} (h : Reordered a b) (hn : a.roads.keys.Nodup)
    {k : String} (hr : Reachable a.roads k) : Reachable b.roads k := by
  induction hr with
  | anchor hk => exact .anchor ((h.anchor hn _).mp hk)
  | step hp _ ih => exact .step (PlacedBy.congr (Dict.get?_of_perm h.roads hn) hp) ih

/-- C72: if the network is well formed, the second order succeeds whenever the first does (C20), with the same
result. -/
theorem C72_real (a b a' : Net ℝ) (hr : Reordered a b) (hw : WellFormed a) (hp : Private a.roads) (hl : NoLoops a.roads)
    (ha : Net.adjustStartpoints a = .ok () a') :
    ∃ b', Net.adjustStartpoints b = .ok () b' ∧ a'.roads.Perm b'.roads ∧ a'.geoms = b'.geoms := by
  have hreach := (C20_succeeds_iff a hw).mp ⟨a', ha⟩
  have hk := Dict.mem_keys_congr (Dict.get?_of_perm hr.roads hw.nodup)
  obtain ⟨b', hb⟩ := (C20_succeeds_iff b (hr.wellFormed hw)).mpr (fun k h => hr.reachable hw.nodup (hreach k ((hk k).mpr h)))
  exact ⟨b', hb, C72_order a b a' b' hr hw.nodup hw.fresh hp hl ha hb⟩

/-- C72 in floating point arithmetic: not even the rounding errors depend on the order. -/
theorem C72_float {R : Rounding} (a b a' : Net (Fl R)) (hr : Reordered a b) (hw : WellLinked a) (hu : UsableRoads a)
    (hp : Private a.roads) (hl : NoLoops a.roads) (ha : Net.adjustStartpoints a = .ok () a') :
    ∃ b', Net.adjustStartpoints b = .ok () b' ∧ a'.roads.Perm b'.roads ∧ a'.geoms = b'.geoms := by
  have hreach := (C69_succeeds_iff a hw hu).mp ⟨a', ha⟩
  have hg := Dict.get?_of_perm hr.roads hw.nodup
  have hk := Dict.mem_keys_congr hg
  obtain ⟨b', hb⟩ := (C69_succeeds_iff b (hr.wellLinked hw) (fun k r h => by
    rw [← hr.geoms]; exact hu k r (by rw [hg]; exact h))).mpr (fun k h => hr.reachable hw.nodup (hreach k ((hk k).mpr h)))
  exact ⟨b', hb, C72_order a b a' b' hr hw.nodup hw.fresh hp hl ha hb⟩

/-! ## Examples -/

/-- `exNet` with the roads behind the first in reverse order. -/
noncomputable def exNetReversed : Net ℝ :=
  ⟨exNet.roads.take 1 ++ (exNet.roads.drop 1).reverse, exNet.geoms⟩

theorem exNetReversed_reordered : Reordered exNet exNetReversed :=
  ⟨by
    conv_lhs => rw [← List.take_append_drop 1 exNet.roads]
    exact (List.reverse_perm _).symm.append_left _, rfl, .inl rfl⟩

/-- The hypotheses of `C72_real` (and of `C72_order`, `C72_document`) hold of it. -/
example : exNet.roads.keys = ["1", "2", "3", "4"] ∧ exNetReversed.roads.keys = ["1", "4", "3", "2"] ∧
    ∃ a' b', Net.adjustStartpoints exNet = .ok () a' ∧ Net.adjustStartpoints exNetReversed = .ok () b' ∧
      a'.roads.Perm b'.roads ∧ a'.geoms = b'.geoms := by
  obtain ⟨a', ha⟩ := exNet_placed
  obtain ⟨b', hb, h⟩ := C72_real exNet exNetReversed a' exNetReversed_reordered exNet_wellFormed (by
    intro k k' r r' h h' hne g hg hg'
    rcases exNet_get h with ⟨rfl, rfl⟩ | ⟨rfl, rfl⟩ | ⟨rfl, rfl⟩ | ⟨rfl, rfl⟩ <;>
      rcases exNet_get h' with ⟨rfl, rfl⟩ | ⟨rfl, rfl⟩ | ⟨rfl, rfl⟩ | ⟨rfl, rfl⟩ <;>
      simp_all [exRoad, Road.new]) exNet_noLoops ha
  exact ⟨rfl, rfl, a', b', ha, hb, h⟩

/-- `exLaneNet` (normal roads, a connecting road and lanes) has no loops: joints 1-2, 2-3, 3-4. -/
theorem exLaneNet_noLoops : NoLoops exLaneNet.roads := by
  have e1 : strInt 1 = "1" := by decide
  have e2 : strInt 2 = "2" := by decide
  have e4 : strInt 4 = "4" := by decide
  have hk : exLaneNet.roads.keys = ["1", "2", "3", "4"] := rfl
  refine ⟨[(("2", .start), ("1", .end)), (("3", .start), ("2", .end)), (("4", .start), ("3", .end))],
    ["2", "3", "4"], ?_, by decide, ?_, by simp⟩
  · intro k e nb e' hp
    cases hp with
    | pred hr hl ht hc =>
      rcases exLaneNet_get hr with ⟨rfl, rfl⟩ | ⟨rfl, rfl⟩ | ⟨rfl, rfl⟩ | ⟨rfl, rfl⟩ <;> cases hl <;> cases hc <;>
        simp [PyId.toStr, e1, e2]
    | succ hr hl ht hc =>
      rcases exLaneNet_get hr with ⟨rfl, rfl⟩ | ⟨rfl, rfl⟩ | ⟨rfl, rfl⟩ | ⟨rfl, rfl⟩ <;> cases hl <;> cases hc <;>
        simp [PyId.toStr, e2, e4]
    | connPred hr ht hl =>
      rcases exLaneNet_get hr with ⟨rfl, rfl⟩ | ⟨rfl, rfl⟩ | ⟨rfl, rfl⟩ | ⟨rfl, rfl⟩ <;> cases hl <;>
        first | exact absurd rfl ht | simp [PyId.toStr, e2]
    | connSucc hr ht hl =>
      rcases exLaneNet_get hr with ⟨rfl, rfl⟩ | ⟨rfl, rfl⟩ | ⟨rfl, rfl⟩ | ⟨rfl, rfl⟩ <;> cases hl <;>
        first | exact absurd rfl ht | simp [PyId.toStr, e4]
  · intro k hk'
    rw [hk]
    refine ⟨by simp only [List.mem_cons, List.not_mem_nil, or_false] at hk' ⊢; tauto, ?_⟩
    rintro (⟨r, h, hf⟩ | ⟨_, h⟩)
    · rcases exLaneNet_get h with ⟨_, rfl⟩ | ⟨_, rfl⟩ | ⟨_, rfl⟩ | ⟨_, rfl⟩ <;> cases hf
    · rw [hk] at h
      cases h
      revert hk'
      decide

/-- The hypotheses of `C72_lanes` hold of it and the network with roads 3 and 4 exchanged. -/
example : ∃ (b a' b' : Net ℝ) (la lb : Store (Lane ℝ)), Reordered exLaneNet b ∧ b.roads.keys = ["1", "2", "4", "3"] ∧
    World.adjustRoadsAndLanes ⟨exLaneNet, exLanes⟩ = .ok () ⟨a', la⟩ ∧
    World.adjustRoadsAndLanes ⟨b, exLanes⟩ = .ok () ⟨b', lb⟩ ∧ a'.roads.Perm b'.roads ∧
    ∀ x, (la.cell x).links.Perm (lb.cell x).links := by
  let b : Net ℝ := ⟨[("1", exLR1), ("2", exLR2), ("4", exLR4), ("3", exLR3)], exLaneNet.geoms⟩
  have hr : Reordered exLaneNet b := ⟨((List.Perm.swap _ _ _).cons _).cons _, rfl, .inl rfl⟩
  have hp : Private exLaneNet.roads := by
    intro k k' r r' h h' hne g hg hg'
    rcases exLaneNet_get h with ⟨rfl, rfl⟩ | ⟨rfl, rfl⟩ | ⟨rfl, rfl⟩ | ⟨rfl, rfl⟩ <;>
      rcases exLaneNet_get h' with ⟨rfl, rfl⟩ | ⟨rfl, rfl⟩ | ⟨rfl, rfl⟩ | ⟨rfl, rfl⟩ <;>
      simp_all [exLR1, exLR2, exLR3, exLR4, exLaneRoad, Road.new]
  obtain ⟨a', ha⟩ := (C20_succeeds_iff exLaneNet exLaneNet_wellFormed).mpr exLaneNet_reachable
  obtain ⟨b', hb, h1⟩ := C72_real exLaneNet b a' hr exLaneNet_wellFormed hp exLaneNet_noLoops ha
  obtain ⟨la, lb, h2, h3, h4, _, h5⟩ := C72_lanes exLaneNet b a' b' hr exLaneNet_wellFormed.nodup exLaneNet_fresh hp
    exLaneNet_noLoops exLanes exLaneNet_linkable ha hb
  exact ⟨b, a', b', la, lb, hr, rfl, h2, h3, h4, fun x => (h5 x).1⟩

/-- A loop: road 2 follows road 1, and so does the connecting road 3, which leads to the start of road 2. -/
noncomputable def exRingNet (roads : List (String × Road ℝ)) : Net ℝ := ⟨roads, ⟨fun _ => .line ⟨1⟩, 3⟩⟩

noncomputable def exRing1 : Road ℝ := exRoad 1 (-1) 0 none none 0
noncomputable def exRing2 : Road ℝ := exRoad 2 (-1) 1 (some ⟨.predecessor, .int 1, some .road, some .end, none⟩) none 0
noncomputable def exRing3 : Road ℝ := exRoad 3 5 2 (some ⟨.predecessor, .int 1, some .road, some .end, none⟩)
  (some ⟨.successor, .int 2, some .road, some .start, none⟩) 0

noncomputable def exRingA : Net ℝ := exRingNet [("1", exRing1), ("2", exRing2), ("3", exRing3)]
noncomputable def exRingB : Net ℝ := exRingNet [("1", exRing1), ("3", exRing3), ("2", exRing2)]

theorem exRing_run (net : Net ℝ) (hg : net.geoms = ⟨fun _ => .line ⟨1⟩, 3⟩)
    (hr : ∀ k r, net.roads.get? k = some r ↔ (k = "1" ∧ r = exRing1) ∨ (k = "2" ∧ r = exRing2) ∨ (k = "3" ∧ r = exRing3)) :
    (net.roads.keys = ["1", "2", "3"] → ∃ net' r, Net.adjustStartpoints net = .ok () net' ∧
      net'.roads.get? "2" = some r ∧ r.planview.start = some ⟨1, 0, 0⟩) ∧
    (net.roads.keys = ["1", "3", "2"] → ∃ net' r, Net.adjustStartpoints net = .ok () net' ∧
      net'.roads.get? "2" = some r ∧ r.planview.start = some ⟨2, 0, 0⟩) := by
  have e1 : strInt 1 = "1" := by decide
  have e2 : strInt 2 = "2" := by decide
  let line : Shape := ⟨1, 0, 0, 1⟩
  let pcs : String → List Piece := fun k => [⟨if k = "1" then 0 else if k = "2" then 1 else 2, line, none⟩]
  have hP : Plans net pcs := by
    refine ⟨?_, ?_, ?_⟩
    · intro k r h
      rcases (hr k r).mp h with ⟨rfl, rfl⟩ | ⟨rfl, rfl⟩ | ⟨rfl, rfl⟩ <;>
        exact ⟨rfl, by simp [exRing1, exRing2, exRing3, exRoad, Road.new], rfl, rfl, rfl, rfl,
          by simp [exRing1, exRing2, exRing3, exRoad, Road.new]⟩
    · intro k r h pc hpc
      simp only [pcs, List.mem_singleton] at hpc
      subst hpc
      rw [hg]
      simp [shapeOf, line, Shape.ofHeading]
    · intro k r h pc hpc
      simp only [pcs, List.mem_singleton] at hpc
      subst hpc
      rfl
  have h1 : net.roads.get? "1" = some exRing1 := (hr _ _).mpr (.inl ⟨rfl, rfl⟩)
  have h2 : net.roads.get? "2" = some exRing2 := (hr _ _).mpr (.inr (.inl ⟨rfl, rfl⟩))
  have h3 : net.roads.get? "3" = some exRing3 := (hr _ _).mpr (.inr (.inr ⟨rfl, rfl⟩))
  have hno : ∀ k r, net.roads.get? k = some r → r.planview.fixed = false := by
    intro k r h
    rcases (hr k r).mp h with ⟨rfl, rfl⟩ | ⟨rfl, rfl⟩ | ⟨rfl, rfl⟩ <;> rfl
  have hL0 : Laid net pcs (fun _ => none) net := ⟨rfl, fun _ => rfl, fun _ => rfl, fun k r h => h⟩
  obtain ⟨n1, a1, L1⟩ := hL0.adjustPlanview hP h1 rfl
  have ex1 : exitOf pcs "1" ⟨0, 0, 0⟩ .end = ⟨1, 0, 0⟩ := by
    simp [exitOf, pcs, finish, Piece.start, Shape.place, line]
  have hconn : ConnIn net "3" "1" .end "2" :=
    ⟨exRing3, exRing1, exRing2, _, _, h3, by simp [exRing3, exRoad, Road.new], rfl, rfl, rfl, rfl, rfl,
      by simp [PyId.toStr, e1], by simp [PyId.toStr, e2], rfl, h1, h2, rfl⟩
  have v1 := L1.visit_placed hP h1 (by simp)
  refine ⟨fun hk => ?_, fun hk => ?_⟩
  · obtain ⟨n2, a2, L2⟩ := L1.visit_pred hP h2 (by simp) rfl (p := ⟨.predecessor, .int 1, some .road, some .end, none⟩) rfl rfl rfl
      (n := exRing1) (by simpa [PyId.toStr, e1] using h1) (q := ⟨0, 0, 0⟩) (by simp [PyId.toStr, e1]) rfl
    obtain ⟨n3, a3, L3⟩ := (L2.visit_connIn hP hconn (by simp) (q := ⟨0, 0, 0⟩) (by simp) (by decide)).2 (by simp)
    refine ⟨n3, _, startpoints_one_pass (c := 2) (by rw [hk]; rfl) hno a1 ?_ (by rw [hk]; rfl) (by omega), L3.roads _ _ h2, ?_⟩
    · rw [hk]
      simp only [Net.pass]
      rw [bind_of_ok v1]
      simp only [bind_assoc]
      rw [bind_of_ok a2, bind_of_ok a3]
      rfl
    · simp [placedRoad, laid, PyId.toStr, e1, ex1]
  · obtain ⟨n2, a2, L2⟩ := (L1.visit_connIn hP hconn (by simp) (q := ⟨0, 0, 0⟩) (by simp) (by decide)).1 (by simp)
    have v2 := L2.visit_placed hP h2 (by simp)
    refine ⟨n2, _, startpoints_one_pass (c := 2) (by rw [hk]; rfl) hno a1 ?_ (by rw [hk]; rfl) (by omega), L2.roads _ _ h2, ?_⟩
    · rw [hk]
      simp only [Net.pass]
      rw [bind_of_ok v1]
      simp only [bind_assoc]
      rw [bind_of_ok a2, bind_of_ok v2]
      rfl
    · simp [placedRoad, laid, ex1, pcs, finish, Piece.start, Shape.place, line]
      norm_num

/-- C72 (finding): with a loop the order matters. Road 2 starts at the end of road 1 (x = 1) if it was added before the
connecting road 3, and at the end of road 3 (x = 2) if it was added after it. -/
theorem C72_loops_matter : Reordered exRingA exRingB ∧ exRingA.roads.keys.Nodup ∧ Fresh exRingA.roads ∧
    Private exRingA.roads ∧ ∃ a b ra rb, Net.adjustStartpoints exRingA = .ok () a ∧
      Net.adjustStartpoints exRingB = .ok () b ∧ a.roads.get? "2" = some ra ∧ b.roads.get? "2" = some rb ∧
      ra.planview.start = some ⟨1, 0, 0⟩ ∧ rb.planview.start = some ⟨2, 0, 0⟩ := by
  have ga : ∀ k r, exRingA.roads.get? k = some r ↔
      (k = "1" ∧ r = exRing1) ∨ (k = "2" ∧ r = exRing2) ∨ (k = "3" ∧ r = exRing3) := by
    intro k r
    constructor
    · intro h
      simp only [exRingA, exRingNet, Dict.get?] at h
      repeat' split at h
      all_goals first | (cases h; done) | (cases h; subst_vars; simp)
    · rintro (⟨rfl, rfl⟩ | ⟨rfl, rfl⟩ | ⟨rfl, rfl⟩) <;> rfl
  have gb : ∀ k r, exRingB.roads.get? k = some r ↔
      (k = "1" ∧ r = exRing1) ∨ (k = "2" ∧ r = exRing2) ∨ (k = "3" ∧ r = exRing3) := by
    intro k r
    constructor
    · intro h
      simp only [exRingB, exRingNet, Dict.get?] at h
      repeat' split at h
      all_goals first | (cases h; done) | (cases h; subst_vars; simp)
    · rintro (⟨rfl, rfl⟩ | ⟨rfl, rfl⟩ | ⟨rfl, rfl⟩) <;> rfl
  obtain ⟨a, ra, h1, h2, h3⟩ := (exRing_run exRingA rfl ga).1 rfl
  obtain ⟨b, rb, h4, h5, h6⟩ := (exRing_run exRingB rfl gb).2 rfl
  refine ⟨⟨(List.Perm.swap _ _ _).cons _, rfl, .inl rfl⟩, by decide, ?_, ?_, a, b, ra, rb, h1, h4, h2, h5, h3, h6⟩
  · intro k r h
    rcases (ga k r).mp h with ⟨rfl, rfl⟩ | ⟨rfl, rfl⟩ | ⟨rfl, rfl⟩ <;> exact ⟨rfl, rfl⟩
  · intro k k' r r' h h' hne g hg hg'
    rcases (ga k r).mp h with ⟨rfl, rfl⟩ | ⟨rfl, rfl⟩ | ⟨rfl, rfl⟩ <;>
      rcases (ga k' r').mp h' with ⟨rfl, rfl⟩ | ⟨rfl, rfl⟩ | ⟨rfl, rfl⟩ <;>
      simp_all [exRing1, exRing2, exRing3, exRoad, Road.new]

end Pyodrx.Props
