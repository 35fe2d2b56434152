import Verif.Proofs.NoLoops
import Verif.Props.FloatNetwork
import Verif.Props.ReadNetwork

/-! # C71: in a network without loops every declared link is a joint -/

namespace Pyodrx.Props
open Pyodrx Spec

theorem _root_.Pyodrx.AttachedAt.meets {roads0 roads : Dict (Road ℝ)} {k nb : String} {e e' : ContactPoint}
    (h : AttachedAt roads0 roads k e nb e') : ∃ r n p q, roads.get? k = some r ∧ roads.get? nb = some n ∧
      endPose r e = some p ∧ endPose n e' = some q ∧ Meets (offsetAt r e) e p e' q := by
  obtain ⟨r, n, p, h1, h2, h3, _, _, h4, h5⟩ := h
  obtain ⟨q, hq, rfl⟩ := neighbourPose_real h4
  exact ⟨r, n, _, q, h2, h3, h5, hq, attach_meets e e' _ q⟩

/-- C71: after a normal return on a network without loops, the two road ends of *every* declared link meet (C19: of
at least one link of every road), up to the lane offset of that of the two roads that was moved. -/
theorem C71_every_link (net net' : Net ℝ) (hn : net.roads.keys.Nodup) (hf : Fresh net.roads)
    (hl : NoLoops net.roads) (h : Net.adjustStartpoints net = .ok () net')
    (k nb : String) (e e' : ContactPoint) (hp : PlacedBy net.roads k e nb e') :
    ∃ r n p q, net'.roads.get? k = some r ∧ net'.roads.get? nb = some n ∧
      endPose r e = some p ∧ endPose n e' = some q ∧
      (Meets (offsetAt r e) e p e' q ∨ Meets (offsetAt n e') e' q e p) := by
  rcases startpoints_joined hn hf hl h hp with ha | ha
  · obtain ⟨r, n, p, q, h1, h2, h3, h4, h5⟩ := ha.meets
    exact ⟨r, n, p, q, h1, h2, h3, h4, .inl h5⟩
  · obtain ⟨n, r, q, p, h1, h2, h3, h4, h5⟩ := ha.meets
    exact ⟨r, n, p, q, h2, h1, h4, h3, .inr h5⟩

/-- C71: with zero lane offsets, every declared link joins two road ends: same position, opposite outgoing
directions. -/
theorem C71_no_offset (net net' : Net ℝ) (hn : net.roads.keys.Nodup) (hf : Fresh net.roads)
    (hl : NoLoops net.roads)
    (hz : ∀ k r, net.roads.get? k = some r → r.laneOffsetPred = 0 ∧ r.laneOffsetSuc = 0)
    (h : Net.adjustStartpoints net = .ok () net')
    (k nb : String) (e e' : ContactPoint) (hp : PlacedBy net.roads k e nb e') :
    ∃ r n p q, net'.roads.get? k = some r ∧ net'.roads.get? nb = some n ∧
      endPose r e = some p ∧ endPose n e' = some q ∧ p.x = q.x ∧ p.y = q.y ∧
      SameHeading (outgoing e p.h) (outgoing e' q.h + Real.pi) := by
  obtain ⟨r, n, p, q, h1, h2, h3, h4, h5⟩ := C71_every_link net net' hn hf hl h k nb e e' hp
  obtain ⟨m, hh, _⟩ := startpoints_history hn hf h
  have off : ∀ {k r}, net'.roads.get? k = some r → ∀ e, offsetAt r e = 0 := by
    intro k r hr e
    obtain ⟨r0, i1, i2⟩ := hh.same.2 k r hr
    rw [i2.1]
    cases e
    · exact (hz k r0 i1).1
    · exact (hz k r0 i1).2
  refine ⟨r, n, p, q, h1, h2, h3, h4, ?_⟩
  rw [off h1, off h2] at h5
  rcases h5 with ⟨a, b, c⟩ | ⟨a, b, m, c⟩
  · exact ⟨by simpa using a, by simpa using b, c⟩
  · refine ⟨by simpa using a.symm, by simpa using b.symm, -m - 1, ?_⟩
    push_cast
    linarith

/-- C71 in floating point arithmetic: up to the rounding errors of C69. -/
theorem C71_float {R : Rounding} (net net' : Net (Fl R)) (hn : net.roads.keys.Nodup) (hf : Fresh net.roads)
    (hl : NoLoops net.roads) (h : Net.adjustStartpoints net = .ok () net')
    (k nb : String) (e e' : ContactPoint) (hp : PlacedBy net.roads k e nb e') :
    ∃ r n p q, net'.roads.get? k = some r ∧ net'.roads.get? nb = some n ∧
      endPose r e = some p ∧ endPose n e' = some q ∧
      (MeetsNearly R.u (offsetAt r e) e (real p) e' (real q) ∨
        MeetsNearly R.u (offsetAt n e') e' (real q) e (real p)) := by
  rcases startpoints_joined hn hf hl h hp with ⟨r, n, p, _, h2, h3, _, _, h4, h5⟩ | ⟨n, r, p, _, h2, h3, _, _, h4, h5⟩
  · obtain ⟨q, hq, rfl⟩ := neighbourPose_fl h4
    exact ⟨r, n, _, q, h2, h3, h5, hq, .inl (attach_meets_nearly e e' _ q)⟩
  · obtain ⟨q, hq, rfl⟩ := neighbourPose_fl h4
    exact ⟨r, n, q, _, h3, h2, hq, h5, .inr (attach_meets_nearly e' e _ q)⟩

/-- C71: the same in the document: whoever reads it finds that the two road ends of every link in it meet. The links
are those that the calls `add_predecessor`, `add_successor` leave (C24). -/
theorem C71_document (w w' : World ℝ) (pcs : String → List Piece) (hw : DrawnNet w.net pcs) (hl : NoLoops w.net.roads)
    (hlinks : ∀ k r l, w.net.roads.get? k = some r → l ∈ r.links →
      (l.kind = .predecessor → r.predecessor = some l) ∧ (l.kind = .successor → r.successor = some l))
    (h : World.adjustRoadsAndLanes w = .ok () w') (o : OpenDrive ℝ) (hp : Heap ℝ) (date : String)
    (ho : o.roads = w'.net.roads) (hgeoms : hp.geoms = w'.net.geoms)
    (hgood : ∀ kv ∈ o.roads, GoodRoad hp kv.2) (element : Xml ℝ) (he : o.getElement hp date = .ok element)
    (doc : RDocument ℝ) (hdoc : readDocument element = some doc) :
    ∀ a ∈ doc.roads, ∀ b ∈ doc.roads, ∀ e e', a.LinkedTo e b e' →
      ∃ p q, a.poseAt e = some p ∧ b.poseAt e' = some q ∧
        (Meets (declaredOffset w.net.roads a.id e) e p e' q ∨ Meets (declaredOffset w.net.roads b.id e') e' q e p) := by
  have hadj := adjustRoadsAndLanes_net h
  obtain ⟨gs, hgs, rfl⟩ := document_read he hgood hdoc
  rw [ho] at hgs
  have hkeys : w'.net.roads.keys = w.net.roads.keys := (C18_placed_once w.net w'.net hw.nodup hw.fresh hadj).1
  have hnd : w'.net.roads.keys.Nodup := by rw [hkeys]; exact hw.nodup
  intro a ha b hb e e' hlink
  obtain ⟨⟨ka, ra⟩, hka, rfl⟩ := List.mem_map.mp ha
  obtain ⟨⟨kb, rb⟩, hkb, rfl⟩ := List.mem_map.mp hb
  rw [ho] at hka hkb
  have hra : w'.net.roads.get? ka = some ra := Dict.mem_get? hnd hka
  have hrb : w'.net.roads.get? kb = some rb := Dict.mem_get? hnd hkb
  obtain ⟨a0, ha0, ea, _⟩ := hw.read hadj hra
  obtain ⟨b0, hb0, eb, _⟩ := hw.read hadj hrb
  have ida : ra.id.toStr = ka := by rw [ea]; exact (hw.drawn _ _ ha0).id
  have idb : rb.id.toStr = kb := by rw [eb]; exact (hw.drawn _ _ hb0).id
  -- what the shown links are
  have shown : ∀ {r r0 : Road ℝ} {k}, w.net.roads.get? k = some r0 → r = { r0 with planview := r.planview } →
      ∀ {g : List (RGeometry ℝ)} {x e}, x ∈ (shownRoad hp r g).links → x.tag = linkTag e → ∃ l, x = shownLink l ∧
        (match e with | .start => r0.predecessor | .end => r0.successor) = some l := by
    intro r r0 k h0 er g x e hx ht
    obtain ⟨l, hl', rfl⟩ := List.mem_map.mp hx
    have hl' := (List.mem_filter.mp hl').1
    have hm : l ∈ r0.links := by rw [er] at hl'; exact hl'
    obtain ⟨q1, q2⟩ := hlinks k r0 l h0 hm
    have ht : l.kind.text = linkTag e := ht
    refine ⟨l, rfl, ?_⟩
    cases e with
    | start =>
      refine q1 ?_
      cases hk : l.kind <;> rw [hk] at ht <;> first | rfl | simp [LinkKind.text, linkTag] at ht
    | «end» =>
      refine q2 ?_
      cases hk : l.kind <;> rw [hk] at ht <;> first | rfl | simp [LinkKind.text, linkTag] at ht
  have hplaced : PlacedBy w.net.roads ka e kb e' := by
    rcases hlink with ⟨x, hx, h1, h2, h3, h4⟩ | ⟨hj, x, hx, h1, h2, h3⟩
    · obtain ⟨l, rfl, hl'⟩ := shown ha0 ea hx h1
      have h3 : l.elementId.toStr = rb.id.toStr := h3
      rw [← idb, ← h3]
      cases e with
      | start => exact .pred ha0 hl' h2 h4
      | «end» => exact .succ ha0 hl' h2 h4
    · obtain ⟨l, rfl, hl'⟩ := shown hb0 eb hx h1
      have hj : b0.roadType ≠ -1 := by
        have : rb.roadType = b0.roadType := by rw [eb]
        rw [← this]; exact hj
      have h2 : l.elementId.toStr = ra.id.toStr := h2
      have h3 : l.contactPoint.getD .end = e := h3
      rw [← ida, ← h2, ← h3]
      cases e' with
      | start => exact .connPred hb0 hj hl'
      | «end» => exact .connSucc hb0 hj hl'
  obtain ⟨r, n, p, q, h1, h2, h3, h4, h5⟩ := C71_every_link w.net w'.net hw.nodup hw.fresh hl hadj _ _ _ _ hplaced
  rw [hra] at h1; cases h1
  rw [hrb] at h2; cases h2
  refine ⟨p, q, (hw.pose hadj hgeoms hgs hra e).trans h3, (hw.pose hadj hgeoms hgs hrb e').trans h4, ?_⟩
  have oa : declaredOffset w.net.roads ra.id.toStr e = offsetAt ra e := by
    rw [declaredOffset, ida, ha0, ea]; cases e <;> rfl
  have ob : declaredOffset w.net.roads rb.id.toStr e' = offsetAt rb e' := by
    rw [declaredOffset, idb, hb0, eb]; cases e' <;> rfl
  rw [show (shownRoad hp ra (gs ra)).id = ra.id.toStr from rfl, show (shownRoad hp rb (gs rb)).id = rb.id.toStr from rfl,
    oa, ob]
  exact h5

/-- C71 (finding): a lane offset counts only if the road that was given it is the one that is moved. A connecting
road that continues an anchor and was given a lane offset with its successor: the successor is put at its end with
the successor's own lane offset; if that is zero, the offset that was given has no effect. -/
theorem C71_offset_ignored (net net' : Net ℝ) (hn : net.roads.keys.Nodup) (hf : Fresh net.roads)
    (hl : NoLoops net.roads) (h : Net.adjustStartpoints net = .ok () net')
    (c : String) (r : Road ℝ) (hc : net.roads.get? c = some r) (ht : r.roadType ≠ -1) (p s : Link)
    (hp : r.predecessor = some p) (hpt : p.elementType ≠ some .junction) (ep es : ContactPoint)
    (hpc : p.contactPoint = some ep) (ha : Anchor net.roads p.elementId.toStr)
    (hs : r.successor = some s) (hsc : s.contactPoint = some es) :
    ∃ r' n a b, net'.roads.get? c = some r' ∧ net'.roads.get? s.elementId.toStr = some n ∧
      endPose r' .end = some a ∧ endPose n es = some b ∧ Meets (offsetAt n es) es b .end a ∧
      (offsetAt n es = 0 → r.laneOffsetSuc ≠ 0 → ¬ Meets r.laneOffsetSuc .end a es b) := by
  obtain ⟨m, hh, _⟩ := startpoints_history hn hf h
  have hroot : ∀ k ∈ net.roads.keys, Rooted (Anchor net.roads) (AttachedAt net.roads net'.roads) k := by
    intro k hk
    rw [← hh.same.1, ← Dict.get?_isSome, Option.isSome_iff_exists] at hk
    obtain ⟨r, hr⟩ := hk
    obtain ⟨r1, h1, h2⟩ := hh.inv rfl hf k r hr
    exact (h2.of_adjusted (startpoints_all hn hf h hr)).1.rooted
  obtain ⟨joint, hj⟩ := exists_placing (fun _ h => h) hroot
  have hS : ∀ {k e nb e'}, AttachedAt net.roads net'.roads k e nb e' → PlacedBy net.roads k e nb e' :=
    fun ⟨_, _, _, h, _⟩ => h
  obtain ⟨x, hx, hxa, he⟩ := hj.covers hS hl (PlacedBy.pred hc hp hpt hpc)
  obtain ⟨y, hy, hya, he'⟩ := hj.covers hS hl (PlacedBy.connSucc hc ht hs)
  rw [Sym2.eq_iff] at he he'
  have hxc : x = c ∧ (joint x).1 = .start := by
    rcases he with ⟨h1, _⟩ | ⟨h1, _⟩ <;> simp only [Prod.mk.injEq] at h1
    · exact h1
    · rw [h1.1] at hxa; exact absurd ha hxa
  have hatt : AttachedAt net.roads net'.roads s.elementId.toStr es c .end := by
    have := hj.step y hy hya
    rcases he' with ⟨h1, h2⟩ | ⟨h1, _⟩ <;> simp only [Prod.mk.injEq] at h1
    · rw [h1.2, h2, h1.1, hsc] at this
      exact this
    · obtain ⟨h1, h2⟩ := h1
      rw [h1, ← hxc.1, hxc.2] at h2
      cases h2
  obtain ⟨n, r', b, a, h1, h2, h3, h4, h5⟩ := hatt.meets
  refine ⟨r', n, a, b, h2, h1, h4, h3, h5, ?_⟩
  intro h0 hne hm
  rw [h0] at h5
  obtain ⟨q1, q2, _⟩ := h5
  obtain ⟨w1, w2, _⟩ := hm
  simp only [Int.cast_zero, mul_zero, zero_mul, sub_zero, add_zero] at q1 q2
  have z1 : (3 * (r.laneOffsetSuc : ℝ)) * Real.sin a.h = 0 := by linarith
  have z2 : (3 * (r.laneOffsetSuc : ℝ)) * Real.cos a.h = 0 := by linarith
  have hd : (3 * (r.laneOffsetSuc : ℝ)) ≠ 0 := by
    simpa using hne
  have s1 := (mul_eq_zero.mp z1).resolve_left hd
  have s2 := (mul_eq_zero.mp z2).resolve_left hd
  have := Real.sin_sq_add_cos_sq a.h
  rw [s1, s2] at this
  norm_num at this

/-! ## Examples -/

/-- The network `exNet` (with a lane offset at road 2) has no loops: three joints, three roads besides the anchor. -/
theorem exNet_noLoops : NoLoops exNet.roads := by
  have e1 : strInt 1 = "1" := by decide
  have e2 : strInt 2 = "2" := by decide
  have e4 : strInt 4 = "4" := by decide
  have hk : exNet.roads.keys = ["1", "2", "3", "4"] := rfl
  refine ⟨[(("2", .start), ("1", .end)), (("3", .start), ("2", .end)), (("4", .start), ("3", .end))],
    ["2", "3", "4"], ?_, by decide, ?_, by simp⟩
  · intro k e nb e' hp
    cases hp with
    | pred hr hl ht hc =>
      rcases exNet_get hr with ⟨rfl, rfl⟩ | ⟨rfl, rfl⟩ | ⟨rfl, rfl⟩ | ⟨rfl, rfl⟩ <;> cases hl <;> cases hc <;>
        simp [PyId.toStr, e1, e2]
    | succ hr hl ht hc =>
      rcases exNet_get hr with ⟨rfl, rfl⟩ | ⟨rfl, rfl⟩ | ⟨rfl, rfl⟩ | ⟨rfl, rfl⟩ <;> cases hl <;> cases hc <;>
        simp [PyId.toStr, e4]
    | connPred hr ht hl =>
      rcases exNet_get hr with ⟨rfl, rfl⟩ | ⟨rfl, rfl⟩ | ⟨rfl, rfl⟩ | ⟨rfl, rfl⟩ <;> cases hl <;>
        first | exact absurd rfl ht | simp [PyId.toStr, e2]
    | connSucc hr ht hl =>
      rcases exNet_get hr with ⟨rfl, rfl⟩ | ⟨rfl, rfl⟩ | ⟨rfl, rfl⟩ | ⟨rfl, rfl⟩ <;> cases hl <;>
        first | exact absurd rfl ht | simp [PyId.toStr, e4]
  · intro k hk'
    rw [hk]
    refine ⟨by simp only [List.mem_cons, List.not_mem_nil, or_false] at hk' ⊢; tauto, ?_⟩
    rintro (⟨r, h, hf⟩ | ⟨_, h⟩)
    · rcases exNet_get h with ⟨_, rfl⟩ | ⟨_, rfl⟩ | ⟨_, rfl⟩ | ⟨_, rfl⟩ <;> cases hf
    · rw [hk] at h
      cases h
      revert hk'
      decide

/-- `C71_every_link` is about runs that exist: in `exNet` the links of roads 2 and 3 join all four roads. -/
example : ∃ net', Net.adjustStartpoints exNet = .ok () net' ∧
    (∃ r n p q, net'.roads.get? "3" = some r ∧ net'.roads.get? "4" = some n ∧ endPose r .end = some p ∧
      endPose n .start = some q ∧ (Meets (offsetAt r .end) .end p .start q ∨ Meets (offsetAt n .start) .start q .end p)) := by
  obtain ⟨net', h⟩ := exNet_placed
  refine ⟨net', h, C71_every_link exNet net' exNet_wellFormed.nodup exNet_wellFormed.fresh exNet_noLoops h _ _ _ _ ?_⟩
  have e4 : strInt 4 = "4" := by decide
  have := PlacedBy.succ (roads := exNet.roads) (k := "3") (cp := .start)
      (l := ⟨.successor, .int 4, some .road, some .start, none⟩) rfl rfl (by simp) rfl
  simpa only [PyId.toStr, e4] using this

/-- Road 3 connects the end of the anchor 1 with the start of road 2, to which it is given a lane offset of one. -/
noncomputable def exOffsetNet : Net ℝ :=
  { roads := [("1", exRoad 1 (-1) 0 none none 0),
      ("3", { exRoad 3 5 1 (some ⟨.predecessor, .int 1, some .road, some .end, none⟩)
        (some ⟨.successor, .int 2, some .road, some .start, none⟩) 0 with laneOffsetSuc := 1 }),
      ("2", exRoad 2 (-1) 2 none none 0)]
    geoms := ⟨fun i => .line ⟨i + 1⟩, 3⟩ }

theorem exOffsetNet_get {k : String} {r : Road ℝ} (h : exOffsetNet.roads.get? k = some r) :
    (k = "1" ∧ r = exRoad 1 (-1) 0 none none 0) ∨
    (k = "3" ∧ r = { exRoad 3 5 1 (some ⟨.predecessor, .int 1, some .road, some .end, none⟩)
        (some ⟨.successor, .int 2, some .road, some .start, none⟩) 0 with laneOffsetSuc := 1 }) ∨
    (k = "2" ∧ r = exRoad 2 (-1) 2 none none 0) := by
  simp only [exOffsetNet, Dict.get?] at h
  repeat' split at h
  all_goals first | (cases h; done) | skip
  all_goals (cases h; subst_vars; simp)

theorem exOffsetNet_noLoops : NoLoops exOffsetNet.roads := by
  have e1 : strInt 1 = "1" := by decide
  have e2 : strInt 2 = "2" := by decide
  have hk : exOffsetNet.roads.keys = ["1", "3", "2"] := rfl
  refine ⟨[(("3", .start), ("1", .end)), (("2", .start), ("3", .end))], ["2", "3"], ?_, by decide, ?_, by simp⟩
  · intro k e nb e' hp
    cases hp with
    | pred hr hl ht hc =>
      rcases exOffsetNet_get hr with ⟨rfl, rfl⟩ | ⟨rfl, rfl⟩ | ⟨rfl, rfl⟩ <;> cases hl <;> cases hc <;>
        simp [PyId.toStr, e1]
    | succ hr hl ht hc =>
      rcases exOffsetNet_get hr with ⟨rfl, rfl⟩ | ⟨rfl, rfl⟩ | ⟨rfl, rfl⟩ <;> cases hl <;> cases hc <;>
        simp [PyId.toStr, e2]
    | connPred hr ht hl =>
      rcases exOffsetNet_get hr with ⟨rfl, rfl⟩ | ⟨rfl, rfl⟩ | ⟨rfl, rfl⟩ <;> cases hl <;>
        first | exact absurd rfl ht | simp [PyId.toStr, e1]
    | connSucc hr ht hl =>
      rcases exOffsetNet_get hr with ⟨rfl, rfl⟩ | ⟨rfl, rfl⟩ | ⟨rfl, rfl⟩ <;> cases hl <;>
        first | exact absurd rfl ht | simp [PyId.toStr, e2]
  · intro k hk'
    rw [hk]
    refine ⟨by simp only [List.mem_cons, List.not_mem_nil, or_false] at hk' ⊢; tauto, ?_⟩
    rintro (⟨r, h, hf⟩ | ⟨_, h⟩)
    · rcases exOffsetNet_get h with ⟨_, rfl⟩ | ⟨_, rfl⟩ | ⟨_, rfl⟩ <;> cases hf
    · rw [hk] at h
      cases h
      revert hk'
      decide

theorem exOffsetNet_anchor : Anchor exOffsetNet.roads "1" := by
  refine .inr ⟨fun k r h => ?_, rfl⟩
  rcases exOffsetNet_get h with ⟨_, rfl⟩ | ⟨_, rfl⟩ | ⟨_, rfl⟩ <;> rfl

theorem exOffsetNet_placed : ∃ net', Net.adjustStartpoints exOffsetNet = .ok () net' ∧
    exOffsetNet.roads.keys.Nodup ∧ Fresh exOffsetNet.roads := by
  have e1 : strInt 1 = "1" := by decide
  have e2 : strInt 2 = "2" := by decide
  have hk : exOffsetNet.roads.keys = ["1", "3", "2"] := rfl
  have hw : WellFormed exOffsetNet := by
    refine ⟨by simp [exOffsetNet], by rw [hk]; decide, ?_, ?_, ?_, ?_, ?_, ?_⟩
    · intro k r h
      rcases exOffsetNet_get h with ⟨_, rfl⟩ | ⟨_, rfl⟩ | ⟨_, rfl⟩ <;> exact ⟨rfl, rfl⟩
    · intro k r l h hl
      rw [hk]
      rcases exOffsetNet_get h with ⟨_, rfl⟩ | ⟨_, rfl⟩ | ⟨_, rfl⟩ <;>
        rcases hl with hl | hl <;> cases hl <;> simp [PyId.toStr, e1, e2]
    · intro k r l h hl ht
      rcases exOffsetNet_get h with ⟨_, rfl⟩ | ⟨_, rfl⟩ | ⟨_, rfl⟩ <;>
        rcases hl with hl | hl <;> cases hl <;> simp
    · intro k r h
      rcases exOffsetNet_get h with ⟨_, rfl⟩ | ⟨_, rfl⟩ | ⟨_, rfl⟩ <;>
        exact ⟨fun g _ => by simp [exOffsetNet, shapeOf], .inl rfl⟩
    · intro k r l h ht hl
      rcases exOffsetNet_get h with ⟨_, rfl⟩ | ⟨_, rfl⟩ | ⟨_, rfl⟩ <;>
        rcases hl with hl | hl <;> cases hl <;> first | exact absurd rfl ht | skip
      all_goals
        refine ⟨by simp, fun t h' => ?_⟩
        simp only [PyId.toStr, e1, e2] at h'
        rcases exOffsetNet_get h' with ⟨q, rfl⟩ | ⟨q, rfl⟩ | ⟨q, rfl⟩ <;>
          first | rfl | exact absurd q (by decide)
    · intro k r h ha
      rcases ha with ⟨r', h', hf⟩ | ⟨_, h'⟩
      · rcases exOffsetNet_get h' with ⟨_, rfl⟩ | ⟨_, rfl⟩ | ⟨_, rfl⟩ <;> cases hf
      · rw [hk] at h'
        rcases exOffsetNet_get h with ⟨rfl, rfl⟩ | ⟨rfl, rfl⟩ | ⟨rfl, rfl⟩ <;>
          first | rfl | exact absurd h' (by decide)
  have h3 : Reachable exOffsetNet.roads "3" := by
    refine .step (nb := "1") (e := .start) (e' := .end) ?_ (.anchor exOffsetNet_anchor)
    have := PlacedBy.pred (roads := exOffsetNet.roads) (k := "3") (cp := .end)
      (l := ⟨.predecessor, .int 1, some .road, some .end, none⟩) rfl rfl (by simp) rfl
    simpa only [PyId.toStr, e1] using this
  have h2 : Reachable exOffsetNet.roads "2" := by
    refine .step (nb := "3") (e := .start) (e' := .end) ?_ h3
    have := PlacedBy.connSucc (roads := exOffsetNet.roads) (c := "3")
      (l := ⟨.successor, .int 2, some .road, some .start, none⟩) rfl (by simp [exRoad, Road.new]) rfl
    simpa only [PyId.toStr, e2, Option.getD_some] using this
  obtain ⟨net', h⟩ := (C20_succeeds_iff exOffsetNet hw).mpr (by
    intro k hk'
    rw [hk] at hk'
    simp only [List.mem_cons, List.not_mem_nil, or_false] at hk'
    rcases hk' with rfl | rfl | rfl
    · exact .anchor exOffsetNet_anchor
    · exact h3
    · exact h2)
  exact ⟨net', h, hw.nodup, hw.fresh⟩

/-- All hypotheses of `C71_offset_ignored` hold of it: the lane offset of road 3 is lost. -/
example : ∃ net' r' n a b, Net.adjustStartpoints exOffsetNet = .ok () net' ∧ net'.roads.get? "3" = some r' ∧
    net'.roads.get? "2" = some n ∧ endPose r' .end = some a ∧ endPose n .start = some b ∧ ¬ Meets 1 .end a .start b := by
  have e1 : strInt 1 = "1" := by decide
  have e2 : strInt 2 = "2" := by decide
  obtain ⟨net', h, hn, hf⟩ := exOffsetNet_placed
  obtain ⟨r', n, a, b, h1, h2, h3, h4, _, h6⟩ := C71_offset_ignored exOffsetNet net' hn hf exOffsetNet_noLoops h "3" _ rfl
    (by simp [exRoad, Road.new]) ⟨.predecessor, .int 1, some .road, some .end, none⟩
    ⟨.successor, .int 2, some .road, some .start, none⟩ rfl (by simp) .end .start rfl
    (by simpa only [PyId.toStr, e1] using exOffsetNet_anchor) rfl rfl
  simp only [PyId.toStr, e2] at h2
  refine ⟨net', r', n, a, b, h, h1, h2, h3, h4, h6 ?_ (by simp)⟩
  obtain ⟨m, hh, _⟩ := startpoints_history hn hf h
  obtain ⟨r0, i1, i2⟩ := hh.same.2 _ n h2
  rw [i2.1]
  rcases exOffsetNet_get i1 with ⟨q, _⟩ | ⟨q, _⟩ | ⟨_, rfl⟩
  · exact absurd q (by decide)
  · exact absurd q (by decide)
  · rfl

end Pyodrx.Props
