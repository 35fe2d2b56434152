import Verif.Props.Network
import Verif.Props.JunctionProgram

/-! # C80: roads added after the adjustment -/

namespace Pyodrx.Props
open Pyodrx Spec

section
variable {F : Type} [PyFloat F]

/-- `adjust_geometries` of a road that is in the network. -/
theorem adjustPlanview_ok {k : String} {b : Bool} {net net' : Net F} {u : Unit} (h : Net.adjustPlanview k b net = .ok u net') :
    ∃ r st, net.roads.get? k = some r ∧ PlanView.adjustGeometries b ⟨r.planview, net.geoms⟩ = .ok () st ∧
      net' = ⟨net.roads.set k { r with planview := st.pv }, st.geoms⟩ := by
  unfold Net.adjustPlanview at h
  split at h
  · cases h
  · rename_i r hr
    split at h
    · rename_i st hst
      cases h
      exact ⟨r, st, hr, hst, rfl⟩
    · cases h

/-- The loop over the roads with a given start pose, whatever happened before. -/
theorem adjustFixed_any (ks : List String) : ∀ {net net' : Net F} {c : Nat}, ks.Nodup → Net.adjustFixed ks net = .ok c net' →
    c = ks.countP (fun k => ((net.roads.get? k).map (·.planview.fixed)).getD false) ∧
    net'.roads.keys = net.roads.keys ∧ (∀ k ∉ ks, net'.roads.get? k = net.roads.get? k) ∧
    ∀ k ∈ ks, ∀ r, net.roads.get? k = some r → if r.planview.fixed then
      ∃ g st, PlanView.adjustGeometries false ⟨r.planview, g⟩ = .ok () st ∧
        net'.roads.get? k = some { r with planview := st.pv }
      else net'.roads.get? k = some r := by
  induction ks with
  | nil =>
    intro net net' c _ h
    cases h
    exact ⟨rfl, rfl, fun _ _ => rfl, by simp⟩
  | cons k ks ih =>
    intro net net' c hn h
    rw [List.nodup_cons] at hn
    unfold Net.adjustFixed at h
    replace h := bind_ok.mp h; obtain ⟨r, s1, h1, h⟩ := h
    obtain ⟨hr, rfl⟩ := Pyodrx.road_ok.mp h1
    split at h
    · rename_i hfix
      replace h := bind_ok.mp h; obtain ⟨_, s2, h2, h⟩ := h
      replace h := bind_ok.mp h; obtain ⟨c', s3, h3, h⟩ := h
      cases h
      obtain ⟨r', st, q1, q2, rfl⟩ := adjustPlanview_ok h2
      rw [hr] at q1; cases q1
      obtain ⟨i1, i2, i3, i4⟩ := ih hn.2 h3
      have hother : ∀ k' ∈ ks, (s1.roads.set k { r with planview := st.pv }).get? k' = s1.roads.get? k' := by
        intro k' hk'
        rw [Dict.get?_set, if_neg]
        rintro rfl
        exact hn.1 hk'
      refine ⟨?_, ?_, ?_, ?_⟩
      · rw [List.countP_cons_of_pos (by simp [hr, hfix]), i1]
        congr 1
        refine List.countP_congr fun k' hk' => ?_
        rw [hother k' hk']
      · rw [i2]; exact Dict.keys_set_of_mem _ _ _ (Dict.mem_keys_of_get? hr)
      · intro k' hk'
        rw [List.mem_cons, not_or] at hk'
        rw [i3 k' hk'.2, Dict.get?_set, if_neg]
        exact fun e => hk'.1 e.symm
      · intro k' hk' r' hr'
        rcases List.mem_cons.mp hk' with rfl | hk'
        · rw [hr] at hr'; cases hr'
          rw [if_pos hfix]
          exact ⟨_, st, q2, by rw [i3 _ hn.1, Dict.get?_set, if_pos rfl]⟩
        · exact i4 k' hk' r' (by rw [hother k' hk']; exact hr')
    · rename_i hfix
      obtain ⟨i1, i2, i3, i4⟩ := ih hn.2 h
      refine ⟨?_, i2, fun k' hk' => i3 k' (by simp_all), ?_⟩
      · rw [List.countP_cons_of_neg (by simp [hr, hfix]), i1]
      · intro k' hk' r' hr'
        rcases List.mem_cons.mp hk' with rfl | hk'
        · rw [hr] at hr'; cases hr'
          rw [if_neg hfix, i3 _ hn.1, hr]
        · exact i4 k' hk' r' hr'

theorem countP_lt {α : Type} {p q : α → Bool} {l : List α} (h : ∀ x ∈ l, p x = true → q x = true) {a : α} (ha : a ∈ l)
    (hp : p a = false) (hq : q a = true) : l.countP p < l.countP q := by
  induction l with
  | nil => cases ha
  | cons x l ih =>
    have hle : l.countP p ≤ l.countP q := List.countP_mono_left fun y hy => h y (by simp [hy])
    rw [List.countP_cons, List.countP_cons]
    rcases List.mem_cons.mp ha with rfl | ha
    · simp [hp, hq]; omega
    · have := ih (fun y hy => h y (by simp [hy])) ha
      have := h x (by simp)
      cases hx : p x <;> cases hy : q x <;> simp_all <;> omega

omit [PyFloat F] in
theorem countAdj_keys (d : Dict (Road F)) (hn : d.keys.Nodup) :
    countAdj d = d.keys.countP fun k => ((d.get? k).map (·.planview.adjusted)).getD false := by
  have : d.keys.countP (fun k => ((d.get? k).map (·.planview.adjusted)).getD false) =
      d.countP fun kv => ((d.get? kv.1).map (·.planview.adjusted)).getD false := by
    unfold Dict.keys
    rw [List.countP_map]
    rfl
  rw [this, countAdj]
  refine List.countP_congr fun kv hkv => ?_
  rw [Dict.mem_get? hn hkv]
  rfl

/-- What the anchors look like after the first step of `adjust_startpoints`, whatever happened before. -/
theorem anchors_any {net net' : Net F} {c : Nat} (hn : net.roads.keys.Nodup) (h : placeAnchors net net = .ok c net') :
    net'.roads.keys = net.roads.keys ∧
    (∀ k r, net.roads.get? k = some r → Anchor net.roads k → ∃ g st,
      PlanView.adjustGeometries false ⟨r.planview, g⟩ = .ok () st ∧
      net'.roads.get? k = some { r with planview := st.pv }) ∧
    (∀ k r, net.roads.get? k = some r → ¬ Anchor net.roads k → net'.roads.get? k = some r) ∧
    ((∃ k r, net.roads.get? k = some r ∧ r.planview.adjusted = true ∧ ¬ Anchor net.roads k) → c < countAdj net'.roads) := by
  unfold placeAnchors at h
  replace h := bind_ok.mp h; obtain ⟨c0, s1, h1, h⟩ := h
  obtain ⟨i1, i2, i3, i4⟩ := adjustFixed_any _ hn h1
  split at h
  · rename_i hc
    replace h := bind_ok.mp h; obtain ⟨k0, s2, h2, h⟩ := h
    replace h2 := orRaise_ok.mp h2; obtain ⟨h2, rfl⟩ := h2
    replace h := bind_ok.mp h; obtain ⟨_, s3, h3, h⟩ := h
    cases h
    subst hc
    obtain ⟨rfl, hz⟩ := adjustFixed_zero _ h1
    have hfree : ∀ k r, s2.roads.get? k = some r → r.planview.fixed = false := fun k r hr =>
      hz k (Dict.mem_keys_of_get? hr) r hr
    have hanch : ∀ k, Anchor s2.roads k ↔ k = k0 := by
      intro k
      constructor
      · rintro (⟨r, hr, hf⟩ | ⟨-, hk⟩)
        · rw [hfree k r hr] at hf; cases hf
        · rw [h2] at hk; exact (Option.some.inj hk).symm
      · rintro rfl
        exact .inr ⟨hfree, h2⟩
    obtain ⟨r0, st, q1, q2, rfl⟩ := adjustPlanview_ok h3
    have hkeys : (s2.roads.set k0 { r0 with planview := st.pv }).keys = s2.roads.keys :=
      Dict.keys_set_of_mem _ _ _ (Dict.mem_keys_of_get? q1)
    refine ⟨hkeys, ?_, ?_, ?_⟩
    · intro k r hr ha
      obtain rfl := (hanch k).mp ha
      rw [q1] at hr; cases hr
      exact ⟨_, st, q2, by simp [Dict.get?_set]⟩
    · intro k r hr ha
      rw [hanch] at ha
      simp only [Dict.get?_set]
      rw [if_neg fun e => ha e.symm, hr]
    · rintro ⟨k, r, hr, ha, hk⟩
      rw [hanch] at hk
      have h1 : 1 = (s2.roads.set k0 { r0 with planview := st.pv }).keys.countP (fun x => decide (x = k0)) := by
        rw [hkeys]
        have := List.count_eq_one_of_mem hn (Dict.mem_keys_of_get? q1)
        rw [List.count] at this
        rw [← this]
        exact List.countP_congr fun x _ => by simp
      rw [countAdj_keys _ (by rw [hkeys]; exact hn)]
      rw [h1]
      refine countP_lt (a := k) ?_ (by rw [hkeys]; exact Dict.mem_keys_of_get? hr) (by simpa using hk) ?_
      · intro x _ hx
        obtain rfl : x = k0 := by simpa using hx
        simp [Dict.get?_set, (adjustGeometries_gen q2).adjusted]
      · simp [Dict.get?_set, hr, ha, if_neg (fun e : k0 = k => hk e.symm)]
  · rename_i hc
    cases h
    obtain ⟨k1, r1, g1, g2⟩ : ∃ k r, net.roads.get? k = some r ∧ r.planview.fixed = true := by
      rw [i1] at hc
      have := List.countP_pos_iff.mp (Nat.pos_of_ne_zero hc)
      obtain ⟨k, -, hk⟩ := this
      cases hg : net.roads.get? k with
      | none => simp [hg] at hk
      | some r => simp [hg] at hk; exact ⟨k, r, hg, hk⟩
    have hanch : ∀ k r, net.roads.get? k = some r → (Anchor net.roads k ↔ r.planview.fixed = true) := by
      intro k r hr
      constructor
      · rintro (⟨r', hr', hf⟩ | ⟨hf, -⟩)
        · rw [hr] at hr'; cases hr'; exact hf
        · rw [hf k1 r1 g1] at g2; cases g2
      · intro hf
        exact .inl ⟨r, hr, hf⟩
    refine ⟨i2, ?_, ?_, ?_⟩
    · intro k r hr ha
      have := i4 k (Dict.mem_keys_of_get? hr) r hr
      rwa [if_pos ((hanch k r hr).mp ha)] at this
    · intro k r hr ha
      have := i4 k (Dict.mem_keys_of_get? hr) r hr
      rwa [if_neg (fun e => ha ((hanch k r hr).mpr e))] at this
    · rintro ⟨k, r, hr, ha, hk⟩
      have hkf : r.planview.fixed = false := by
        cases hf : r.planview.fixed with
        | false => rfl
        | true => exact absurd ((hanch k r hr).mpr hf) hk
      rw [countAdj_keys _ (by rw [i2]; exact hn), i1, i2]
      refine countP_lt (a := k) ?_ (Dict.mem_keys_of_get? hr) (by simp [hr, hkf]) ?_
      · intro x hx hx'
        cases hg : net.roads.get? x with
        | none => simp [hg] at hx'
        | some q =>
          simp only [hg, Option.map_some, Option.getD_some] at hx'
          have := i4 x hx q hg
          rw [if_pos hx'] at this
          obtain ⟨g, st, q1, q2⟩ := this
          rw [q2]
          simp [(adjustGeometries_gen q1).adjusted]
      · have := i4 k (Dict.mem_keys_of_get? hr) r hr
        rw [if_neg (by simp [hkf])] at this
        simp [this, ha]

/-- C80: if `adjust_startpoints` returns normally, every road that was adjusted before is one of those from which the
placement starts: a road with a given start pose or, if there is none, the first road. -/
theorem C80_anchors (net net' : Net F) (hn : net.roads.keys.Nodup) (h : Net.adjustStartpoints net = .ok () net') (k : String)
    (r : Road F) (hr : net.roads.get? k = some r) (ha : r.planview.adjusted = true) : Anchor net.roads k := by
  by_contra hk
  rw [adjustStartpoints_eq] at h
  replace h := bind_ok.mp h; obtain ⟨c, s1, h1, h⟩ := h
  obtain ⟨i1, -, -, i4⟩ := anchors_any hn h1
  have hlt := i4 ⟨k, r, hr, ha, hk⟩
  obtain ⟨m, hm, hh⟩ := passes_history (roads0 := net.roads) _ _ _ _ rfl h
  have h2 := hh.count
  have h3 : countAdj net'.roads ≤ net'.roads.length := List.countP_le_length
  have h4 : net'.roads.length = net.roads.keys.length := by
    have := congrArg List.length (hh.same.1.trans i1)
    simpa [Dict.keys] using this
  omega

/-- C80: and each road that was adjusted before has its geometries once more: they are appended to those it had. -/
theorem C80_doubled (net net' : Net F) (hn : net.roads.keys.Nodup) (h : Net.adjustStartpoints net = .ok () net') (k : String)
    (r : Road F) (hr : net.roads.get? k = some r) (ha : r.planview.adjusted = true) :
    ∃ r', net'.roads.get? k = some r' ∧
      r'.planview.adjGeoms.map (·.geom) = r.planview.adjGeoms.map (·.geom) ++ r.planview.raw := by
  have hk := C80_anchors net net' hn h k r hr ha
  rw [adjustStartpoints_eq] at h
  replace h := bind_ok.mp h; obtain ⟨c, s1, h1, h⟩ := h
  obtain ⟨-, i2, -, -⟩ := anchors_any hn h1
  obtain ⟨g, st, q1, q2⟩ := i2 k r hr hk
  obtain ⟨m, hm, hh⟩ := passes_history (roads0 := net.roads) _ _ _ _ rfl h
  refine ⟨_, hh.keep q2 (adjustGeometries_gen q1).adjusted, ?_⟩
  have := (adjustGeometries_gen q1).refs
  simpa using this

theorem pass_good {E : Eval F} {net0 : Net F} (hw : Placeable E net0) (ks : List String) : ∀ {net : Net F},
    Good E net0 net → (∀ k ∈ ks, k ∈ net0.roads.keys) → ∃ c net', Net.pass ks net = .ok c net' ∧ Good E net0 net' := by
  induction ks with
  | nil => intro net hg _; exact ⟨0, net, rfl, hg⟩
  | cons k ks ih =>
    intro net hg hks
    obtain ⟨c1, s1, h1, g1⟩ := hg.visit hw (hks k (by simp))
    obtain ⟨c2, s2, h2, g2⟩ := ih g1 (fun k' hk' => hks k' (by simp [hk']))
    refine ⟨c1 + c2, s2, ?_, g2⟩
    unfold Net.pass
    rw [bind_of_ok h1, bind_of_ok h2]
    rfl

theorem passes_good {E : Eval F} {net0 : Net F} (hw : Placeable E net0) (n : Nat) : ∀ (j total : Nat) (net : Net F),
    n - total = j → Good E net0 net →
    (∃ net', Net.passes n total net0.roads.keys net = .ok () net') ∨
    ∃ net', Net.passes n total net0.roads.keys net = .error .undefinedRoadNetwork net' := by
  intro j
  induction j using Nat.strong_induction_on with
  | _ j ih =>
    intro total net hj hg
    rw [Net.passes]
    split
    · rename_i hlt
      obtain ⟨c, s1, h1, g1⟩ := pass_good hw net0.roads.keys hg (fun k hk => hk)
      rw [bind_of_ok h1]
      split
      · exact .inr ⟨s1, rfl⟩
      · rename_i hcc
        exact ih (n - (total + c)) (by omega) (total + c) s1 rfl g1
    · exact .inl ⟨net, rfl⟩

/-- A state in which roads of `net0` are adjusted already: the only exception is `UndefinedRoadNetwork`. -/
theorem startpoints_good {E : Eval F} {net0 net : Net F} (hw : Placeable E net0) (hg : Good E net0 net) :
    (∃ net', Net.adjustStartpoints net = .ok () net') ∨ ∃ net', Net.adjustStartpoints net = .error .undefinedRoadNetwork net' := by
  have heq : Net.adjustStartpoints net =
      (placeAnchors net >>= fun c => Net.passes net.roads.keys.length c net.roads.keys) net := adjustStartpoints_eq net
  obtain ⟨c, s1, h1, g1⟩ : ∃ c s1, placeAnchors net net = .ok c s1 ∧ Good E net0 s1 := by
    obtain ⟨c, s1, h1, g1⟩ := adjustFixed_good hw net.roads.keys hg (fun k hk => by rw [← hg.same.1]; exact hk)
    unfold placeAnchors
    rw [bind_of_ok h1]
    split
    · obtain ⟨k, hk⟩ : ∃ k, net.roads.keys.head? = some k := by
        rw [hg.same.1]
        cases h : net0.roads with
        | nil => exact absurd h hw.nonempty
        | cons a l => exact ⟨a.1, rfl⟩
      rw [hk, bind_of_ok (orRaise_some _)]
      obtain ⟨s2, h2, g2⟩ := g1.adjustPlanview hw (by rw [← hg.same.1]; exact List.mem_of_head? hk) false
      rw [bind_of_ok h2]
      exact ⟨1, s2, rfl, g2⟩
    · exact ⟨c, s1, rfl, g1⟩
  rw [heq, bind_of_ok h1, hg.same.1]
  exact passes_good hw _ _ _ _ rfl g1

end

/-- The shapes of the geometries stay as they are when roads are placed. -/
theorem history_shapes {roads0 : Dict (Road ℝ)} {a b : Net ℝ} {m : Nat} (h : History roads0 a m b)
    (ha : ∀ k r, a.roads.get? k = some r → Evaluable a.geoms r.planview) : SameShapes a.geoms b.geoms := by
  have put : ∀ {x y : Net ℝ} {k : String} {p : Pose ℝ → Pose ℝ} {e : Bool} {m : Nat}, History roads0 a m x → Put x k p e y →
      SameShapes a.geoms x.geoms → SameShapes a.geoms y.geoms := by
    rintro x y k p e m hx ⟨r, st, q1, -, q3, rfl⟩ hs
    obtain ⟨r0, g1, g2⟩ := hx.same.2 k r q1
    have hev : Evaluable x.geoms (r.planview.setStartPoint (p r.planview.present)) :=
      Evaluable.mono (ha k r0 g1) hs ⟨g2.2.1, g2.2.2.1, g2.2.2.2⟩
    obtain ⟨st', q4, q5⟩ := adjust_total e _ _ hev
    rw [q3] at q4; cases q4
    exact fun i => (q5 i).trans (hs i)
  induction h with
  | refl => exact fun _ => rfl
  | anchor hx _ hp ih => exact put hx hp ih
  | place hx _ hp ih =>
    obtain ⟨_, _, _, _, _, _, _, hput⟩ := hp
    exact put hx hput ih

/-- New roads after old ones. -/
theorem foldl_addRoad_onto {F : Type} (new : List (Road F)) : ∀ (d : Dict (Road F)), (new.map fun r => r.id.toStr).Nodup →
    (∀ r ∈ new, r.id.toStr ∉ d.keys) →
    (new.foldl addRoad d).keys = d.keys ++ new.map (fun r => r.id.toStr) ∧
    (∀ r ∈ new, (new.foldl addRoad d).get? r.id.toStr = some r) ∧
    ∀ k, k ∉ new.map (fun r => r.id.toStr) → (new.foldl addRoad d).get? k = d.get? k := by
  induction new with
  | nil => intro d _ _; simp
  | cons r rs ih =>
    intro d hn hd
    rw [List.map_cons, List.nodup_cons] at hn
    have hk : (addRoad d r).keys = d.keys ++ [r.id.toStr] := by
      rw [addRoad, Dict.keys_set, if_neg (hd r (by simp))]
    obtain ⟨h1, h2, h3⟩ := ih (addRoad d r) hn.2 (by
      intro q hq
      rw [hk, List.mem_append, List.mem_singleton, not_or]
      refine ⟨hd q (by simp [hq]), fun e => hn.1 ?_⟩
      rw [← e]
      exact List.mem_map_of_mem hq)
    rw [List.foldl_cons]
    refine ⟨by rw [h1, hk]; simp, ?_, ?_⟩
    · intro q hq
      rcases List.mem_cons.mp hq with rfl | hq
      · rw [h3 _ hn.1, addRoad, Dict.get?_set, if_pos rfl]
      · exact h2 q hq
    · intro k hk'
      rw [List.map_cons, List.mem_cons, not_or] at hk'
      rw [h3 k hk'.2, addRoad, Dict.get?_set, if_neg fun e => hk'.1 e.symm]

/-- C80: a network cannot be built in two steps. Suppose all roads together form a network on which only the links decide
whether they can be placed (so that adding all of them before the adjustment is fine, C20), and the adjustment of the old
roads alone succeeds. If there are at least two old roads, one of them without a given start pose, then adding the new
roads and adjusting again raises `UndefinedRoadNetwork`, however the new roads are linked. -/
theorem C80_grow (old new : List (Road ℝ)) (geoms : Store (Geom ℝ))
    (hids : ((old ++ new).map fun r => r.id.toStr).Nodup)
    (hw : WellFormed ⟨(old ++ new).foldl addRoad [], geoms⟩) (net : Net ℝ)
    (h : Net.adjustStartpoints ⟨old.foldl addRoad [], geoms⟩ = .ok () net) (htwo : 2 ≤ old.length)
    (hfree : ∃ r ∈ old, r.planview.fixed = false) :
    ∃ net', Net.adjustStartpoints ⟨new.foldl addRoad net.roads, net.geoms⟩ = .error .undefinedRoadNetwork net' := by
  have hn' := hids
  rw [List.map_append, List.nodup_append] at hn'
  obtain ⟨hno, hnn, hdis⟩ := hn'
  obtain ⟨a1, a2⟩ := foldl_addRoad_distinct (old ++ new) hids
  obtain ⟨o1, o2⟩ := foldl_addRoad_distinct old hno
  have hfresh : Fresh (old.foldl addRoad []) := by
    intro k r hr
    obtain ⟨r1, r2⟩ := (o2 k r).mp hr
    exact hw.fresh k r ((a2 k r).mpr ⟨by simp [r1], r2⟩)
  have hnod : (old.foldl addRoad []).keys.Nodup := by rw [o1]; exact hno
  obtain ⟨m, hh, -⟩ := startpoints_history (net := ⟨_, geoms⟩) hnod hfresh h
  have hkeys : net.roads.keys = old.map fun r => r.id.toStr := hh.same.1.trans o1
  obtain ⟨n1, n2, n3⟩ := foldl_addRoad_onto new net.roads hnn (by
    intro r hr hk
    rw [hkeys] at hk
    exact hdis _ hk _ (List.mem_map_of_mem hr) rfl)
  have hget : ∀ k r, (new.foldl addRoad net.roads).get? k = some r →
      (r ∈ new ∧ r.id.toStr = k) ∨ net.roads.get? k = some r ∧ k ∉ new.map fun r => r.id.toStr := by
    intro k r hr
    by_cases hk : k ∈ new.map fun r => r.id.toStr
    · obtain ⟨q, hq, rfl⟩ := List.mem_map.mp hk
      rw [n2 q hq] at hr
      cases hr
      exact .inl ⟨hq, rfl⟩
    · exact .inr ⟨by rw [← n3 k hk]; exact hr, hk⟩
  have hsh : SameShapes geoms net.geoms := history_shapes hh (fun k r hr => by
    obtain ⟨r1, r2⟩ := (o2 k r).mp hr
    exact hw.evaluable k r ((a2 k r).mpr ⟨by simp [r1], r2⟩))
  have hall : ∀ k r, net.roads.get? k = some r → r.planview.adjusted = true := fun k r hr =>
    startpoints_all (net := ⟨_, geoms⟩) hnod hfresh h hr
  have hgood : Good realEval ⟨(old ++ new).foldl addRoad [], geoms⟩ ⟨new.foldl addRoad net.roads, net.geoms⟩ := by
    refine ⟨⟨?_, ?_⟩, ?_, ?_⟩
    · rw [n1, a1, hkeys, List.map_append]
    · intro k r hr
      rcases hget k r hr with ⟨h1, h2⟩ | ⟨h1, -⟩
      · exact ⟨r, (a2 k r).mpr ⟨by simp [h1], h2⟩, .refl r⟩
      · obtain ⟨r0, q1, q2⟩ := hh.same.2 k r h1
        obtain ⟨q3, q4⟩ := (o2 k r0).mp q1
        exact ⟨r0, (a2 k r0).mpr ⟨by simp [q3], q4⟩, q2⟩
    · intro pv hpv
      exact Evaluable.mono hpv hsh ⟨rfl, rfl, rfl⟩
    · intro k r hr ha
      rcases hget k r hr with ⟨h1, h2⟩ | ⟨h1, -⟩
      · rw [(hw.fresh k r ((a2 k r).mpr ⟨by simp [h1], h2⟩)).1] at ha
        cases ha
      · obtain ⟨r0, q1, q2⟩ := hh.inv rfl hfresh k r h1
        obtain ⟨-, b, p, g, st, q3, q4⟩ := q2.of_adjusted (hall k r h1)
        have := adjustGeometries_gen q3
        rw [q4]
        exact ⟨⟨_, this.start⟩, ⟨_, this.stop⟩⟩
  have hnn' : (new.foldl addRoad net.roads).keys.Nodup := by
    rw [n1, hkeys, ← List.map_append]; exact hids
  rcases startpoints_good hw.placeable hgood with ⟨net', h'⟩ | h'
  · exfalso
    have hanch := C80_anchors ⟨new.foldl addRoad net.roads, net.geoms⟩ net' hnn' h'
    have hold : ∀ r ∈ old, ∃ q, (new.foldl addRoad net.roads).get? r.id.toStr = some q ∧ q.planview.adjusted = true ∧
        q.planview.fixed = r.planview.fixed := by
      intro r hr
      obtain ⟨q, q1, q2⟩ := hh.same.fwd ((o2 _ r).mpr ⟨hr, rfl⟩)
      refine ⟨q, ?_, hall _ q q1, q2.2.1⟩
      rw [n3, q1]
      intro hk
      exact hdis _ (List.mem_map_of_mem (f := fun r : Road ℝ => r.id.toStr) hr) _ hk rfl
    obtain ⟨r, hr, hf⟩ := hfree
    obtain ⟨q, q1, q2, q3⟩ := hold r hr
    rcases hanch _ q q1 q2 with ⟨q', g1, g2⟩ | ⟨g1, g2⟩
    · rw [q1] at g1; cases g1
      rw [q3, hf] at g2; cases g2
    · -- no road has a given start: only the first road may be adjusted
      have hhead : ∀ t ∈ old, some t.id.toStr = (new.foldl addRoad net.roads).keys.head? := by
        intro t ht
        obtain ⟨u, u1, u2, u3⟩ := hold t ht
        rcases hanch _ u u1 u2 with ⟨u', v1, v2⟩ | ⟨-, v2⟩
        · rw [g1 _ _ v1] at v2; cases v2
        · exact v2.symm
      have e1 := hhead old[0] (by simp)
      have e2 := hhead old[1] (by simp)
      rw [← e1] at e2
      have := (List.nodup_iff_getElem?_ne_getElem?.mp hno) 0 1 (by omega) (by rw [List.length_map]; omega)
      rw [List.getElem?_map, List.getElem?_map, List.getElem?_eq_getElem (by omega), List.getElem?_eq_getElem (by omega)] at this
      exact this e2.symm
  · exact h'

/-! ## Non-vacuity -/

/-- Roads 1 and 2 of the example network. -/
noncomputable def exOld : List (Road ℝ) := [exRoad 1 (-1) 0 none none 0,
  exRoad 2 (-1) 1 (some ⟨.predecessor, .int 1, some .road, some .end, none⟩) none 1]

/-- Roads 3 and 4. -/
noncomputable def exNew : List (Road ℝ) := [exRoad 3 5 2 (some ⟨.predecessor, .int 2, some .road, some .end, none⟩)
  (some ⟨.successor, .int 4, some .road, some .start, none⟩) 0, exRoad 4 (-1) 3 none none 0]

theorem exOld_placed : ∃ net, Net.adjustStartpoints (⟨exOld.foldl addRoad [], exNet.geoms⟩ : Net ℝ) = .ok () net := by
  have e1 : strInt 1 = "1" := by decide
  have e2 : strInt 2 = "2" := by decide
  have hd : exOld.foldl addRoad [] = [("1", exRoad 1 (-1) 0 none none 0),
      ("2", exRoad 2 (-1) 1 (some ⟨.predecessor, .int 1, some .road, some .end, none⟩) none 1)] := by
    simp [exOld, addRoad, Dict.set, exRoad, Road.new, PyId.toStr, e1, e2]
  rw [hd]
  have hget : ∀ {k : String} {r : Road ℝ}, Dict.get? [("1", exRoad 1 (-1) 0 none none 0),
      ("2", exRoad 2 (-1) 1 (some ⟨.predecessor, .int 1, some .road, some .end, none⟩) none 1)] k = some r →
      (k = "1" ∧ r = exRoad 1 (-1) 0 none none 0) ∨
      (k = "2" ∧ r = exRoad 2 (-1) 1 (some ⟨.predecessor, .int 1, some .road, some .end, none⟩) none 1) := by
    intro k r h
    simp only [Dict.get?] at h
    repeat' split at h
    all_goals first | (cases h; done) | skip
    all_goals (cases h; subst_vars; simp)
  refine (C20_succeeds_iff _ ⟨by simp, by decide, ?_, ?_, ?_, ?_, ?_, ?_⟩).mpr ?_
  · intro k r h
    rcases hget h with ⟨_, rfl⟩ | ⟨_, rfl⟩ <;> exact ⟨rfl, rfl⟩
  · intro k r l h hl
    rcases hget h with ⟨_, rfl⟩ | ⟨_, rfl⟩ <;> rcases hl with hl | hl <;> cases hl <;> simp [PyId.toStr, e1, Dict.keys]
  · intro k r l h hl ht
    rcases hget h with ⟨_, rfl⟩ | ⟨_, rfl⟩ <;> rcases hl with hl | hl <;> cases hl <;> simp
  · intro k r h
    rcases hget h with ⟨_, rfl⟩ | ⟨_, rfl⟩ <;> exact ⟨fun g _ => by simp [exNet, shapeOf], .inl rfl⟩
  · intro k r l h ht hl
    rcases hget h with ⟨_, rfl⟩ | ⟨_, rfl⟩ <;> exact absurd rfl ht
  · intro k r h _
    rcases hget h with ⟨_, rfl⟩ | ⟨_, rfl⟩ <;> rfl
  · intro k hk
    have h1 : Reachable [("1", exRoad 1 (-1) 0 none none 0),
      ("2", exRoad 2 (-1) 1 (some ⟨.predecessor, .int 1, some .road, some .end, none⟩) none 1)] "1" := by
      refine .anchor (.inr ⟨fun k r h => ?_, rfl⟩)
      rcases hget h with ⟨_, rfl⟩ | ⟨_, rfl⟩ <;> rfl
    simp only [Dict.keys, List.map_cons, List.map_nil, List.mem_cons, List.not_mem_nil, or_false] at hk
    rcases hk with rfl | rfl
    · exact h1
    · refine .step (nb := "1") (e := .start) (e' := .end) ?_ h1
      have := PlacedBy.pred (roads := [("1", exRoad 1 (-1) 0 none none 0),
        ("2", exRoad 2 (-1) 1 (some ⟨.predecessor, .int 1, some .road, some .end, none⟩) none 1)]) (k := "2") (cp := .end)
        (l := ⟨.predecessor, .int 1, some .road, some .end, none⟩) rfl rfl (by simp) rfl
      simpa only [PyId.toStr, e1] using this

/-- C80 on the example network: all four roads at once can be placed (`exNet_placed`), two and then two more cannot. -/
example : ∃ net net', Net.adjustStartpoints (⟨exOld.foldl addRoad [], exNet.geoms⟩ : Net ℝ) = .ok () net ∧
    Net.adjustStartpoints ⟨exNew.foldl addRoad net.roads, net.geoms⟩ = .error .undefinedRoadNetwork net' := by
  have e1 : strInt 1 = "1" := by decide
  have e2 : strInt 2 = "2" := by decide
  have e3 : strInt 3 = "3" := by decide
  have e4 : strInt 4 = "4" := by decide
  obtain ⟨net, h⟩ := exOld_placed
  obtain ⟨net', h'⟩ := C80_grow exOld exNew exNet.geoms
    (by simp [exOld, exNew, exRoad, Road.new, PyId.toStr, e1, e2, e3, e4])
    (by
      have : (exOld ++ exNew).foldl addRoad [] = exNet.roads := by
        simp [exOld, exNew, addRoad, Dict.set, exRoad, Road.new, PyId.toStr, e1, e2, e3, e4, exNet]
      rw [this]
      exact exNet_wellFormed) net h (by simp [exOld]) ⟨exRoad 1 (-1) 0 none none 0, by simp [exOld], rfl⟩
  exact ⟨net, net', h, h'⟩

end Pyodrx.Props
