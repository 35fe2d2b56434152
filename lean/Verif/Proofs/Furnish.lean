import Verif.Proofs.Dress
import Verif.Spec.Furnish
import Verif.Props.SignalsObjects
import Verif.Props.JunctionProgram
import Verif.Props.ReadNetwork

/-! # Proofs about programs that give signals and objects to roads -/

namespace Pyodrx.Props
open Pyodrx Spec

variable {F : Type}

/-! ## Ids -/

theorem _root_.Pyodrx.Spec.GoodIds.nil (used : List String) : GoodIds used [] [] :=
  ⟨rfl, List.nodup_nil, by simp, by simp, by simp⟩

theorem _root_.Pyodrx.Spec.GoodIds.append {used : List String} {g g' : List (Option PyId)} {x y : List String} (h : GoodIds used g x)
    (h' : GoodIds (used ++ x) g' y) : GoodIds used (g ++ g') (x ++ y) := by
  have hl := h.count
  refine ⟨by simp [h.count, h'.count], ?_, ?_, ?_, ?_⟩
  · refine List.nodup_append.mpr ⟨h.nodup, h'.nodup, ?_⟩
    rintro a ha b hb rfl
    exact h'.fresh a hb (by simp [ha])
  · intro i hi
    rcases List.mem_append.mp hi with hi | hi
    · exact h.fresh i hi
    · exact fun hu => h'.fresh i hi (by simp [hu])
  · intro n i hn hu ht
    by_cases hlt : n < g.length
    · rw [List.getElem?_append_left hlt] at hn
      rw [List.getElem?_append_left (by omega)]
      refine h.kept n i hn hu fun hm => ht ?_
      rw [List.take_append]
      exact List.mem_append_left _ hm
    · rw [List.getElem?_append_right (by omega)] at hn
      rw [List.getElem?_append_right (by omega)]
      rw [List.take_append] at ht
      rw [hl]
      have hx : i.toStr ∉ x := fun hm => ht (List.mem_append_left _ (by
        rw [List.take_of_length_le (by omega)]; exact hm))
      exact h'.kept _ i hn (by simp [hu, hx]) (fun hm => ht (List.mem_append_right _ (by rw [hl]; exact hm)))
  · intro n v hv hne
    by_cases hlt : n < g.length
    · rw [List.getElem?_append_left (by omega)] at hv
      rw [List.getElem?_append_left hlt] at hne
      exact h.number n v hv hne
    · rw [List.getElem?_append_right (by omega)] at hv
      rw [List.getElem?_append_right (by omega)] at hne
      rw [hl] at hv
      exact h'.number _ v hv hne

theorem _root_.Pyodrx.Spec.GoodIds.one (cls : String) (id : Option PyId) (reg : Registry) :
    GoodIds (regOf reg cls).used [id] [(updateId cls id reg).1.toStr] := by
  refine ⟨rfl, by simp, by simpa using (C36_fresh cls id reg).1, ?_, ?_⟩
  · intro n i hn hu _
    cases n with
    | zero =>
      simp only [List.getElem?_cons_zero, Option.some.injEq] at hn
      subst hn
      simp [(C36_kept cls i reg hu).1]
    | succ n => simp at hn
  · intro n x hx hne
    cases n with
    | zero =>
      simp only [List.getElem?_cons_zero, Option.some.injEq] at hx hne
      subst hx
      obtain ⟨m, -, -, -, hm, -⟩ := C36_assigned cls id reg (by
        intro i hi
        by_contra hu
        subst hi
        exact hne i rfl (by rw [(C36_kept cls i reg hu).1]))
      exact ⟨m, by rw [hm]; rfl⟩
    | succ n => simp at hx

theorem usedIds_eq (so : SOState F) (cls : String) : usedIds so cls = (regOf so.reg cls).used := by
  unfold usedIds regOf
  cases so.reg.get? cls <;> rfl

/-! ## What is stored -/

/-- Things of one class were created and registered, one after the other: `refs` are the new objects. -/
structure Gained {α : Type} (getId : α → Option PyId) (setId : PyId → α → α) (st st' : Store α) (used used' : List String)
    (given : List α) (refs : List Nat) : Prop where
  next : st.next ≤ st'.next
  old : ∀ i, i < st.next → st'.cell i = st.cell i
  range : ∀ i ∈ refs, i < st'.next
  ids : ∃ got : List PyId, GoodIds used (given.map getId) (got.map PyId.toStr) ∧ used' = used ++ got.map PyId.toStr ∧
    refs.map st'.cell = List.zipWith setId got given

section
variable {α : Type} {getId : α → Option PyId} {setId : PyId → α → α}

theorem Gained.refl (st : Store α) (used : List String) : Gained getId setId st st used used [] [] :=
  ⟨Nat.le_refl _, fun _ _ => rfl, by simp, [], GoodIds.nil _, by simp, rfl⟩

theorem Gained.trans {a b c : Store α} {u v w : List String} {g g' : List α} {r r' : List Nat}
    (h : Gained getId setId a b u v g r) (h' : Gained getId setId b c v w g' r') :
    Gained getId setId a c u w (g ++ g') (r ++ r') := by
  obtain ⟨got, h1, h2, h3⟩ := h.ids
  obtain ⟨got', h1', h2', h3'⟩ := h'.ids
  refine ⟨Nat.le_trans h.next h'.next, fun i hi => ?_, ?_, got ++ got', ?_, ?_, ?_⟩
  · rw [h'.old i (Nat.lt_of_lt_of_le hi h.next), h.old i hi]
  · intro i hi
    rcases List.mem_append.mp hi with hi | hi
    · exact Nat.lt_of_lt_of_le (h.range i hi) h'.next
    · exact h'.range i hi
  · rw [List.map_append, List.map_append]
    exact h1.append (by rw [← h2]; exact h1')
  · rw [h2', h2, List.map_append, List.append_assoc]
  · have hc := h1.count
    rw [List.length_map, List.length_map] at hc
    rw [List.map_append, h3', List.zipWith_append hc, ← h3]
    congr 1
    exact List.map_congr_left fun i hi => h'.old i (h.range i hi)

/-- One `_update_id`. -/
def register (getId : α → Option PyId) (setId : PyId → α → α) (cls : String) (x : Store α × Registry) (o : Nat) :
    Store α × Registry :=
  (x.1.modify o (setId (updateId cls (getId (x.1.cell o)) x.2).1), (updateId cls (getId (x.1.cell o)) x.2).2)

theorem register_all (cls : String) (os : List Nat) (hn : os.Nodup) (x : Store α × Registry) :
    (∃ got : List PyId, GoodIds (regOf x.2 cls).used (os.map fun o => getId (x.1.cell o)) (got.map PyId.toStr) ∧
      (regOf (os.foldl (register getId setId cls) x).2 cls).used = (regOf x.2 cls).used ++ got.map PyId.toStr ∧
      os.map (os.foldl (register getId setId cls) x).1.cell = List.zipWith setId got (os.map x.1.cell)) ∧
    (os.foldl (register getId setId cls) x).1.next = x.1.next ∧
    (∀ i, i ∉ os → (os.foldl (register getId setId cls) x).1.cell i = x.1.cell i) ∧
    ∀ cls', cls' ≠ cls → regOf (os.foldl (register getId setId cls) x).2 cls' = regOf x.2 cls' := by
  induction os generalizing x with
  | nil => exact ⟨⟨[], GoodIds.nil _, by simp, rfl⟩, rfl, fun _ _ => rfl, fun _ _ => rfl⟩
  | cons o os ih =>
    obtain ⟨ho, hn⟩ := List.nodup_cons.mp hn
    obtain ⟨⟨got, g1, g2, g3⟩, h2, h3, h4⟩ := ih hn (register getId setId cls x o)
    obtain ⟨f1, f2, -, f4⟩ := C36_fresh cls (getId (x.1.cell o)) x.2
    have e : ∀ i ∈ os, (register getId setId cls x o).1.cell i = x.1.cell i := by
      intro i hi
      exact Store.modify_cell_ne _ _ (by rintro rfl; exact ho hi)
    have eo : (register getId setId cls x o).1.cell o = setId (updateId cls (getId (x.1.cell o)) x.2).1 (x.1.cell o) :=
      Store.modify_cell_same _ _ _
    have eu : (regOf (register getId setId cls x o).2 cls).used =
        (regOf x.2 cls).used ++ [(updateId cls (getId (x.1.cell o)) x.2).1.toStr] := f2
    rw [List.foldl_cons]
    refine ⟨⟨(updateId cls (getId (x.1.cell o)) x.2).1 :: got, ?_, ?_, ?_⟩, h2, ?_, ?_⟩
    · rw [eu] at g1
      have e2 : (os.map fun i => getId ((register getId setId cls x o).1.cell i)) = os.map fun i => getId (x.1.cell i) :=
        List.map_congr_left fun i hi => by rw [e i hi]
      rw [e2] at g1
      exact (GoodIds.one cls (getId (x.1.cell o)) x.2).append g1
    · rw [g2, eu]; simp
    · rw [List.map_cons, List.map_cons, List.zipWith_cons_cons, h3 o ho, eo, g3]
      congr 2
      exact List.map_congr_left e
    · intro i hi
      rw [List.mem_cons, not_or] at hi
      rw [h3 i hi.2]
      exact Store.modify_cell_ne _ _ hi.1
    · intro c' hc
      rw [h4 c' hc]
      exact f4 c' hc

end

/-! ## One call -/

/-- The object with the id. -/
def objWithId (i : PyId) (o : Obj F) : Obj F := { o with base := { o.base with id := some i } }
/-- The signal with the id. -/
def sigWithId (i : PyId) (o : Signal F) : Signal F := { o with base := { o.base with id := some i } }

abbrev objId (o : Obj F) : Option PyId := o.base.id
abbrev sigId (o : Signal F) : Option PyId := o.base.id

theorem addObject_register (os : List Nat) (st : SOState F) :
    os.foldl SOState.updateObjId st =
      { st with objs := (os.foldl (register objId objWithId "Object") (st.objs, st.reg)).1
                reg := (os.foldl (register objId objWithId "Object") (st.objs, st.reg)).2 } := by
  induction os generalizing st with
  | nil => rfl
  | cons o os ih => rw [List.foldl_cons, ih]; rfl

theorem addSignal_register (os : List Nat) (st : SOState F) :
    os.foldl SOState.updateSigId st =
      { st with sigs := (os.foldl (register sigId sigWithId "Signal") (st.sigs, st.reg)).1
                reg := (os.foldl (register sigId sigWithId "Signal") (st.sigs, st.reg)).2 } := by
  induction os generalizing st with
  | nil => rfl
  | cons o os ih => rw [List.foldl_cons, ih]; rfl

section
variable {α : Type} {getId : α → Option PyId} {setId : PyId → α → α}

/-- New things are created and registered. -/
theorem gained_new (cls : String) (l : List α) (st : Store α) (reg : Registry) :
    Gained getId setId st ((allocAll st l).2.foldl (register getId setId cls) ((allocAll st l).1, reg)).1
      (regOf reg cls).used (regOf ((allocAll st l).2.foldl (register getId setId cls) ((allocAll st l).1, reg)).2 cls).used
      l (allocAll st l).2 ∧
    ∀ cls', cls' ≠ cls → regOf ((allocAll st l).2.foldl (register getId setId cls) ((allocAll st l).1, reg)).2 cls' =
      regOf reg cls' := by
  obtain ⟨a1, a2, a3, a4⟩ := allocAll_spec l st
  have hnd : (allocAll st l).2.Nodup := by
    rw [a1]
    refine List.Nodup.map_on ?_ List.nodup_range
    intro a _ b _ e
    simpa using e
  have hmem : ∀ o ∈ (allocAll st l).2, st.next ≤ o ∧ o < (allocAll st l).1.next := by
    intro o ho
    rw [a1] at ho
    simp only [List.mem_map, List.mem_range] at ho
    obtain ⟨i, hi, rfl⟩ := ho
    rw [a2]; omega
  have hcells : (allocAll st l).2.map (allocAll st l).1.cell = l := by
    apply List.ext_getElem?
    intro i
    rw [a1, List.map_map, List.getElem?_map]
    by_cases hi : i < l.length
    · rw [List.getElem?_range hi, List.getElem?_eq_getElem hi]
      simp only [Option.map_some, Function.comp, Option.some.injEq]
      exact a4 i _ (List.getElem?_eq_getElem hi)
    · rw [List.getElem?_eq_none (by simpa using hi), List.getElem?_eq_none (by simpa using hi)]; rfl
  obtain ⟨⟨got, g1, g2, g3⟩, h2, h3, h4⟩ := register_all (getId := getId) (setId := setId) cls _ hnd ((allocAll st l).1, reg)
  refine ⟨⟨?_, ?_, ?_, got, ?_, g2, ?_⟩, h4⟩
  · rw [h2]; show st.next ≤ (allocAll st l).1.next; rw [a2]; omega
  · intro i hi
    rw [h3 i (fun hm => by have := (hmem i hm).1; omega)]
    exact a3 i hi
  · intro i hi
    rw [h2]
    exact (hmem i hi).2
  · have : (allocAll st l).2.map (fun o => getId ((allocAll st l).1.cell o)) = l.map getId := by
      conv_rhs => rw [← hcells]
      rw [List.map_map]; rfl
    rw [← this]
    exact g1
  · rw [g3]
    show List.zipWith setId got ((allocAll st l).2.map (allocAll st l).1.cell) = _
    rw [hcells]

theorem Gained.after_alloc {st st' : Store α} {x : α} {u v : List String} {g : List α} {r : List Nat}
    (h : Gained getId setId (st.alloc x).1 st' u v g r) : Gained getId setId st st' u v g r := by
  have hn : (st.alloc x).1.next = st.next + 1 := rfl
  refine ⟨by have := h.next; omega, fun i hi => ?_, h.range, h.ids⟩
  rw [h.old i (by omega)]
  simp only [Store.alloc]
  rw [if_neg (by omega)]

end

section
variable [PyFloat F]

/-- The objects a call adds to the road. -/
def _root_.Pyodrx.FurnishCall.made (lanes : Store (Lane F)) (r : Road F) : FurnishCall F → List (Obj F)
  | .signals _ => []
  | .objects l => l
  | .roadside o d sOff tOff side => (r.lanesections.flatMap (roadsideEntries lanes side)).map
      (roadsideObject o r.planview.getTotalLength d sOff tOff)

/-- Signals and objects were created, registered and added. -/
structure Gain (st st' : SOState F) (objs : List (Obj F)) (sigs : List (Signal F)) (os ss : List Nat) : Prop where
  objects : Gained objId objWithId st.objs st'.objs (usedIds st "Object") (usedIds st' "Object") objs os
  signals : Gained sigId sigWithId st.sigs st'.sigs (usedIds st "Signal") (usedIds st' "Signal") sigs ss

theorem Gain.refl (st : SOState F) : Gain st st [] [] [] [] := ⟨.refl _ _, .refl _ _⟩

theorem Gain.trans {a b c : SOState F} {o o' : List (Obj F)} {s s' : List (Signal F)} {x x' y y' : List Nat}
    (h : Gain a b o s x y) (h' : Gain b c o' s' x' y') : Gain a c (o ++ o') (s ++ s') (x ++ x') (y ++ y') :=
  ⟨h.objects.trans h'.objects, h.signals.trans h'.signals⟩

theorem run_gain (lanes : Store (Lane F)) (c : FurnishCall F) (r : Road F) (st : SOState F)
    (h : c.NeedsAdjusted → r.planview.adjusted = true) :
    ∃ os ss st', c.run lanes r st = .ok ({ r with objects := r.objects ++ os, signals := r.signals ++ ss }, st') ∧
      Gain st st' (c.made lanes r) c.signalsOf os ss := by
  cases c with
  | signals l =>
    obtain ⟨g, k⟩ := gained_new (getId := sigId) (setId := sigWithId) "Signal" l st.sigs st.reg
    refine ⟨[], (allocAll st.sigs l).2, { st with
            sigs := ((allocAll st.sigs l).2.foldl (register sigId sigWithId "Signal") ((allocAll st.sigs l).1, st.reg)).1
            reg := ((allocAll st.sigs l).2.foldl (register sigId sigWithId "Signal") ((allocAll st.sigs l).1, st.reg)).2 },
        ?_, ?_⟩
    · show Except.ok (Road.addSignal r _ _) = _
      unfold Road.addSignal
      rw [addSignal_register, List.append_nil]
    · refine ⟨?_, ?_⟩
      · show Gained _ _ st.objs st.objs _ _ [] []
        have : usedIds ({ st with
            sigs := ((allocAll st.sigs l).2.foldl (register sigId sigWithId "Signal") ((allocAll st.sigs l).1, st.reg)).1
            reg := ((allocAll st.sigs l).2.foldl (register sigId sigWithId "Signal") ((allocAll st.sigs l).1, st.reg)).2 } : SOState F)
            "Object" = usedIds st "Object" := by
          rw [usedIds_eq, usedIds_eq, k "Object" (by decide)]
        rw [this]
        exact .refl _ _
      · rw [usedIds_eq, usedIds_eq]
        exact g
  | objects l =>
    obtain ⟨g, k⟩ := gained_new (getId := objId) (setId := objWithId) "Object" l st.objs st.reg
    refine ⟨(allocAll st.objs l).2, [], { st with
            objs := ((allocAll st.objs l).2.foldl (register objId objWithId "Object") ((allocAll st.objs l).1, st.reg)).1
            reg := ((allocAll st.objs l).2.foldl (register objId objWithId "Object") ((allocAll st.objs l).1, st.reg)).2 },
        ?_, ?_⟩
    · show Except.ok (Road.addObject r _ _) = _
      unfold Road.addObject
      rw [addObject_register, List.append_nil]
    · refine ⟨?_, ?_⟩
      · rw [usedIds_eq, usedIds_eq]
        exact g
      · show Gained _ _ st.sigs st.sigs _ _ [] []
        have : usedIds ({ st with
            objs := ((allocAll st.objs l).2.foldl (register objId objWithId "Object") ((allocAll st.objs l).1, st.reg)).1
            reg := ((allocAll st.objs l).2.foldl (register objId objWithId "Object") ((allocAll st.objs l).1, st.reg)).2 } : SOState F)
            "Signal" = usedIds st "Signal" := by
          rw [usedIds_eq, usedIds_eq, k "Signal" (by decide)]
        rw [this]
        exact .refl _ _
  | roadside o d sOff tOff side =>
    have ha := h trivial
    let l := FurnishCall.made lanes r (.roadside o d sOff tOff side)
    let st1 := (st.objs.alloc o).1
    obtain ⟨g, k⟩ := gained_new (getId := objId) (setId := objWithId) "Object" l st1 st.reg
    have hc : st1.cell st.objs.next = o := by simp [st1, Store.alloc]
    have hrun : Road.addObjectRoadside lanes (st.objs.alloc o).2 d sOff tOff side (r, { st with objs := st1 }) =
        .ok () (r.addObject (allocAll st1 l).2 { st with objs := (allocAll st1 l).1 }) := by
      unfold Road.addObjectRoadside
      dsimp only
      rw [if_neg (by rw [ha]; simp)]
      have e : (st.objs.alloc o).2 = st.objs.next := rfl
      rw [e, hc]
      rfl
    refine ⟨(allocAll st1 l).2, [], { st with
            objs := ((allocAll st1 l).2.foldl (register objId objWithId "Object") ((allocAll st1 l).1, st.reg)).1
            reg := ((allocAll st1 l).2.foldl (register objId objWithId "Object") ((allocAll st1 l).1, st.reg)).2 },
        ?_, ?_⟩
    · show (match Road.addObjectRoadside lanes (st.objs.alloc o).2 d sOff tOff side (r, { st with objs := st1 }) with
        | .ok _ x => Except.ok x
        | .error e _ => .error e) = _
      rw [hrun]
      dsimp only
      unfold Road.addObject
      rw [addObject_register, List.append_nil]
    · refine ⟨?_, ?_⟩
      · rw [usedIds_eq, usedIds_eq]
        exact g.after_alloc
      · show Gained _ _ st.sigs st.sigs _ _ [] []
        have : usedIds ({ st with
            objs := ((allocAll st1 l).2.foldl (register objId objWithId "Object") ((allocAll st1 l).1, st.reg)).1
            reg := ((allocAll st1 l).2.foldl (register objId objWithId "Object") ((allocAll st1 l).1, st.reg)).2 } : SOState F)
            "Signal" = usedIds st "Signal" := by
          rw [usedIds_eq, usedIds_eq, k "Signal" (by decide)]
        rw [this]
        exact .refl _ _

/-! ## All calls -/

omit [PyFloat F] in
/-- The things of the road in the log. -/
def pick (log : List (Int × Nat)) (id : PyId) : List Nat := (log.filter fun p => decide (PyId.int p.1 = id)).map (·.2)

theorem pick_append (l l' : List (Int × Nat)) (id : PyId) : pick (l ++ l') id = pick l id ++ pick l' id := by
  simp [pick]

theorem pick_same (k : Int) (l : List Nat) : pick (l.map fun i => (k, i)) (.int k) = l := by
  unfold pick
  rw [List.filter_eq_self.mpr (by simp)]
  simp

theorem pick_other (k : Int) (l : List Nat) {id : PyId} (h : id ≠ .int k) : pick (l.map fun i => (k, i)) id = [] := by
  unfold pick
  rw [List.filter_eq_nil_iff.mpr (by
    intro p hp
    obtain ⟨i, -, rfl⟩ := List.mem_map.mp hp
    simp only [decide_eq_true_eq]
    exact fun e => h e.symm)]
  rfl

/-- The road with the things of the logs. -/
def fit (ol sl : List (Int × Nat)) (r : Road F) : Road F := r.dress (pick ol) (pick sl)

omit [PyFloat F] in
theorem fit_same (ol sl : List (Int × Nat)) (os ss : List Nat) (k : Int) (r : Road F) (h : r.id = .int k) :
    ({ fit ol sl r with objects := (fit ol sl r).objects ++ os, signals := (fit ol sl r).signals ++ ss } : Road F) =
      fit (ol ++ os.map fun i => (k, i)) (sl ++ ss.map fun i => (k, i)) r := by
  unfold fit Road.dress
  rw [pick_append, pick_append, h, pick_same, pick_same]

omit [PyFloat F] in
theorem fit_other (ol sl : List (Int × Nat)) (os ss : List Nat) (k : Int) (r : Road F) (h : r.id ≠ .int k) :
    fit (ol ++ os.map fun i => (k, i)) (sl ++ ss.map fun i => (k, i)) r = fit ol sl r := by
  unfold fit Road.dress
  rw [pick_append, pick_append, pick_other k os h, pick_other k ss h, List.append_nil, List.append_nil]

/-- All objects of the calls. -/
def madeBy (lanes : Store (Lane F)) (road : Int → Road F) (calls : List (Int × FurnishCall F)) : List (Int × Obj F) :=
  calls.flatMap fun c => (c.2.made lanes (road c.1)).map fun g => (c.1, g)

/-- The logs of some calls. -/
structure Logged (lanes : Store (Lane F)) (road : Int → Road F) (calls : List (Int × FurnishCall F)) (st st' : SOState F)
    (ol sl : List (Int × Nat)) : Prop where
  gain : Gain st st' ((madeBy lanes road calls).map (·.2)) ((orderedSignals calls).map (·.2)) (ol.map (·.2)) (sl.map (·.2))
  objects : ol.map (·.1) = (madeBy lanes road calls).map (·.1)
  signals : sl.map (·.1) = (orderedSignals calls).map (·.1)

theorem Logged.nil (lanes : Store (Lane F)) (road : Int → Road F) (st : SOState F) : Logged lanes road [] st st [] [] :=
  ⟨.refl _, rfl, rfl⟩

theorem Logged.append {lanes : Store (Lane F)} {road : Int → Road F} {calls calls' : List (Int × FurnishCall F)}
    {a b c : SOState F} {ol sl ol' sl' : List (Int × Nat)} (h : Logged lanes road calls a b ol sl)
    (h' : Logged lanes road calls' b c ol' sl') : Logged lanes road (calls ++ calls') a c (ol ++ ol') (sl ++ sl') := by
  refine ⟨?_, ?_, ?_⟩
  · have := h.gain.trans h'.gain
    simpa [madeBy, orderedSignals] using this
  · simp [h.objects, h'.objects, madeBy]
  · simp [h.signals, h'.signals, orderedSignals]

theorem Gained_length {α : Type} {getId : α → Option PyId} {setId : PyId → α → α} {st st' : Store α} {u v : List String}
    {g : List α} {r : List Nat} (h : Gained getId setId st st' u v g r) : r.length = g.length := by
  obtain ⟨got, h1, -, h3⟩ := h.ids
  have := congrArg List.length h3
  have hc := h1.count
  simp only [List.length_map, List.length_zipWith] at this hc
  omega

theorem Logged.one {lanes : Store (Lane F)} {road : Int → Road F} {k : Int} {c : FurnishCall F} {st st' : SOState F}
    {os ss : List Nat} (h : Gain st st' (c.made lanes (road k)) c.signalsOf os ss) :
    Logged lanes road [(k, c)] st st' (os.map fun i => (k, i)) (ss.map fun i => (k, i)) := by
  have h1 := Gained_length h.objects
  have h2 := Gained_length h.signals
  refine ⟨?_, ?_, ?_⟩
  · simpa [madeBy, orderedSignals, Function.comp_def] using h
  · simp [madeBy, Function.comp_def, List.map_const', h1]
  · simp [orderedSignals, Function.comp_def, List.map_const', h2]

omit [PyFloat F] in
theorem made_plain [PyFloat F] (lanes lanes' : Store (Lane F)) (c : FurnishCall F) (h : ¬ c.NeedsAdjusted) (r r' : Road F) :
    c.made lanes r = c.made lanes' r' := by
  cases c with
  | signals l => rfl
  | objects l => rfl
  | roadside => exact absurd trivial h

theorem madeBy_plain (lanes lanes' : Store (Lane F)) (road road' : Int → Road F) (calls : List (Int × FurnishCall F))
    (h : ∀ c ∈ calls, ¬ c.2.NeedsAdjusted) : madeBy lanes road calls = madeBy lanes' road' calls := by
  unfold madeBy
  refine List.flatMap_congr fun c hc => ?_
  rw [made_plain lanes lanes' c.2 (h c hc) (road c.1) (road' c.1)]

theorem Logged.plain {lanes lanes' : Store (Lane F)} {road road' : Int → Road F} {calls : List (Int × FurnishCall F)}
    {a b : SOState F} {ol sl : List (Int × Nat)} (h : Logged lanes road calls a b ol sl)
    (hp : ∀ c ∈ calls, ¬ c.2.NeedsAdjusted) : Logged lanes' road' calls a b ol sl := by
  obtain ⟨h1, h2, h3⟩ := h
  rw [madeBy_plain lanes lanes' road road' calls hp] at h1 h2
  exact ⟨h1, h2, h3⟩

theorem furnishRoad_fit (lanes : Store (Lane F)) (road : Int → Road F) (k : Int) (c : FurnishCall F) (hc : ¬ c.NeedsAdjusted)
    (ol sl : List (Int × Nat)) (roads : List (Road F)) (hn : (roads.map (·.id)).Nodup) (hk : PyId.int k ∈ roads.map (·.id))
    (st : SOState F) : ∃ os ss st', furnishRoad lanes k c (roads.map (fit ol sl)) st =
        .ok (roads.map (fit (ol ++ os.map fun i => (k, i)) (sl ++ ss.map fun i => (k, i))), st') ∧
      Gain st st' (c.made lanes (road k)) c.signalsOf os ss := by
  induction roads with
  | nil => simp at hk
  | cons r rs ih =>
    rw [List.map_cons, List.nodup_cons] at hn
    by_cases hr : r.id = .int k
    · obtain ⟨os, ss, st', h1, h2⟩ := run_gain lanes c (fit ol sl r) st (fun h => absurd h hc)
      refine ⟨os, ss, st', ?_, ?_⟩
      · rw [List.map_cons, furnishRoad, if_pos (show (fit ol sl r).id = .int k from hr), h1,
          fit_same ol sl os ss k r hr]
        show Except.ok (_, st') = _
        rw [List.map_cons]
        congr 3
        refine List.map_congr_left fun q hq => (fit_other ol sl os ss k q ?_).symm
        intro e
        exact hn.1 (List.mem_map.mpr ⟨q, hq, e.trans hr.symm⟩)
      · rwa [made_plain lanes lanes c hc _ (road k)] at h2
    · have hk' : PyId.int k ∈ rs.map (·.id) := by
        rw [List.map_cons, List.mem_cons] at hk
        exact hk.resolve_left fun e => hr e.symm
      obtain ⟨os, ss, st', h1, h2⟩ := ih hn.2 hk'
      refine ⟨os, ss, st', ?_, h2⟩
      rw [List.map_cons, furnishRoad, if_neg (show ¬ (fit ol sl r).id = .int k from hr), h1]
      show Except.ok (_, st') = _
      rw [List.map_cons, fit_other ol sl os ss k r hr]

theorem furnishRoads_fit (lanes : Store (Lane F)) (road : Int → Road F) (calls : List (Int × FurnishCall F))
    (hc : ∀ c ∈ calls, ¬ c.2.NeedsAdjusted) (roads : List (Road F)) (hn : (roads.map (·.id)).Nodup)
    (hk : ∀ c ∈ calls, PyId.int c.1 ∈ roads.map (·.id)) (ol sl : List (Int × Nat)) (st : SOState F) :
    ∃ ol' sl' st', furnishRoads lanes calls (roads.map (fit ol sl)) st =
        .ok (roads.map (fit (ol ++ ol') (sl ++ sl')), st') ∧ Logged lanes road calls st st' ol' sl' := by
  induction calls generalizing ol sl st with
  | nil => exact ⟨[], [], st, by simp [furnishRoads], .nil _ _ _⟩
  | cons c cs ih =>
    obtain ⟨os, ss, st1, h1, h2⟩ := furnishRoad_fit lanes road c.1 c.2 (hc c (by simp)) ol sl roads hn (hk c (by simp)) st
    obtain ⟨ol', sl', st2, h3, h4⟩ := ih (fun d hd => hc d (by simp [hd])) (fun d hd => hk d (by simp [hd]))
      (ol ++ os.map fun i => (c.1, i)) (sl ++ ss.map fun i => (c.1, i)) st1
    refine ⟨_, _, st2, ?_, (Logged.one h2).append h4⟩
    rw [furnishRoads, h1]
    show furnishRoads lanes cs _ st1 = _
    rw [h3, List.append_assoc, List.append_assoc]

/-- The roads of an `OpenDrive` with the things of the logs. -/
def fitDict (ol sl : List (Int × Nat)) (d : Dict (Road F)) : Dict (Road F) := dressRoads (pick ol) (pick sl) d

theorem fitDict_set (ol sl : List (Int × Nat)) (os ss : List Nat) (k : Int) (r : Road F) (d : Dict (Road F))
    (hn : d.keys.Nodup) (hd : ∀ kv ∈ d, ∃ j : Int, kv.1 = strInt j ∧ kv.2.id = .int j) (hr : d.get? (strInt k) = some r)
    (hid : r.id = .int k) :
    (fitDict ol sl d).set (strInt k) (fit (ol ++ os.map fun i => (k, i)) (sl ++ ss.map fun i => (k, i)) r) =
      fitDict (ol ++ os.map fun i => (k, i)) (sl ++ ss.map fun i => (k, i)) d := by
  induction d with
  | nil => simp [Dict.get?] at hr
  | cons kv d ih => 
    obtain ⟨key, q⟩ := kv
    obtain ⟨j, hj, hq⟩ := hd (key, q) (by simp)
    simp only at hj hq
    subst hj
    have hn' : strInt j ∉ Dict.keys d ∧ (Dict.keys d).Nodup := List.nodup_cons.mp hn
    show (if strInt j = strInt k then (strInt j, _) :: fitDict ol sl d else (strInt j, fit ol sl q) :: Dict.set (fitDict ol sl d) _ _) =
      (strInt j, fit _ _ q) :: fitDict _ _ d
    change (if strInt j = strInt k then some q else Dict.get? d (strInt k)) = some r at hr
    by_cases hjk : strInt j = strInt k
    · rw [if_pos hjk] at hr
      rw [if_pos hjk]
      obtain rfl := Option.some.inj hr
      congr 1
      refine List.map_congr_left fun x hx => ?_
      obtain ⟨j', hj', hx'⟩ := hd x (by simp [hx])
      rw [show x.2.dress (pick ol) (pick sl) = fit ol sl x.2 from rfl, ← fit_other ol sl os ss k x.2 ?_]
      · rfl
      · intro e
        rw [hx'] at e
        have e' : j' = k := PyId.int.inj e
        subst e'
        exact hn'.1 (by rw [hjk, ← hj']; exact List.mem_map_of_mem hx)
    · rw [if_neg hjk] at hr
      rw [if_neg hjk, ih hn'.2 (fun x hx => hd x (by simp [hx])) hr, fit_other ol sl os ss k q ?_]
      intro e
      rw [hq] at e
      exact hjk (by rw [PyId.int.inj e])

theorem furnishDict_fit (lanes : Store (Lane F)) (road : Int → Road F) (calls : List (Int × FurnishCall F))
    (d : Dict (Road F)) (hn : d.keys.Nodup) (hd : ∀ kv ∈ d, ∃ j : Int, kv.1 = strInt j ∧ kv.2.id = .int j)
    (ha : ∀ kv ∈ d, kv.2.planview.adjusted = true)
    (hr : ∀ c ∈ calls, d.get? (strInt c.1) = some (road c.1)) (ol sl : List (Int × Nat)) (st : SOState F) :
    ∃ ol' sl' st', furnishDict lanes calls (fitDict ol sl d) st = .ok (fitDict (ol ++ ol') (sl ++ sl') d, st') ∧
      Logged lanes road calls st st' ol' sl' := by
  induction calls generalizing ol sl st with
  | nil => exact ⟨[], [], st, by simp [furnishDict], .nil _ _ _⟩
  | cons c cs ih =>
    have hc := hr c (by simp)
    have hm := Dict.get?_some_mem hc
    obtain ⟨j, hj, hid⟩ := hd _ hm
    have hjk : c.1 = j := strInt_injective hj
    subst hjk
    obtain ⟨os, ss, st1, h1, h2⟩ := run_gain lanes c.2 (fit ol sl (road c.1)) st (fun _ => ha _ hm)
    obtain ⟨ol', sl', st2, h3, h4⟩ := ih (fun x hx => hr x (by simp [hx]))
      (ol ++ os.map fun i => (c.1, i)) (sl ++ ss.map fun i => (c.1, i)) st1
    have h2' : Gain st st1 (c.2.made lanes (road c.1)) c.2.signalsOf os ss := by
      have e : c.2.made lanes (fit ol sl (road c.1)) = c.2.made lanes (road c.1) := by cases c.2 <;> rfl
      rw [← e]; exact h2
    refine ⟨_, _, st2, ?_, (Logged.one h2').append h4⟩
    have hg : (fitDict ol sl d).get? (strInt c.1) = some (fit ol sl (road c.1)) := by
      unfold fitDict
      rw [dressRoads_get, hc]; rfl
    rw [furnishDict, hg]
    show (c.2.run lanes (fit ol sl (road c.1)) st >>= fun x => _) = _
    rw [h1, fit_same ol sl os ss c.1 _ hid]
    show furnishDict lanes cs ((fitDict ol sl d).set _ _) st1 = _
    rw [fitDict_set ol sl os ss c.1 _ d hn hd hc hid, h3, List.append_assoc, List.append_assoc]

end

end Pyodrx.Props
