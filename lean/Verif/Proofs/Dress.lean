import Verif.Proofs.Monad
import Verif.Model.Examples

/-! # The signals and objects of roads do not influence the placement of roads and the links of lanes -/

namespace Pyodrx
open PyFloat

variable {F : Type}

/-- The road with these objects and signals. -/
def Road.dress (o s : PyId → List Nat) (r : Road F) : Road F := { r with objects := o r.id, signals := s r.id }

def dressRoads (o s : PyId → List Nat) (d : Dict (Road F)) : Dict (Road F) := d.map fun kv => (kv.1, kv.2.dress o s)

def Net.dress (o s : PyId → List Nat) (net : Net F) : Net F := { net with roads := dressRoads o s net.roads }

def World.dress (o s : PyId → List Nat) (w : World F) : World F := { w with net := w.net.dress o s }

/-- The result with another value and state. -/
def mapResult {σ τ α β : Type} (f : α → β) (g : σ → τ) : EStateM.Result PyErr σ α → EStateM.Result PyErr τ β
  | .ok a s => .ok (f a) (g s)
  | .error e s => .error e (g s)

variable (o s : PyId → List Nat)

theorem dressRoads_get (d : Dict (Road F)) (k : String) : (dressRoads o s d).get? k = (d.get? k).map (Road.dress o s) := by
  induction d with
  | nil => rfl
  | cons kv d ih =>
    obtain ⟨k', r⟩ := kv
    change (if k' = k then some (r.dress o s) else Dict.get? (dressRoads o s d) k) =
      (if k' = k then some r else Dict.get? d k).map _
    split
    · rfl
    · exact ih

theorem dressRoads_keys (d : Dict (Road F)) : (dressRoads o s d).keys = d.keys := by
  simp [dressRoads, Dict.keys, Function.comp_def]

theorem dressRoads_set (d : Dict (Road F)) (k : String) (r : Road F) :
    dressRoads o s (d.set k r) = (dressRoads o s d).set k (r.dress o s) := by
  induction d with
  | nil => rfl
  | cons kv d ih =>
    obtain ⟨k', r'⟩ := kv
    change dressRoads o s (if k' = k then (k', r) :: d else (k', r') :: Dict.set d k r) =
      (if k' = k then (k', r.dress o s) :: dressRoads o s d else (k', r'.dress o s) :: Dict.set (dressRoads o s d) k (r.dress o s))
    split
    · rfl
    · rw [← ih]; rfl

theorem dressRoads_add (roads : List (Road F)) (d : Dict (Road F)) :
    dressRoads o s (roads.foldl addRoad d) = (roads.map (Road.dress o s)).foldl addRoad (dressRoads o s d) := by
  induction roads generalizing d with
  | nil => rfl
  | cons r rs ih => rw [List.map_cons, List.foldl_cons, List.foldl_cons, ih]; congr 1; exact dressRoads_set o s d _ r

/-- Running the second program on the dressed network has the result of the first one, dressed. -/
def Commutes {α β : Type} (f : α → β) (m : EStateM PyErr (Net F) α) (m' : EStateM PyErr (Net F) β) : Prop :=
  ∀ net, m' (net.dress o s) = mapResult f (Net.dress o s) (m net)

variable {o s}

theorem Commutes.bind {α β γ δ : Type} {f : α → β} {g : γ → δ} {m : EStateM PyErr (Net F) α} {m' : EStateM PyErr (Net F) β}
    {k : α → EStateM PyErr (Net F) γ} {k' : β → EStateM PyErr (Net F) δ} (h : Commutes o s f m m')
    (hk : ∀ a, Commutes o s g (k a) (k' (f a))) : Commutes o s g (m >>= k) (m' >>= k') := by
  intro net
  have hn := h net
  cases hm : m net with
  | error e st =>
    rw [hm] at hn
    rw [bind_of_error hm, bind_of_error hn]
    rfl
  | ok a st =>
    rw [hm] at hn
    rw [bind_of_ok hm, bind_of_ok hn]
    exact hk a st

theorem Commutes.pure {α β : Type} {f : α → β} {a : α} {b : β} (h : b = f a) :
    Commutes (F := F) o s f (Pure.pure a) (Pure.pure b) := by subst h; exact fun _ => rfl

theorem Commutes.raise {α β : Type} {f : α → β} {e : PyErr} :
    Commutes (F := F) o s f (Pyodrx.raise e) (Pyodrx.raise e) := fun _ => rfl

theorem Commutes.orRaise {α : Type} {e : PyErr} {x : Option α} :
    Commutes (F := F) o s id (Pyodrx.orRaise e x) (Pyodrx.orRaise e x) := by
  cases x <;> exact fun _ => rfl

theorem Commutes.liftExcept {α : Type} {x : Except PyErr α} :
    Commutes (F := F) o s id (Pyodrx.liftExcept x) (Pyodrx.liftExcept x) := by
  cases x <;> exact fun _ => rfl

theorem road_commutes (k : String) : Commutes (F := F) o s (Road.dress o s) (Net.road k) (Net.road k) := by
  intro net
  unfold Net.road
  change (match (dressRoads o s net.roads).get? k with | some r => _ | none => _) = _
  rw [dressRoads_get]
  cases net.roads.get? k <;> rfl

section
variable [PyFloat F]

theorem adjustPlanview_commutes (k : String) (b : Bool) :
    Commutes (F := F) o s id (Net.adjustPlanview k b) (Net.adjustPlanview k b) := by
  intro net
  unfold Net.adjustPlanview
  change (match (dressRoads o s net.roads).get? k with | none => _ | some r => _) = _
  rw [dressRoads_get]
  cases net.roads.get? k with
  | none => rfl
  | some r =>
    simp only [Option.map_some]
    change (match PlanView.adjustGeometries b ⟨r.planview, net.geoms⟩ with | .ok _ st => _ | .error e st => _) = _
    cases PlanView.adjustGeometries b ⟨r.planview, net.geoms⟩ with
    | ok a st => exact congrArg (fun x => EStateM.Result.ok () (Net.mk x st.geoms)) (dressRoads_set o s net.roads k { r with planview := st.pv }).symm
    | error e st => exact congrArg (fun x => EStateM.Result.error e (Net.mk x st.geoms)) (dressRoads_set o s net.roads k { r with planview := st.pv }).symm

theorem setStartPoint_commutes (k : String) (p : Pose F) :
    Commutes (F := F) o s id (Net.setStartPoint k p) (Net.setStartPoint k p) := by
  intro net
  unfold Net.setStartPoint
  change (match (dressRoads o s net.roads).get? k with | none => _ | some r => _) = _
  rw [dressRoads_get]
  cases net.roads.get? k with
  | none => rfl
  | some r =>
    exact congrArg (fun x => EStateM.Result.ok () (Net.mk x net.geoms))
      (dressRoads_set o s net.roads k { r with planview := r.planview.setStartPoint p }).symm

theorem adjustRoadWrtNeighbour_commutes (a b : PyId) (cp : Option ContactPoint) (p : Bool) :
    Commutes (F := F) o s id (Net.adjustRoadWrtNeighbour a b cp p) (Net.adjustRoadWrtNeighbour a b cp p) := by
  unfold Net.adjustRoadWrtNeighbour
  refine (road_commutes _).bind fun main => Commutes.orRaise.bind fun cp => (road_commutes _).bind fun nb => ?_
  exact Commutes.liftExcept.bind fun pose => (setStartPoint_commutes _ _).bind fun _ => adjustPlanview_commutes _ _

omit [PyFloat F] in
theorem usable_commutes (l : Option Link) : Commutes (F := F) o s id (Net.usable l) (Net.usable l) := by
  unfold Net.usable
  cases l with
  | none => exact .pure rfl
  | some l => exact (road_commutes _).bind fun nb => .pure rfl

omit [PyFloat F] in
theorem danglingOther_commutes (t : Int) (l : Option Link) :
    Commutes (F := F) o s id (Net.danglingOther t l) (Net.danglingOther t l) := by
  unfold Net.danglingOther
  split
  · exact .pure rfl
  · cases l with
    | none => exact .pure rfl
    | some l => exact (road_commutes _).bind fun nb => .pure rfl

theorem visit_commutes (k : String) : Commutes (F := F) o s id (Net.visit k) (Net.visit k) := by
  unfold Net.visit
  refine (road_commutes k).bind fun r => ?_
  change Commutes o s id _ (if r.planview.adjusted = true then Pure.pure 0 else _)
  split
  · exact .pure rfl
  refine (usable_commutes r.predecessor).bind fun u => ?_
  change Commutes o s id _ (match u, r.predecessor with | true, some p => _ | _, _ => _)
  have hsuc : Commutes (F := F) o s id
      (do
        let useSuc ← Net.usable r.successor
        match useSuc, r.successor with
        | true, some s =>
          Net.adjustRoadWrtNeighbour (.str k) s.elementId s.contactPoint false
          let other ← Net.danglingOther r.roadType r.predecessor
          match other, r.predecessor with
          | true, some p =>
            Net.adjustRoadWrtNeighbour p.elementId (.str k) (some .start) (p.contactPoint = some .start)
            Pure.pure 2
          | _, _ => Pure.pure 1
        | _, _ => Pure.pure 0 : EStateM PyErr (Net F) Nat)
      (do
        let useSuc ← Net.usable r.successor
        match useSuc, r.successor with
        | true, some s =>
          Net.adjustRoadWrtNeighbour (.str k) s.elementId s.contactPoint false
          let other ← Net.danglingOther r.roadType r.predecessor
          match other, r.predecessor with
          | true, some p =>
            Net.adjustRoadWrtNeighbour p.elementId (.str k) (some .start) (p.contactPoint = some .start)
            Pure.pure 2
          | _, _ => Pure.pure 1
        | _, _ => Pure.pure 0 : EStateM PyErr (Net F) Nat) := by
    refine (usable_commutes r.successor).bind fun u => ?_
    cases u with
    | false => exact .pure rfl
    | true =>
      cases r.successor with
      | none => exact .pure rfl
      | some l =>
        refine (adjustRoadWrtNeighbour_commutes _ _ _ _).bind fun _ => (danglingOther_commutes _ _).bind fun b => ?_
        cases b with
        | false => exact .pure rfl
        | true =>
          cases r.predecessor with
          | none => exact .pure rfl
          | some p => exact (adjustRoadWrtNeighbour_commutes _ _ _ _).bind fun _ => .pure rfl
  cases u with
  | false => exact hsuc
  | true =>
    cases hp : r.predecessor with
    | none =>
      rw [hp] at hsuc
      have e : (r.dress o s).predecessor = none := hp
      rw [e]
      exact hsuc
    | some l =>
      refine (adjustRoadWrtNeighbour_commutes _ _ _ _).bind fun _ => (danglingOther_commutes _ _).bind fun b => ?_
      change Commutes o s id _ (match b, r.successor with | true, some p => _ | _, _ => _)
      cases b with
      | false => exact .pure rfl
      | true =>
        cases r.successor with
        | none => exact .pure rfl
        | some p => exact (adjustRoadWrtNeighbour_commutes _ _ _ _).bind fun _ => .pure rfl

theorem pass_commutes (ks : List String) : Commutes (F := F) o s id (Net.pass ks) (Net.pass ks) := by
  induction ks with
  | nil => exact .pure rfl
  | cons k ks ih => exact (visit_commutes k).bind fun _ => ih.bind fun _ => .pure rfl

theorem passes_commutes (n total : Nat) (ks : List String) :
    Commutes (F := F) o s id (Net.passes n total ks) (Net.passes n total ks) := by
  generalize hm : n - total = m
  induction m using Nat.strongRecOn generalizing total with
  | _ m ih =>
    rw [Net.passes]
    split
    · refine (pass_commutes ks).bind fun c => ?_
      change Commutes o s id _ (if _ : total + c ≠ n ∧ c = 0 then _ else _)
      split
      · exact .raise
      · exact ih (n - (total + c)) (by omega) _ rfl
    · exact .pure rfl

theorem adjustFixed_commutes (ks : List String) :
    Commutes (F := F) o s id (Net.adjustFixed ks) (Net.adjustFixed ks) := by
  induction ks with
  | nil => exact .pure rfl
  | cons k ks ih =>
    refine (road_commutes k).bind fun r => ?_
    change Commutes o s id _ (if r.planview.fixed = true then _ else _)
    split
    · exact (adjustPlanview_commutes _ _).bind fun _ => ih.bind fun _ => .pure rfl
    · exact ih

theorem adjustStartpoints_commutes : Commutes (F := F) o s id Net.adjustStartpoints Net.adjustStartpoints := by
  intro net
  have h : ∀ ks : List String, Commutes (F := F) o s id
      (do
        let c ← Net.adjustFixed ks
        let c ← (if c = 0 then do
            let k ← Pyodrx.orRaise .indexError ks.head?
            Net.adjustPlanview k false
            Pure.pure 1
          else Pure.pure c)
        Net.passes ks.length c ks)
      (do
        let c ← Net.adjustFixed ks
        let c ← (if c = 0 then do
            let k ← Pyodrx.orRaise .indexError ks.head?
            Net.adjustPlanview k false
            Pure.pure 1
          else Pure.pure c)
        Net.passes ks.length c ks) := by
    intro ks
    refine (adjustFixed_commutes ks).bind fun c => ?_
    refine Commutes.bind (f := id) ?_ fun c => passes_commutes _ _ _
    change Commutes o s id _ (if c = 0 then _ else _)
    split
    · exact Commutes.orRaise.bind fun k => (adjustPlanview_commutes _ _).bind fun _ => .pure rfl
    · exact .pure rfl
  have := h net.roads.keys net
  rw [← dressRoads_keys o s] at this
  rw [dressRoads_keys] at this
  unfold Net.adjustStartpoints
  change (do
        let c ← Net.adjustFixed (dressRoads o s net.roads).keys
        let c ← (if c = 0 then do
            let k ← Pyodrx.orRaise .indexError (dressRoads o s net.roads).keys.head?
            Net.adjustPlanview k false
            Pure.pure 1
          else Pure.pure c)
        Net.passes (dressRoads o s net.roads).keys.length c (dressRoads o s net.roads).keys : EStateM PyErr (Net F) Unit) (net.dress o s) = _
  rw [dressRoads_keys]
  exact this

omit [PyFloat F] in
theorem createLaneLinks_dress (a b : Road F) : createLaneLinks (a.dress o s) (b.dress o s) = createLaneLinks a b := rfl

omit [PyFloat F] in
theorem linkPair_dress (k : String × String) (w : World F) :
    World.linkPair k (w.dress o s) = mapResult id (World.dress o s) (World.linkPair k w) := by
  unfold World.linkPair
  change (match (dressRoads o s w.net.roads).get? k.1, (dressRoads o s w.net.roads).get? k.2 with
    | some r1, some r2 => _ | _, _ => _) = _
  rw [dressRoads_get, dressRoads_get]
  cases w.net.roads.get? k.1 with
  | none => rfl
  | some a =>
    cases w.net.roads.get? k.2 with
    | none => rfl
    | some b =>
      simp only [Option.map_some]
      rw [createLaneLinks_dress]
      change (match createLaneLinks a b w.lanes with | .ok _ l => _ | .error e l => _) = _
      cases createLaneLinks a b w.lanes <;> rfl

omit [PyFloat F] in
theorem linkPairs_dress (ks : List (String × String)) (w : World F) :
    World.linkPairs ks (w.dress o s) = mapResult id (World.dress o s) (World.linkPairs ks w) := by
  induction ks generalizing w with
  | nil => rfl
  | cons k ks ih =>
    have hn := linkPair_dress (o := o) (s := s) k w
    unfold World.linkPairs
    cases hm : World.linkPair k w with
    | error e st =>
      rw [hm] at hn
      rw [bind_of_error hm, bind_of_error hn]
      rfl
    | ok a st =>
      rw [hm] at hn
      rw [bind_of_ok hm, bind_of_ok hn]
      exact ih st

theorem adjust_dress (w : World F) :
    World.adjustRoadsAndLanes (w.dress o s) = mapResult id (World.dress o s) (World.adjustRoadsAndLanes w) := by
  unfold World.adjustRoadsAndLanes
  change (match Net.adjustStartpoints (w.net.dress o s) with | .error e net => _ | .ok _ net => _) = _
  rw [adjustStartpoints_commutes w.net]
  cases Net.adjustStartpoints w.net with
  | error e net => rfl
  | ok a net =>
    change World.linkPairs (combinations2 (dressRoads o s net.roads).keys) (World.dress o s { w with net := net }) = _
    rw [dressRoads_keys]
    exact linkPairs_dress _ _

end

/-! ## Junctions -/

theorem getRoadById_dress (roads : List (Road F)) (id : PyId) :
    getRoadById (roads.map (Road.dress o s)) id = (getRoadById roads id).map (Road.dress o s) := by
  unfold getRoadById
  rw [List.find?_map]
  rfl

theorem junctionSign_dress (jr : Road F) (roads : List (Road F)) (id : PyId) :
    junctionSign (jr.dress o s) (roads.map (Road.dress o s)) id = junctionSign jr roads id := by
  unfold junctionSign
  rw [getRoadById_dress]
  cases getRoadById roads id <;> rfl

theorem junctionConnections_dress (jr : Road F) (roads : List (Road F)) (j : Junction) :
    junctionConnections (jr.dress o s) (roads.map (Road.dress o s)) j = junctionConnections jr roads j := by
  unfold junctionConnections
  simp only [junctionSign_dress]
  rfl

theorem createJunction_dress (jrs : List (Road F)) (id : PyId) (roads : List (Road F)) :
    createJunction (jrs.map (Road.dress o s)) id (roads.map (Road.dress o s)) = createJunction jrs id roads := by
  unfold createJunction
  generalize Junction.new "my junction" id = j
  induction jrs generalizing j with
  | nil => rfl
  | cons jr jrs ih =>
    rw [List.map_cons, List.foldlM_cons, List.foldlM_cons, junctionConnections_dress]
    cases junctionConnections jr roads j with
    | error e => rfl
    | ok j' => exact ih j'

/-- Running the program with dressed roads has the same value; the roads are dressed. -/
def Keeps {α : Type} (o s : PyId → List Nat) (m : EStateM PyErr (List (Road F) × GenState F) α) : Prop :=
  ∀ rs st, m (rs.map (Road.dress o s), st) = mapResult id (fun x => (x.1.map (Road.dress o s), x.2)) (m (rs, st))

theorem Keeps.bind {α β : Type} {m : EStateM PyErr (List (Road F) × GenState F) α}
    {k : α → EStateM PyErr (List (Road F) × GenState F) β} (h : Keeps o s m) (hk : ∀ a, Keeps o s (k a)) : Keeps o s (m >>= k) := by
  intro rs st
  have hn := h rs st
  cases hm : m (rs, st) with
  | error e x =>
    rw [hm] at hn
    rw [bind_of_error hm, bind_of_error hn]
    rfl
  | ok a x =>
    rw [hm] at hn
    rw [bind_of_ok hm, bind_of_ok hn]
    exact hk a x.1 x.2

theorem Keeps.pure {α : Type} {a : α} : Keeps (F := F) o s (Pure.pure a) := fun _ _ => rfl
theorem Keeps.raise {α : Type} {e : PyErr} : Keeps (F := F) (α := α) o s (Pyodrx.raise e) := fun _ _ => rfl
theorem Keeps.orRaise {α : Type} {e : PyErr} {x : Option α} : Keeps (F := F) o s (Pyodrx.orRaise e x) := by
  cases x <;> exact fun _ _ => rfl
theorem Keeps.liftExcept {α : Type} {x : Except PyErr α} : Keeps (F := F) o s (Pyodrx.liftExcept x) := by
  cases x <;> exact fun _ _ => rfl

theorem Keeps.onGen {α : Type} {f : EStateM PyErr (GenState F) α} : Keeps (F := F) o s (Pyodrx.onGen f) := by
  intro rs st
  unfold Pyodrx.onGen
  change (match f st with | .ok a st' => _ | .error e st' => _) = mapResult _ _ (match f st with | .ok a st' => _ | .error e st' => _)
  cases f st <;> rfl

theorem Keeps.onNewRoad {f : EStateM PyErr (Road F) Unit} {r : Road F} : Keeps (F := F) o s (Pyodrx.onNewRoad f r) := by
  intro rs st
  unfold Pyodrx.onNewRoad
  cases f r <;> rfl

theorem Keeps.onRoad {i : Nat} {f : EStateM PyErr (Road F) Unit}
    (hf : ∀ r, f (r.dress o s) = mapResult id (Road.dress o s) (f r)) : Keeps (F := F) o s (Pyodrx.onRoad i f) := by
  intro rs st
  unfold Pyodrx.onRoad
  change (match (rs.map (Road.dress o s))[i]? with | none => _ | some r => _) = mapResult _ _ (match rs[i]? with | none => _ | some r => _)
  rw [List.getElem?_map]
  cases rs[i]? with
  | none => rfl
  | some r =>
    simp only [Option.map_some]
    rw [hf]
    cases f r with
    | ok a r' => exact congrArg (fun x => EStateM.Result.ok () (x, st)) List.map_set.symm
    | error e r' => exact congrArg (fun x => EStateM.Result.error e (x, st)) List.map_set.symm

theorem addSuccessor_dress (et : ElementType) (eid : PyId) (cp : Option ContactPoint) (n : Int) (r : Road F) :
    Road.addSuccessor et eid cp n (r.dress o s) = mapResult id (Road.dress o s) (Road.addSuccessor et eid cp n r) := by
  unfold Road.addSuccessor
  change (if r.successor.isSome then _ else _) = mapResult id _ (if r.successor.isSome then _ else _)
  split
  · rfl
  · cases Link.new .successor eid (some et) cp none <;> rfl

theorem addPredecessor_dress (et : ElementType) (eid : PyId) (cp : Option ContactPoint) (n : Int) (r : Road F) :
    Road.addPredecessor et eid cp n (r.dress o s) = mapResult id (Road.dress o s) (Road.addPredecessor et eid cp n r) := by
  unfold Road.addPredecessor
  change (if r.predecessor.isSome then _ else _) = mapResult id _ (if r.predecessor.isSome then _ else _)
  split
  · rfl
  · cases Link.new .predecessor eid (some et) cp none <;> rfl

section
variable [PyFloat F]

theorem junctionRoad_keeps (i j : Nat) (cp : ContactPoint) (angles : List F) (r : F) (junction : Int)
    (spiralPart arcPart linelength : F) (num : Int) :
    Keeps o s (junctionRoad i j cp angles r junction spiralPart arcPart linelength num) := by
  unfold junctionRoad
  refine Keeps.orRaise.bind fun aj => Keeps.orRaise.bind fun ai => ?_
  dsimp only
  intro rs st
  have key : ∀ ri rj : Road F, Keeps o s (do
      let (n, w) ← onGen (getLanesOffset ri rj cp)
      let jr ←
        if isZero (sign (aj -. ai -. pi)) = true then onGen (createStraightRoad (.int num) linelength junction n w)
        else onGen (createClothArcCloth (ofInt 1 /. r) ((aj -. ai -. pi) *. arcPart) ((aj -. ai -. pi) *. spiralPart) (.int num) junction
          stdStartCloth n w)
      let jr ← onNewRoad (Road.addPredecessor .road ri.id (some cp) 0) jr
      onNewRoad (Road.addSuccessor .road rj.id (some .start) 0) jr) := by
    intro ri rj
    refine Keeps.onGen.bind fun nw => ?_
    obtain ⟨n, w⟩ := nw
    dsimp only
    split <;> exact Keeps.onGen.bind fun jr => Keeps.onNewRoad.bind fun jr => Keeps.onNewRoad
  rw [bind_of_ok (get_eq _), bind_of_ok (get_eq _)]
  change (orRaise .indexError (rs.map (Road.dress o s))[i]? >>= _) _ = mapResult _ _ ((orRaise .indexError rs[i]? >>= _) _)
  rw [List.getElem?_map]
  cases hi : rs[i]? with
  | none => rfl
  | some ri =>
    rw [Option.map_some, bind_of_ok (orRaise_some _), bind_of_ok (orRaise_some _)]
    change (orRaise .indexError (rs.map (Road.dress o s))[j]? >>= _) _ = mapResult _ _ ((orRaise .indexError rs[j]? >>= _) _)
    rw [List.getElem?_map]
    cases hj : rs[j]? with
    | none => rfl
    | some rj =>
      rw [Option.map_some, bind_of_ok (orRaise_some _), bind_of_ok (orRaise_some _)]
      exact key ri rj rs st

theorem junctionInner_keeps (i : Nat) (cp : ContactPoint) (angles : List F) (r : F) (junction : Int)
    (spiralPart arcPart linelength : F) (j m : Nat) (num : Int) :
    Keeps o s (junctionInner i cp angles r junction spiralPart arcPart linelength j m num) := by
  induction m generalizing j num with
  | zero => exact Keeps.pure
  | succ m ih =>
    unfold junctionInner
    exact (junctionRoad_keeps _ _ _ _ _ _ _ _ _ _).bind fun jr => (ih _ _).bind fun _ => Keeps.pure

theorem junctionOuter_keeps (total : Nat) (angles : List F) (r : F) (junction : Int)
    (spiralPart arcPart linelength : F) (i m : Nat) (num : Int) :
    Keeps o s (junctionOuter total angles r junction spiralPart arcPart linelength i m num) := by
  induction m generalizing i num with
  | zero => exact Keeps.pure
  | succ m ih =>
    unfold junctionOuter
    dsimp only
    split <;>
      exact (Keeps.onRoad (by first | exact addSuccessor_dress _ _ _ _ | exact addPredecessor_dress _ _ _ _)).bind fun _ =>
        (junctionInner_keeps _ _ _ _ _ _ _ _ _ _ _).bind fun _ => (ih _ _).bind fun _ => Keeps.pure

theorem createJunctionRoads_keeps (angles : List F) (r : F) (junction : Int) (spiralPart arcPart : F) (startnum : Int) :
    Keeps o s (createJunctionRoads angles r junction spiralPart arcPart startnum) := by
  unfold createJunctionRoads
  refine Keeps.liftExcept.bind fun linelength => ?_
  intro rs st
  rw [bind_of_ok (get_eq _), bind_of_ok (get_eq _)]
  dsimp only
  rw [List.length_map]
  have key : ∀ n : Nat, Keeps o s (do
      let jrs ← junctionOuter n angles r junction spiralPart arcPart linelength 0 (n - 1) startnum
      if n = 0 then raise .indexError
      onRoad (n - 1) (Road.addPredecessor .junction (.int junction) none 0)
      Pure.pure jrs) := by
    intro n
    refine (junctionOuter_keeps _ _ _ _ _ _ _ _ _ _).bind fun jrs => ?_
    split
    · exact Keeps.raise.bind fun _ => (Keeps.onRoad (addPredecessor_dress _ _ _ _)).bind fun _ => Keeps.pure
    · exact (Keeps.onRoad (addPredecessor_dress _ _ _ _)).bind fun _ => Keeps.pure
  exact key rs.length rs st

end

end Pyodrx
