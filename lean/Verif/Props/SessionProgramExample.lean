import Verif.Props.SessionProgram

/-! # A program that meets the hypotheses of C88

It draws the network of `FloatFileExample.lean` in doubles: the roads are made and added first, then filled and linked. -/

namespace Pyodrx.Props
open Pyodrx Pyodrx.Spec PyFloat

noncomputable def flLane (v : Nat) (wd : Int := 3) : Call (Fl double) :=
  .lane v .driving (ofInt wd) (ofInt 0) (ofInt 0) (ofInt 0) (ofInt 0)

noncomputable def flProg : List (Call (Fl double)) :=
  [.openDrive 0 "doc", .planView 0 none none none, .planView 1 none none none, .lanes 0, .lanes 1,
   .road 0 (.int 1) 0 0 (-1) none none, .road 1 (.int 2) 1 1 (-1) none none, .addRoad 0 0, .addRoad 0 1,
   .geometry 3 (flGeom 3), .geometry 0 (flGeom 0), .geometry 1 (flGeom 1), .geometry 2 (flGeom 2),
   .addGeometry 1 3 none, .addGeometry 0 0 none, .addGeometry 0 1 none, .addGeometry 0 2 none,
   flLane 0, flLane 11, flLane 12, flLane 21, flLane 22,
   .laneSection 0 (ofInt 0) 0, .laneSection 1 (ofInt 0) 0, .addLanesection 0 0 [], .addLanesection 1 1 [],
   .addLeftLane 0 11, .addLeftLane 1 21, .addRightLane 0 12, .addRightLane 1 22,
   .addPredecessor 1 .road (.int 1) (some .end) 0, .addSuccessor 0 .road (.int 2) (some .start) 0]

/-- Objects that variables have before they are assigned. -/
noncomputable def flStart : Session (Fl double) where
  geoms := ⟨flGeom, 4⟩
  planviews := ⟨fun _ => PlanView.blank, 0⟩
  laneObjs := flLanes
  sections := ⟨fun _ => ⟨ofInt 0, 0, [], [], 1, -1⟩, 0⟩
  linkers := ⟨fun _ => [], 0⟩
  lanesObjs := ⟨fun _ => [], 0⟩
  roads := ⟨fun _ => ⟨Road.new (.int 0) PlanView.blank [] (-1) none none, 0, 0⟩, 0⟩
  connections := ⟨fun _ => Connection.new (.int 0) (.int 0) .start none, 0⟩
  junctions := ⟨fun _ => ⟨"", .int 0, [], 0⟩, 0⟩
  openDrives := ⟨fun _ => ⟨"", [], []⟩, 0⟩
  objs := ⟨fun _ => Obj.new (ofInt 0) (ofInt 0) (.str "") none none none .no (ofInt 0) .none (ofInt 0) (ofInt 0) (ofInt 0)
    none none none none none, 0⟩
  sigs := ⟨fun _ => Signal.new (ofInt 0) (ofInt 0) "" "" "" none none .no none none (ofInt 0) .none (ofInt 0) (ofInt 0) (ofInt 0)
    none none, 0⟩
  reg := []

deriving instance DecidableEq for Spec.Part

/-- The object that the call makes. -/
def makerPart {F : Type} : Call F → Option Spec.Part
  | .geometry v _ => some (.geometry v)
  | .planView v _ _ _ => some (.planView v)
  | .lane v _ _ _ _ _ _ => some (.lane v)
  | .laneSection v _ _ => some (.laneSection v)
  | .laneLinker v => some (.linker v)
  | .lanes v => some (.lanes v)
  | .road v _ _ _ _ _ _ => some (.road v)
  | .object v _ => some (.object v)
  | .signal v _ => some (.signal v)
  | .connection v _ _ _ _ => some (.connection v)
  | .junction v _ _ => some (.junction v)
  | .openDrive v _ => some (.openDrive v)
  | _ => none

/-- The objects that the call uses. -/
def userParts {F : Type} : Call F → List Spec.Part
  | .addGeometry pv g _ => [.planView pv, .geometry g]
  | .setStartPoint pv _ => [.planView pv]
  | .addRoadmark l _ => [.lane l]
  | .addLaneLink l _ _ => [.lane l]
  | .laneSection _ _ center => [.lane center]
  | .addLeftLane sec l => [.laneSection sec, .lane l]
  | .addRightLane sec l => [.laneSection sec, .lane l]
  | .linkLanes v a b => [.linker v, .lane a, .lane b]
  | .addLanesection v sec linkers => .lanes v :: .laneSection sec :: linkers.map .linker
  | .road _ _ pv lanes _ _ _ => [.planView pv, .lanes lanes]
  | .addSuccessor r _ _ _ _ => [.road r]
  | .addPredecessor r _ _ _ _ => [.road r]
  | .addNeighbor r _ _ _ => [.road r]
  | .repeatObject o _ _ _ => [.object o]
  | .addObject r os => .road r :: os.map .object
  | .addSignal r os => .road r :: os.map .signal
  | .addLanelink c _ _ => [.connection c]
  | .addConnection j c => [.junction j, .connection c]
  | .addRoad o r => [.openDrive o, .road r]
  | .addJunction o j => [.openDrive o, .junction j]
  | .adjust o => [.openDrive o]
  | _ => []

theorem makes_iff {F : Type} (c : Call F) (x : Spec.Part) : Makes c x ↔ makerPart c = some x := by
  cases c <;> simp [Makes, makerPart, eq_comm]

theorem uses_iff {F : Type} (c : Call F) (x : Spec.Part) : Uses c x ↔ x ∈ userParts c := by
  cases c <;> simp [Uses, userParts, eq_comm]

/-- `Proper`, call after call; `done` is what was made before. -/
def properCheck : List Spec.Part → List (Option Spec.Part × List Spec.Part) → Bool
  | _, [] => true
  | done, (m, u) :: rest => u.all (done.contains ·) && (match m with | some x => !done.contains x | none => true) &&
      properCheck (m.toList ++ done) rest

theorem properCheck_sound {F : Type} (p : List (Call F)) : ∀ (parts : List Spec.Part) (done : List (Call F)),
    (∀ x, x ∈ parts ↔ ∃ d ∈ done, Makes d x) → properCheck parts (p.map fun c => (makerPart c, userParts c)) = true →
    ∀ before c rest, p = before ++ c :: rest → (∀ x, Uses c x → ∃ d ∈ done ++ before, Makes d x) ∧
      ∀ x, Makes c x → ¬ ∃ d ∈ done ++ before, Makes d x := by
  induction p with
  | nil => intro parts done _ _ before c rest h; simp at h
  | cons e p ih =>
    intro parts done hd h before c rest hp
    simp only [List.map_cons, properCheck, Bool.and_eq_true] at h
    obtain ⟨⟨h1, h2⟩, h3⟩ := h
    cases before with
    | nil =>
      cases hp
      rw [List.append_nil]
      refine ⟨fun x hx => ?_, fun x hx => ?_⟩
      · rw [← hd]
        have := List.all_eq_true.mp h1 x ((uses_iff _ _).mp hx)
        simpa using this
      · rw [← hd]
        rw [(makes_iff _ _).mp hx] at h2
        simpa using h2
    | cons b before =>
      cases hp
      have := ih ((makerPart e).toList ++ parts) (done ++ [e]) (by
        intro x
        simp only [List.mem_append, Option.mem_toList, Option.mem_def, hd, List.mem_singleton, or_and_right, exists_or,
          exists_eq_left, makes_iff]
        exact or_comm) h3 before c rest rfl
      simpa using this

theorem flProg_proper : Proper flProg := by
  have := properCheck_sound flProg [] [] (by simp) (by rfl)
  simpa [Proper] using this

theorem flProg_drawing : Drawing flProg where
  proper := flProg_proper
  poses := by
    intro v x y h hm
    simp [flProg, flLane] at hm
    exact .inr (by rcases hm with ⟨_, a, b, c⟩ | ⟨_, a, b, c⟩ <;> exact ⟨a, b, c⟩)
  headings := by
    intro pv g h hm
    simp [flProg, flLane] at hm
    rcases hm with ⟨_, _, h⟩ | ⟨_, _, h⟩ | ⟨_, _, h⟩ | ⟨_, _, h⟩ <;> exact h
  nonempty := by
    intro v x y h hm
    simp [flProg, flLane] at hm
    rcases hm with ⟨rfl, _⟩ | ⟨rfl, _⟩
    · exact ⟨0, by simp [flProg]⟩
    · exact ⟨3, by simp [flProg]⟩
  own := by
    intro v i pv l t n ru v' i' l' t' n' ru' h h'
    simp [flProg, flLane] at h h'
    omega
  arcs := by
    intro v a h
    simp [flProg, flLane, flGeom] at h
    rw [h.2, flFile_values.1]; norm_num
  marks := by intro l m h; simp [flProg, flLane] at h
  signals := by intro v g h; simp [flProg, flLane] at h
  start := by intro v g h; simp [flProg, flLane] at h
  once := by intro v h; simp [flProg, flLane] at h

theorem flStart_blank : Blank flStart where
  arcs := flFileNet_drawn.arcs
  marks := by intro l m h; cases h
  signals := by intro i; rfl

theorem flProg_world : worldOf (runCalls flProg flStart).2 0 = ⟨flFileNet, flLanes⟩ := by
  have e1 : (worldOf (runCalls flProg flStart).2 0).net.roads = flFileNet.roads := by
    rfl
  have e2 : (runCalls flProg flStart).2.geoms = flFileNet.geoms := by
    show ((((Store.put ⟨flGeom, 4⟩ 3 (flGeom 3)).put 0 (flGeom 0)).put 1 (flGeom 1)).put 2 (flGeom 2)) = ⟨flGeom, 4⟩
    simp only [Store.put, Store.modify, Store.mk.injEq, and_true]
    funext i
    by_cases h0 : i = 0 <;> by_cases h1 : i = 1 <;> by_cases h2 : i = 2 <;> by_cases h3 : i = 3 <;> simp_all
  have e3 : (runCalls flProg flStart).2.laneObjs = flLanes := by
    let l : Lane (Fl double) := Lane.new .driving (ofInt 3) (ofInt 0) (ofInt 0) (ofInt 0) (ofInt 0)
    show ((((((((((((flLanes.put 0 l).put 11 l).put 12 l).put 21 l).put 22 l).modify 0 (·.setLaneId 0)).modify 0
      (·.setLaneId 0)).modify 11 (·.setLaneId 1)).modify 21 (·.setLaneId 1)).modify 12 (·.setLaneId (-1))).modify 22
      (·.setLaneId (-1)))) = flLanes
    simp only [flLanes, Store.put, Store.modify, Store.mk.injEq, and_true]
    funext i
    by_cases h0 : i = 0
    · subst h0; rfl
    by_cases h1 : i = 11
    · subst h1; rfl
    by_cases h2 : i = 12
    · subst h2; rfl
    by_cases h3 : i = 21
    · subst h3; rfl
    by_cases h4 : i = 22
    · subst h4; rfl
    simp [h0, h1, h2, h3, h4]
  unfold worldOf at e1 ⊢
  rw [e2, e3]
  dsimp only at e1
  rw [e1]

/-- The hypotheses of `C88_document` and `C88_file` hold of the program: `adjust_roads_and_lanes` returns normally, the file is
written and read, and in it road 2 leads to the anchor, road 1, which is nearly one line. -/
theorem flProg_read : ∃ (text : List Char) (doc : RDocument (Fl double)) (show' : Fl double → String)
    (readNum : String → Option (Fl double)) (s2 : Session (Fl double)),
    (runCalls (flProg ++ [.adjust 0]) flStart).2 = s2 ∧
    (.adjust 0, none) ∈ (runCalls (flProg ++ [.adjust 0]) flStart).1 ∧
    (s2.readOpenDrive (s2.openDrives.cell 0)).writeXml show' s2.heap "today" none true = .ok ("doc.xodr", text) ∧
    readFile readNum text = some doc ∧
    doc.roads.map RRoad.id = ["1", "2"] ∧ ∀ rd ∈ doc.roads, rd.OneLineNearly 1 4 ∧
      doc.LeadsNearly 1 4 (Anchor flFileNet.roads) (declaredOffset flFileNet.roads) rd := by
  obtain ⟨n1, -, -, own, -⟩ := C88_drawn flProg flProg_drawing flStart flStart_blank 0 "doc" (by simp [flProg])
  rw [worldOf_keys] at n1
  have hname : (runCalls flProg flStart).2.openDrives.cell 0 = ⟨"doc", [("1", 0), ("2", 1)], []⟩ := rfl
  generalize hs1 : (runCalls flProg flStart).2 = s1 at n1 own hname
  have hv := C88_by_value s1 0 n1 own
  rw [show worldOf s1 0 = _ from hs1 ▸ flProg_world] at hv
  obtain ⟨w', text, doc, show', readNum, h1, h2, h3⟩ := flFileNet_read s1.heap.so
  have hrun : ∀ s2, Session.adjust 0 s1 = .ok () s2 → runCalls (flProg ++ [.adjust 0]) flStart =
      ((runCalls flProg flStart).1 ++ [(.adjust 0, none)], s2) := by
    intro s2 h
    rw [runCalls_append, hs1]
    simp only [runCalls, Call.step, Call.run, h]
  cases ha : Session.adjust 0 s1 with
  | error e s2 =>
    rw [ha] at hv
    rw [h1] at hv
    exact absurd hv.1 (by simp)
  | ok u s2 =>
    rw [ha] at hv
    rw [h1] at hv
    obtain ⟨v1, pvs, geoms, lanes, v2, -⟩ := hv
    simp only [EStateM.Result.ok.injEq, true_and] at v1
    have e1 : s2.openDrives.cell 0 = ⟨"doc", [("1", 0), ("2", 1)], []⟩ := by rw [v2]; exact hname
    have e2 : s2.heap.so = s1.heap.so := by rw [v2]; rfl
    refine ⟨text, doc, show', readNum, s2, by rw [hrun _ ha], by rw [hrun _ ha]; simp, ?_, h3⟩
    have e3 : s2.readOpenDrive (s2.openDrives.cell 0) = ⟨"doc", (worldOf s2 0).net.roads, []⟩ := by
      unfold worldOf
      rw [e1]; rfl
    rw [e3, ← h2, v1, ← e2]
    rfl

end Pyodrx.Props
