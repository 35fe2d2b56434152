import Verif.Spec.Shown
import Verif.Props.Links
import Verif.Props.Document

/-! # Properties C55, C56: what a reader sees of links and junctions -/

namespace Pyodrx.Props
open Pyodrx Spec

variable {F : Type}

theorem mapM_map_some {α β γ : Type} (f : α → β) (g : β → Option γ) (h : α → γ) (l : List α)
    (hl : ∀ a ∈ l, g (f a) = some (h a)) : (l.map f).mapM g = some (l.map h) := by
  induction l with
  | nil => rfl
  | cons a l ih =>
    rw [List.map_cons, List.mapM_cons, hl a (by simp), ih fun b hb => hl b (by simp [hb])]
    rfl

theorem textOf_ofId (i : PyId) : textOf (Val.ofId i : Val F) = some i.toStr := by
  cases i <;> rfl

theorem textOf_str (s : String) : textOf (.str s : Val F) = some s := rfl
theorem textOf_int (i : Int) : textOf (.int i : Val F) = some (strInt i) := rfl
theorem textOf_none : textOf (.pyNone : Val F) = some "None" := rfl
theorem numOf_num (x : F) : numOf (.num x : Val F) = some x := rfl
theorem intOf_int (i : Int) : intOf (.int i : Val F) = some i := rfl

theorem enum_elementType (t : ElementType) :
    enumOf (F := F) elementTypes (.str (enum2strName t.name)) = some t := by cases t <;> rfl
theorem enum_contactPoint (t : ContactPoint) :
    enumOf (F := F) contactPoints (.str (enum2strName t.name)) = some t := by cases t <;> rfl
theorem enum_direction (t : Direction) :
    enumOf (F := F) directions (.str (enum2strName t.name)) = some t := by cases t <;> rfl

/-- C55: reading the element of a link gives back every field of the link. -/
theorem C55_link (l : Link) : readLink (l.getElement : Xml F) = some (shownLink l) := by
  obtain ⟨k, i, et, cp, d⟩ := l
  cases et <;> cases cp <;> cases d <;> by_cases hk : k = .neighbor <;>
    simp [readLink, Link.getElement, Link.getAttributes, may, need, Xml.attr, Dict.get?, hk,
      textOf_ofId, enum_elementType, enum_contactPoint, enum_direction, shownLink]

/-- What a reader should see of an accepted call. -/
def Spec.RoadOp.shown : RoadOp → RLink
  | .successor et id cp _ => ⟨"successor", id.toStr, some et, cp, none⟩
  | .predecessor et id cp _ => ⟨"predecessor", id.toStr, some et, cp, none⟩
  | .neighbor et id dir => ⟨"neighbor", id.toStr, some et, none, dir⟩

/-- The accepted calls of a history, given the calls accepted before. -/
def acceptedOps (prev : List RoadOp) : List RoadOp → List RoadOp
  | [] => prev
  | op :: ops =>
    acceptedOps (if op.acceptable (prev.map (·.link)) then prev ++ [op] else prev) ops

theorem acceptedFrom_eq (ops : List RoadOp) : ∀ prev : List RoadOp,
    acceptedFrom (prev.map (·.link)) ops = (acceptedOps prev ops).map (·.link) := by
  induction ops with
  | nil => intro prev; rfl
  | cons op ops ih =>
    intro prev
    simp only [acceptedFrom, acceptedOps]
    by_cases h : op.acceptable (prev.map (·.link)) = true
    · rw [if_pos h, if_pos h, ← ih]; simp
    · rw [if_neg h, if_neg h, ← ih]

theorem shownLink_op (op : RoadOp) : shownLink op.link = Spec.RoadOp.shown op := by
  cases op <;> simp [shownLink, RoadOp.link, Spec.RoadOp.shown, LinkKind.text]

/-- C55: after any history of link calls on a new road, a reader of the emitted road finds exactly
the accepted calls, in order, each with its kind, target, element type, and contact point or
direction. -/
theorem C55_road [PyFloat F] (id : PyId) (pv : PlanView F) (secs : List (LaneSection F))
    (rt : Int) (name rule : Option String) (ops : List RoadOp) (hp : Heap F) (x : Xml F)
    (hx : (runOps ops (Road.new id pv secs rt name rule)).getElement hp = .ok x) :
    readLinks x = some ((acceptedOps [] ops).map Spec.RoadOp.shown) := by
  have h := (runOps_inv ops _ _ (new_inv id pv secs rt name rule)).eq
  generalize runOps ops (Road.new id pv secs rt name rule) = r at hx h
  obtain ⟨l, hl, rfl⟩ := road_ok hx
  obtain ⟨cs, -, rfl⟩ := lanes_ok hl
  have h1 : acceptedFrom [] ops = (acceptedOps [] ops).map (·.link) := acceptedFrom_eq ops []
  have hc : childWith (.elem "road" r.getAttributes
    ([Links.getElement r.links, r.planview.getElement hp.geoms, .elem "lanes" [] cs] ++
     (if r.signals.isEmpty then []
      else [.elem "signals" [] (r.signals.map fun i => (hp.so.sigs.cell i).getElement)]) ++
     (if r.objects.isEmpty then []
      else [.elem "objects" [] (r.objects.map fun i => (hp.so.objs.cell i).getElement)]))) "link" =
      some (some (Links.getElement r.links)) := by
    unfold childWith
    cases r.signals <;> cases r.objects <;>
      simp [Links.getElement, PlanView.getElement]
  unfold readLinks
  rw [hc]
  simp only [Option.bind_eq_bind, Option.bind_some, Links.getElement, Xml.children_elem]
  rw [h, accepted_filter, mapM_map_some _ _ shownLink _ (fun l _ => C55_link l), h1, List.map_map]
  congr 1
  apply List.map_congr_left
  intro op _
  exact shownLink_op op

/-- Non-vacuity: a road with a successor and a neighbour; the second successor is refused. -/
example : (acceptedOps [] [.successor .road (.int 7) (some .start) 0,
      .successor .road (.int 8) (some .end) 0, .neighbor .road (.str "n") (some .opposite)]).map
        Spec.RoadOp.shown =
    [⟨"successor", "7", some .road, some .start, none⟩,
     ⟨"neighbor", "n", some .road, none, some .opposite⟩] := by decide

/-! ## C56 -/

/-- C56: reading the element of a connection gives back every field of the connection. -/
theorem C56_connection (c : Connection) :
    readConnection (c.getElement : Xml F) = some (shownConnection c) := by
  have h : (c.links.map fun l => (.elem "laneLink" [("from", .int l.1), ("to", .int l.2)] [] :
      Xml F)).mapM readLaneLink = some c.links := by
    conv_rhs => rw [← List.map_id c.links]
    apply mapM_map_some
    intro a _
    simp [readLaneLink, need, Xml.attr, Dict.get?, intOf]
  simp only [readConnection, Connection.getElement, Xml.tag_elem, if_true, Xml.children_elem, h]
  obtain ⟨_, _, _, i, _⟩ := c
  cases i <;> simp [need, Xml.attr, Dict.get?, textOf_ofId, enum_contactPoint, shownConnection,
    textOf_int, textOf_none, connectionIdText]

/-- A user's connection: `Connection(incoming, connecting, contact_point, id)` followed by
`add_lanelink` calls. -/
structure UserConnection where
  incoming : PyId
  connecting : PyId
  contact : ContactPoint
  id : Option Int
  laneLinks : List (Int × Int)

/-- Execute these calls. -/
def UserConnection.build (u : UserConnection) : Connection :=
  u.laneLinks.foldl (fun c l => c.addLanelink l.1 l.2)
    (Connection.new u.incoming u.connecting u.contact u.id)

theorem UserConnection.build_eq (u : UserConnection) :
    u.build = ⟨u.incoming, u.connecting, u.contact, u.id, u.laneLinks⟩ := by
  have : ∀ (ls : List (Int × Int)) (c : Connection),
      ls.foldl (fun c l => c.addLanelink l.1 l.2) c = { c with links := c.links ++ ls } := by
    intro ls
    induction ls with
    | nil => intro c; simp
    | cons a ls ih => intro c; rw [List.foldl_cons, ih]; simp [Connection.addLanelink]
  rw [UserConnection.build, this]; simp [Connection.new]

theorem addConnections_name (cs : List Connection) : ∀ (j : Junction),
    (addConnections j cs).name = j.name ∧ (addConnections j cs).id = j.id := by
  induction cs with
  | nil => intro j; exact ⟨rfl, rfl⟩
  | cons c cs ih => intro j; exact ih (j.addConnection c)

/-- C56: a reader of the emitted junction finds its name and id and every connection in the order of
the `add_connection` calls: explicit id or else its position, incoming and connecting road,
contact point, and the lane links in the order of the `add_lanelink` calls. -/
theorem C56_junction (name : String) (id : PyId) (us : List UserConnection) :
    readJunction ((addConnections (Junction.new name id) (us.map (·.build))).getElement : Xml F) =
      some ⟨name, id.toStr, us.mapIdx fun i u => ⟨strInt (u.id.getD i), u.incoming.toStr,
        u.connecting.toStr, u.contact, u.laneLinks⟩⟩ := by
  obtain ⟨h1, h2⟩ := addConnections_name (us.map (·.build)) (Junction.new name id)
  have h3 := C33_ids name id (us.map (·.build))
  generalize addConnections (Junction.new name id) (us.map (·.build)) = j at h1 h2 h3
  simp only [readJunction, Junction.getElement, Xml.tag_elem, if_true, Xml.children_elem]
  rw [mapM_map_some _ _ shownConnection _ (fun c _ => C56_connection c), h3, h2, h1]
  simp only [need, Xml.attr, Xml.attrs_elem, Dict.get?, textOf_str, if_true, Option.bind_some,
    Junction.new, Option.bind_eq_bind, textOf_ofId, show ("name" = "id") = False by decide, if_false,
    Option.pure_def, Option.some.injEq, RJunction.mk.injEq, true_and]
  apply List.ext_getElem
  · simp
  · intro i h4 h5
    simp [shownConnection, connectionIdText, UserConnection.build_eq]

/-- Non-vacuity: two connections, one with an explicit id. -/
example : readJunction ((addConnections (Junction.new "j" (.int 1))
      [UserConnection.build ⟨.int 1, .int 100, .start, none, [(1, -1), (2, -2)]⟩,
       UserConnection.build ⟨.int 2, .int 100, .end, some 9, []⟩]).getElement : Xml Nat) =
    some ⟨"j", "1", [⟨"0", "1", "100", .start, [(1, -1), (2, -2)]⟩, ⟨"9", "2", "100", .end, []⟩]⟩ :=
  C56_junction "j" (.int 1) [⟨.int 1, .int 100, .start, none, [(1, -1), (2, -2)]⟩,
       ⟨.int 2, .int 100, .end, some 9, []⟩]

end Pyodrx.Props
