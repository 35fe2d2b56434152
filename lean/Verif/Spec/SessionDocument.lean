import Verif.Spec.SessionJoints
import Verif.Spec.SessionContents
import Verif.Spec.SessionIds
import Verif.Spec.ReadJunction

/-! # Specification: the document of a program of calls, in terms of its calls -/

namespace Pyodrx.Spec
open Pyodrx

section
variable {F : Type}

/-- The lane `x` is shown as the calls say: type and width from the constructor, the road mark added last. (For its number and links
see below.) -/
def LaneShown (p : List (Call F)) (x : Nat) (L : RLane F) : Prop :=
  .lane x L.type L.a L.b L.c L.d L.sOffset ∈ p ∧ L.level = false ∧ L.mark = (markCalls x p).getLast?.map shownMark

/-- The lane section `sec` is shown as the calls say: its lanes on each side in the order of the calls, with the numbers 1, 2, … on the
left and -1, -2, … on the right, and the center lane with the number 0 (unless that lane is also put on a side of a section). -/
structure SectionShown (p : List (Call F)) (sec : Nat) (S : RSection F) : Prop where
  left : List.Forall₂ (LaneShown p) (leftCalls sec p) S.left
  right : List.Forall₂ (LaneShown p) (rightCalls sec p) S.right
  leftIds : S.left.map RLane.id = (List.range (leftCalls sec p).length).map fun n : Nat => (n : Int) + 1
  rightIds : S.right.map RLane.id = (List.range (rightCalls sec p).length).map fun n : Nat => -((n : Int) + 1)
  center : ∃ c L, .laneSection sec S.s c ∈ p ∧ S.center = [L] ∧ LaneShown p c L ∧
    ((∀ sec', .addLeftLane sec' c ∉ p ∧ .addRightLane sec' c ∉ p) → L.id = 0)

/-- The connection `x` is shown as the calls say; it has the id it was made with, if any. -/
def ConnectionShown (p : List (Call F)) (x : Nat) (C : RConnection) : Prop :=
  ∃ inc con id, .connection x inc con C.contactPoint id ∈ p ∧ C.incomingRoad = inc.toStr ∧ C.connectingRoad = con.toStr ∧
    C.laneLinks = laneLinkCalls x p ∧ ∀ n, id = some n → C.id = strInt n

/-- The junction `j` is shown as the calls say. -/
def JunctionShown (p : List (Call F)) (j : Nat) (J : RJunction) : Prop :=
  ∃ id, .junction j J.name id ∈ p ∧ J.id = id.toStr ∧ List.Forall₂ (ConnectionShown p) (connectionCalls j p) J.connections

variable [PyFloat F]

/-- The signal `x` is shown as it was made, but for its id (C90). -/
def SignalShown (p : List (Call F)) (x : Nat) (G : RSignal F) : Prop :=
  ∃ g id, .signal x g ∈ p ∧ G = shownSignal { g with base := { g.base with id := id } }

/-- The object `x` is shown as it was made, but for its id, and repeated as the calls say. -/
def ObjectShown (p : List (Call F)) (x : Nat) (O : RObject F) : Prop :=
  ∃ ob id, .object x ob ∈ p ∧
    O = shownObject ((repeatCalls x p).foldl (fun ob c => ob.repeat c.1 c.2.1 c.2.2) { ob with base := { ob.base with id := id } })

/-- The road `v` is shown as the calls say: the attributes, the links to other roads (at most one predecessor, one successor and two
neighbors), the lane sections, signals and objects in the order of the calls. -/
structure RoadShown (p : List (Call F)) (v : Nat) (rd : RRoad F) : Prop where
  made : ∃ i pv l n ru, .road v i pv l rd.junction n ru ∈ p ∧ rd.id = i.toStr ∧ rd.name = nonempty n ∧ rd.rule = nonempty ru ∧
    List.Forall₂ (SectionShown p) (sectionCalls l p) rd.sections
  links : ∃ ls : List Link, rd.links = ls.map shownLink ∧ ls.Sublist (linkCalls v p) ∧
    ls.filter (·.kind = .predecessor) = ((predecessorCalls v p).take 1).map (·.1) ∧
    ls.filter (·.kind = .successor) = ((successorCalls v p).take 1).map (·.1) ∧
    ls.filter (·.kind = .neighbor) = (neighborCalls v p).take 2
  signals : List.Forall₂ (SignalShown p) (signalCalls v p) rd.signals
  objects : List.Forall₂ (ObjectShown p) (objectCalls v p) rd.objects

/-- The document is that of the calls: its roads and junctions are those that were added, each road once. -/
structure DocumentShown (p : List (Call F)) (o : Nat) (doc : RDocument F) : Prop where
  name : .openDrive o doc.name ∈ p
  roads : List.Forall₂ (RoadShown p) (keepFirst (roadCalls o p)) doc.roads
  junctions : List.Forall₂ (JunctionShown p) (junctionCalls o p) doc.junctions

/-- The program itself links no lanes. -/
structure PlainLanes (p : List (Call F)) : Prop where
  links : ∀ l k id, .addLaneLink l k id ∉ p
  linkers : ∀ x sec ls, .addLanesection x sec ls ∈ p → ls = []

/-- The geometry of a road in a document is the one that was made: kind and parameters, and the length of lines, spirals and ParamPoly3
over the arc length. (The length of an arc drifts in floating point arithmetic whenever it is evaluated; that of a normalized ParamPoly3 is
computed by scipy.) -/
def GeometryShown (G : Geom F) (g : RGeometry F) : Prop :=
  match G with
  | .line l => g.curve = .line ∧ g.length = l.length
  | .spiral s => g.curve = .spiral s.curvstart s.curvend ∧ s.length = some g.length
  | .arc a => g.curve = .arc a.curvature
  | .poly x => ∃ n, g.curve = .paramPoly3 x.au x.bu x.cu x.du x.av x.bv x.cv x.dv n ∧ (n = true ↔ x.prange = "normalized") ∧
      (n = false → x.length = some g.length)

/-- The lane section at an end of a road in a document. -/
def RRoad.endSection (rd : RRoad F) : ContactPoint → Option (RSection F)
  | .start => rd.sections.head?
  | .end => rd.sections.getLast?

end

/-- The geometries of the program can be read back from a document: a road that is not an anchor has one geometry, not a ParamPoly3
(placing it from its end is wrong, C12; several geometries placed from the end are emitted wrongly, C13), and every ParamPoly3 has one of the
two ranges of OpenDRIVE. -/
structure DrawnGeometry {R : Rounding} (p : List (Call (Fl R))) (o : Nat) : Prop where
  one : ∀ v i pv l t n ru, .addRoad o v ∈ p → .road v i pv l t n ru ∈ p → ¬ AnchorRoad p o v → (geometryCalls pv p).length = 1
  poly : ∀ v i pv l t n ru g h x, .addRoad o v ∈ p → .road v i pv l t n ru ∈ p → ¬ AnchorRoad p o v → .addGeometry pv g h ∈ p →
    .geometry g (.poly x) ∉ p
  range : ∀ g x, .geometry g (.poly x) ∈ p → x.prange = "normalized" ∨ x.prange = "arcLength"

end Pyodrx.Spec
