import Verif.Spec.Shape
import Verif.Model.OpenDrive

/-! # Specification: placing the roads of a network -/

namespace Pyodrx.Spec

variable {F : Type}

/-- No road has been adjusted yet. -/
def Fresh (roads : Dict (Road F)) : Prop :=
  ∀ k r, roads.get? k = some r → r.planview.adjusted = false ∧ r.planview.adjGeoms = []

/-- The roads from which placement starts: those with a given start pose, or the first added road if
there is none. -/
def Anchor (roads : Dict (Road F)) (k : String) : Prop :=
  (∃ r, roads.get? k = some r ∧ r.planview.fixed = true) ∨
    ((∀ k' r, roads.get? k' = some r → r.planview.fixed = false) ∧ roads.keys.head? = some k)

/-- The declared links by which the end `e` of road `k` may be put at the end `e'` of road `nb`:
a predecessor or successor link of `k` itself that is not a link to a junction, or the link of a
connecting road `nb` (`road_type != -1`) that names `k`. -/
inductive PlacedBy (roads : Dict (Road F)) :
    String → ContactPoint → String → ContactPoint → Prop where
  | pred {k : String} {r : Road F} {l : Link} {cp : ContactPoint} (hr : roads.get? k = some r)
      (hl : r.predecessor = some l) (ht : l.elementType ≠ some .junction)
      (hc : l.contactPoint = some cp) : PlacedBy roads k .start l.elementId.toStr cp
  | succ {k : String} {r : Road F} {l : Link} {cp : ContactPoint} (hr : roads.get? k = some r)
      (hl : r.successor = some l) (ht : l.elementType ≠ some .junction)
      (hc : l.contactPoint = some cp) : PlacedBy roads k .end l.elementId.toStr cp
  | connPred {c : String} {r : Road F} {l : Link} (hr : roads.get? c = some r)
      (ht : r.roadType ≠ -1) (hl : r.predecessor = some l) :
      PlacedBy roads l.elementId.toStr (l.contactPoint.getD .end) c .start
  | connSucc {c : String} {r : Road F} {l : Link} (hr : roads.get? c = some r)
      (ht : r.roadType ≠ -1) (hl : r.successor = some l) :
      PlacedBy roads l.elementId.toStr (l.contactPoint.getD .end) c .end

/-- Reachable from an anchor along such links. -/
inductive Reachable (roads : Dict (Road F)) : String → Prop where
  | anchor {k : String} : Anchor roads k → Reachable roads k
  | step {k nb : String} {e e' : ContactPoint} : PlacedBy roads k e nb e' → Reachable roads nb →
      Reachable roads k

/-- The pose of the start or of the end of a road. -/
def endPose (r : Road F) : ContactPoint → Option (Pose F)
  | .start => r.planview.start
  | .end => r.planview.stop

/-- The lane offset a road was given together with its predecessor (successor). -/
def offsetAt (r : Road F) : ContactPoint → Int
  | .start => r.laneOffsetPred
  | .end => r.laneOffsetSuc

/-- The direction in which one leaves the road at that end. -/
noncomputable def outgoing : ContactPoint → ℝ → ℝ
  | .start, h => h + Real.pi
  | .end, h => h

/-- Two road ends meet, the first shifted by `d` lanes of width 3 to the left of its own driving
direction: the outgoing directions are opposite. -/
def Meets (d : Int) (e : ContactPoint) (p : Pose ℝ) (e' : ContactPoint) (q : Pose ℝ) : Prop :=
  p.x = q.x - 3 * d * Real.sin p.h ∧ p.y = q.y + 3 * d * Real.cos p.h ∧
    SameHeading (outgoing e p.h) (outgoing e' q.h + Real.pi)

/-- In the placed network `roads`, road `k` was put at road `nb` by a link declared in `roads0`. -/
def JoinedTo (roads0 roads : Dict (Road ℝ)) (k nb : String) : Prop :=
  ∃ e e' r n p q, PlacedBy roads0 k e nb e' ∧ roads.get? k = some r ∧ roads.get? nb = some n ∧
    endPose r e = some p ∧ endPose n e' = some q ∧ Meets (offsetAt r e) e p e' q

/-- Following such joints one reaches an anchor. -/
inductive Connected (roads0 roads : Dict (Road ℝ)) : String → Prop where
  | anchor {k : String} : Anchor roads0 k → Connected roads0 roads k
  | step {k nb : String} : JoinedTo roads0 roads k nb → Connected roads0 roads nb →
      Connected roads0 roads k

/-- The geometry objects of the planview can be evaluated, and headings were given for all of them
or for none. -/
def Evaluable (geoms : Store (Geom ℝ)) (pv : PlanView ℝ) : Prop :=
  (∀ g ∈ pv.raw, (shapeOf (geoms.cell g)).isSome) ∧
    (pv.overridden = [] ∨ pv.overridden.length = pv.raw.length)

/-- A network on which only the link structure decides whether all roads can be placed. -/
structure WellFormed (net : Net ℝ) : Prop where
  nonempty : net.roads ≠ []
  nodup : net.roads.keys.Nodup
  fresh : Fresh net.roads
  /-- every id named in a link is the id of a road (the code looks up the ids of *junctions* among
  the roads as well, C23) -/
  resolvable : ∀ k r l, net.roads.get? k = some r → r.predecessor = some l ∨ r.successor = some l →
    l.elementId.toStr ∈ net.roads.keys
  /-- links to roads have a contact point -/
  contacts : ∀ k r l, net.roads.get? k = some r → r.predecessor = some l ∨ r.successor = some l →
    l.elementType ≠ some .junction → l.contactPoint ≠ none
  evaluable : ∀ k r, net.roads.get? k = some r → Evaluable net.geoms r.planview
  /-- connecting roads are linked to normal roads -/
  connecting : ∀ k r l, net.roads.get? k = some r → r.roadType ≠ -1 →
    r.predecessor = some l ∨ r.successor = some l → l.elementType ≠ some .junction ∧
      ∀ t, net.roads.get? l.elementId.toStr = some t → t.roadType = -1
  /-- anchors are normal roads -/
  anchors : ∀ k r, net.roads.get? k = some r → Anchor net.roads k → r.roadType = -1

/-- The same without the last condition on geometries, for any kind of numbers. -/
structure WellLinked (net : Net F) : Prop where
  nonempty : net.roads ≠ []
  nodup : net.roads.keys.Nodup
  fresh : Fresh net.roads
  resolvable : ∀ k r l, net.roads.get? k = some r → r.predecessor = some l ∨ r.successor = some l →
    l.elementId.toStr ∈ net.roads.keys
  contacts : ∀ k r l, net.roads.get? k = some r → r.predecessor = some l ∨ r.successor = some l →
    l.elementType ≠ some .junction → l.contactPoint ≠ none
  connecting : ∀ k r l, net.roads.get? k = some r → r.roadType ≠ -1 →
    r.predecessor = some l ∨ r.successor = some l → l.elementType ≠ some .junction ∧
      ∀ t, net.roads.get? l.elementId.toStr = some t → t.roadType = -1
  anchors : ∀ k r, net.roads.get? k = some r → Anchor net.roads k → r.roadType = -1

end Pyodrx.Spec
