import Verif.Spec.ReadCurve
import Verif.Spec.Network

/-! # Specification: when the roads of a document that was read join -/

namespace Pyodrx.Spec

/-- The pose of the start or of the end of a road in a document: the start of its first geometry, the end
of its last geometry. -/
noncomputable def RRoad.poseAt (r : RRoad ℝ) : ContactPoint → Option (Pose ℝ)
  | .start => r.planView.head?.map RGeometry.start
  | .end => r.planView.getLast?.map RGeometry.stop

/-- The element with which a road is linked at one of its ends. -/
def linkTag : ContactPoint → String
  | .start => "predecessor"
  | .end => "successor"

/-- The document links the end `e` of road `a` with the end `e'` of road `b`: road `a` has a link of that
kind to `b`, or the connecting road `b` has one to `a`. -/
def RRoad.LinkedTo {F : Type} (a : RRoad F) (e : ContactPoint) (b : RRoad F) (e' : ContactPoint) : Prop :=
  (∃ l ∈ a.links, l.tag = linkTag e ∧ l.elementType ≠ some .junction ∧ l.id = b.id ∧
    l.contactPoint = some e') ∨
  (b.junction ≠ -1 ∧ ∃ l ∈ b.links, l.tag = linkTag e' ∧ l.id = a.id ∧ l.contactPoint.getD .end = e)

/-- Road `a` of the document is linked to road `b` and joins it: the ends meet, shifted by `off e` lanes. -/
def RRoad.Joins (off : ContactPoint → Int) (a b : RRoad ℝ) : Prop :=
  ∃ e e' p q, a.LinkedTo e b e' ∧ a.poseAt e = some p ∧ b.poseAt e' = some q ∧ Meets (off e) e p e' q

/-- From the road one comes to an anchor by going from road to joining road. -/
inductive RDocument.Leads (doc : RDocument ℝ) (anchor : String → Prop) (off : String → ContactPoint → Int) :
    RRoad ℝ → Prop where
  | anchor {a : RRoad ℝ} : anchor a.id → doc.Leads anchor off a
  | step {a b : RRoad ℝ} : b ∈ doc.roads → a.Joins (off a.id) b → doc.Leads anchor off b →
      doc.Leads anchor off a

/-- The geometries of the road form one line that starts at s = 0 and has the length of the road. -/
def RRoad.OneLine (r : RRoad ℝ) : Prop := ∃ p q, Chained 0 p r.planView r.length q

/-- The lane offset declared for an end of a road. -/
def declaredOffset {F : Type} (roads : Dict (Road F)) (id : String) (e : ContactPoint) : Int :=
  match roads.get? id with
  | some r => offsetAt r e
  | none => 0

end Pyodrx.Spec
