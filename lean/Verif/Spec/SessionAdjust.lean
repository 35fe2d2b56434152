import Verif.Spec.SessionRoads
import Verif.Spec.SessionNumbers
import Verif.Spec.FloatNetwork

/-! # Specification: programs of calls whose roads can be placed -/

namespace Pyodrx.Spec
open Pyodrx

variable {R : Rounding}

/-- The program makes the road `v` with the id `i` and the type `t` and adds it to the `OpenDrive` object `o`. -/
def AddsRoad (p : List (Call (Fl R))) (o v : Nat) (i : PyId) (t : Int) : Prop :=
  .addRoad o v ∈ p ∧ ∃ pv l n ru, .road v i pv l t n ru ∈ p

/-- The calls fit together: at least one road is added, with different ids for different roads; the predecessors and successors that
are declared for them are added roads (the code looks up the ids of *junctions* among the roads as well, C23), with contact points
unless they are junctions; connecting roads connect normal roads; the first added road and the roads with start poses are
normal roads; all geometries have usable lengths. -/
structure LinkedProgram (p : List (Call (Fl R))) (o : Nat) : Prop where
  adds : ∃ v, .addRoad o v ∈ p
  ids : ∀ v i t w j u, AddsRoad p o v i t → AddsRoad p o w j u → i.toStr = j.toStr → v = w
  resolvable : ∀ v i t x, AddsRoad p o v i t → x ∈ predecessorCalls v p ∨ x ∈ successorCalls v p →
    ∃ w j u, AddsRoad p o w j u ∧ j.toStr = x.1.elementId.toStr
  contacts : ∀ v i t x, AddsRoad p o v i t → x ∈ predecessorCalls v p ∨ x ∈ successorCalls v p →
    x.1.elementType ≠ some .junction → x.1.contactPoint ≠ none
  connecting : ∀ v i t x, AddsRoad p o v i t → t ≠ -1 → x ∈ predecessorCalls v p ∨ x ∈ successorCalls v p →
    x.1.elementType ≠ some .junction ∧ ∀ w j u, AddsRoad p o w j u → j.toStr = x.1.elementId.toStr → u = -1
  first : ∀ v i t, (roadCalls o p).head? = some v → AddsRoad p o v i t → t = -1
  posed : ∀ v i pv l t n ru x y h, .addRoad o v ∈ p → .road v i pv l t n ru ∈ p →
    .planView pv (some x) (some y) (some h) ∈ p → t = -1
  usable : ∀ v g, .geometry v g ∈ p → Usable g

/-- The link at an end of the road `v`: its first declared predecessor (successor); further ones raise (C91). -/
def linkCall (v : Nat) (p : List (Call (Fl R))) : ContactPoint → Option Link
  | .start => (predecessorCalls v p).head?.map (·.1)
  | .end => (successorCalls v p).head?.map (·.1)

/-- The road `v` is made with a PlanView that has a start pose. -/
def Posed (p : List (Call (Fl R))) (v : Nat) : Prop :=
  ∃ i pv l t n ru x y h, .road v i pv l t n ru ∈ p ∧ .planView pv (some x) (some y) (some h) ∈ p

/-- The roads from which placement starts: the added roads with a start pose, or the first added road if there is none. -/
def AnchorRoad (p : List (Call (Fl R))) (o v : Nat) : Prop :=
  .addRoad o v ∈ p ∧ (Posed p v ∨ (∀ w, .addRoad o w ∈ p → ¬ Posed p w) ∧ (roadCalls o p).head? = some v)

/-- The added roads that are reached from these: from the road that the predecessor or successor of `v` names (unless it is a
junction), or from a connecting road whose predecessor or successor is `v`. -/
inductive ReachedRoad (p : List (Call (Fl R))) (o : Nat) : Nat → Prop where
  | anchor {v : Nat} : AnchorRoad p o v → ReachedRoad p o v
  | own {v w : Nat} {i j : PyId} {t u : Int} {e : ContactPoint} {l : Link} : AddsRoad p o v i t → AddsRoad p o w j u →
      linkCall v p e = some l → l.elementType ≠ some .junction → l.elementId.toStr = j.toStr → ReachedRoad p o w →
      ReachedRoad p o v
  | connecting {v w : Nat} {i j : PyId} {t u : Int} {e : ContactPoint} {l : Link} : AddsRoad p o v i t → AddsRoad p o w j u →
      u ≠ -1 → linkCall w p e = some l → l.elementId.toStr = i.toStr → ReachedRoad p o w → ReachedRoad p o v

/-- The section that the program puts at an end of the `Lanes` object `v`. -/
def sectionCall (v : Nat) (p : List (Call (Fl R))) : ContactPoint → Option Nat
  | .start => (sectionCalls v p).head?
  | .end => (sectionCalls v p).getLast?

/-- The section `a` has at most as many lanes as `b` on each side. -/
def FewerLanes (p : List (Call (Fl R))) (a b : Nat) : Prop :=
  (leftCalls a p).length ≤ (leftCalls b p).length ∧ (rightCalls a p).length ≤ (rightCalls b p).length

/-- The program makes the road `v` with the id `i`, the `Lanes` object `l` and the type `t` and adds it to `o`. -/
def AddsLanes (p : List (Call (Fl R))) (o v : Nat) (i : PyId) (l : Nat) (t : Int) : Prop :=
  .addRoad o v ∈ p ∧ ∃ pv n ru, .road v i pv l t n ru ∈ p

/-- The lanes fit: no lane is put into two places; where a normal road declares a normal road as successor and that one declares the
first as predecessor, the contact point is the start, the road after the next is not the first road again, and the sections
have the same numbers of lanes; connecting roads have two different ends, with lanes for all their own (in the section at the contact
point, and in the one that the code uses instead of it, C28). -/
structure FittingLanes (p : List (Call (Fl R))) (o : Nat) : Prop where
  once : ∀ v i l t sec x, AddsLanes p o v i l t → sec ∈ sectionCalls l p → x ∈ leftCalls sec p ++ rightCalls sec p →
    (puts x p).length = 1
  joints : ∀ v i l w j m a b, v ≠ w → AddsLanes p o v i l (-1) → AddsLanes p o w j m (-1) →
    linkCall v p .end = some a → a.elementType = some .road → a.elementId = j →
    linkCall w p .start = some b → b.elementType = some .road → b.elementId = i →
    a.contactPoint = some .start ∧ (∀ c, linkCall w p .end = some c → c.elementId ≠ i) ∧
    ∃ sa sb last, sectionCall l p .end = some sa ∧ sectionCall m p .start = some sb ∧ sectionCall m p .end = some last ∧
      FewerLanes p sa sb ∧ FewerLanes p sb sa ∧ FewerLanes p sa last ∧ FewerLanes p last sa
  ends : ∀ v i t, AddsRoad p o v i t → t ≠ -1 →
    ∃ a b, linkCall v p .start = some a ∧ linkCall v p .end = some b ∧ a.elementId ≠ b.elementId
  lanes : ∀ v i l t w j m u e a, AddsLanes p o v i l t → t ≠ -1 → AddsLanes p o w j m u → linkCall v p e = some a →
    a.elementId = j → ∃ own used touching, sectionCall l p e = some own ∧ sectionCall m p e = some used ∧
      sectionCall m p (a.contactPoint.getD .end) = some touching ∧ FewerLanes p own used ∧ FewerLanes p own touching

end Pyodrx.Spec
