import Verif.Model.Furnish
import Verif.Spec.Shown
import Verif.Spec.ReadJunction

/-! # Specification: signals and objects in the document -/

namespace Pyodrx.Spec

variable {F : Type}

/-- The ids of things that were added one after the other, `given` being the ids asked for: they are different from each other
and from those in `used`; an id asked for is kept if it is not used before; the others are numbers. -/
structure GoodIds (used : List String) (given : List (Option PyId)) (ids : List String) : Prop where
  count : ids.length = given.length
  nodup : ids.Nodup
  fresh : ∀ i ∈ ids, i ∉ used
  kept : ∀ (n : Nat) (i : PyId), given[n]? = some (some i) → i.toStr ∉ used → i.toStr ∉ ids.take n → ids[n]? = some i.toStr
  number : ∀ (n : Nat) (x : String), ids[n]? = some x → (∀ i : PyId, given[n]? = some (some i) → x ≠ i.toStr) →
    ∃ m : Nat, x = Nat.repr m

/-- The ids of a class ("Signal" or "Object") that were used before. -/
def usedIds (so : SOState F) (cls : String) : List String :=
  match so.reg.get? cls with
  | none => []
  | some r => r.used

/-- The signal of the document is the one that was ordered, apart from the id. -/
def ShowsSignal (g : Signal ℝ) (x : RSignal ℝ) : Prop :=
  ∃ i, x = shownSignal { g with base := { g.base with id := some i } }

/-- The object of the document is the one that was ordered, apart from the id. -/
def ShowsObject (g : Obj ℝ) (x : RObject ℝ) : Prop :=
  ∃ i, x = shownObject { g with base := { g.base with id := some i } }

/-- The signals given to a road by a call. -/
def _root_.Pyodrx.FurnishCall.signalsOf : FurnishCall F → List (Signal F)
  | .signals l => l
  | .objects _ => []
  | .roadside .. => []

/-- The object at the place (s, t) with that heading, repeated over a length at that distance. -/
def besideRoad (o : Obj ℝ) (s t hdg length distance : ℝ) : Obj ℝ :=
  { o with
    base := { o.base with s := s, t := t }
    hdg := hdg
    repeats := o.repeats ++ [[("length", .num length), ("distance", .num distance), ("s", .num s), ("tStart", .num t),
      ("tEnd", .num t), ("heightStart", .ofOpt o.base.height), ("heightEnd", .ofOpt o.base.height),
      ("zOffsetStart", .num o.base.zOffset), ("zOffsetEnd", .num o.base.zOffset)]] }

/-- The objects given to a road by a call; `a` is the road in the document. Beside the road: for every lane section and the
left and right side, at the outer edge of its lanes (by their constant widths) plus `tOffset`, from the start of the section
plus `sOffset` to the end of the *road*. -/
noncomputable def _root_.Pyodrx.FurnishCall.objectsOf (a : RRoad ℝ) : FurnishCall ℝ → List (Obj ℝ)
  | .signals _ => []
  | .objects l => l
  | .roadside o d sOffset tOffset side => a.sections.flatMap fun sec =>
      (if side = .right then [] else [besideRoad o (sOffset + sec.s) ((sec.left.map RLane.a).sum + tOffset) Real.pi
        (a.length - sOffset - sec.s) d]) ++
      (if side = .left then [] else [besideRoad o (sOffset + sec.s) (-((sec.right.map RLane.a).sum + tOffset)) 0
        (a.length - sOffset - sec.s) d])

/-- The call needs adjusted roads. -/
def _root_.Pyodrx.FurnishCall.NeedsAdjusted : FurnishCall F → Prop
  | .roadside .. => True
  | _ => False

/-- All signals, with the ids of their roads, in the order of the calls. -/
def orderedSignals (calls : List (Int × FurnishCall F)) : List (Int × Signal F) :=
  calls.flatMap fun c => c.2.signalsOf.map fun g => (c.1, g)

/-- All objects. -/
noncomputable def orderedObjects (doc : RDocument ℝ) (calls : List (Int × FurnishCall ℝ)) : List (Int × Obj ℝ) :=
  calls.flatMap fun c =>
    match doc.roads.find? fun a => a.id = strInt c.1 with
    | none => []
    | some a => (c.2.objectsOf a).map fun g => (c.1, g)

/-- The document shows the signals and objects of these calls; `usedS` and `usedO` are the ids of signals and objects
used before. -/
structure ShowsFurniture (usedS usedO : List String) (calls : List (Int × FurnishCall ℝ)) (doc : RDocument ℝ) : Prop where
  signals : ∃ xs : List (RSignal ℝ), List.Forall₂ (fun g x => ShowsSignal g.2 x) (orderedSignals calls) xs ∧
    GoodIds usedS ((orderedSignals calls).map fun g => g.2.base.id) (xs.map fun x => x.placed.id) ∧
    ∀ a ∈ doc.roads, a.signals =
      (((orderedSignals calls).zip xs).filter fun p => decide (strInt p.1.1 = a.id)).map (·.2)
  objects : ∃ xs : List (RObject ℝ), List.Forall₂ (fun g x => ShowsObject g.2 x) (orderedObjects doc calls) xs ∧
    GoodIds usedO ((orderedObjects doc calls).map fun g => g.2.base.id) (xs.map fun x => x.placed.id) ∧
    ∀ a ∈ doc.roads, a.objects =
      (((orderedObjects doc calls).zip xs).filter fun p => decide (strInt p.1.1 = a.id)).map (·.2)

/-- The road without its signals and objects. -/
def RRoad.unfurnished (a : RRoad F) : RRoad F := { a with signals := [], objects := [] }

/-- The document without signals and objects. -/
def RDocument.unfurnished (doc : RDocument F) : RDocument F := { doc with roads := doc.roads.map RRoad.unfurnished }

/-- The calls can be made: they are for roads with these ids, and signals have their type (as `Signal(...)` guarantees). -/
structure CallsFit (ids : List Int) (calls : List (Int × FurnishCall F)) : Prop where
  named : ∀ c ∈ calls, c.1 ∈ ids
  signals : ∀ c ∈ calls, ∀ g ∈ c.2.signalsOf, g.base.typ = .str g.type

end Pyodrx.Spec
