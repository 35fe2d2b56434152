import Verif.Model.Road

/-! # Specification: histories of objects and signals -/

namespace Pyodrx.Spec
open Pyodrx

variable {F : Type}

/-- Everything the object/signal part of pyodrx can observe: the roads (by number), all objects and
signals, and the class-level registry of ids. -/
structure SOWorld (F : Type) where
  roads : Nat → Road F
  so : SOState F

/-- Put back a road. -/
def SOWorld.setRoad (w : SOWorld F) (k : Nat) (x : Road F × SOState F) : SOWorld F :=
  ⟨fun i => if i = k then x.1 else w.roads i, x.2⟩

/-- The states a Python program can reach from the start of the process by creating objects and
signals, giving them repeats, changing roads in other ways, and adding objects and signals (alone,
in lists, the same one several times, or by `add_object_roadside`) to roads. -/
inductive Reach [PyFloat F] : SOWorld F → Prop
  | init (roads : Nat → Road F) (so : SOState F)
      (h : ∀ k, (roads k).objects = [] ∧ (roads k).signals = [])
      (hreg : so.reg = []) : Reach ⟨roads, so⟩
  /-- `Object(...)` -/
  | newObject (w) (o : Obj F) : Reach w →
      Reach { w with so := { w.so with objs := (w.so.objs.alloc o).1 } }
  /-- `Signal(...)` -/
  | newSignal (w) (g : Signal F) : Reach w →
      Reach { w with so := { w.so with sigs := (w.so.sigs.alloc g).1 } }
  /-- `obj.repeat(...)` -/
  | repeat (w) (o : Nat) (len dist : F) (args : RepeatArgs F) : Reach w →
      Reach { w with so := { w.so with objs := w.so.objs.modify o (·.repeat len dist args) } }
  /-- anything else that happens to the roads -/
  | roads (w) (roads : Nat → Road F)
      (h : ∀ k, (roads k).objects = (w.roads k).objects ∧ (roads k).signals = (w.roads k).signals) :
      Reach w → Reach { w with roads := roads }
  /-- `road.add_object(objects)` with existing objects -/
  | addObject (w) (k : Nat) (os : List Nat) (h : ∀ o ∈ os, o < w.so.objs.next) : Reach w →
      Reach (w.setRoad k ((w.roads k).addObject os w.so))
  /-- `road.add_signal(signals)` with existing signals -/
  | addSignal (w) (k : Nat) (os : List Nat) (h : ∀ o ∈ os, o < w.so.sigs.next) : Reach w →
      Reach (w.setRoad k ((w.roads k).addSignal os w.so))
  /-- a successful `road.add_object_roadside(...)` -/
  | roadside (w) (k : Nat) (lanes : Store (Lane F)) (proto : Nat) (dist sOff tOff : F)
      (side : RoadSide) (x : Road F × SOState F)
      (h : Road.addObjectRoadside lanes proto dist sOff tOff side (w.roads k, w.so) = .ok () x) :
      Reach w → Reach (w.setRoad k x)

/-- an object that was added to some road -/
def SOWorld.attachedObj (w : SOWorld F) (o : Nat) : Prop := ∃ k, o ∈ (w.roads k).objects
/-- a signal that was added to some road -/
def SOWorld.attachedSig (w : SOWorld F) (o : Nat) : Prop := ∃ k, o ∈ (w.roads k).signals

/-- the id text an object is emitted with -/
def SOWorld.objId (w : SOWorld F) (o : Nat) : String := optIdText (w.so.objs.cell o).base.id
/-- the id text a signal is emitted with -/
def SOWorld.sigId (w : SOWorld F) (o : Nat) : String := optIdText (w.so.sigs.cell o).base.id

end Pyodrx.Spec
