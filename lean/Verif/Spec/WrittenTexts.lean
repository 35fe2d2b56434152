import Verif.Spec.UserTexts

/-! # Specification: the texts of the user that are written

Those of `userTexts` (Spec/UserTexts.lean) without the texts that are not written: the unit of a signal without value, and the ids of
links without a type (which `adjust_roads_and_lanes` can make between lanes). -/

namespace Pyodrx.Spec

variable {F : Type}

/-- Element ids of the links that are written. -/
def linkWritten (ls : List Link) : List String := (ls.filter (·.kind ≠ .pyNone)).flatMap fun l => idTexts l.elementId

/-- The texts of a signal that are written. -/
def signalWritten (g : Signal F) : List String :=
  (match g.base.id with | some i => idTexts i | none => []) ++ g.base.subtype.toList ++ g.base.name.toList ++ [g.country, g.type] ++
  (match g.value with | some _ => g.unit.toList | none => [])

/-- The texts of a lane section that are written. -/
def sectionWritten (lanes : Store (Lane F)) (sec : LaneSection F) : List String :=
  (sec.left ++ [sec.center] ++ sec.right).flatMap fun l => linkWritten (lanes.cell l).links

/-- The texts of a road that are written. -/
def roadWritten (hp : Heap F) (r : Road F) : List String :=
  r.name.toList ++ r.rule.toList ++ idTexts r.id ++ linkWritten r.links ++
  r.planview.adjGeoms.flatMap (fun g => geomTexts (hp.geoms.cell g.geom)) ++
  r.lanesections.flatMap (sectionWritten hp.lanes) ++
  r.signals.flatMap (fun i => signalWritten (hp.so.sigs.cell i)) ++
  r.objects.flatMap (fun i => baseTexts (hp.so.objs.cell i).base)

/-- The texts of a document that are written. -/
def writtenTexts (hp : Heap F) (date : String) (o : OpenDrive F) : List String :=
  [o.name, date] ++ o.roads.flatMap (fun kv => roadWritten hp kv.2) ++ o.junctions.flatMap junctionTexts

end Pyodrx.Spec
