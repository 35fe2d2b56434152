import Verif.Model.OpenDrive

/-! # Specification: the texts of a document that come from the user

All other values in a document are numbers, integers, `None` and the names of enum members. -/

namespace Pyodrx.Spec

variable {F : Type}

/-- An id that was given as a text. -/
def idTexts : PyId → List String
  | .str s => [s]
  | .int _ => []

/-- Element ids of links. -/
def linkTexts (ls : List Link) : List String := ls.flatMap fun l => idTexts l.elementId

/-- The `prange` of a ParamPoly3. -/
def geomTexts : Geom F → List String
  | .poly g => [g.prange]
  | _ => []

/-- The texts that an object and a signal have in common: id, subtype, name, and the type if it is a text. -/
def baseTexts (b : SOBase F) : List String :=
  (match b.id with | some i => idTexts i | none => []) ++ b.subtype.toList ++ b.name.toList ++
  (match b.typ with | .str s => [s] | .obj _ => [])

/-- The texts of a signal. -/
def signalTexts (g : Signal F) : List String := baseTexts g.base ++ [g.country, g.type] ++ g.unit.toList

/-- The texts of a lane section: of the links of its lanes. -/
def sectionTexts (lanes : Store (Lane F)) (sec : LaneSection F) : List String :=
  (sec.left ++ [sec.center] ++ sec.right).flatMap fun l => linkTexts (lanes.cell l).links

/-- The texts of a road. -/
def roadTexts (hp : Heap F) (r : Road F) : List String :=
  r.name.toList ++ r.rule.toList ++ idTexts r.id ++ linkTexts r.links ++
  r.planview.adjGeoms.flatMap (fun g => geomTexts (hp.geoms.cell g.geom)) ++
  r.lanesections.flatMap (sectionTexts hp.lanes) ++
  r.signals.flatMap (fun i => signalTexts (hp.so.sigs.cell i)) ++
  r.objects.flatMap (fun i => baseTexts (hp.so.objs.cell i).base)

/-- The texts of a junction. -/
def junctionTexts (j : Junction) : List String :=
  [j.name] ++ idTexts j.id ++ j.connections.flatMap (fun c => idTexts c.incomingRoad ++ idTexts c.connectingRoad)

/-- The texts of a document; `date` is the text of the clock. -/
def userTexts (hp : Heap F) (date : String) (o : OpenDrive F) : List String :=
  [o.name, date] ++ o.roads.flatMap (fun kv => roadTexts hp kv.2) ++ o.junctions.flatMap junctionTexts

end Pyodrx.Spec
