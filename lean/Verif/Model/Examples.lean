import Verif.Model.Generators

/-! # `examples/full_junction.py` -/

namespace Pyodrx
open PyFloat

variable {F : Type} [PyFloat F]

/-- What the program has built when it comes to `write_xml`. -/
structure JunctionProgram (F : Type) where
  /-- the variable `junc`, as returned by `create_junction_roads` -/
  connecting : List (Road F)
  junction : Junction
  world : World F

/-- `examples/full_junction.py:23-35` for any roads, angles and arguments of
`create_junction_roads`; the junction made by `create_junction` has the id that the roads are linked
to, as in the example (where both are 1). The junction is only stored by `add_junction`, so it is
returned separately. -/
def junctionProgram (roads : List (Road F)) (angles : List F) (r : F) (junction : Int)
    (spiralPart arcPart : F) (startnum : Int) (st : GenState F) :
    Except PyErr (JunctionProgram F) :=
  match createJunctionRoads angles r junction spiralPart arcPart startnum (roads, st) with
  | .error e _ => .error e
  | .ok jrs (roads', st') =>
    match createJunction jrs (.int junction) roads' with
    | .error e => .error e
    | .ok j =>
      match World.adjustRoadsAndLanes
          ⟨⟨(roads' ++ jrs).foldl addRoad [], st'.geoms⟩, st'.lanes⟩ with
      | .error e _ => .error e
      | .ok _ w => .ok ⟨jrs, j, w⟩

/-- The loop of examples/full_junction.py:10-15: `m` straight roads with the ids `i`, `i + 1`, ... -/
def straightRoads (length : F) (lanes : Nat) (width : F) :
    Nat → Nat → EStateM PyErr (GenState F) (List (Road F))
  | _, 0 => pure []
  | i, m + 1 => do
    let r ← createStraightRoad (.int i) length (-1) lanes width
    let rs ← straightRoads length lanes width (i + 1) m
    pure (r :: rs)

end Pyodrx
