import Verif.Model.Session

/-! # `Road.add_object_roadside` in a program of calls -/

namespace Pyodrx

variable {F : Type} [PyFloat F]

/-- `road.add_object_roadside(object, repeatDistance, sOffset, tOffset, side)`, opendrive.py:226-277 (Model/Road.lean), where `r` and
`proto` are the variables of the road and of the object. The copies of the object are not assigned to variables in Python; here they get
the names `names`, `names + 1`, …, under which one can speak of them. Of the road, only `objects` is changed. -/
def Session.addObjectRoadside (names r proto : Nat) (repeatDistance sOffset tOffset : F) (side : RoadSide) :
    EStateM PyErr (Session F) Unit := fun s =>
  match Road.addObjectRoadside s.laneObjs proto repeatDistance sOffset tOffset side
      (s.readRoad (s.roads.cell r), ⟨{ s.objs with next := names }, s.sigs, s.reg⟩) with
  | .ok _ x => .ok ()
      { s with
        roads := s.roads.modify r fun y => { y with attrs := { y.attrs with objects := x.1.objects } }
        objs := { x.2.objs with next := s.objs.next }
        reg := x.2.reg }
  | .error e _ => .error e s

end Pyodrx
