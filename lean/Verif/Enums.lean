import Verif.Py

/-! # `pyodrx/enumerations.py` and `helpers.enum2str`

Each Python `Enum` becomes an inductive type with a `name` function giving the Python member name. -/

namespace Pyodrx

/-- `str.replace('_',' ')` on the characters. helpers.py:28-40. -/
def enum2strName (name : String) : String :=
  String.ofList (name.toList.map (fun c => if c = '_' then ' ' else c))

/-- enumerations.py:5-10 -/
inductive MarkRule where | no_passing | caution | none
  deriving DecidableEq, Repr
/-- member names, enumerations.py:8-10 -/
def MarkRule.name : MarkRule → String
  | .no_passing => "no_passing" | .caution => "caution" | .none => "none"

/-- enumerations.py:12-41 -/
inductive LaneType where
  | none | driving | stop | shoulder | biking | sidewalk | border | restricted | parking
  | bidirectional | median | special1 | special2 | special3 | roadWorks | tram | rail | entry
  | exit | offRamp | onRamp | connectingRamp | bus | taxi | HOV | mwyEntry | mwyExit
  deriving DecidableEq, Repr
/-- member names, enumerations.py:15-41 -/
def LaneType.name : LaneType → String
  | .none => "none" | .driving => "driving" | .stop => "stop" | .shoulder => "shoulder"
  | .biking => "biking" | .sidewalk => "sidewalk" | .border => "border"
  | .restricted => "restricted" | .parking => "parking" | .bidirectional => "bidirectional"
  | .median => "median" | .special1 => "special1" | .special2 => "special2"
  | .special3 => "special3" | .roadWorks => "roadWorks" | .tram => "tram" | .rail => "rail"
  | .entry => "entry" | .exit => "exit" | .offRamp => "offRamp" | .onRamp => "onRamp"
  | .connectingRamp => "connectingRamp" | .bus => "bus" | .taxi => "taxi" | .HOV => "HOV"
  | .mwyEntry => "mwyEntry" | .mwyExit => "mwyExit"

/-- enumerations.py:43-52 -/
inductive RoadMarkColor where | standard | blue | green | red | white | yellow | orange
  deriving DecidableEq, Repr
/-- member names, enumerations.py:46-52 -/
def RoadMarkColor.name : RoadMarkColor → String
  | .standard => "standard" | .blue => "blue" | .green => "green" | .red => "red"
  | .white => "white" | .yellow => "yellow" | .orange => "orange"

/-- enumerations.py:56-60 -/
inductive RoadMarkWeight where | standard | bold
  deriving DecidableEq, Repr
/-- member names, enumerations.py:59-60 -/
def RoadMarkWeight.name : RoadMarkWeight → String
  | .standard => "standard" | .bold => "bold"

/-- enumerations.py:62-76 -/
inductive RoadMarkType where
  | none | solid | broken | solid_solid | solid_broken | broken_solid | broken_broken
  | botts_dots | grass | curb | custom | edge
  deriving DecidableEq, Repr
/-- member names, enumerations.py:65-76 -/
def RoadMarkType.name : RoadMarkType → String
  | .none => "none" | .solid => "solid" | .broken => "broken" | .solid_solid => "solid_solid"
  | .solid_broken => "solid_broken" | .broken_solid => "broken_solid"
  | .broken_broken => "broken_broken" | .botts_dots => "botts_dots" | .grass => "grass"
  | .curb => "curb" | .custom => "custom" | .edge => "edge"

/-- enumerations.py:96-102 -/
inductive LaneChange where | increase | decrease | both | none
  deriving DecidableEq, Repr
/-- member names, enumerations.py:99-102 -/
def LaneChange.name : LaneChange → String
  | .increase => "increase" | .decrease => "decrease" | .both => "both" | .none => "none"

/-- enumerations.py:104-108 -/
inductive ElementType where | road | junction
  deriving DecidableEq, Repr
/-- member names, enumerations.py:107-108 -/
def ElementType.name : ElementType → String | .road => "road" | .junction => "junction"

/-- enumerations.py:110-114 -/
inductive ContactPoint where | start | «end»
  deriving DecidableEq, Repr
/-- member names, enumerations.py:113-114 -/
def ContactPoint.name : ContactPoint → String | .start => "start" | .end => "end"

/-- enumerations.py:116-120 -/
inductive Direction where | same | opposite
  deriving DecidableEq, Repr
/-- member names, enumerations.py:119-120 -/
def Direction.name : Direction → String | .same => "same" | .opposite => "opposite"

/-- enumerations.py:122-127 -/
inductive Orientation where | positive | negative | none
  deriving DecidableEq, Repr
/-- member names, enumerations.py:125-127 -/
def Orientation.name : Orientation → String
  | .positive => "positive" | .negative => "negative" | .none => "none"

/-- enumerations.py:129-147 -/
inductive ObjectType where
  | none | obstacle | pole | tree | vegetation | barrier | building | parkingSpace | patch
  | railing | trafficIsland | crosswalk | streetLamp | gantry | soundBarrier | roadMark
  deriving DecidableEq, Repr
/-- member names, enumerations.py:132-147 -/
def ObjectType.name : ObjectType → String
  | .none => "none" | .obstacle => "obstacle" | .pole => "pole" | .tree => "tree"
  | .vegetation => "vegetation" | .barrier => "barrier" | .building => "building"
  | .parkingSpace => "parkingSpace" | .patch => "patch" | .railing => "railing"
  | .trafficIsland => "trafficIsland" | .crosswalk => "crosswalk" | .streetLamp => "streetLamp"
  | .gantry => "gantry" | .soundBarrier => "soundBarrier" | .roadMark => "roadMark"

/-- enumerations.py:149-153 -/
inductive Dynamic where | yes | no
  deriving DecidableEq, Repr
/-- member names, enumerations.py:152-153 -/
def Dynamic.name : Dynamic → String | .yes => "yes" | .no => "no"

/-- enumerations.py:155-160 -/
inductive RoadSide where | both | left | right
  deriving DecidableEq, Repr

end Pyodrx
