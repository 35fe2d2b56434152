import Verif.Model.Write

/-! # Model of `prettyprint` and `run_road`, helpers.py -/

namespace Pyodrx

variable {F : Type}

/-- `posixpath.join(a, *p)` (Python 3.11): a part that begins with `/` discards the parts before it. -/
def osPathJoin (a : String) : List String → String
  | [] => a
  | b :: p =>
    osPathJoin (if b.toList.head? = some '/' then b
      else if a.toList = [] ∨ a.toList.getLast? = some '/' then a ++ b
      else a ++ "/" ++ b) p

/-- What `prettyprint` writes on the screen, helpers.py:42-52. `print` adds a line break. -/
def prettyPrint (element : Node) : Except PyErr (List Char) :=
  match XmlParser.parse (serialize element) with
  | none => .error .expatError
  | some reparsed => .ok (toPrettyXml reparsed ++ ['\n'])

/-- The effects of `run_road`: what it prints, the file it writes and the command it gives to the shell. -/
structure RunRoad where
  printed : String
  file : String × List Char
  command : String

/-- `run_road` on a POSIX system, helpers.py:8-25; `density` is the text `str(density)`. Not modelled: the branch for
Windows, what the viewer does. -/
def runRoad [PyFloat F] (show' : F → String) (hp : Heap F) (date : String) (o : OpenDrive F)
    (esminipath density : String) : Except PyErr RunRoad := do
  let scenariopath := osPathJoin esminipath ["resources", "xodr"]
  let file ← o.writeXml show' hp date (some (osPathJoin scenariopath ["pythonroad.xodr"])) true
  pure { printed := scenariopath
         file := file
         command := osPathJoin "." [esminipath, "bin", "odrviewer"] ++ " --odr " ++
          osPathJoin esminipath ["resources", "xodr", "pythonroad.xodr"] ++
          " --osi_features on --clear-color 0.2,0.2,0.2 --window 60 60 800 400 --density " ++ density }

end Pyodrx
