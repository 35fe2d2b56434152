import Mathlib.Data.List.SplitOn

/-! # How a shell reads a simple command -/

namespace Pyodrx.Spec

/-- Characters that have no special meaning in a shell command. -/
def shellPlain (c : Char) : Bool :=
  (c.isAlphanum || c ∈ ['/', '.', '_', '-', ',', '+', ':', '@', '%'])

/-- The words of a command that consists of plain characters and spaces; other commands are not considered. -/
def shellWords (command : String) : Option (List String) :=
  if command.toList.all (fun c => shellPlain c || c = ' ') then
    some (((command.toList.splitOnP (· = ' ')).filter (· ≠ [])).map String.ofList)
  else none

/-- The text of a directory as the beginning of the path of a file in it. -/
def dirPrefix (p : String) : String :=
  if p.toList = [] ∨ p.toList.getLast? = some '/' then p else p ++ "/"

end Pyodrx.Spec
