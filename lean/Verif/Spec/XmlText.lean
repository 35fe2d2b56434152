import Verif.XmlParser

/-! # Specification: which element trees can be written as XML, and what is read back -/

namespace Pyodrx.Spec
open XmlParser

/-- An XML name (ASCII). -/
def isName (s : String) : Bool :=
  match s.toList with
  | [] => false
  | c :: l => isNameStart c && l.all isNameChar

/-- Tags and attribute names are names; no attribute occurs twice in an element. -/
inductive WellNamed : Node → Prop
  | elem (t : String) (as : List (String × String)) (cs : List Node) : isName t = true →
      (∀ p ∈ as, isName p.1 = true) → (as.map Prod.fst).Nodup → (∀ c ∈ cs, WellNamed c) →
      WellNamed (.elem t as cs)

/-- The values consist of characters that XML allows. -/
inductive LegalValues : Node → Prop
  | elem (t : String) (as : List (String × String)) (cs : List Node) :
      (∀ p ∈ as, ∀ c ∈ p.2.toList, isXmlChar c = true) → (∀ c ∈ cs, LegalValues c) →
      LegalValues (.elem t as cs)

/-- The same tree with every value changed by `f`. -/
def _root_.Pyodrx.Node.mapValues (f : String → String) : Node → Node
  | .elem t as cs => .elem t (as.map fun p => (p.1, f p.2)) (cs.attach.map fun ⟨c, _⟩ => c.mapValues f)

/-- What is read of a value that was written without character references for white space: a line
break of any kind or a tab becomes a space. -/
def spaced (v : String) : String :=
  String.ofList ((eol v.toList).map fun c => if isSpace c then ' ' else c)

/-- No value contains a line break or a tab. -/
inductive PlainValues : Node → Prop
  | elem (t : String) (as : List (String × String)) (cs : List Node) :
      (∀ p ∈ as, ∀ c ∈ p.2.toList, c ≠ '\n' ∧ c ≠ '\r' ∧ c ≠ '\t') → (∀ c ∈ cs, PlainValues c) →
      PlainValues (.elem t as cs)

end Pyodrx.Spec
