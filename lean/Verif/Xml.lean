import Verif.Py

namespace Pyodrx

/-- `xml.etree.ElementTree.Element`: tag, attributes (insertion-ordered dict), children.
pyodrx never sets element text. -/
inductive Xml (F : Type) where
  | elem (tag : String) (attrs : Dict (Val F)) (children : List (Xml F))

namespace Xml
variable {F : Type}
def tag : Xml F → String | .elem t _ _ => t
def attrs : Xml F → Dict (Val F) | .elem _ a _ => a
def children : Xml F → List (Xml F) | .elem _ _ c => c
/-- `element.get(name)` -/
def attr (x : Xml F) (name : String) : Option (Val F) := x.attrs.get? name
@[simp] theorem tag_elem (t a c) : (Xml.elem t a c : Xml F).tag = t := rfl
@[simp] theorem attrs_elem (t a c) : (Xml.elem t a c : Xml F).attrs = a := rfl
@[simp] theorem children_elem (t a c) : (Xml.elem t a c : Xml F).children = c := rfl
end Xml

end Pyodrx
