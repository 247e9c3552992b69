import Verif.Model.Names

/-!
The part of lxml's element interface the XML parsers of `brel/parsers/` use.
Nothing here models a function of /repo except the attribute getters at the end.
-/

namespace Brel

/-- An `lxml.etree._Element`. `tag` is the tag in Clark notation; it is `none` for comments and processing instructions, whose
`tag` is a function object in lxml. `ns` is the namespace scope (`nsmap`). Tails are not used by the modelled parsers. -/
inductive XNode where
  | mk (tag : Option String) (attrs : Dict String String) (text : Option String) (ns : NsMap) (children : List XNode)

namespace XNode

/-- `element.tag` -/
def tag : XNode → Option String | .mk t _ _ _ _ => t
/-- `element.attrib` -/
def attrs : XNode → Dict String String | .mk _ a _ _ _ => a
/-- `element.text` -/
def text : XNode → Option String | .mk _ _ t _ _ => t
/-- `element.nsmap` -/
def ns : XNode → NsMap | .mk _ _ _ n _ => n
/-- `list(element)` -/
def children : XNode → List XNode | .mk _ _ _ _ c => c

/-- The local part of a tag in Clark notation: what follows `{…}`. -/
def localPart (t : String) : String :=
  match t.toList with
  | '{' :: r => String.ofList ((r.dropWhile (· ≠ '}')).drop 1)
  | l => String.ofList l

/-- Whether the node is an element (not a comment) with this local name, in any namespace. -/
def hasLocal (x : XNode) (n : String) : Bool :=
  match x.tag with
  | some t => localPart t = n
  | none => false

/-- `element.find("{*}n")`: the first child with local name `n`. -/
def find (x : XNode) (n : String) : Option XNode := x.children.find? (fun c => c.hasLocal n)

/-- `n in element.tag`; a `TypeError` for comments, whose tag is a function. -/
def tagHas (x : XNode) (n : String) : Except PyErr Bool :=
  match x.tag with
  | some t => .ok (isInfix n.toList t.toList)
  | none => .error .typeError

/-- `get_str_attribute_optional(element, a)` for an attribute name without prefix, brel/parsers/utils/lxml_utils.py 62-75. -/
def attr? (x : XNode) (a : String) : Option String := x.attrs.get? a

/-- `get_str_attribute(element, a)` for an attribute name without prefix, brel/parsers/utils/lxml_utils.py 36-59. -/
def attr (x : XNode) (a : String) : Except PyErr String :=
  match x.attrs.get? a with
  | some v => .ok v
  | none => .error .valueError

end XNode
end Brel
