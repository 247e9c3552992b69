import Verif.Model.Link

/-! Model of `brel/parsers/XML/networks/xml_resource_parser.py`. -/

namespace Brel

/-- A child element as lxml presents it: its tag, the text before its first child, and the text after its end tag. Its own children
are never looked at. -/
structure XChild where
  tag : String
  text : Option String := none
  tail : Option String := none
  deriving DecidableEq, Repr

/-- A resource element. `langs` are the `xml:lang` attributes of the element and its ancestors, from the inside out. -/
structure XResource where
  tag : String
  label : String
  role : String
  langs : List (Option String)
  text : Option String := none
  children : List XChild := []
  deriving DecidableEq, Repr

/-- The three kinds of resource objects (resource/brel_label.py, brel_footnote.py, brel_reference.py). -/
inductive Resource where
  | label (text label lang role : String)
  | footnote (text label lang role : String)
  | reference (content : Dict String (Option String)) (label role : String)
  deriving DecidableEq, Repr

/-- The three errors of the parser. -/
inductive ResourceErr where
  | missingLabelLanguage
  | missingFootnoteLanguage
  | unsupportedTag
  deriving DecidableEq, Repr

/-- parsers/utils/lxml_utils.py 164-178 (`get_elem_lang_recursive`) -/
def elemLang : List (Option String) → Option String
  | [] => none
  | some l :: _ => some l
  | none :: ls => elemLang ls

/-- `re.sub(r"^\{.*\}", "", tag)`: everything up to the last closing brace, if the tag starts with a brace and has a closing one. -/
def stripNs (tag : List Char) : List Char :=
  if tag.head? = some '{' ∧ '}' ∈ tag then (tag.reverse.takeWhile (· ≠ '}')).reverse else tag

/-- Python's `x or y` for an optional string. -/
def orText (x : Option String) (y : String) : String :=
  match x with
  | some t => if t = "" then y else t
  | none => y

/-- xml_resource_parser.py 24-65 (`parse_xml_resource`). `str` is the string representation of a child element object
(`<Element ... at 0x...>`). Comments among the children are left out. -/
def parseResource (str : XChild → String) (x : XResource) : Except ResourceErr Resource :=
  if isInfix "label".toList x.tag.toList then
    match elemLang x.langs with
    | none => .error .missingLabelLanguage
    | some lang => .ok (.label (orText x.text "") x.label lang x.role)
  else if isInfix "footnote".toList x.tag.toList then
    match elemLang x.langs with
    | none => .error .missingFootnoteLanguage
    | some lang => .ok (.footnote (orText x.text (String.join (x.children.map str))) x.label lang x.role)
  else if isInfix "reference".toList x.tag.toList then
    .ok (.reference (x.children.foldl (fun d c => d.set (String.ofList (stripNs c.tag.toList)) c.text) []) x.label x.role)
  else .error .unsupportedTag

end Brel
