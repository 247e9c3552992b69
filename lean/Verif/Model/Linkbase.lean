import Verif.Model.Networks
import Verif.Model.Resource
import Verif.Model.Schema

/-!
How the links of a filing are read from its documents: the XML side of `brel/parsers/XML/networks/xml_networks_parser.py` and
`brel/parsers/XML/networks/xml_extended_link_parser.py`. What is made of arcs and link ends is in `Link.lean` and `Networks.lean`.
-/

namespace Brel

/-- The `xml:lang` attribute of an element, lxml_utils.py 175-176. -/
def XNode.lang (x : XNode) : Option String := x.attr? ("{" ++ xmlNs ++ "}lang")

mutual
/-- The proper descendants of a node in document order, each with the `xml:lang` attributes of itself and of its ancestors from the inside out; `langs` are those of the
node and its ancestors. -/
def XNode.scoped (langs : List (Option String)) : XNode → List (List (Option String) × XNode)
  | .mk _ _ _ _ cs => XNode.scopedAll langs cs
/-- The nodes of a list and their descendants, as in `XNode.scoped`. -/
def XNode.scopedAll (langs : List (Option String)) : List XNode → List (List (Option String) × XNode)
  | [] => []
  | c :: cs => (c.lang :: langs, c) :: (c.scoped (c.lang :: langs) ++ XNode.scopedAll langs cs)
end

/-- `get_str_attribute_optional(x, "xlink:n")`, lxml_utils.py 62-75: the prefix is resolved in the scope of the element. -/
def XNode.xlink? (x : XNode) (n : String) : Except PyErr (Option String) := do
  let q ← qnameFromStr ("xlink:" ++ n) x.ns
  return x.attr? q.clark

/-- `get_str_attribute(x, "xlink:n")`, lxml_utils.py 36-59 -/
def XNode.xlink (x : XNode) (n : String) : Except PyErr String := do
  match ← x.xlink? n with
  | some v => return v
  | none => throw .valueError

/-- `find_elements(link, ".//*[@xlink:type='…']")`, xml_extended_link_parser.py 123, 141-143: here the prefix is resolved in the scope of the link; an unbound prefix is an
`XPathEvalError`, which is caught (lxml_utils.py 113-119). -/
def findXlink (types : List String) (link : XNode) (l : List (List (Option String) × XNode)) : List (List (Option String) × XNode) :=
  match link.ns.get? (some "xlink") with
  | none => []
  | some u => l.filter (fun x => x.2.tag.isSome && types.any (fun t => decide (x.2.attr? ("{" ++ u ++ "}type") = some t)))

/-- A numeric attribute; `float` gives the number of a text, if it is one. -/
def numAttr (float : String → Option Rat) : Option String → NumAttr
  | none => .absent
  | some s => if s = "" then .empty else match float s with
    | some q => .num q
    | none => .invalid

/-- xml_extended_link_parser.py 124-126, and the attributes read by the node factories (see `Arc`). -/
def readArc (float : String → Option Rat) (x : XNode) : Except PyErr Arc := do
  let frm ← x.xlink "from"
  let to ← x.xlink "to"
  let role ← x.xlink "arcrole"
  return { frm := frm, to := to, role := role, order := numAttr float (x.attr? "order"), weight := numAttr float (x.attr? "weight"),
           preferredLabel := x.attr? "preferredLabel", use := x.attr? "use" }

/-- The error code of a resource that is refused, xml_resource_parser.py 41, 49-51, 63-65. -/
def ResourceErr.report (tag : String) : ResourceErr → SchemaReport
  | .missingLabelLanguage => ("MISSING_LABEL_LANGUAGE", [])
  | .missingFootnoteLanguage => ("XML_MISSING_FOOTNOTE_LANGUAGE", [])
  | .unsupportedTag => ("XML_UNSUPPORTED_RESOURCE_TAG", [("tag", some tag)])

/-- xml_resource_parser.py 24-66: the resource element as `parseResource` takes it. The role is required; a comment among the parts of a reference raises a `TypeError`, as its tag is
no text. `str` is the string representation of a child. -/
def readResource (str : XNode → String) (langs : List (Option String)) (x : XNode) : Except PyErr (Except ResourceErr Resource) := do
  let label ← x.xlink "label"
  let role ← x.xlink "role"
  let tag := x.tag.getD ""
  let isReference := !isInfix "label".toList tag.toList && !isInfix "footnote".toList tag.toList && isInfix "reference".toList tag.toList
  if isReference && x.children.any (fun c => c.tag.isNone) then throw .typeError
  else
    let children := x.children.map (fun c => ({ tag := c.tag.getD "", text := c.text } : XChild))
    -- a footnote without text of its own gets the representations of its children: `str` is applied here, and `parseResource` joins one text
    let text := if isInfix "label".toList tag.toList || !isInfix "footnote".toList tag.toList then x.text
      else some (orText x.text (String.join (x.children.map str)))
    return parseResource (fun _ => "") { tag := tag, label := label, role := role, langs := langs, text := text, children := children }

/-- The object identity of a resource. -/
def Resource.target (uid : Nat) : Resource → Target
  | .label .. => .labelResource uid
  | .footnote .. => .footnoteResource uid
  | .reference .. => .referenceResource uid

/-- A link end with the resource it is and the error it causes. -/
structure EndReading where
  link : LinkEnd
  resource : Option (Nat × Resource) := none
  reports : List SchemaReport := []

/-- xml_extended_link_parser.py 44-85 (`get_object_from_reference`) and 144-151. `uid` is the identity of the resource object made for the element, if it is one; the identity of a fact
is its place in the fact repository. -/
def readEnd (elems : ElemStore) (facts : FactStore) (str : XNode → String) (uid : Nat) (langs : List (Option String)) (x : XNode) : Except PyErr EndReading := do
  let label ← x.xlink "label"
  let type ← x.xlink "type"
  if type = "locator" then
    let href ← x.xlink "href"
    match ← resolveLocator elems facts href with
    | some (.inl e) => return { link := ⟨label, some (.element e.name (decide (e.kind = .concept)))⟩ }
    | some (.inr _) => return { link := ⟨label, some (.fact (facts.byId.keys.idxOf (String.ofList (fragment href.toList))))⟩ }
    | none => return { link := ⟨label, none⟩, reports := [("XML_REFERENCED_LOCATOR_ELEMENT_NOT_FOUND", [("elem_id", some (String.ofList (fragment href.toList)))])] }
  else if type = "resource" then
    match ← readResource str langs x with
    | .ok r => return { link := ⟨label, some (r.target uid)⟩, resource := some (uid, r) }
    | .error e => return { link := ⟨label, none⟩, reports := [e.report (x.tag.getD "")] }
  else return { link := ⟨label, none⟩, reports := [("XML_UNSUPPORTED_REFERENCED_ELEMENT_TYPE", [("type", some type)])] }

/-- xml_extended_link_parser.py 141-151: all link ends; the identities count upwards. -/
def readEnds (elems : ElemStore) (facts : FactStore) (str : XNode → String) : Nat → List (List (Option String) × XNode) → Except PyErr (List EndReading)
  | _, [] => .ok []
  | uid, x :: xs => do
    let e ← readEnd elems facts str uid x.1 x.2
    let es ← readEnds elems facts str (uid + 1) xs
    return e :: es

/-- A link element of a document: the identity of its first link end, and the `xml:lang` attributes of the element and its ancestors. -/
structure LinkNode where
  base : Nat
  langs : List (Option String)
  node : XNode

/-- What is read from a link element. -/
structure LinkReading where
  link : LinkXml
  resources : List (Nat × Resource) := []
  reports : List SchemaReport := []

/-- xml_networks_parser.py 92-100 with xml_extended_link_parser.py 92-151: arcs and link ends are only read if the link has a role and a known type. A link with two factories is read
twice, and its errors are recorded twice; the objects of the second reading are those of the first (see `parseXmlLink`). -/
def readLink (elems : ElemStore) (facts : FactStore) (float : String → Option Rat) (str : XNode → String) (l : LinkNode) : Except PyErr LinkReading := do
  match ← l.node.xlink? "role" with
  | none => return { link := ⟨l.node, [], []⟩ }
  | some _ =>
    if linkKinds (l.node.tag.getD "") = [] then return { link := ⟨l.node, [], []⟩ }
    else
      let below := l.node.scoped l.langs
      let arcs ← (findXlink ["arc"] l.node below).mapM (fun x => readArc float x.2)
      let ends ← readEnds elems facts str l.base (findXlink ["resource", "locator"] l.node below)
      let once := (scanArcs arcs).2.map (fun a => ("DUPLICATE_LINKBASE_ARC", [("arc_from", some a.frm), ("arc_to", some a.to)])) ++ ends.flatMap (·.reports)
      return { link := ⟨l.node, arcs, ends.map (·.link)⟩, resources := ends.filterMap (·.resource),
               reports := (linkKinds (l.node.tag.getD "")).flatMap (fun _ => once) }

/-- The name spaces of the query in xml_networks_parser.py 77-79. -/
def isLinkElement (x : XNode) : Bool :=
  startsWith (x.tag.getD "").toList "{http://www.xbrl.org/2003/linkbase}".toList && decide (x.attr? "{http://www.w3.org/1999/xlink}type" = some "extended")

/-- `find_elements(xml_tree, ".//link:*[@xlink:type='extended']", …)` over all documents, xml_networks_parser.py 71-81. -/
def linkElements (roots : List XNode) : List (List (Option String) × XNode) :=
  roots.flatMap (fun r => (r.scoped [r.lang]).filter (fun x => isLinkElement x.2))

/-- Object identities for the resources of all links: those of different links are different. -/
def numberLinks : Nat → List (List (Option String) × XNode) → List LinkNode
  | _, [] => []
  | n, x :: xs => ⟨n, x.1, x.2⟩ :: numberLinks (n + (x.2.scoped x.1).length) xs

/-- xml_networks_parser.py 83-88: links with a standard role first; the order of the documents is kept otherwise. -/
def sortLinkNodes (links : List LinkNode) : Except PyErr (List LinkNode) := do
  let keys ← links.mapM (fun l => l.node.xlink? "role")
  return (sortBy (fun a b => isStandardRole (a.1.getD "") || !isStandardRole (b.1.getD "")) (keys.zip links)).map (·.2)

/-- The state of the first pass with the resources made and the errors of reading. -/
structure ReadPass where
  pass : LinkPass := {}
  resources : List (Nat × Resource) := []
  reports : List SchemaReport := []

/-- xml_networks_parser.py 91-104: one link. -/
def ReadPass.step (elems : ElemStore) (facts : FactStore) (float : String → Option Rat) (str : XNode → String) (so : SetOrder) (s : ReadPass) (l : LinkNode) : Except PyErr ReadPass := do
  let r ← readLink elems facts float str l
  let p ← s.pass.step so r.link
  return { pass := p, resources := s.resources ++ r.resources, reports := s.reports ++ r.reports }

/-- The networks of a filing, the resources made for them and the errors. -/
structure ReadNetworks where
  networks : Networks
  resources : List (Nat × Resource)
  reports : List SchemaReport

/-- xml_networks_parser.py 47-126 (`parse_networks_from_xmls`) from the documents on, without the tables. -/
def readNetworks (elems : ElemStore) (facts : FactStore) (float : String → Option Rat) (str : XNode → String) (so : SetOrder) (steps : Nat) (roots : List XNode) :
    Option (Except PyErr ReadNetworks) :=
  match sortLinkNodes (numberLinks 0 (linkElements roots)) with
  | .error e => some (.error e)
  | .ok sorted =>
    match sorted.foldlM (ReadPass.step elems facts float str so) {} with
    | .error e => some (.error e)
    | .ok p =>
      (combineRoles so steps p.pass.heap p.pass.byRole).map (fun r => r.map (fun s =>
        { networks := { heap := s.1, store := s.2.foldl (NetStore.upsert (·.kind)) [], labels := p.pass.labels, errs := p.pass.errs }, resources := p.resources, reports := p.reports }))

/-- `get_labels()` of the element with the name: brel/reportelements/i_report_element.py and its classes, filled by xml_label_network_factory.py 93-119. -/
def ReadNetworks.labelsOf (s : ReadNetworks) (q : QName) : List Label :=
  s.networks.labels.filterMap (fun p => if p.1 = q then
    match s.resources.find? (fun r => r.1 = p.2) with
    | some (_, .label text label lang role) => some { text := text, label := label, language := lang, role := role }
    | _ => none
  else none)

end Brel
