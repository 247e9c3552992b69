import Verif.Model.Networks
import Verif.Model.XmlFacts

/-!
Model of `brel/parsers/XML/xml_component_parser.py`.
-/

namespace Brel

/-- `find_element(x, "link:n")`, brel/parsers/utils/lxml_utils.py 121-133: the prefix is resolved in the scope of the element; `find` raises `SyntaxError` for
an unbound prefix. -/
def findLinkElement (x : XNode) (n : String) : Except PyErr (Option XNode) :=
  match x.ns.get? (some "link") with
  | none => .error .syntaxError
  | some u => .ok (x.children.find? (fun c => c.tag = some ("{" ++ u ++ "}" ++ n)))

/-- `find_elements(x, "link:n")`, lxml_utils.py 100-119: an unbound prefix is an `XPathEvalError`, which is caught. -/
def findLinkElements (x : XNode) (n : String) : List XNode :=
  match x.ns.get? (some "link") with
  | none => []
  | some u => x.children.filter (fun c => c.tag = some ("{" ++ u ++ "}" ++ n))

/-- An error code and the role it names. -/
abbrev ComponentReport := String × String

/-- xml_component_parser.py 33-120 (`parse_component_from_xml`); `uid` is the identity of the new object. -/
def parseComponent (nets : NetStore NodeKind Network) (uid : Nat) (x : XNode) : Except PyErr (ComponentOf Network × List ComponentReport) := do
  let role ← x.attr "roleURI"
  let infoElement ← findLinkElement x "definition"
  let info := match infoElement with
    | some e => e.text.getD ""
    | none => ""
  let usedOns := (findLinkElements x "usedOn").map (·.text)
  let networks := nets.getByLinkrole (·.linkRole) role
  let e1 := if !usedOns.contains (some "link:presentationLink") && networks.any (fun n => n.kind = .presentation) then
    [("PRESENTATION_NETWORK_IN_COMPONENT_WITHOUT_USEDON_ELEMENT", role)] else []
  let e2 := if !usedOns.contains (some "link:calculationLink") && networks.any (fun n => n.kind = .calculation) then
    [("CALCULATION_NETWORK_IN_COMPONENT_WITHOUT_USEDON_ELEMENT", role)] else []
  let e3 := if !usedOns.contains (some "link:definitionLink") && networks.any (fun n => n.kind = .definition) then
    [("DEFINITION_NETWORK_IN_COMPONENT_WITHOUT_USEDON_ELEMENT", role)] else []
  let presentation := networks.filter (fun n => n.kind = .presentation)
  let calculation := networks.filter (fun n => n.kind = .calculation)
  let definition := networks.filter (fun n => decide (n.kind = .definition) && !n.physical)
  let e4 := if presentation.length > 1 then [("MULTIPLE_PRESENTATION_NETWORKS_IN_COMPONENT", role)] else []
  let e5 := if calculation.length > 1 then [("MULTIPLE_CALCULATION_NETWORKS_IN_COMPONENT", role)] else []
  let e6 := if definition.length > 1 then [("MULTIPLE_DEFINITION_NETWORKS_IN_COMPONENT", role)] else []
  return (⟨uid, role, info, presentation.head?, calculation.head?, definition.head?⟩, e1 ++ e2 ++ e3 ++ e4 ++ e5 ++ e6)

/-- The name space in xml_component_parser.py 133. -/
def linkbaseNs : String := "http://www.xbrl.org/2003/linkbase"

/-- `find_elements(schema, ".//link:roleType", …)`, xml_component_parser.py 130-134 -/
def roleTypes (root : XNode) : List XNode := root.descendants.filter (fun x => x.tag = some ("{" ++ linkbaseNs ++ "}roleType"))

/-- xml_component_parser.py 129-135: one role. Each call of the constructor makes a new object. -/
def componentStep (nets : NetStore NodeKind Network) (s : List (ComponentOf Network) × List ComponentReport) (x : XNode) :
    Except PyErr (List (ComponentOf Network) × List ComponentReport) := do
  let r ← parseComponent nets s.1.length x
  return (componentUpsert s.1 r.1, s.2 ++ r.2)

/-- xml_component_parser.py 123-135 (`parse_components_xml`): `roots` are the roots of all documents. -/
def parseComponents (nets : NetStore NodeKind Network) (roots : List XNode) : Except PyErr (List (ComponentOf Network) × List ComponentReport) :=
  (roots.flatMap roleTypes).foldlM (componentStep nets) ([], [])

end Brel
