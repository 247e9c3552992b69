import Verif.Model.Components

/-! What a component consists of (C42). -/

namespace Brel

/-- The networks of a role and a class, in the order in which they were stored. -/
def ofRole (stored : List Network) (r : String) (k : NodeKind) : List Network := stored.filter (fun n => decide (n.linkRole = r) && decide (n.kind = k))

/-- Those that can belong to a component: physical definition networks, which hold a single arc role, do not. -/
def candidates (stored : List Network) (r : String) (k : NodeKind) : List Network :=
  (ofRole stored r k).filter (fun n => !(decide (n.kind = .definition) && n.physical))

/-- The child elements with this name in the name space of linkbases. -/
def linkChildren (x : XNode) (n : String) : List XNode := x.children.filter (fun c => c.tag = some ("{http://www.xbrl.org/2003/linkbase}" ++ n))

/-- The links a role declares to be used on. -/
def declaredOn (x : XNode) : List String := (linkChildren x "usedOn").filterMap (·.text)

/-- The three classes of networks of a component: the link that has to be declared, and what is reported. -/
def componentClasses : List (NodeKind × String × String × String) :=
  [(.presentation, "link:presentationLink", "PRESENTATION_NETWORK_IN_COMPONENT_WITHOUT_USEDON_ELEMENT", "MULTIPLE_PRESENTATION_NETWORKS_IN_COMPONENT"),
   (.calculation, "link:calculationLink", "CALCULATION_NETWORK_IN_COMPONENT_WITHOUT_USEDON_ELEMENT", "MULTIPLE_CALCULATION_NETWORKS_IN_COMPONENT"),
   (.definition, "link:definitionLink", "DEFINITION_NETWORK_IN_COMPONENT_WITHOUT_USEDON_ELEMENT", "MULTIPLE_DEFINITION_NETWORKS_IN_COMPONENT")]

/-- The reports a role causes, in order: undeclared links first, then classes with several networks. -/
def roleReports (stored : List Network) (x : XNode) (r : String) : List ComponentReport :=
  (componentClasses.filter (fun c => decide (ofRole stored r c.1 ≠ []) && decide (c.2.1 ∉ declaredOn x))).map (fun c => (c.2.2.1, r)) ++
  (componentClasses.filter (fun c => decide (1 < (candidates stored r c.1).length))).map (fun c => (c.2.2.2, r))

/-- The component of a role. -/
structure IsComponentOf (stored : List Network) (x : XNode) (r : String) (c : ComponentOf Network) : Prop where
  uri : c.uri = r
  info : c.info = (((linkChildren x "definition").head?.bind (·.text)).getD "")
  presentation : c.presentation = (candidates stored r .presentation).head?
  calculation : c.calculation = (candidates stored r .calculation).head?
  definition : c.definition = (candidates stored r .definition).head?

/-- An element is a role declaration with a URI, and the prefix `link` stands for the name space of linkbases. -/
def XNode.plainRole (x : XNode) (r : String) : Prop := x.attr? "roleURI" = some r ∧ x.ns.get? (some "link") = some "http://www.xbrl.org/2003/linkbase"

/-- `get_presentation_network`, `get_calculation_network` and `get_definition_network`. -/
def ComponentOf.ofKind {ν : Type} (c : ComponentOf ν) : NodeKind → Option ν
  | .presentation => c.presentation
  | .calculation => c.calculation
  | .definition => c.definition
  | _ => none

/-- The roles that a schema declares: its elements `roleType`, at any depth. -/
def declaredRoles (root : XNode) : List XNode := root.descendants.filter (fun x => decide (x.tag = some "{http://www.xbrl.org/2003/linkbase}roleType"))

end Brel
