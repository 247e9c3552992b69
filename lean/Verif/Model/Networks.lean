import Verif.Model.Combine
import Verif.Model.Xml
import Verif.Model.Repos

/-!
Model of `parse_networks_from_xmls` (`brel/parsers/XML/networks/xml_networks_parser.py`).
-/

namespace Brel

/-- An extended link element: its attributes and name spaces, and the arcs, locators and resources below it as xml_extended_link_parser.py reads them. -/
structure LinkXml where
  node : XNode
  arcs : List Arc
  ends : List LinkEnd

/-- The standard roles of brel/config/linkconfig.json. -/
def standardLinkRoles : List String := ["/role/link"]

/-- xml_networks_parser.py 68-69 (`is_standard_role`) -/
def isStandardRole (role : String) : Bool := standardLinkRoles.any (fun s => isInfix s.toList role.toList)

/-- `get_str_attribute_optional(link, qname_from_str("xlink:role", link))`, xml_networks_parser.py 85, 93-95: the prefix must be bound. -/
def LinkXml.role (l : LinkXml) : Except PyErr (Option String) := do
  let q ← qnameFromStr "xlink:role" l.node.ns
  return l.node.attr? q.clark

/-- xml_networks_parser.py 83-88: links with a standard role first; `sort` is stable, also with `reverse`. The keys are computed first. -/
def sortLinks (links : List LinkXml) : Except PyErr (List LinkXml) := do
  let keys ← links.mapM LinkXml.role
  return (sortBy (fun a b => isStandardRole (a.1.getD "") || !isStandardRole (b.1.getD "")) (keys.zip links)).map (·.2)

/-- What the first pass builds: the nodes, the networks of each role, the labels handed to elements, and the errors. The errors made while a link is read
are those of `parseLink`. -/
structure LinkPass where
  heap : Heap := []
  byRole : Dict String (List Network) := []
  labels : List (QName × Nat) := []
  errs : List String := []

/-- xml_networks_parser.py 91-104, xml_extended_link_parser.py 110-115: one link of the first pass. A comment cannot be a link: the query asks for an attribute. -/
def LinkPass.step (so : SetOrder) (s : LinkPass) (l : LinkXml) : Except PyErr LinkPass := do
  match ← l.role with
  | none => return { s with errs := s.errs ++ ["MISSING_LINK_ROLE"] }
  | some r =>
    let tag := l.node.tag.getD ""
    let errs := if linkKinds tag = [] then s.errs ++ ["UNSUPPORTED_LINK_TYPE"] else s.errs
    let x ← parseXmlLink tag so r s.heap l.arcs l.ends
    return { heap := x.1, byRole := s.byRole.set r ((s.byRole.get? r).getD [] ++ x.2.1), labels := s.labels ++ x.2.2, errs := errs }

/-- xml_networks_parser.py 108-116: the networks of a role that are not physical, by class. -/
def byClass (nets : List Network) : List (List Network) :=
  Dict.values ((nets.filter (fun n => !n.physical)).foldl (NetStore.upsert (·.kind)) ([] : NetStore NodeKind Network))

/-- xml_networks_parser.py 118-119 -/
def combineGroups (so : SetOrder) (steps : Nat) : Heap → List (List Network) → Option (Except PyErr (Heap × List Network))
  | h, [] => some (.ok (h, []))
  | h, g :: gs =>
    match combineNetworks so steps h g with
    | none => none
    | some (.error e) => some (.error e)
    | some (.ok (h1, n)) => (combineGroups so steps h1 gs).map (fun r => r.map (fun s => (s.1, n :: s.2)))

/-- xml_networks_parser.py 107-121: the second pass; the networks of all roles, in the order in which they are stored. -/
def combineRoles (so : SetOrder) (steps : Nat) : Heap → List (String × List Network) → Option (Except PyErr (Heap × List Network))
  | h, [] => some (.ok (h, []))
  | h, (_, nets) :: rs =>
    match combineGroups so steps h (byClass nets) with
    | none => none
    | some (.error e) => some (.error e)
    | some (.ok (h1, combined)) => (combineRoles so steps h1 rs).map (fun r => r.map (fun s => (s.1, nets.filter (·.physical) ++ combined ++ s.2)))

/-- The networks of a filing: the nodes, the repository of networks, the labels handed to elements, and the errors. -/
structure Networks where
  heap : Heap
  store : NetStore NodeKind Network
  labels : List (QName × Nat)
  errs : List String

/-- xml_networks_parser.py 47-126 (`parse_networks_from_xmls`), without the tables. `links` are the elements found by the query in lines 71-81, in the order of the documents. `none`
if `steps` do not suffice for a traversal. -/
def parseNetworks (so : SetOrder) (steps : Nat) (links : List LinkXml) : Option (Except PyErr Networks) :=
  match sortLinks links with
  | .error e => some (.error e)
  | .ok sorted =>
    match sorted.foldlM (LinkPass.step so) {} with
    | .error e => some (.error e)
    | .ok p =>
      (combineRoles so steps p.heap p.byRole).map (fun r => r.map (fun s =>
        { heap := s.1, store := s.2.foldl (NetStore.upsert (·.kind)) [], labels := p.labels, errs := p.errs }))

/-- brel/brel_filing.py 170-179 (`get_all_physical_networks`) -/
def Networks.physicalNetworks (s : Networks) : List Network := s.store.getAll.filter (·.physical)

end Brel
