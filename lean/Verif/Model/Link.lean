import Verif.Model.Network
import Verif.Model.Repos

/-!
Model of `brel/parsers/XML/networks/xml_extended_link_parser.py` and of the node factories next to it.

Python iterates over `set` objects at four places (the arcs of a link, the arc roles of a link end, the roots, the arc roles of the
roots). The order of such an iteration is not specified; it is a parameter here (`SetOrder`), and theorems quantify over it.
-/

namespace Brel

/-- The text of a numeric attribute as far as `float(...)` distinguishes it (infinities and NaN are left out). -/
inductive NumAttr where
  | absent
  | empty
  | invalid
  | num (q : Rat)
  deriving DecidableEq, Repr

/-- `float(get_str_attribute(arc, name, default))` -/
def NumAttr.strict (dflt : Rat) : NumAttr → Except PyErr Rat
  | .absent => .ok dflt
  | .empty => .error .valueError
  | .invalid => .error .valueError
  | .num q => .ok q

/-- `float(arc.attrib.get(name) or default)` -/
def NumAttr.lenient (dflt : Rat) : NumAttr → Except PyErr Rat
  | .absent => .ok dflt
  | .empty => .ok dflt
  | .invalid => .error .valueError
  | .num q => .ok q

/-- An arc element: `xlink:from`, `xlink:to`, `xlink:arcrole` and the attributes `order`, `weight`, `preferredLabel` and `use`. The code
never reads `use`. The three xlink attributes are present (otherwise `get_str_attribute` raises `ValueError`). -/
structure Arc where
  frm : String
  to : String
  role : String
  order : NumAttr := .absent
  weight : NumAttr := .absent
  preferredLabel : Option String := none
  use : Option String := none
  deriving DecidableEq, Repr

/-- xml_extended_link_parser.py 128: what identifies an arc. -/
def Arc.key (a : Arc) : String × String × String := (a.frm, a.to, a.role)

/-- A locator or resource element: its `xlink:label` and what `get_object_from_reference` returns for it. -/
structure LinkEnd where
  label : String
  target : Option Target
  deriving DecidableEq, Repr

/-- The seven network factories. -/
inductive LinkKind where
  | presentation | calculation | physicalDefinition | logicalDefinition | label | reference | footnote
  deriving DecidableEq, Repr

namespace LinkKind

/-- `is_physical` of the factories: xml_presentation_network_factory.py 141-142, xml_calculation_network_factory.py 107-108,
xml_definition_network_factory.py 108-109 and 167-168, xml_label_network_factory.py 121-122, xml_reference_network_factory.py 115-116,
xml_footnote_network_factory.py 117-118. -/
def physical : LinkKind → Bool
  | .presentation | .calculation | .logicalDefinition => false
  | .physicalDefinition | .label | .reference | .footnote => true

/-- The class of the created nodes. -/
def nodeKind : LinkKind → NodeKind
  | .presentation => .presentation
  | .calculation => .calculation
  | .physicalDefinition | .logicalDefinition => .definition
  | .label => .label
  | .reference => .reference
  | .footnote => .footnote

/-- The order of a node without incoming arc: 0 for definition factories, otherwise 1. -/
def defaultOrder : LinkKind → Rat
  | .physicalDefinition | .logicalDefinition => 0
  | _ => 1

end LinkKind

/-- `float.__round__()`: to the nearest integer, ties to the even one. -/
def pyRound (q : Rat) : Rat :=
  let f := q.floor
  let d := q - f
  if d < 1 / 2 then f else if 1 / 2 < d then (f + 1 : Int) else if f % 2 = 0 then f else (f + 1 : Int)

/-- The order read from an incoming arc: xml_presentation_network_factory.py 112, xml_calculation_network_factory.py 80,
xml_definition_network_factory.py 75 and 147, xml_reference_network_factory.py 92, xml_footnote_network_factory.py 96. Label nodes have
no order. -/
def LinkKind.arcOrder (k : LinkKind) (a : Arc) : Except PyErr Rat :=
  match k with
  | .presentation | .calculation => a.order.strict 1
  | .physicalDefinition => a.order.lenient 0
  | .logicalDefinition => (a.order.lenient 0).map pyRound
  | .reference | .footnote => a.order.lenient 1
  | .label => .ok 1

/-- The weight read from an incoming arc (xml_calculation_network_factory.py 78). -/
def LinkKind.arcWeight (k : LinkKind) (a : Arc) : Except PyErr Rat :=
  match k with
  | .calculation => a.weight.lenient 0
  | _ => .ok 0

/-- resource/brel_label.py 19 -/
def standardLabelRole : String := "http://www.xbrl.org/2003/role/label"

/-- The preferred label read from an incoming arc (xml_presentation_network_factory.py 104-108). -/
def LinkKind.arcPreferredLabel (k : LinkKind) (a : Arc) : Option String :=
  match k with
  | .presentation => some (a.preferredLabel.getD standardLabelRole)
  | _ => none

/-- The type checks at the end of `create_node`: xml_presentation_network_factory.py 125-128, xml_calculation_network_factory.py 93-94,
xml_definition_network_factory.py 88-91 and 158-161, xml_label_network_factory.py 84-89, xml_reference_network_factory.py 104-109,
xml_footnote_network_factory.py 108-111. `none` means accepted. -/
def LinkKind.refuses (k : LinkKind) (t : Target) : Option PyErr :=
  match k, t with
  | .presentation, .element _ _ | .physicalDefinition, .element _ _ | .logicalDefinition, .element _ _ => none
  | .presentation, _ | .physicalDefinition, _ | .logicalDefinition, _ => some .typeError
  | .calculation, .element _ true => none
  | .calculation, _ => some .typeError
  | .label, .element _ _ | .label, .labelResource _ => none
  | .label, _ => some .typeError
  | .reference, .element _ _ | .reference, .referenceResource _ => none
  | .reference, _ => some .typeError
  | .footnote, .labelResource _ | .footnote, .referenceResource _ => some .valueError
  | .footnote, _ => none

/-- The node as `create_node` of the seven factories makes it, before the type check (e.g. xml_presentation_network_factory.py 77-117,
xml_calculation_network_factory.py 65-85). The names of arc and link elements are left out. -/
def nodeData (k : LinkKind) (label : String) (arc : Option Arc) (t : Target) : Except PyErr NetNode :=
  match arc with
  | none => .ok { kind := k.nodeKind, target := t, arcRole := "unknown", order := k.defaultOrder, label := label }
  | some a =>
    if a.frm = label then .ok { kind := k.nodeKind, target := t, arcRole := a.role, order := k.defaultOrder, label := label }
    else if a.to = label then
      (k.arcWeight a).bind (fun w => (k.arcOrder a).bind (fun o => .ok
        { kind := k.nodeKind, target := t, arcRole := a.role, order := o, weight := w, preferredLabel := k.arcPreferredLabel a, label := label }))
    else .error .valueError

/-- `create_node` of the seven factories (e.g. xml_presentation_network_factory.py 57-139, xml_calculation_network_factory.py 55-105). -/
def createNode (k : LinkKind) (label : String) (arc : Option Arc) (t : Target) : Except PyErr NetNode :=
  (nodeData k label arc t).bind (fun n => match k.refuses t with
    | some e => .error e
    | none => .ok n)

/-- xml_extended_link_parser.py 123-139: the first pass; the arcs that are used, and the arcs reported as duplicates. -/
def scanArcs (arcs : List Arc) : List Arc × List Arc :=
  arcs.foldl (fun s a => if s.1.any (fun b => b.key = a.key) then (s.1, s.2 ++ [a]) else (s.1 ++ [a], s.2)) ([], [])

/-- xml_extended_link_parser.py 138-139: the entry of `node_to_arcs` under a label; an arc from a label to itself is entered twice. -/
def incident (kept : List Arc) (l : String) : List Arc :=
  kept.flatMap (fun a => (if a.frm = l then [a] else []) ++ (if a.to = l then [a] else []))

/-- xml_extended_link_parser.py 153-158 -/
def arcsTo (kept : List Arc) (l : String) : List Arc := (incident kept l).filter (fun a => a.to = l)
/-- xml_extended_link_parser.py 159-164 -/
def arcsFrom (kept : List Arc) (l : String) : List Arc := (incident kept l).filter (fun a => a.frm = l)

/-- The iteration orders of Python sets. -/
structure SetOrder where
  strings : List String → List String
  edges : List (String × String × String) → List (String × String × String)
  nodes : List Nat → List Nat
  strings_perm : ∀ l, (strings l).Perm l
  edges_perm : ∀ l, (edges l).Perm l
  nodes_perm : ∀ l, (nodes l).Perm l

/-- Iteration in insertion order. -/
def SetOrder.insertion : SetOrder := ⟨id, id, id, fun _ => .refl _, fun _ => .refl _, fun _ => .refl _⟩
/-- Iteration in reverse order. -/
def SetOrder.reversed : SetOrder :=
  ⟨List.reverse, List.reverse, List.reverse, List.reverse_perm, List.reverse_perm, List.reverse_perm⟩

/-- xml_extended_link_parser.py 152-247: the nodes for one link end, each with the information whether it is a root. -/
def endNodes (k : LinkKind) (so : SetOrder) (kept : List Arc) (l : String) (t : Target) : Except PyErr (List (NetNode × Bool)) :=
  let aTo := arcsTo kept l
  let aFrom := arcsFrom kept l
  if aTo.isEmpty && aFrom.isEmpty then do
    let n ← createNode k l none t
    return [(n, true)]
  else if k.physical then
    let incoming := (aTo.map (·.role)).foldl appendNew []
    let all := (aFrom.map (·.role)).foldl appendNew incoming
    let sorted := (incident kept l).filter (fun a => a.to = l) ++ (incident kept l).filter (fun a => !decide (a.to = l))
    (so.strings all).mapM (fun r => do
      let n ← createNode k l (sorted.find? (fun a => a.role = r)) t
      return (n, !decide (r ∈ incoming)))
  else do
    let n ← createNode k l (aTo.head?.or aFrom.head?) t
    return [(n, aTo.isEmpty)]

/-- Locators and resources with an object (xml_extended_link_parser.py 141-151). -/
def resolvedEnds (ends : List LinkEnd) : List (String × Target) := ends.filterMap (fun e => e.target.map (fun t => (e.label, t)))

/-- xml_extended_link_parser.py 251-260: the nodes under a label in `nodes_lookup`, for physical factories those with the arc role. Only
nodes from index `base` on belong to this link. -/
def lookupNodes (k : LinkKind) (h : Heap) (base : Nat) (l role : String) : List Nat :=
  (List.range h.length).filter (fun i => decide (base ≤ i) && match h[i]? with
    | some n => decide (n.label = l) && (!k.physical || decide (n.arcRole = role))
    | none => false)

/-- xml_extended_link_parser.py 250-264: the insertions of the second pass. -/
def edgeOps (k : LinkKind) (h : Heap) (base : Nat) (edges : List (String × String × String)) : List (Nat × Nat) :=
  edges.flatMap (fun e => (lookupNodes k h base e.1 e.2.2).flatMap (fun i => (lookupNodes k h base e.2.1 e.2.2).map (fun j => (i, j))))

/-- The arc role of a node. -/
def Heap.arcRoleOf (h : Heap) (i : Nat) : String := (h[i]?.map (·.arcRole)).getD ""

/-- xml_extended_link_parser.py 269-291: the third pass. -/
def makeNetworks (k : LinkKind) (so : SetOrder) (linkRole : String) (h : Heap) (roots : List Nat) : List Network :=
  if roots.isEmpty then []
  else if k.physical then
    (so.strings ((roots.map h.arcRoleOf).foldl appendNew [])).map (fun r =>
      { roots := roots.filter (fun i => h.arcRoleOf i = r), linkRole := linkRole, kind := k.nodeKind, physical := true })
  else [{ roots := roots, linkRole := linkRole, kind := k.nodeKind, physical := false }]

/-- xml_label_network_factory.py 104-119: the labels a root passes to its report element (element name, label object). -/
def rootLabels (h : Heap) (root : Nat) : Except PyErr (List (QName × Nat)) :=
  match (h[root]?).map NetNode.target with
  | some (.element q _) => (h.children root).mapM (fun c => match (h[c]?).map NetNode.target with
    | some (.labelResource i) => .ok (q, i)
    | _ => .error .valueError)
  | _ => .error .valueError

/-- `update_report_elements` (xml_label_network_factory.py 93-119): only label networks change anything. -/
def updateReportElements (k : LinkKind) (h : Heap) (n : Network) : Except PyErr (List (QName × Nat)) :=
  if k = .label then do
    let ls ← n.roots.mapM (rootLabels h)
    return ls.flatten
  else .ok []

/-- What parsing a link with one factory yields; `labels` are the labels added to elements, in order. -/
structure LinkResult where
  heap : Heap
  networks : List Network
  duplicates : List Arc
  unresolved : List String
  labels : List (QName × Nat)
  deriving DecidableEq, Repr

/-- xml_extended_link_parser.py 118-291: one factory. `h` holds the nodes of links parsed before. -/
def parseLink (k : LinkKind) (so : SetOrder) (linkRole : String) (h : Heap) (arcs : List Arc) (ends : List LinkEnd) : Except PyErr LinkResult := do
  let kept := (scanArcs arcs).1
  let made ← (resolvedEnds ends).mapM (fun e => endNodes k so kept e.1 e.2)
  let nodes := made.flatten
  let h0 := h ++ nodes.map (·.1)
  let roots := so.nodes ((List.range h0.length).filter (fun i => decide (h.length ≤ i) && ((nodes[i - h.length]?.map (·.2)).getD false)))
  let h' ← runAdds h0 (edgeOps k h0 h.length (so.edges (kept.map Arc.key)))
  let networks := makeNetworks k so linkRole h' roots
  let labels ← networks.mapM (updateReportElements k h')
  return { heap := h', networks := networks, duplicates := (scanArcs arcs).2, unresolved := (ends.filter (fun e => e.target.isNone)).map (·.label), labels := labels.flatten }

/-- xml_extended_link_parser.py 96-115: the factories for the tag of a link element; none for an unsupported link. -/
def linkKinds (tag : String) : List LinkKind :=
  if isInfix "presentationLink".toList tag.toList then [.presentation]
  else if isInfix "calculationLink".toList tag.toList then [.calculation]
  else if isInfix "definitionLink".toList tag.toList then [.physicalDefinition, .logicalDefinition]
  else if isInfix "labelLink".toList tag.toList then [.label]
  else if isInfix "referenceLink".toList tag.toList then [.reference]
  else if isInfix "footnoteLink".toList tag.toList then [.footnote]
  else []

/-- xml_extended_link_parser.py 88-293 (`parse_xml_link`): all factories one after the other. The locators and resources are resolved
anew for each factory; report elements and facts are the same objects each time, only definition links use two factories and these
refuse resources. -/
def parseXmlLink (tag : String) (so : SetOrder) (linkRole : String) (h : Heap) (arcs : List Arc) (ends : List LinkEnd) :
    Except PyErr (Heap × List Network × List (QName × Nat)) :=
  (linkKinds tag).foldlM (fun s k => do
    let r ← parseLink k so linkRole s.1 arcs ends
    return (r.heap, s.2.1 ++ r.networks, s.2.2 ++ r.labels)) (h, [], [])

/-- `href.split("#")[-1]` -/
def fragment (href : List Char) : List Char := (href.reverse.takeWhile (· ≠ '#')).reverse

/-- xml_extended_link_parser.py 55-73: the object of a locator; `none` is reported as `XML_REFERENCED_LOCATOR_ELEMENT_NOT_FOUND`. Facts
are represented by their id here. -/
def resolveLocator (elems : ElemStore) (facts : FactStore) (href : String) : Except PyErr (Option (ReportElement ⊕ Fact)) :=
  let i := String.ofList (fragment href.toList)
  if elems.hasId i then (elems.getById i).map (fun e => some (.inl e))
  else if facts.hasId i then (facts.getById i).map (fun f => some (.inr f))
  else .ok none

end Brel
