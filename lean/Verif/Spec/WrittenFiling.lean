import Verif.Spec.Open
import Verif.Spec.Arcs

/-! How a whole filing is written: a schema with report elements and roles, an instance document, and a link base with labels and networks. -/

namespace Brel.Spec
open Brel

/-- A report element. Period type, balance, `nillable` and type are those of a concept; the other kinds of report elements do not have them. -/
structure StatedElement where
  kind : ElemKind
  localName : String
  id : String
  periodType : String := "duration"
  balance : Option String := none
  nillable : Bool := true
  type : String := "xbrli:stringItemType"

/-- A role. -/
structure StatedRole where
  uri : String
  definition : String

/-- A label of the report element with the id. -/
structure StatedLabel where
  element : String
  text : String
  language : String
  role : String := "http://www.xbrl.org/2003/role/label"

/-- A relation between the report elements with these ids. -/
structure StatedArc where
  parent : String
  child : String
  arcrole : String
  order : Option String := none
  weight : Option String := none
  preferredLabel : Option String := none

/-- A network: its class, its role, the ids of its report elements, and their relations. -/
structure StatedNetwork where
  kind : NodeKind
  role : String
  objects : List String
  arcs : List StatedArc

/-- What a filing is to say: the target name space of its schema and a prefix for it, report elements, roles, labels, networks and an instance. -/
structure StatedFiling where
  uri : String
  pfx : String
  elements : List StatedElement
  roles : List StatedRole
  labels : List StatedLabel
  networks : List StatedNetwork
  report : Instance

/-! ### The documents -/

def xsTag (n : String) : String := "{http://www.w3.org/2001/XMLSchema}" ++ n
def xlinkName (n : String) : String := "{http://www.w3.org/1999/xlink}" ++ n

/-- An element without text has no text node. -/
def textNode (t : String) : Option String := if t = "" then none else some t

/-- The name space declarations of the schema and the link base. -/
def StatedFiling.scope (s : StatedFiling) : NsMap :=
  [(some "xs", "http://www.w3.org/2001/XMLSchema"), (some "xbrli", "http://www.xbrl.org/2003/instance"), (some "link", "http://www.xbrl.org/2003/linkbase"),
   (some "xlink", "http://www.w3.org/1999/xlink"), (some "xbrldt", dimensionsNs), (some s.pfx, s.uri)]

/-- `<xs:element>` -/
def writeElement (ns : NsMap) (e : StatedElement) : XNode :=
  .mk (some (xsTag "element"))
    ([("name", e.localName), ("id", e.id), ("abstract", if e.kind = .concept then "false" else "true"),
      ("substitutionGroup", match e.kind with | .hypercube => "xbrldt:hypercubeItem" | .dimension => "xbrldt:dimensionItem" | _ => "xbrli:item"),
      ("type", match e.kind with | .concept => e.type | .member => "nonnum:domainItemType" | _ => "xbrli:stringItemType"),
      ("nillable", if e.nillable then "true" else "false"), ("{http://www.xbrl.org/2003/instance}periodType", e.periodType)] ++
     (match e.balance with | none => [] | some b => [("{http://www.xbrl.org/2003/instance}balance", b)])) none ns []

/-- `<link:roleType>`; every class of networks may use it. -/
def writeRole (ns : NsMap) (r : StatedRole) : XNode :=
  .mk (some (linkTag "roleType")) [("roleURI", r.uri)] none ns
    [.mk (some (linkTag "definition")) [] (textNode r.definition) ns [], .mk (some (linkTag "usedOn")) [] (some "link:presentationLink") ns [],
     .mk (some (linkTag "usedOn")) [] (some "link:calculationLink") ns [], .mk (some (linkTag "usedOn")) [] (some "link:definitionLink") ns []]

/-- `<link:loc>` -/
def writeLoc (ns : NsMap) (id : String) : XNode :=
  .mk (some (linkTag "loc")) [(xlinkName "type", "locator"), (xlinkName "href", "schema.xsd#" ++ id), (xlinkName "label", "loc_" ++ id)] none ns []

/-- `<link:label>` -/
def writeLabel (ns : NsMap) (l : StatedLabel) : XNode :=
  .mk (some (linkTag "label")) [(xlinkName "type", "resource"), (xlinkName "label", "lab_" ++ l.element), (xlinkName "role", l.role), ("{http://www.w3.org/XML/1998/namespace}lang", l.language)]
    (textNode l.text) ns []

/-- An arc element. -/
def writeArc (ns : NsMap) (tag a b arcrole : String) (more : Dict String String) : XNode :=
  .mk (some (linkTag tag)) ([(xlinkName "type", "arc"), (xlinkName "from", a), (xlinkName "to", b), (xlinkName "arcrole", arcrole)] ++ more) none ns []

/-- The attributes of an arc that are not of XLink. -/
def StatedArc.attrs (a : StatedArc) : Dict String String :=
  (match a.order with | none => [] | some t => [("order", t)]) ++ (match a.weight with | none => [] | some t => [("weight", t)]) ++
  (match a.preferredLabel with | none => [] | some t => [("preferredLabel", t)])

/-- The names of links and arcs. -/
def linkName : NodeKind → String
  | .presentation => "presentationLink"
  | .calculation => "calculationLink"
  | _ => "definitionLink"
def arcName : NodeKind → String
  | .presentation => "presentationArc"
  | .calculation => "calculationArc"
  | _ => "definitionArc"

/-- An extended link. -/
def writeLink (ns : NsMap) (name role : String) (parts : List XNode) : XNode :=
  .mk (some (linkTag name)) [(xlinkName "type", "extended"), (xlinkName "role", role)] none ns parts

/-- `<link:labelLink>`: a locator for every report element, the labels, and an arc for every report element that has labels. -/
def StatedFiling.labelLink (s : StatedFiling) : XNode :=
  writeLink s.scope "labelLink" "http://www.xbrl.org/2003/role/link"
    (s.elements.map (fun e => writeLoc s.scope e.id) ++ s.labels.map (writeLabel s.scope) ++
     (s.elements.filter (fun e => s.labels.any (fun l => l.element = e.id))).map (fun e =>
       writeArc s.scope "labelArc" ("loc_" ++ e.id) ("lab_" ++ e.id) "http://www.xbrl.org/2003/arcrole/concept-label" []))

/-- The link of a network: a locator for every report element, and an arc for every relation. -/
def writeNetwork (ns : NsMap) (n : StatedNetwork) : XNode :=
  writeLink ns (linkName n.kind) n.role
    (n.objects.map (writeLoc ns) ++ n.arcs.map (fun a => writeArc ns (arcName n.kind) ("loc_" ++ a.parent) ("loc_" ++ a.child) a.arcrole a.attrs))

/-- The schema. -/
def StatedFiling.schema (s : StatedFiling) : XNode :=
  .mk (some (xsTag "schema")) [("targetNamespace", s.uri)] none s.scope
    (.mk (some (xsTag "annotation")) [] none s.scope [.mk (some (xsTag "appinfo")) [] none s.scope (s.roles.map (writeRole s.scope))] :: s.elements.map (writeElement s.scope))

/-- The link base. -/
def StatedFiling.linkbase (s : StatedFiling) : XNode := .mk (some (linkTag "linkbase")) [] none s.scope (s.labelLink :: s.networks.map (writeNetwork s.scope))

/-- The documents of the filing. -/
def StatedFiling.write (s : StatedFiling) : List SchemaDoc := [⟨"schema.xsd", s.schema⟩, ⟨"report.xml", s.report.write⟩, ⟨"links.xml", s.linkbase⟩]

/-! ### What is stated -/

/-- The name of a report element. -/
def StatedFiling.name (s : StatedFiling) (e : StatedElement) : QName := ⟨s.uri, s.pfx, e.localName⟩

/-- The concept, if it is one. -/
def StatedFiling.concept (s : StatedFiling) (e : StatedElement) : Option Concept :=
  if e.kind = .concept then some { name := s.name e, id := some e.id, periodType := e.periodType, balance := e.balance, nillable := e.nillable, dataType := e.type } else none

/-- The report element. -/
def StatedFiling.element (s : StatedFiling) (e : StatedElement) : SchemaElement := { kind := e.kind, name := s.name e, id := some e.id, concept := s.concept e }

/-- The report elements, to be found by name and id, and the concept with the name of a report element. -/
def StatedFiling.store (s : StatedFiling) : ElemStore := ElemStore.run (s.elements.map (fun e => (s.element e).element))
def StatedFiling.data (s : StatedFiling) (r : ReportElement) : Concept := ((s.elements.find? (fun e => decide (s.name e = r.name))).bind s.concept).getD { name := r.name }

/-- The report element with the id has this name. -/
def StatedFiling.Names (s : StatedFiling) (id : String) (q : QName) : Prop := ∃ e ∈ s.elements, e.id = id ∧ s.name e = q

/-- A report element can be declared: its name can be written, and says whether an abstract element is a set of line items; attributes of concepts have the values they may have. -/
structure StatedElement.Valid (e : StatedElement) : Prop where
  name : e.localName ≠ "" ∧ '{' ∉ e.localName.toList
  id : '#' ∉ e.id.toList
  lineItems : e.kind = .lineItems → "LineItems".toList <:+: e.localName.toList
  abstract : e.kind = .abstract → ¬ "LineItems".toList <:+: e.localName.toList
  period : e.periodType = "instant" ∨ e.periodType = "duration"
  balance : e.balance = none ∨ e.balance = some "debit" ∨ e.balance = some "credit"
  type : e.kind = .concept → ¬ "domainItemType".toList <:+: e.type.toList

/-- A network can be written: it is about report elements of the filing, about concepts if it is a calculation network; relations join its report elements, are stated once, form no
cycle, and have numbers where there are to be numbers. -/
structure StatedNetwork.Valid (s : StatedFiling) (float : String → Option Rat) (n : StatedNetwork) : Prop where
  kind : n.kind ∈ [NodeKind.presentation, .calculation, .definition]
  objects : ∀ i ∈ n.objects, ∃ e ∈ s.elements, e.id = i ∧ (n.kind = .calculation → e.kind = .concept)
  ends : ∀ a ∈ n.arcs, a.parent ∈ n.objects ∧ a.child ∈ n.objects
  once : (n.arcs.map (fun a => (a.parent, a.child, a.arcrole))).Nodup
  acyclic : ∃ rank : String → Nat, ∀ a ∈ n.arcs, rank a.parent < rank a.child
  orders : ∀ a ∈ n.arcs, ∀ t, a.order = some t → t ≠ "" ∧ ∃ v, float t = some v
  weights : ∀ a ∈ n.arcs, ∀ t, a.weight = some t → t ≠ "" ∧ ∃ v, float t = some v

/-- What a filing has to satisfy to be written and read. -/
structure StatedFiling.Valid (s : StatedFiling) (dateOf : String → Option Date) (float : String → Option Rat) : Prop where
  /-- the target name space is not one of those that XML and XBRL reserve -/
  target : s.uri ≠ "" ∧ '}' ∉ s.uri.toList ∧ s.uri ≠ xmlNs ∧ s.uri ≠ "http://www.xbrl.org/2003/linkbase"
  pfx : s.pfx ∉ ["xs", "xbrli", "link", "xlink", "xbrldt"]
  elements : ∀ e ∈ s.elements, e.Valid
  names : (s.elements.map (·.localName)).Nodup
  ids : (s.elements.map (·.id)).Nodup
  labels : ∀ l ∈ s.labels, ∃ e ∈ s.elements, e.id = l.element
  networks : ∀ n ∈ s.networks, n.Valid s float
  report : s.report.Valid s.data dateOf s.store
  /-- the value of a typed dimension is not held by a role declaration -/
  typed : ∀ c ∈ s.report.contexts, ∀ a t v, StatedDim.typed a t v ∈ c.dims → t ≠ linkTag "roleType"

/-- The opened filing shows what was to be said: the report elements and the facts in order, the labels, the report elements and relations of the networks, and the roles in order,
each with the networks of its role. -/
structure ShowsStated (dateOf : String → Option Date) (s : StatedFiling) (o : OpenedFiling) : Prop where
  elements : o.elements.byName.map (·.2) = s.elements.map s.element
  facts : o.facts.facts.getAll.map some = s.report.facts.map (s.report.fact s.data dateOf s.store)
  labels : ∀ q lab, lab ∈ o.networks.labelsOf q ↔ ∃ l ∈ s.labels, s.Names l.element q ∧ lab = ⟨l.text, "lab_" ++ l.element, l.language, l.role⟩
  objects : ∀ p ∈ unitedTags, ∀ role q, o.networks.Shows role p.2 q ↔ ∃ n ∈ s.networks, n.kind = p.2 ∧ n.role = role ∧ ∃ i ∈ n.objects, s.Names i q
  relations : ∀ p ∈ unitedTags, ∀ role q q', o.networks.ShowsBelow role p.2 q q' ↔ ∃ n ∈ s.networks, n.kind = p.2 ∧ n.role = role ∧ ∃ a ∈ n.arcs, s.Names a.parent q ∧ s.Names a.child q'
  roles : o.components.map (fun c => (c.uri, c.info)) = s.roles.map (fun r => (r.uri, r.definition))
  components : ∀ c ∈ o.components, ∀ p ∈ unitedTags, (c.ofKind p.2).isSome = true ↔ ∃ n ∈ s.networks, n.kind = p.2 ∧ n.role = c.uri ∧ n.objects ≠ []

/-- Relations of a network that lead to the same report element agree on order, weight and preferred label. -/
def StatedNetwork.Agrees (n : StatedNetwork) : Prop :=
  ∀ a ∈ n.arcs, ∀ a' ∈ n.arcs, a.child = a'.child → a.order = a'.order ∧ a.weight = a'.weight ∧ a.preferredLabel = a'.preferredLabel

/-- A network of the class and role states a relation with the property between the report elements. -/
def StatedFiling.Relates (s : StatedFiling) (k : NodeKind) (role : String) (q q' : QName) (P : StatedArc → Prop) : Prop :=
  ∃ n ∈ s.networks, n.kind = k ∧ n.role = role ∧ ∃ a ∈ n.arcs, s.Names a.parent q ∧ s.Names a.child q' ∧ P a

/-- The opened filing shows the weights of calculation networks, the orders of presentation and calculation networks and the preferred labels of presentation networks as they were
to be said. -/
structure ShowsStatedArcs (float : String → Option Rat) (s : StatedFiling) (o : OpenedFiling) : Prop where
  weights : ∀ role q q' w, o.networks.ShowsChild role .calculation q q' (fun n => n.weight = w) ↔ s.Relates .calculation role q q' (fun a => StatesNumber float 0 a.weight w)
  orders : ∀ k ∈ [NodeKind.presentation, .calculation], ∀ role q q' v,
    o.networks.ShowsChild role k q q' (fun n => n.order = v) ↔ s.Relates k role q q' (fun a => StatesNumber float 1 a.order v)
  preferred : ∀ role q q' v, o.networks.ShowsChild role .presentation q q' (fun n => n.preferredLabel = v) ↔ s.Relates .presentation role q q' (fun a => StatesLabel a.preferredLabel v)

end Brel.Spec
