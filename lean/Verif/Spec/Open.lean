import Verif.Model.Open
import Verif.Spec.Schema
import Verif.Spec.Instance
import Verif.Spec.LinkValid
import Verif.Spec.Components
import Verif.Lemmas.Link

/-! A valid XML filing, and what it says: everything in terms of its documents. -/

namespace Brel
open Spec

/-- The report elements the schemas declare, in order. -/
def taxonomy (docs : List SchemaDoc) : List ReportElement := (counting (schemaDeclarations docs)).filterMap (fun d => (createElement d.x d.name).1.map (·.element))

/-- The same, to be found by name and by id. -/
def taxonomyStore (docs : List SchemaDoc) : ElemStore := ElemStore.run (taxonomy docs)

/-- The concept that the schemas declare under the name of the report element. -/
def taxonomyConcept (docs : List SchemaDoc) (e : ReportElement) : Concept :=
  (((counting (schemaDeclarations docs)).find? (fun d => decide (d.name = e.name))).bind (fun d => (createElement d.x d.name).1.bind (·.concept))).getD { name := e.name }

/-- The target name space of the schema is bound to a prefix where the element is declared; it is not the default name space. -/
def Declaration.prefixed (d : Declaration) : Prop := (∃ p, (some p, d.ns) ∈ d.x.ns) ∧ (none, d.ns) ∉ d.x.ns

/-- The facts that the instance documents state, in order. -/
def statedFacts (dateOf : String → Option Date) (docs : List SchemaDoc) : List Fact :=
  (elementsOf (docs.map (·.root))).filterMap (fun p => factOf (taxonomyConcept docs) dateOf (taxonomyStore docs) p.1 p.2)

/-- The schemas are valid: concepts have the attributes they must have, and the type of a typed dimension can be found. -/
structure ValidSchemas (docs : List SchemaDoc) : Prop where
  plain : ∀ d ∈ schemaDeclarations docs, d.plain
  concepts : ∀ d ∈ schemaDeclarations docs, d.x.attr? "abstract" ≠ some "true" → groupHas d.x "item" → ∀ k ∈ conceptChecks d.x d.name, k.1 = true
  dimensions : ∀ d ∈ schemaDeclarations docs, groupHas d.x "dimensionItem" → d.x.ns.get? (some "xbrldt") = some dimensionsNs ∧
    ∀ ref, d.x.domainRef = some ref → ∃ uri i target e t, ref = uri ++ "#" ++ i ∧ '#' ∉ uri.toList ∧ '#' ∉ i.toList ∧ RefersToDoc docs d.doc uri target ∧
      FirstWithId target.root i e ∧ e.attr? "type" = some t

/-- The facts are valid, each has an id of its own, and texts and ids mean the same everywhere in the filing. -/
structure ValidInstances (dateOf : String → Option Date) (docs : List SchemaDoc) : Prop where
  facts : ∀ p ∈ elementsOf (docs.map (·.root)), ValidFact (taxonomyConcept docs) dateOf (taxonomyStore docs) p.1 p.2
  identified : ∀ p ∈ elementsOf (docs.map (·.root)), p.2.attr? "id" ≠ none
  distinct : ((elementsOf (docs.map (·.root))).map (fun p => p.2.attr? "id")).Nodup
  texts : Unambiguous (taxonomyStore docs) ((docs.map (·.root)).flatMap XNode.children)
  units : UnitsAgree (docs.map (·.root))
  concepts : SameConcepts (taxonomyConcept docs) (taxonomyStore docs) ((elementsOf (docs.map (·.root))).map (·.2))

/-- The link bases are valid: all links have a role and are valid, locators lead somewhere, labels and footnotes have a language, no arc is stated twice, and the arcs of presentation,
calculation and definition links start at report elements. -/
structure ValidLinkbases (elems : ElemStore) (facts : FactStore) (float : String → Option Rat) (roots : List XNode) : Prop where
  plain : PlainLinks roots
  valid : ValidLinks elems facts float roots
  roles : ∀ name up link, ContainsLink roots name up link → ∃ role, link.xlinkAttr "role" = some role
  resolved : ∀ name role up link, HasLink roots name role up link → ∀ own x href i, Part link "locator" own x → x.xlinkAttr "href" = some href → Refers href i →
    (∃ e, elems.byId.get? i = some e) ∨ ∃ f, facts.byId.get? i = some f
  languages : ∀ name role up link, HasLink roots name role up link → ∀ own x, Part link "resource" own x → x.tag ≠ some (linkTag "reference") → ∃ lang, nearestLang (own ++ up) = some lang
  once : ∀ name role up link, HasLink roots name role up link → (arcKeys link).Nodup
  sources : ∀ p ∈ unitedTags, ∀ role up link, HasLink roots p.1 role up link → ∀ l m, Joined link l m → ∃ q, Locates elems link l q

/-- The role declarations are valid: they have a URI, and every kind of link with that role is declared. -/
def ValidRoles (roots : List XNode) : Prop :=
  ∀ x ∈ roots.flatMap declaredRoles, ∃ r, x.plainRole r ∧ ∀ p ∈ unitedTags, ∀ up link, HasLink roots p.1 r up link → "link:" ++ p.1 ∈ declaredOn x

/-- A valid XML filing. -/
structure ValidFiling (dateOf : String → Option Date) (float : String → Option Rat) (docs : List SchemaDoc) : Prop where
  schemas : ValidSchemas docs
  instances : ValidInstances dateOf docs
  links : ValidLinkbases (taxonomyStore docs) (FactStore.run (statedFacts dateOf docs)) float (docs.map (·.root))
  components : ValidRoles (docs.map (·.root))

/-- The component is that of the role declaration `x`: it has the URI and the definition of the role, and of each class the network of the role, if there is one. -/
structure ShownComponent (nets : ReadNetworks) (x : XNode) (c : ComponentOf Network) : Prop where
  uri : x.attr? "roleURI" = some c.uri
  info : c.info = ((linkChildren x "definition").head?.bind (·.text)).getD ""
  networks : ∀ p ∈ unitedTags, ∀ net, c.ofKind p.2 = some net ↔ net ∈ nets.networks.store.getByType p.2 ∧ net.logicalOf c.uri p.2 = true

/-- The filing shows what its documents say, and nothing else: report elements, facts, labels, networks and components. -/
structure ShowsDocuments (dateOf : String → Option Date) (docs : List SchemaDoc) (o : OpenedFiling) : Prop where
  elements : Rel2 (DeclaredAs docs) (counting (schemaDeclarations docs)) (o.elements.byName.map (·.2))
  facts : o.facts.facts.getAll.map some = (elementsOf (docs.map (·.root))).map (fun p => factOf (taxonomyConcept docs) dateOf (taxonomyStore docs) p.1 p.2)
  labels : ∀ q lab, lab ∈ o.networks.labelsOf q ↔ ∃ up link role, HasLink (docs.map (·.root)) "labelLink" role up link ∧
    ∃ l m, Joined link l m ∧ Locates (taxonomyStore docs) link l q ∧ Labelled up link m lab
  objects : ∀ p ∈ unitedTags, ∀ role q, o.networks.Shows role p.2 q ↔ ∃ up link l, HasLink (docs.map (·.root)) p.1 role up link ∧ Locates (taxonomyStore docs) link l q
  relations : ∀ p ∈ unitedTags, ∀ role q q', o.networks.ShowsBelow role p.2 q q' ↔ ∃ up link l m, HasLink (docs.map (·.root)) p.1 role up link ∧ Joined link l m ∧
    Locates (taxonomyStore docs) link l q ∧ Locates (taxonomyStore docs) link m q'
  components : Rel2 (ShownComponent o.networks) ((docs.map (·.root)).flatMap declaredRoles) o.components

/-- Nothing was reported. -/
structure OpenedFiling.Silent (o : OpenedFiling) : Prop where
  elements : o.elements.errs = []
  facts : o.facts.ps.errs = []
  links : o.networks.reports = [] ∧ o.networks.networks.errs = []
  components : o.componentReports = []

end Brel
