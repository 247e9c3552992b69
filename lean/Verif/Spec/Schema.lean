import Verif.Model.Schema
import Verif.Spec.Common

/-! What a taxonomy schema declares (C43, C44, C85, C86). -/

namespace Brel

/-! ## Concepts -/

/-- The attributes of a concept in the order in which they are checked: whether the value is valid, and the report if it is not. -/
def conceptChecks (x : XNode) (name : QName) : List (Bool × SchemaReport) :=
  let period := x.attr? "{http://www.xbrl.org/2003/instance}periodType"
  let balance := x.attr? "{http://www.xbrl.org/2003/instance}balance"
  let nillable := x.attr? "nillable"
  let type := x.attr? "type"
  [(decide (period = some "instant" ∨ period = some "duration"), "INVALID_CONCEPT_PERIOD_TYPE", [("concept_name", some name.localName), ("period_type", period)]),
   (decide (balance = none ∨ balance = some "debit" ∨ balance = some "credit"), "INVALID_CONCEPT_BALANCE_TYPE", [("concept_name", some name.localName), ("balance_type", balance)]),
   (decide (nillable = none ∨ nillable = some "true" ∨ nillable = some "false"), "INVALID_CONCEPT_NILLABLE_VALUE", [("concept_name", some name.localName), ("nillable_value", nillable)]),
   (type.isSome, "MISSING_CONCEPT_DATA_TYPE", [("concept_name", some name.localName)])]

/-- The concept has the values of the attributes. -/
structure ShowsAttributes (x : XNode) (name : QName) (id : Option String) (c : Concept) : Prop where
  name : c.name = name
  id : c.id = id
  labels : c.labels = []
  period : x.attr? "{http://www.xbrl.org/2003/instance}periodType" = some c.periodType
  balance : x.attr? "{http://www.xbrl.org/2003/instance}balance" = c.balance
  nillable : c.nillable = true ↔ x.attr? "nillable" = some "true"
  type : x.attr? "type" = some c.dataType

/-- `true` and `1` are the two ways to write a true `xs:boolean`, `false` and `0` the two ways to write a false one. -/
def xsBoolean : List String := ["true", "1", "false", "0"]

/-! ## Kinds of elements -/

/-- What the attributes say, as texts. -/
def groupHas (x : XNode) (w : String) : Prop := w.toList <:+: ((x.attr? "substitutionGroup").getD "").toList
def typeHas (x : XNode) (w : String) : Prop := w.toList <:+: ((x.attr? "type").getD "").toList
def nameHas (x : XNode) (w : String) : Prop := w.toList <:+: ((x.attr? "name").getD "").toList

/-- The kind of an element by the XBRL specifications: `g` is the local name of its substitution group, `t` that of its type, `ab` whether it is abstract. Domain members are
recognised by their type, line items by their name. -/
def kindOf (ab : Bool) (g t name : String) : Option ElemKind :=
  if t = "domainItemType" then some .member
  else if g = "hypercubeItem" then some .hypercube
  else if g = "dimensionItem" then some .dimension
  else if g = "item" then
    if ab then (if isInfix "LineItems".toList name.toList then some .lineItems else some .abstract) else some .concept
  else none

/-! ## Declarations -/

/-- A declaration: the document, its target name space, the element. -/
structure Declaration where
  doc : SchemaDoc
  ns : String
  x : XNode

/-- The declarations of the documents, in order: all elements named `element` in the name space of schemas with a name, at any depth below the root. -/
def schemaDeclarations (docs : List SchemaDoc) : List Declaration :=
  docs.flatMap (fun d => match d.root.attr? "targetNamespace" with
    | none => []
    | some ns => (d.root.descendants.filter (fun x => decide (x.tag = some "{http://www.w3.org/2001/XMLSchema}element" ∧ x.attr? "name" ≠ none))).map (fun x => ⟨d, ns, x⟩))

/-- The name of a declared element: target name space, its prefix in scope, the attribute `name`. -/
def Declaration.name (d : Declaration) : QName :=
  ⟨d.ns, if d.ns = xmlNs then "xml" else strOpt ((invertNs d.x.ns).get? d.ns).join, (d.x.attr? "name").getD ""⟩

/-- The declaration yields an element. -/
def Declaration.yields (d : Declaration) : Bool := (createElement d.x d.name).1.isSome

/-- The declarations that count: of those that yield an element, the first of each name. -/
def counting (ds : List Declaration) : List Declaration := firstByKey Declaration.name (ds.filter Declaration.yields)

/-- The element `e` is what `d` declares. -/
structure DeclaredAs (docs : List SchemaDoc) (d : Declaration) (e : SchemaElement) : Prop where
  name : e.name = d.name
  made : ∃ e0, (createElement d.x d.name).1 = some e0 ∧ e0.kind = e.kind ∧ e0.id = e.id ∧ e0.concept = e.concept
  typed : if e.kind = .dimension then ∃ reports, typedDomain docs d.doc d.x = .ok (e.typed, reports) else e.typed = none

/-- The reports about a declaration: those about its attributes, and, if it is a dimension that counts, those about its type. -/
def typeReports (docs : List SchemaDoc) (d : Declaration) : List SchemaReport :=
  if (createElement d.x d.name).1.map (·.kind) = some .dimension then
    match typedDomain docs d.doc d.x with
    | .ok r => r.2
    | .error _ => []
  else []

/-- Names are as XML demands: the target name space is not empty and has no brace, and the name has no brace. -/
def Declaration.plain (d : Declaration) : Prop := d.ns ≠ "" ∧ '}' ∉ d.ns.toList ∧ d.x.attr? "name" ≠ some "" ∧ '{' ∉ ((d.x.attr? "name").getD "").toList

/-! ## Typed dimensions -/

def dimensionsNs : String := "http://xbrl.org/2005/xbrldt"

/-- The attribute of a typed dimension. -/
def XNode.domainRef (x : XNode) : Option String := x.attr? ("{" ++ dimensionsNs ++ "}typedDomainRef")

/-- The document that the part of a reference before `#` names: this one if it is empty or `.`, else the one loaded under that URI. -/
def RefersToDoc (docs : List SchemaDoc) (doc : SchemaDoc) (uri : String) (target : SchemaDoc) : Prop :=
  if uri ∈ ["", "."] then target = doc else ∃ pre post, docs = pre ++ target :: post ∧ target.uri = normalizeUri uri ∧ ∀ d ∈ pre, d.uri ≠ normalizeUri uri

/-- The element of the document with the id: the first, if there are several. -/
def FirstWithId (root : XNode) (i : String) (e : XNode) : Prop :=
  ∃ pre post, root.descendants = pre ++ e :: post ∧ e.tag ≠ none ∧ e.attr? "id" = some i ∧ ∀ d ∈ pre, d.tag = none ∨ d.attr? "id" ≠ some i

end Brel
