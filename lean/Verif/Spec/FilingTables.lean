import Verif.Model.FilingTables
import Verif.Spec.Open
import Verif.Spec.Rows

/-! What the tables of report elements, components and labels of a filing show, in terms of its documents (C130). -/

namespace Brel
open Spec

/-- The labels are those that the label links of the documents give to the report element of this name. -/
def StatedLabels (docs : List SchemaDoc) (q : QName) (ls : List Label) : Prop :=
  ∀ lab, lab ∈ ls ↔ ∃ up link role, HasLink (docs.map (·.root)) "labelLink" role up link ∧ ∃ l m, Joined link l m ∧ Locates (taxonomyStore docs) link l q ∧ Labelled up link m lab

/-- The type of a typed dimension: that of the element that its attribute refers to. -/
def TypedAs (docs : List SchemaDoc) (d : Declaration) (q : QName) : Prop :=
  ∃ uri i target e t, d.x.domainRef = some (uri ++ "#" ++ i) ∧ '#' ∉ uri.toList ∧ '#' ∉ i.toList ∧ RefersToDoc docs d.doc uri target ∧ FirstWithId target.root i e ∧ e.attr? "type" = some t ∧
    qnameFromStr t e.ns = .ok q ∧ AfterColon t q.localName

/-- The report element is what the declaration says, with its labels. -/
inductive StatedElement (docs : List SchemaDoc) (d : Declaration) : RowElement → Prop where
  | member {ls : List Label} : StatedLabels docs d.name ls → typeHas d.x "domainItemType" → StatedElement docs d (.plain .member d.name ls)
  | concept {c : Concept} : StatedLabels docs d.name c.labels → ¬ typeHas d.x "domainItemType" → d.x.attr? "abstract" ≠ some "true" → groupHas d.x "item" →
      ShowsAttributes d.x d.name (d.x.attr? "id") { c with labels := [] } → StatedElement docs d (.concept c)
  | hypercube {ls : List Label} : StatedLabels docs d.name ls → ¬ typeHas d.x "domainItemType" → d.x.attr? "abstract" = some "true" → groupHas d.x "hypercubeItem" →
      StatedElement docs d (.plain .hypercube d.name ls)
  | explicit {ls : List Label} : StatedLabels docs d.name ls → ¬ typeHas d.x "domainItemType" → d.x.attr? "abstract" = some "true" → ¬ groupHas d.x "hypercubeItem" →
      groupHas d.x "dimensionItem" → d.x.domainRef = none → StatedElement docs d (.dimension d.name ls none)
  | typed {ls : List Label} {q : QName} : StatedLabels docs d.name ls → ¬ typeHas d.x "domainItemType" → d.x.attr? "abstract" = some "true" → ¬ groupHas d.x "hypercubeItem" →
      groupHas d.x "dimensionItem" → TypedAs docs d q → StatedElement docs d (.dimension d.name ls (some q))
  | lineItems {ls : List Label} : StatedLabels docs d.name ls → ¬ typeHas d.x "domainItemType" → d.x.attr? "abstract" = some "true" → ¬ groupHas d.x "hypercubeItem" →
      ¬ groupHas d.x "dimensionItem" → nameHas d.x "LineItems" → StatedElement docs d (.plain .lineItems d.name ls)
  | abstract {ls : List Label} : StatedLabels docs d.name ls → ¬ typeHas d.x "domainItemType" → d.x.attr? "abstract" = some "true" → ¬ groupHas d.x "hypercubeItem" →
      ¬ groupHas d.x "dimensionItem" → ¬ nameHas d.x "LineItems" → StatedElement docs d (.plain .abstract d.name ls)

/-- The attributes `type` of the documents are names as XML demands: without a prefix, or with one, and without braces. -/
def TypeNames (docs : List SchemaDoc) : Prop :=
  ∀ d ∈ docs, ∀ e ∈ d.root.descendants, ∀ t, e.attr? "type" = some t → '{' ∉ t.toList ∧ (':' ∉ t.toList ∨ ∃ p n, t = p ++ ":" ++ n ∧ p ≠ "" ∧ n ≠ "" ∧ ':' ∉ p.toList ∧ ':' ∉ n.toList)

/-- Some label link gives the report element a label in the language. -/
def HasLabelIn (docs : List SchemaDoc) (ml : Bool) (q : QName) (lang : String) : Prop :=
  ∃ lab up link role, HasLink (docs.map (·.root)) "labelLink" role up link ∧ (∃ l m, Joined link l m ∧ Locates (taxonomyStore docs) link l q ∧ Labelled up link m lab) ∧
    languagesMatch ml lang lab.language = true

/-- Some link of this kind and role locates a report element. -/
def LinksObjects (docs : List SchemaDoc) (kind role : String) : Prop :=
  ∃ up link l q, HasLink (docs.map (·.root)) kind role up link ∧ Locates (taxonomyStore docs) link l q

/-- The row of the component that the role declaration `x` stands for. -/
structure StatedComponent (docs : List SchemaDoc) (x : XNode) (c : RowComponent) : Prop where
  uri : x.attr? "roleURI" = some c.uri
  info : c.info = ((linkChildren x "definition").head?.bind (·.text)).getD ""
  presentation : c.presentation = true ↔ LinksObjects docs "presentationLink" c.uri
  calculation : c.calculation = true ↔ LinksObjects docs "calculationLink" c.uri
  definition : c.definition = true ↔ LinksObjects docs "definitionLink" c.uri

/-- The row says that the report element `q` has the label. -/
def LabelRowShows (q : QName) (lab : Label) (row : Dict String LabelCell) : Prop :=
  Dict.keys row = ["text", "language", "label_role", "report_element"] ∧ Dict.get? row "text" = some (.text lab.text) ∧ Dict.get? row "language" = some (.text lab.language) ∧
  Dict.get? row "label_role" = some (.text lab.role) ∧ Dict.get? row "report_element" = some (.name q)

/-- What the table of report elements shows: the rows are those of the declarations that count, in order. -/
def ElementRows (ml : Bool) (langs : List String) (docs : List SchemaDoc) (l : Option String) (table : Except PyErr (List (Dict String Cell))) : Prop :=
  ∃ title : Column → String, (∀ c c', title c = title c' → c = c') ∧ (∀ c, FixedText l "literal" c.literal (title c)) ∧
    ((∃ rows, table = .ok rows) ↔ ∀ d ∈ counting (schemaDeclarations docs), ∃ lang ∈ langs, lang = "" ∨ HasLabelIn docs ml d.name lang) ∧
    ∀ rows, table = .ok rows → Rel2 (fun d row => ∃ e, StatedElement docs d e ∧ RowShows ml langs l title e.columns row) (counting (schemaDeclarations docs)) rows

/-- One report element has no label in any preferred language. -/
def Unlabelled (ml : Bool) (langs : List String) (docs : List SchemaDoc) (q : QName) : Prop := ∀ lang ∈ langs, lang ≠ "" ∧ ¬ HasLabelIn docs ml q lang

/-- What the table of components shows: one row for every role that is declared, in order. -/
def ComponentRows (ml : Bool) (langs : List String) (docs : List SchemaDoc) (l : Option String) (table : Except PyErr (List (Dict String Cell))) : Prop :=
  ∃ title : Column → String, (∀ c c', title c = title c' → c = c') ∧ (∀ c, FixedText l "literal" c.literal (title c)) ∧
    ∃ rows, table = .ok rows ∧ Rel2 (fun x row => ∃ c, StatedComponent docs x c ∧ RowShows ml langs l title c.columns row) ((docs.map (·.root)).flatMap declaredRoles) rows

/-- What the table of labels shows: the labels of the declared elements, element by element. -/
def LabelRows (docs : List SchemaDoc) (table : List (Dict String LabelCell)) : Prop :=
  ∃ parts, table = parts.flatten ∧ Rel2 (fun d rows => ∃ ls, StatedLabels docs d.name ls ∧ Rel2 (LabelRowShows d.name) ls rows) (counting (schemaDeclarations docs)) parts

end Brel
