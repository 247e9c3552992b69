import Verif.Model.TranslationTable

/-! Rows of the tables of report elements and components: the methods `convert_to_dict`. -/

namespace Brel

/-- The value of an entry: a text, a truth value or `None`. -/
inductive Cell where
  | text (s : String)
  | flag (b : Bool)
  | none
  deriving DecidableEq, Repr

/-- A dictionary display `{k1: v1, …}`: a later entry replaces an earlier one with the same key. -/
def rowOf (es : List (String × Cell)) : Dict String Cell := es.foldl (fun d e => Dict.set d e.1 e.2) []

/-- translation_service.py 78-105 (`get`) for a name written `kind:name`: the parts of `split(":")` with indices 0 and 1. The kinds contain no colon. -/
def Translations.getText (t : Translations) (ml : Bool) (langs : List String) (kind name : String) : Except PyErr String :=
  t.get ml ⟨translationBase ++ kind, "", String.ofList (name.toList.takeWhile (· ≠ ':'))⟩ langs

/-- `str(b).lower()` -/
def boolText (b : Bool) : String := if b then "true" else "false"

/-- The report elements without data of their own. -/
inductive PlainKind where
  | member | abstract | hypercube | lineItems
  deriving DecidableEq, Repr

/-- A report element as far as its row is concerned. -/
inductive RowElement where
  | concept (c : Concept)
  | dimension (name : QName) (labels : List Label) (type : Option QName)
  | plain (kind : PlainKind) (name : QName) (labels : List Label)
  deriving DecidableEq, Repr

/-- The local part of `report-element:…`: member.py 84, abstract.py 87, hypercube.py 80-82, lineitems.py 80-82 -/
def PlainKind.key : PlainKind → String
  | .member => "member"
  | .abstract => "abstract"
  | .hypercube => "hypercube"
  | .lineItems => "line-items"

/-- The word used without languages: member.py 74, abstract.py 77, hypercube.py 71, lineitems.py 71 -/
def PlainKind.word : PlainKind → String
  | .member => "member"
  | .abstract => "abstract"
  | .hypercube => "hypercube"
  | .lineItems => "line item"

/-- The rows without languages: concept.py 364-373, dimension.py 105-116, member.py 70-75 and the others. -/
def elementRowPlain : RowElement → Dict String Cell
  | .concept c => rowOf [("name", .text c.name.prefixLocal), ("label", .text (selectMainLabel c.labels).text), ("report-element-type", .text "concept"), ("period-type", .text c.periodType),
      ("balance-type", match c.balance with | some b => .text b | none => .none), ("nillable", .flag c.nillable), ("data-type", .text c.dataType)]
  | .dimension n ls ty => rowOf [("name", .text n.prefixLocal), ("label", .text (selectMainLabel ls).text), ("report-element-type", .text "dimension"), ("is-explicit", .flag ty.isNone),
      ("dimension_type", match ty with | some q => .text q.prefixLocal | none => .none)]
  | .plain k n ls => rowOf [("name", .text n.prefixLocal), ("label", .text (selectMainLabel ls).text), ("report-element-type", .text k.word)]

/-- brel/reportelements/concept.py 374-420 -/
def conceptRow (t : Translations) (ml : Bool) (langs : List String) (c : Concept) : Except PyErr (Dict String Cell) := do
  let name ← t.getText ml langs "literal" "name"
  let labelTitle ← t.getText ml langs "literal" "label"
  let label ← getFromLabels ml c.labels (selectMainLabel c.labels).text langs
  let typeTitle ← t.getText ml langs "literal" "report-element-type"
  let type ← t.getText ml langs "report-element" "concept"
  let periodTitle ← t.getText ml langs "literal" "period-type"
  let period ← t.getText ml langs "period-type" c.periodType
  let balanceTitle ← t.getText ml langs "literal" "balance-type"
  let balance ← match c.balance with
    | some b => t.getText ml langs "balance-type" b
    | none => t.getText ml langs "literal" "none"
  let nillableTitle ← t.getText ml langs "literal" "nillable"
  let nillable ← t.getText ml langs "boolean" (boolText c.nillable)
  let dataTitle ← t.getText ml langs "literal" "data-type"
  let data ← t.getText ml langs "data-type" (lastSegment c.dataType)
  return rowOf [(name, .text c.name.prefixLocal), (labelTitle, .text label), (typeTitle, .text type), (periodTitle, .text period), (balanceTitle, .text balance), (nillableTitle, .text nillable),
    (dataTitle, .text data)]

/-- brel/reportelements/dimension.py 118-153 -/
def dimensionRow (t : Translations) (ml : Bool) (langs : List String) (n : QName) (ls : List Label) (ty : Option QName) : Except PyErr (Dict String Cell) := do
  let name ← t.getText ml langs "literal" "name"
  let labelTitle ← t.getText ml langs "literal" "label"
  let label ← getFromLabels ml ls (selectMainLabel ls).text langs
  let typeTitle ← t.getText ml langs "literal" "report-element-type"
  let type ← t.getText ml langs "report-element" "dimension"
  let explicitTitle ← t.getText ml langs "literal" "is-explicit"
  let explicit ← t.getText ml langs "boolean" (boolText ty.isNone)
  let dimTitle ← t.getText ml langs "literal" "dimension-type"
  let dim ← match ty with
    | some q => t.getText ml langs "data-type" q.localName
    | none => t.getText ml langs "literal" "none"
  return rowOf [(name, .text n.prefixLocal), (labelTitle, .text label), (typeTitle, .text type), (explicitTitle, .text explicit), (dimTitle, .text dim)]

/-- brel/reportelements/member.py 77-92, abstract.py 80-95, hypercube.py 74-91, lineitems.py 74-91 -/
def plainRow (t : Translations) (ml : Bool) (langs : List String) (k : PlainKind) (n : QName) (ls : List Label) : Except PyErr (Dict String Cell) := do
  let name ← t.getText ml langs "literal" "name"
  let labelTitle ← t.getText ml langs "literal" "label"
  let typeTitle ← t.getText ml langs "literal" "report-element-type"
  let type ← t.getText ml langs "report-element" k.key
  let label ← getFromLabels ml ls (selectMainLabel ls).text langs
  return rowOf [(name, .text n.prefixLocal), (labelTitle, .text label), (typeTitle, .text type)]

/-- `convert_to_dict` of the report elements: concept.py 355-420, dimension.py 96-153, member.py 61-92, abstract.py 64-95, hypercube.py 58-91, lineitems.py 58-91 -/
def elementRow (t : Translations) (ml : Bool) (langs : List String) (e : RowElement) : Except PyErr (Dict String Cell) :=
  if langs = [] then .ok (elementRowPlain e)
  else match e with
    | .concept c => conceptRow t ml langs c
    | .dimension n ls ty => dimensionRow t ml langs n ls ty
    | .plain k n ls => plainRow t ml langs k n ls

/-- A component as far as its row is concerned: URI, description and which networks it has. -/
structure RowComponent where
  uri : String
  info : String
  presentation : Bool
  calculation : Bool
  definition : Bool
  deriving DecidableEq, Repr

/-- brel/brel_component.py 182-195: without languages. The last key is misspelt in the source. -/
def componentRowPlain (c : RowComponent) : Dict String Cell :=
  rowOf [("network-identifier", .text c.uri), ("info", .text c.info), ("presentation-network", .flag c.presentation), ("calculation-network", .flag c.calculation),
    ("definintion-network", .flag c.definition)]

/-- brel/brel_component.py 173-229 (`convert_to_dict`) -/
def componentRow (t : Translations) (ml : Bool) (langs : List String) (c : RowComponent) : Except PyErr (Dict String Cell) :=
  if langs = [] then .ok (componentRowPlain c)
  else do
    let idTitle ← t.getText ml langs "literal" "network-identifier"
    let infoTitle ← t.getText ml langs "literal" "info"
    let pTitle ← t.getText ml langs "literal" "presentation-network"
    let p ← t.getText ml langs "boolean" (boolText c.presentation)
    let cTitle ← t.getText ml langs "literal" "calculation-network"
    let cc ← t.getText ml langs "boolean" (boolText c.calculation)
    let dTitle ← t.getText ml langs "literal" "definition-network"
    let d ← t.getText ml langs "boolean" (boolText c.definition)
    return rowOf [(idTitle, .text c.uri), (infoTitle, .text c.info), (pTitle, .text p), (cTitle, .text cc), (dTitle, .text d)]

end Brel
