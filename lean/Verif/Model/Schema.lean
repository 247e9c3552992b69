import Verif.Model.XmlFacts

/-!
Model of `brel/parsers/XML/xml_report_element_parser.py`, `brel/parsers/XML/xml_report_element_factory.py` and `Concept._from_xml` of
`brel/reportelements/concept.py`.
-/

namespace Brel

/-- A document of the XML repository with its key (brel/data/xml/xml_repository.py 21). -/
structure SchemaDoc where
  uri : String
  root : XNode

/-- The objects the factory makes: kind, name and id, the data of a concept, and the type of a typed dimension. -/
structure SchemaElement where
  kind : ElemKind
  name : QName
  id : Option String := none
  concept : Option Concept := none
  typed : Option QName := none
  deriving DecidableEq, Repr

/-- An error code with the arguments of its message. -/
abbrev SchemaReport := String × List (String × Option String)

/-- The attribute `n` of the name space of instances, concept.py 283-286, 300 -/
def xbrliAttr (n : String) : String := "{http://www.xbrl.org/2003/instance}" ++ n

/-- concept.py 268-350 (`Concept._from_xml`): the concept, or the error that is recorded before `None` is returned. -/
def conceptFromXml (x : XNode) (id : Option String) (name : QName) : Except SchemaReport Concept :=
  let periodType := x.attr? (xbrliAttr "periodType")
  if periodType ∉ [some "instant", some "duration"] then
    .error ("INVALID_CONCEPT_PERIOD_TYPE", [("concept_name", some name.localName), ("period_type", periodType)])
  else
    let balance := x.attr? (xbrliAttr "balance")
    if balance ∉ [some "credit", some "debit", none] then
      .error ("INVALID_CONCEPT_BALANCE_TYPE", [("concept_name", some name.localName), ("balance_type", balance)])
    else
      let nillable := x.attr? "nillable"
      if nillable ∉ [some "true", some "false", none] then
        .error ("INVALID_CONCEPT_NILLABLE_VALUE", [("concept_name", some name.localName), ("nillable_value", nillable)])
      else
        match x.attr? "type" with
        | none => .error ("MISSING_CONCEPT_DATA_TYPE", [("concept_name", some name.localName)])
        | some t => .ok { name := name, id := id, periodType := periodType.getD "", balance := balance, nillable := nillable = some "true", dataType := t }

/-- xml_report_element_factory.py 26-73 (`XMLReportElementFactory.create`): the element, and the errors recorded. New elements have no labels. -/
def createElement (x : XNode) (name : QName) : Option SchemaElement × List SchemaReport :=
  let isAbstract := (x.attr? "abstract").getD "false" = "true"
  let group := ((x.attr? "substitutionGroup").getD "").toList
  let isItem := isInfix "item".toList group
  let isHypercube := isInfix "hypercubeItem".toList group
  let isDimension := isInfix "dimensionItem".toList group
  let isDomain := isInfix "domainItemType".toList ((x.attr? "type").getD "").toList
  let isLineItems := isInfix "LineItems".toList ((x.attr? "name").getD "").toList
  let id := x.attr? "id"
  if isDomain then (some { kind := .member, name := name, id := id }, [])
  else if !isAbstract && isItem then
    match conceptFromXml x id name with
    | .ok c => (some { kind := .concept, name := name, id := id, concept := some c }, [])
    | .error r => (none, [r])
  else if isAbstract && isHypercube then (some { kind := .hypercube, name := name, id := id }, [])
  else if isAbstract && isDimension then (some { kind := .dimension, name := name, id := id }, [])
  else if isAbstract && isLineItems then (some { kind := .lineItems, name := name, id := id }, [])
  else if isAbstract then (some { kind := .abstract, name := name, id := id }, [])
  else (none, [])

/-- What `parse_report_elements_xml` fills: the two dictionaries of the repository (in_memory_report_element_repository.py 17-19) and the errors. -/
structure SchemaState where
  byName : Dict QName SchemaElement := []
  byId : Dict String SchemaElement := []
  errs : List SchemaReport := []

/-- in_memory_report_element_repository.py 41-45 (`upsert`) -/
def SchemaState.upsert (s : SchemaState) (e : SchemaElement) : SchemaState :=
  let s := { s with byName := s.byName.set e.name e }
  match e.id with
  | none => s
  | some i => { s with byId := s.byId.set i e }

/-- `a, b = s.split("#")`: a `ValueError` unless there is exactly one `#`. -/
def splitHash (s : String) : Except PyErr (String × String) :=
  let a := s.toList.takeWhile (· ≠ '#')
  match s.toList.dropWhile (· ≠ '#') with
  | _ :: b => if '#' ∈ b then .error .valueError else .ok (String.ofList a, String.ofList b)
  | [] => .error .valueError

/-- brel/data/xml/xml_repository.py 26-30 (`normalize_uri`) -/
def normalizeUri (uri : String) : String :=
  if startsWith uri.toList "http".toList then uri else String.ofList (uri.toList.map (fun c => if c = '\\' then '/' else c))

/-- xml_repository.py 35-36 (`get_etree`) -/
def getEtree (docs : List SchemaDoc) (uri : String) : Except PyErr SchemaDoc :=
  match docs.find? (fun d => d.uri = normalizeUri uri) with
  | some d => .ok d
  | none => .error .keyError

/-- `refschema.find(".//*[@id='…']")`, xml_report_element_parser.py 96: the first element below the root with the id. An id with a quotation mark is not treated specially. -/
def findSchemaId (root : XNode) (i : String) : Option XNode := root.descendants.find? (fun x => x.tag.isSome && decide (x.attr? "id" = some i))

/-- xml_report_element_parser.py 83-109: the type of a dimension, `none` for an explicit dimension, and the errors recorded. -/
def typedDomain (docs : List SchemaDoc) (doc : SchemaDoc) (x : XNode) : Except PyErr (Option QName × List SchemaReport) := do
  let name ← qnameFromStr "xbrldt:typedDomainRef" x.ns
  match x.attr? name.clark with
  | none => return (none, [])
  | some full =>
    let (schema, i) ← splitHash full
    let target ← if schema ≠ "" ∧ schema ≠ "." then getEtree docs schema else .ok doc
    match findSchemaId target.root i with
    | none => return (none, [("REFERENCED_SCHEMA_ELEMENT_NOT_FOUND", [("ref_id", some i), ("ref_schema_name", some schema)])])
    | some e =>
      let t ← e.attr "type"
      let q ← qnameFromStr t e.ns
      return (some q, [])

/-- xml_report_element_parser.py 65-109 (`parse_report_element`). The dimension is stored before its type is known; no one can see the difference, as an exception ends the
parsing. -/
def parseReportElement (docs : List SchemaDoc) (doc : SchemaDoc) (targetNamespace : String) (s : SchemaState) (x : XNode) : Except PyErr SchemaState := do
  let n ← x.attr "name"
  let q ← qnameFromStr ("{" ++ targetNamespace ++ "}" ++ n) x.ns
  let made := createElement x q
  let s := { s with errs := s.errs ++ made.2 }
  match made.1 with
  | none => return s
  | some e =>
    if s.byName.has q then return s
    else if e.kind = .dimension then
      let t ← typedDomain docs doc x
      let s := s.upsert { e with typed := t.1 }
      return { s with errs := s.errs ++ t.2 }
    else return s.upsert e

/-- `find_elements(etree, ".//xs:element[@name]", …)`, xml_report_element_parser.py 50-54 -/
def schemaElements (root : XNode) : List XNode :=
  root.descendants.filter (fun x => decide (x.tag = some "{http://www.w3.org/2001/XMLSchema}element") && (x.attr? "name").isSome)

/-- xml_report_element_parser.py 44-62: one document. -/
def parseSchemaDoc (docs : List SchemaDoc) (s : SchemaState) (doc : SchemaDoc) : Except PyErr SchemaState :=
  match doc.root.attr? "targetNamespace" with
  | none => .ok s
  | some ns => (schemaElements doc.root).foldlM (parseReportElement docs doc ns) s

/-- xml_report_element_parser.py 37-62 (`parse_report_elements_xml`) -/
def parseReportElements (docs : List SchemaDoc) : Except PyErr SchemaState := docs.foldlM (parseSchemaDoc docs) {}

end Brel
