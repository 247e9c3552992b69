import Verif.Model.Repos

/-!
Model of the query methods of `brel/brel_filing.py` and of `brel/services/report_element/report_element_service.py`.
-/

namespace Brel

/-- The part of `FilingContext` the queries read. -/
structure FilingData where
  facts : FactStore := {}
  elems : ElemStore := {}
  ns : NsStore := {}
  components : List Component := []

/-- brel/brel_filing.py 151-155 -/
def FilingData.getAllFacts (d : FilingData) : List Fact := d.facts.getAll

/-- brel/brel_filing.py 225-229 -/
def FilingData.getAllCoreFacts (d : FilingData) : List Fact := d.getAllFacts.filter Fact.isCore

/-- brel/brel_filing.py 157-161 -/
def FilingData.getAllReportElements (d : FilingData) : List ReportElement := d.elems.getAll

/-- brel/brel_filing.py 231-241; `isinstance` compares the class, as no class of report elements is derived from another. -/
def FilingData.getAllConcepts (d : FilingData) : List ReportElement := d.getAllReportElements.filter (fun x => x.kind = .concept)

/-- brel/brel_filing.py 243-254 -/
def FilingData.getAllAbstracts (d : FilingData) : List ReportElement := d.getAllReportElements.filter (fun x => x.kind = .abstract)

/-- brel/brel_filing.py 256-267 -/
def FilingData.getAllLineItems (d : FilingData) : List ReportElement := d.getAllReportElements.filter (fun x => x.kind = .lineItems)

/-- brel/brel_filing.py 269-280 -/
def FilingData.getAllHypercubes (d : FilingData) : List ReportElement := d.getAllReportElements.filter (fun x => x.kind = .hypercube)

/-- brel/brel_filing.py 282-293 -/
def FilingData.getAllDimensions (d : FilingData) : List ReportElement := d.getAllReportElements.filter (fun x => x.kind = .dimension)

/-- brel/brel_filing.py 295-304 -/
def FilingData.getAllMembers (d : FilingData) : List ReportElement := d.getAllReportElements.filter (fun x => x.kind = .member)

/-- brel/reportelements/concept.py 177-182: concepts are equal when their names are equal. -/
def Concept.eq (a b : Concept) : Bool := a.name = b.name

/-- brel/brel_filing.py 350-361: the loop over the facts. -/
def reportedConcepts (facts : List Fact) : Except PyErr (List Concept) :=
  facts.foldlM (fun acc f => do
    let c ← f.getConcept
    if acc.any (fun d => d.eq c) then return acc else return acc ++ [c]) []

/-- brel/brel_filing.py 350-361 (`get_all_reported_concepts`) -/
def FilingData.getAllReportedConcepts (d : FilingData) : Except PyErr (List Concept) := reportedConcepts d.getAllFacts

/-- Truthiness of an optional string: `None` and `""` are false. -/
def strTruthy : Option String → Bool
  | none => false
  | some s => s ≠ ""

/-- The `set[str]` built from an optional string: report_element_service.py 31-37 and 82-88. -/
def strCandidates (o : Option String) : List String :=
  match o with
  | none => []
  | some s => if s ≠ "" then [s] else []

/-- report_element_service.py 31-46 and 82-97. Sets are duplicate-free lists; their iteration order does not matter to the callers. -/
def searchCandidates (ns : NsStore) (p : SearchParams) : List String × List String :=
  let uris := strCandidates p.uri
  let pfxs := strCandidates p.pfx
  if strTruthy p.uri && !strTruthy p.pfx then (uris, ns.getPrefixes (p.uri.getD ""))
  else if !strTruthy p.uri && strTruthy p.pfx then (ns.getUris (p.pfx.getD ""), pfxs)
  else (uris, pfxs)

/-- report_element_service.py 49-57 and 101-112: all combinations. -/
def candidateNames (uris pfxs : List String) (l : String) : List QName :=
  uris.flatMap (fun u => pfxs.map (fun p => ⟨u, p, l⟩))

/-- report_element_service.py 27-78 (`get_fuzzy_typed`) -/
def getFuzzyTyped (ns : NsStore) (s : ElemStore) (p : SearchParams) (k : ElemKind) : Except PyErr (List ReportElement) :=
  let (uris, pfxs) := searchCandidates ns p
  if !uris.isEmpty || !pfxs.isEmpty then
    ((candidateNames uris pfxs p.localName).filter (fun q => s.hasTypedQName q k)).mapM (fun q => s.getTypedByQName q k)
  else .ok ((s.getAllTyped k).filter (fun e => e.name.localName = p.localName))

/-- report_element_service.py 80-124 (`get_fuzzy`) -/
def getFuzzy (ns : NsStore) (s : ElemStore) (p : SearchParams) : Except PyErr (List ReportElement) :=
  let (uris, pfxs) := searchCandidates ns p
  if !uris.isEmpty || !pfxs.isEmpty then
    ((candidateNames uris pfxs p.localName).filter (fun q => s.hasQName q)).mapM (fun q => s.getByQName q)
  else .ok (s.getAll.filter (fun e => e.name.localName = p.localName))

/-- brel/parsers/xml_filing_parser.py 33-41 with brel/parsers/utils/lxml_utils.py 136-161: the (prefix, URI) pairs registered for the
namespace scopes of all elements; the default namespace (`None`) is dropped. (Attributes called `xmlns:…` do not exist in lxml.) -/
def registeredNamespaces (maps : List NsMap) : List (String × String) :=
  ("xml", xmlNs) :: maps.flatMap (fun m => m.filterMap (fun e => e.1.map (fun p => (p, e.2))))

/-- brel/parsers/XML/xml_report_element_parser.py 70-73: the name of the report element of a schema element, from the target
namespace of its schema, its `name` attribute and its namespace scope. -/
def schemaElementName (target name : String) (ns : NsMap) : Except PyErr QName :=
  qnameFromStr ("{" ++ target ++ "}" ++ name) ns

/-- The first argument of `exactly_one` in brel_filing.py 316-319. -/
def FilingData.searchElements (d : FilingData) (s : String) : Except PyErr (List ReportElement) := do
  let p ← SearchParams.fromString s
  getFuzzy d.ns d.elems p

/-- The first argument of `exactly_one` in brel_filing.py 333-338 and 371-377. -/
def FilingData.searchConcepts (d : FilingData) (s : String) : Except PyErr (List ReportElement) := do
  let p ← SearchParams.fromString s
  getFuzzyTyped d.ns d.elems p .concept

/-- brel/parsers/utils/iterable_utils.py 28-47 (`exactly_one`) on a list. -/
def exactlyOne {α : Type} : List α → Except PyErr α
  | [x] => .ok x
  | _ => .error .valueError

/-- The argument `QName | str` of the name queries. -/
inductive NameArg where
  | qname (q : QName)
  | str (s : String)
  deriving DecidableEq, Repr

/-- brel/brel_filing.py 325-343 (`get_concept_by_name`), also 370-381. -/
def FilingData.getConceptByName (d : FilingData) : NameArg → Except PyErr ReportElement
  | .str s => do
    let l ← d.searchConcepts s
    exactlyOne l
  | .qname q => d.elems.getTypedByQName q .concept

/-- brel/brel_filing.py 306-323 (`get_report_element_by_name`) -/
def FilingData.getReportElementByName (d : FilingData) : NameArg → Except PyErr ReportElement
  | .str s => do
    let l ← d.searchElements s
    exactlyOne l
  | .qname q => d.elems.getByQName q

/-- `[fact for fact in facts if fact.get_concept() == concept]`, brel_filing.py 383; `==` compares names. -/
def factsOfConcept (facts : List Fact) (q : QName) : Except PyErr (List Fact) :=
  facts.filterM (fun f => do let c ← f.getConcept; return decide (c.name = q))

/-- brel/brel_filing.py 363-383 (`get_facts_by_concept_name`) -/
def FilingData.getFactsByConceptName (d : FilingData) (n : NameArg) : Except PyErr (List Fact) := do
  let e ← d.getConceptByName n
  factsOfConcept d.getAllFacts e.name

/-- brel/brel_filing.py 393-397 -/
def FilingData.getAllComponentUris (d : FilingData) : List String := d.components.map (·.uri)

/-- brel/brel_filing.py 399-410 (`get_component`) -/
def FilingData.getComponent (d : FilingData) (uri : String) : Except PyErr Component :=
  match firstMatch (fun c : Component => c.uri = uri) d.components with
  | none => .error .valueError
  | some c => .ok c

/-- brel/brel_component.py 160-171 (`get_networks`) -/
def Component.getNetworks (c : Component) : List Nat :=
  c.presentation.toList ++ c.calculation.toList ++ c.definition.toList

/-- brel/brel_filing.py 465-476 (`get_all_labels`): the label together with the name of its element (the label's own dictionary
form is not modelled). -/
def FilingData.getAllLabels (d : FilingData) : List (Label × QName) :=
  d.elems.getAll.flatMap (fun e => e.labels.map (fun l => (l, e.name)))

end Brel
