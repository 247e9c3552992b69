import Verif.Model.Schema
import Verif.Model.Linkbase
import Verif.Model.Components
import Verif.Model.Filing

/-!
Model of `brel/parsers/filing_parser.py` and `brel/parsers/xml_filing_parser.py`: how a whole XML filing is read from its documents.
-/

namespace Brel

/-- brel/parsers/xml_filing_parser.py 32-41 (`__create_nsmap`) with brel/parsers/utils/lxml_utils.py 136-161 (`get_all_nsmaps`): `iter` visits the root and everything below it, in document
order. -/
def registerPrefixes (roots : List XNode) : NsStore := NsStore.run (registeredNamespaces ((roots.flatMap (fun r => r :: r.descendants)).map (·.ns)))

/-- The object of the repository, as the parsers of facts and networks see it. -/
def SchemaElement.element (e : SchemaElement) : ReportElement := { kind := e.kind, name := e.name, id := e.id }

/-- The repository of report elements after `parse_report_elements`, as the parsers of facts and networks see it. -/
def SchemaState.store (s : SchemaState) : ElemStore := { byName := s.byName.map (fun p => (p.1, p.2.element)), byId := s.byId.map (fun p => (p.1, p.2.element)) }

/-- The attributes of the concept object with the name of the report element. -/
def SchemaState.concept (s : SchemaState) (e : ReportElement) : Concept := ((s.byName.get? e.name).bind (·.concept)).getD { name := e.name }

/-- The repositories of the context after parsing: brel/contexts/filing_context.py 52-160. The errors are kept by the step that reports them; in the code they are in one list, in the
order of the steps. -/
structure OpenedFiling where
  namespaces : NsStore
  elements : SchemaState
  facts : FactState
  networks : ReadNetworks
  components : List (ComponentOf Network)
  componentReports : List ComponentReport

/-- brel/parsers/filing_parser.py 40-48 (`parse`) with xml_filing_parser.py 23-56: the documents are those of the XML repository, with their keys, in its order. `parse_networks` and the
combination of networks are as in `readNetworks`; `steps` bounds the traversal of networks. -/
def openXml (dateOf : String → Option Date) (float : String → Option Rat) (str : XNode → String) (so : SetOrder) (steps : Nat) (docs : List SchemaDoc) : Option (Except PyErr OpenedFiling) :=
  let roots := docs.map (·.root)
  match parseReportElements docs with
  | .error e => some (.error e)
  | .ok elements =>
    match parseFactsXml elements.concept dateOf elements.store roots {} with
    | .error e => some (.error e)
    | .ok facts =>
      (readNetworks elements.store facts.facts float str so steps roots).map (fun r => r.bind (fun networks =>
        (parseComponents networks.networks.store roots).map (fun c =>
          { namespaces := registerPrefixes roots, elements := elements, facts := facts, networks := networks, components := c.1, componentReports := c.2 })))

end Brel
