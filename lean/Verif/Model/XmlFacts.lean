import Verif.Model.XmlContext

/-!
Model of `brel/parsers/XML/xml_facts_parser.py`.

The lxml queries are modelled by their meaning: `.//*[@contextRef]` yields the proper descendants of the root that are elements with
that attribute, in document order, and `{*}unit[@id='…']` the first child of the root with that local name and id. Ids that contain a
single quote, for which the second query is not well-formed, are not modelled.
-/

namespace Brel

mutual
/-- The proper descendants of a node in document order. -/
def XNode.descendants : XNode → List XNode
  | .mk _ _ _ _ cs => XNode.descendantsOfAll cs
/-- The nodes of a list and their descendants, in document order. -/
def XNode.descendantsOfAll : List XNode → List XNode
  | [] => []
  | c :: cs => c :: (c.descendants ++ XNode.descendantsOfAll cs)
end

/-- `find_elements(instance, ".//*[@contextRef]")`, xml_facts_parser.py 101 -/
def factElements (root : XNode) : List XNode := root.descendants.filter (fun x => x.tag.isSome && (x.attr? "contextRef").isSome)

/-- `instance.find("{*}n[@id='i']")`, xml_facts_parser.py 134 and 164 -/
def findById (root : XNode) (n i : String) : Option XNode := root.children.find? (fun c => c.hasLocal n && decide (c.attr? "id" = some i))

/-- The concept object of a report element; `data` gives what `ReportElement` leaves out (data type, nillable, …). -/
def conceptFor (data : ReportElement → Concept) (e : ReportElement) : Concept := { data e with name := e.name }

/-- The repositories the fact parsers write to. -/
structure FactState where
  ps : ParseState := {}
  facts : FactStore := {}

/-- `error_repository.insert(code, …)` -/
def FactState.err (s : FactState) (e : String) : FactState := { s with ps := s.ps.err e }

/-- `context.get_concept().get_value()`: an `AttributeError` if the context has no concept. -/
def Context.conceptValue (ctx : Context) : Except PyErr Concept :=
  match ctx.getCharacteristic .concept with
  | some ⟨_, .concept c⟩ => .ok c
  | _ => .error .attributeError

/-- xml_facts_parser.py 62-70: whether the unit of the context is not the one the fact refers to. -/
def unitMismatch (ctx : Context) (ref : Option String) : Bool :=
  match ctx.getCharacteristic .unit, truthy ref with
  | some ⟨_, .unit n _ _⟩, some u => u ≠ n
  | some _, some _ => true
  | _, _ => false

/-- xml_facts_parser.py 35-81 (`parse_fact_from_xml`) -/
def parseFactXml (x : XNode) (ctx : Context) (s : FactState) : Except PyErr FactState := do
  let c ← ctx.conceptValue
  let s := if x.text.isNone && !c.nillable then s.err "MISSING_FACT_VALUE" else s
  let s := if unitMismatch ctx (x.attr? "unitRef") then s.err "FACT_UNIT_MISMATCH" else s
  let s := if x.tag ≠ some c.name.clark then s.err "FACT_CONCEPT_MISMATCH" else s
  return { s with facts := s.facts.upsert { id := x.attr? "id", context := ctx, value := x.text.getD "" } }

/-- xml_facts_parser.py 161-178: the context of a fact, and the fact. The report of an unknown context (lines 165-170) raises a
`ValueError`: the registry has two entries for its code, the later of which asks for a `unit_id` (error_factory_registry.py 215-228). -/
def parseFactContext (dateOf : String → Option Date) (re : ElemStore) (root x : XNode) (given : List Characteristic) (s : FactState) : Except PyErr FactState := do
  let ref ← x.attr "contextRef"
  match findById root "context" ref with
  | none => throw .valueError
  | some cx =>
    match ← parseContext dateOf re cx given s.ps with
    | (none, ps) => return { s with ps := ps }
    | (some ctx, ps) => parseFactXml x ctx { s with ps := ps }

/-- xml_facts_parser.py 130-159: the unit of a fact, then its context. The report of an unknown unit (lines 134-139) raises a
`ValueError`, as the registry has no entry for its code (error_repository.py 42-44). -/
def parseFactUnit (dateOf : String → Option Date) (re : ElemStore) (root x : XNode) (cc : Characteristic) (s : FactState) : Except PyErr FactState :=
  match truthy (x.attr? "unitRef") with
  | none => parseFactContext dateOf re root x [cc] s
  | some u =>
    match findById root "unit" u with
    | none => .error .valueError
    | some ux =>
      if s.ps.chars.hasKey u .unit then do
        let uc ← s.ps.chars.lookup u .unit
        parseFactContext dateOf re root x [cc, uc] s
      else do
        match ← parseUnit ux s.ps with
        | (none, ps) => return { s with ps := ps }
        | (some c, ps) =>
          let s := { s with ps := ps.put u c }
          let uc ← s.ps.chars.lookup u .unit
          parseFactContext dateOf re root x [cc, uc] s

/-- xml_facts_parser.py 101-178: one fact element of a document. -/
def parseFactElement (data : ReportElement → Concept) (dateOf : String → Option Date) (re : ElemStore) (root : XNode) (s : FactState) (x : XNode) : Except PyErr FactState := do
  let tag := x.tag.getD ""
  let q ← qnameFromStr tag x.ns
  if !re.hasTypedQName q .concept then return s.err "XML_FACT_INVALID_CONCEPT"
  let e ← re.getTypedByQName q .concept
  let s := if s.ps.chars.hasKey tag .concept then s else { s with ps := s.ps.put tag (.ofConcept (conceptFor data e)) }
  let cc ← s.ps.chars.lookup tag .concept
  parseFactUnit dateOf re root x cc s

/-- xml_facts_parser.py 84-178 (`parse_facts_xml`): all documents of the filing. -/
def parseFactsXml (data : ReportElement → Concept) (dateOf : String → Option Date) (re : ElemStore) (roots : List XNode) (s : FactState) : Except PyErr FactState :=
  roots.foldlM (fun s root => (factElements root).foldlM (parseFactElement data dateOf re root) s) s

end Brel
