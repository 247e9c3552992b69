import Verif.Model.XmlFacts
import Verif.Model.InlineContent

/-!
Model of `brel/parsers/XHMTL/xhtml_parse_facts.py` and of `parse_header.py`, `parse_hidden.py`, `parse_references.py` and
`parse_resources.py` in `brel/parsers/XHMTL/elements/`.

Contexts are values here; that the copies of a context are separate objects is the subject of `Verif.Model.ContextStore`.
`check_no_header_element_in_head` (parse_header.py 13-21) is left out: it looks for `head` elements in no namespace, which XHTML
documents do not have. The effect of `deepcopy` on the identity of members is left out too.
-/

namespace Brel

/-- The repositories and the set of ids the inline parsers write to. `last` is the local variable `fact` of parse_facts, which survives
from one round of the loop to the next; `none` while it is not bound. -/
structure InlineState where
  ps : ParseState := {}
  contexts : Dict String Context := []
  facts : FactStore := {}
  taken : List String := []
  last : Option Fact := none

/-- `error_repository.insert(code, …)` -/
def InlineState.err (s : InlineState) (e : String) : InlineState := { s with ps := s.ps.err e }

/-- `taken_ids.add(id)` -/
def InlineState.take (s : InlineState) (i : String) : InlineState := { s with taken := appendNew s.taken i }

/-- brel/parsers/utils/lxml_utils.py 90-97 (`get_prefix_localname_tag`); the tag of a comment is not a string, so the regular expressions
of `qname_from_str` raise a `TypeError`. -/
def XNode.prefixTag (x : XNode) : Except PyErr String :=
  match x.tag with
  | none => .error .typeError
  | some t => (qnameFromStr t x.ns).map QName.prefixLocal

/-! ### Headers -/

/-- The children of headers: hidden, resources, references. -/
structure HeaderParts where
  hidden : List XNode := []
  resources : List XNode := []
  references : List XNode := []

/-- parse_header.py 29-42: one child of a header. -/
def headerChild (acc : HeaderParts × ErrNames) (c : XNode) : Except PyErr (HeaderParts × ErrNames) := do
  let tag ← c.prefixTag
  if tag = "ix:hidden" then return ({ acc.1 with hidden := acc.1.hidden ++ [c] }, acc.2)
  else if tag = "ix:resources" then return ({ acc.1 with resources := acc.1.resources ++ [c] }, acc.2)
  else if tag = "ix:references" then return ({ acc.1 with references := acc.1.references ++ [c] }, acc.2)
  else return (acc.1, acc.2 ++ ["IXBRL_INVALID_HEADER_CHILD"])

/-- parse_header.py 24-58 (`parse_header`) -/
def parseHeader (header : XNode) : Except PyErr (HeaderParts × ErrNames) := do
  let r ← header.children.foldlM headerChild ({}, [])
  let errs := if r.1.hidden.length > 1 then r.2 ++ ["IXBRL_MORE_THAN_ONE_HIDDEN_HEADER_CHILD"] else r.2
  let errs := if r.1.resources.length > 1 then errs ++ ["IXBRL_MORE_THAN_ONE_RESOURCES_HEADER_CHILD"] else errs
  return (r.1, errs)

/-- The namespace of inline XBRL, xhtml_parse_facts.py 63 -/
def ixNs : String := "http://www.xbrl.org/2013/inlineXBRL"

/-- xhtml_parse_facts.py 60-64: `.//ix:header` with the prefix bound to the inline namespace. -/
def headersOf (root : XNode) : List XNode := root.descendants.filter (fun x => x.tag = some ("{" ++ ixNs ++ "}header"))

/-- xhtml_parse_facts.py 69-74: one header. -/
def headerStep (acc : HeaderParts × ErrNames) (h : XNode) : Except PyErr (HeaderParts × ErrNames) := do
  let r ← parseHeader h
  return ({ hidden := acc.1.hidden ++ r.1.hidden, resources := acc.1.resources ++ r.1.resources, references := acc.1.references ++ r.1.references }, acc.2 ++ r.2)

/-- xhtml_parse_facts.py 52-82 (`parse_headers`) -/
def parseHeaders (roots : List XNode) : Except PyErr (HeaderParts × ErrNames) := do
  let headers := roots.flatMap headersOf
  let r ← headers.foldlM headerStep ({}, [])
  let errs := if headers.isEmpty then r.2 ++ ["IXBRL_NO_HEADER_ELEMENTS"] else r.2
  let errs := if r.1.resources.isEmpty then errs ++ ["IXBRL_NO_RESOURCES_ELEMENTS"] else errs
  return (r.1, errs)

/-- parse_hidden.py 13-26: one child of a hidden element. The report of lines 23-26 does not give the `child_tag` its message asks for,
so that making it raises a `ValueError` (error_instance.py 28-34). -/
def hiddenChild (errs : ErrNames) (c : XNode) : Except PyErr ErrNames := do
  let tag ← c.prefixTag
  if tag ∈ ["ix:footnote", "ix:nonFraction", "ix:nonNumeric"] then return errs
  else if tag ∈ ["ix:fraction", "ix:tuple"] then return errs ++ ["IXBRL_ELEMENT_NOT_SUPPORTED"]
  else throw .valueError

/-- parse_hidden.py 9-26 (`validate_hidden_elements`) -/
def validateHidden (hidden : List XNode) (errs : ErrNames) : Except PyErr ErrNames := (hidden.flatMap XNode.children).foldlM hiddenChild errs

/-- The children of resources elements, by kind. -/
structure Resources where
  relationships : List XNode := []
  roleRefs : List XNode := []
  arcroleRefs : List XNode := []
  contexts : List XNode := []
  units : List XNode := []

/-- parse_resources.py 20-37: one child. -/
def resourceChild (acc : Resources × ErrNames) (c : XNode) : Except PyErr (Resources × ErrNames) := do
  let tag ← c.prefixTag
  if tag = "ix:relationship" then return ({ acc.1 with relationships := acc.1.relationships ++ [c] }, acc.2)
  else if tag = "link:roleRef" then return ({ acc.1 with roleRefs := acc.1.roleRefs ++ [c] }, acc.2)
  else if tag = "link:arcroleRef" then return ({ acc.1 with arcroleRefs := acc.1.arcroleRefs ++ [c] }, acc.2)
  else if tag = "xbrli:context" then return ({ acc.1 with contexts := acc.1.contexts ++ [c] }, acc.2)
  else if tag = "xbrli:unit" then return ({ acc.1 with units := acc.1.units ++ [c] }, acc.2)
  else return (acc.1, acc.2 ++ ["IXBRL_INVALID_RESOURCES_CHILD"])

/-- parse_resources.py 10-45 (`parse_resources_elements`) -/
def parseResources (resources : List XNode) (errs : ErrNames) : Except PyErr (Resources × ErrNames) :=
  (resources.flatMap XNode.children).foldlM resourceChild ({}, errs)

/-! ### References, contexts and units -/

/-- parse_references.py 33-39: one child of a references element. The report does not give the `children` its message asks for, so that
making it raises a `ValueError` (error_instance.py 28-34). -/
def referenceChild (s : InlineState) (c : XNode) : Except PyErr InlineState := do
  let tag ← c.prefixTag
  if tag ∈ ["link:schemaRef", "link:linkbaseRef"] then return s else throw .valueError

/-- An id is used: reported if it was used before. -/
def InlineState.use (s : InlineState) (i : String) : InlineState :=
  (if i ∈ s.taken then s.err "IXBRL_DUPLICATE_ELEMENT_ID" else s).take i

/-- An id is used, if there is one. -/
def InlineState.useOpt (s : InlineState) : Option String → InlineState
  | some i => s.use i
  | none => s

/-- parse_references.py 18-39: one references element. -/
def parseReference (s : InlineState) (x : XNode) : Except PyErr InlineState :=
  let s := s.useOpt (x.attr? "id")
  let s := if x.children.length = 0 then s.err "IXBRL_REFERENCES_ELEMENT_WITHOUT_CHILDREN" else s
  x.children.foldlM referenceChild s

/-- xhtml_parse_facts.py 90-112: one context element. An element without an id is reported and then raises in the context parser;
`insert_context` keeps the first context of an id. -/
def parseInlineContext (dateOf : String → Option Date) (re : ElemStore) (s : InlineState) (x : XNode) : Except PyErr InlineState := do
  let s := if (x.attr? "id").isNone then s.err "IXBRL_CONTEXT_WITHOUT_ID" else s
  let s := s.use ((x.attr? "id").getD "None")
  match ← parseContext dateOf re x [] s.ps with
  | (none, ps) => return { s with ps := ps }
  | (some ctx, ps) =>
    if s.contexts.has ctx.id then return { s with ps := ps.err "IXBRL_DUPLICATE_ELEMENT_ID" }
    else return { s with ps := ps, contexts := s.contexts.set ctx.id ctx }

/-- `unit.get_name()` -/
def Characteristic.unitName (c : Characteristic) : String :=
  match c.value with
  | .unit n _ _ => n
  | _ => ""

/-- xhtml_parse_facts.py 120-137: one unit element. -/
def parseInlineUnit (s : InlineState) (x : XNode) : Except PyErr InlineState := do
  let s := match x.attr? "id" with
    | none => (s.err "IXBRL_UNIT_WITHOUT_ID").take "None"
    | some i => s.use i
  match ← parseUnit x s.ps with
  | (none, ps) => return { s with ps := ps }
  | (some c, ps) => return { s with ps := ps.put c.unitName c }

/-! ### Facts -/

/-- An element of an inline document: the node, and what the parsers of content and of continuation chains read of it. `langs` are the `xml:lang` attributes from the element outwards. -/
structure InlineElem where
  node : XNode
  cont : ContElem
  nonNumeric : NonNumericElem
  nonFraction : NonFractionElem
  langs : List (Option String) := []

/-- What parse_non_numeric.py reads of the element. -/
def InlineElem.txt (e : InlineElem) : NonNumericElem := { e.nonNumeric with id := e.node.attr? "id" }
/-- What parse_non_fraction.py reads of the element. -/
def InlineElem.num (e : InlineElem) : NonFractionElem := { e.nonFraction with id := e.node.attr? "id", unitRef := e.node.attr? "unitRef" }

/-- What parse_continuation_chain.py reads of the element. -/
def InlineElem.link (e : InlineElem) : ContElem :=
  { e.cont with name := e.node.prefixTag.toOption.getD "", id := e.node.attr? "id", continuedAt := e.node.attr? "continuedAt" }

/-- xhtml_parse_facts.py 201-221: the unit of a fact. -/
def inlineUnit (e : InlineElem) (tag : String) (s : InlineState) : List Characteristic × InlineState :=
  match truthy (e.node.attr? "unitRef") with
  | some u =>
    match s.ps.chars.lookup u .unit with
    | .ok c => ([c], s)
    | .error _ => ([], s.err "IXBRL_INVALID_FACT_UNIT_ID")
  | none => if tag = "ix:nonFraction" then ([], s.err "IXBRL_NON_FRACTION_WITHOUT_UNIT") else ([], s)

/-- xhtml_parse_facts.py 245-256: the fact itself, by the tag of its element. An element with another tag leaves the variable `fact` as it is. -/
def inlineFact (dig : Char → Option Nat) (flt : String → Option Bool) (chain : List Elem) (e : InlineElem) (tag : String) (ctx : Context) (s : InlineState) :
    Except PyErr InlineState :=
  if tag = "ix:nonNumeric" then do
    let r ← parseNonNumeric dig e.txt chain s.taken
    let f : Fact := { id := r.2.1, context := ctx, value := String.ofList r.1 }
    return { s with ps := { s.ps with errs := s.ps.errs ++ r.2.2.1 }, taken := r.2.2.2, last := some f, facts := s.facts.upsert f }
  else if tag = "ix:nonFraction" then do
    let r ← parseNonFraction dig flt e.num s.taken
    let f : Fact := { id := r.1.id, context := ctx, value := r.1.value }
    return { s with ps := { s.ps with errs := s.ps.errs ++ r.2.1 }, taken := r.2.2, last := some f, facts := s.facts.upsert f }
  else
    match s.last with
    | none => .error .unboundLocalError
    | some f => .ok { s with facts := s.facts.upsert f }

/-- xhtml_parse_facts.py 168-256: one fact element. -/
def parseInlineFact (data : ReportElement → Concept) (dig : Char → Option Nat) (flt : String → Option Bool) (re : ElemStore) (chainOf : Nat → List Elem)
    (s : InlineState) (e : InlineElem) : Except PyErr InlineState := do
  let tag ← e.node.prefixTag
  match e.node.attr? "name" with
  | none => return s.err "IXBRL_FACT_WITHOUT_CONCEPT_NAME"
  | some name =>
    let q ← qnameFromStr name e.node.ns
    match re.getTypedByQName q .concept with
    | .error _ => return s.err "IXBRL_FACT_INVALID_CONCEPT"
    | .ok el =>
      let cc := Characteristic.ofConcept (conceptFor data el)
      let s := { s with ps := s.ps.put name cc }
      let (us, s) := inlineUnit e tag s
      match e.node.attr? "contextRef" with
      | none => return s.err "IXBRL_FACT_WITHOUT_CONTEXT"
      | some ref =>
        match s.contexts.get? ref with
        | none => return s.err "IXBRL_INVALID_FACT_CONTEXT_ID"
        | some ctx => inlineFact dig flt (chainOf e.cont.oid) e tag ((cc :: us).foldl Context.add ctx) s

/-! ### Documents -/

/-- An inline document: its root and all elements below it, in document order. -/
structure InlineDoc where
  root : XNode
  elems : List InlineElem

/-- `find_elements(root, ".//ix:n | .//ix:m")`, lxml_utils.py 100-119: the prefix is resolved in the scope of the root; if it is not bound there the query is an error and
finds nothing. -/
def InlineDoc.query (d : InlineDoc) (names : List String) : List InlineElem :=
  match Dict.get? d.root.ns (some "ix") with
  | none => []
  | some u => d.elems.filter (fun e => names.any (fun n => decide (e.node.tag = some ("{" ++ u ++ "}" ++ n))))

/-- xhtml_parse_facts.py 140-153 (`parse_instance_elements`), the facts -/
def inlineFacts (docs : List InlineDoc) : List InlineElem := docs.flatMap (fun d => d.query ["nonNumeric", "nonFraction"])
/-- the footnotes -/
def inlineFootnotes (docs : List InlineDoc) : List InlineElem := docs.flatMap (fun d => d.query ["footnote"])
/-- the continuations -/
def inlineConts (docs : List InlineDoc) : List InlineElem := docs.flatMap (fun d => d.query ["continuation"])

/-- xhtml_parse_facts.py 267-274: documents that are no schema and no linkbase. -/
def isInstance (d : InlineDoc) : Bool :=
  match d.root.tag with
  | none => true
  | some t => !endsWith t.toList "schema".toList && !endsWith t.toList "linkbase".toList

/-- The content of the elements of the chain of an element. -/
def chainElems (conts : List InlineElem) (chains : List (ContElem × List ContElem)) (oid : Nat) : List Elem :=
  match chains.find? (fun p => p.1.oid = oid) with
  | none => []
  | some p => p.2.filterMap (fun c => (conts.find? (fun e => e.cont.oid = c.oid)).map (fun e => e.nonNumeric.elem))

/-- xhtml_parse_facts.py 277-299: the passes over headers, references, resources, contexts, units and hidden elements. -/
def parseDeclarations (dateOf : String → Option Date) (re : ElemStore) (docs : List InlineDoc) : Except PyErr InlineState := do
  let (parts, errs) ← parseHeaders (docs.map (·.root))
  let s ← parts.references.foldlM parseReference { ps := { errs := errs } }
  let (res, errs) ← parseResources parts.resources s.ps.errs
  let s ← res.contexts.foldlM (parseInlineContext dateOf re) { s with ps := { s.ps with errs := errs } }
  let s ← res.units.foldlM parseInlineUnit s
  let errs ← validateHidden parts.hidden s.ps.errs
  return { s with ps := { s.ps with errs := errs } }

/-- xhtml_parse_facts.py 259-315 (`parse_facts_xhtml`), without the footnote networks; `none` if the continuation chains do not end within `fuel` rounds. -/
def parseFactsXhtml (fuel : Nat) (data : ReportElement → Concept) (dateOf : String → Option Date) (dig : Char → Option Nat) (flt : String → Option Bool) (re : ElemStore)
    (docs : List InlineDoc) : Option (Except PyErr InlineState) :=
  let docs := docs.filter isInstance
  match parseDeclarations dateOf re docs with
  | .error e => some (.error e)
  | .ok s =>
    match createChains fuel ((inlineFacts docs).map (·.link)) ((inlineFootnotes docs).map (·.link)) ((inlineConts docs).map (·.link)) s.taken with
    | none => none
    | some (chains, errs, taken) =>
      some ((inlineFacts docs).foldlM (parseInlineFact data dig flt re (chainElems (inlineConts docs) chains)) { s with ps := { s.ps with errs := s.ps.errs ++ errs }, taken := taken })

end Brel
