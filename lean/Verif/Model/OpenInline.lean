import Verif.Model.Open
import Verif.Model.XhtmlFacts
import Verif.Model.Footnotes

/-!
Model of `brel/parsers/xhtml_filing_parser.py`: how a whole inline filing is read from its documents, with the part of
`brel/parsers/XHMTL/networks/xhtml_parse_footnote_network.py` that is not in `Footnotes.lean`: role references and the way from elements to
footnotes and relationships.
-/

namespace Brel

/-! ### Role references -/

/-- xhtml_parse_footnote_network.py 382-391, 393-403: the report about an attribute that must be a URI. -/
def uriReports (validUri : String → Bool) (missing invalid : String) (a : Option String) : ErrNames :=
  match truthy a with
  | none => [missing]
  | some u => if validUri u then [] else [invalid]

/-- xhtml_parse_footnote_network.py 373-407 (`parse_role_reference`): the reports it makes. `is_valid_uri` is a parameter. -/
def parseRoleRef (validUri : String → Bool) (x : XNode) : Except PyErr ErrNames := do
  let linkType ← x.xlink? "linktype"
  let e1 := if linkType ≠ some "simple" then ["ROLEREF_INVALID_LINKTYPE"] else []
  let href ← x.xlink? "href"
  let e2 := uriReports validUri "ROLEREF_MISSING_HREF_ATTRIBUTE" "ROLEREF_INVALID_HREF_ATTRIBUTE" href
  let e3 := uriReports validUri "ROLEREF_MISSING_ROLE_URI_ATTRIBUTE" "ROLEREF_INVALID_ROLE_URI_ATTRIBUTE" (x.attr? "roleURI")
  let role ← x.xlink? "role"
  let e4 := if role = some "" then ["ROLEREF_EMPTY_ROLE_ATTRIBUTE"] else []
  return e1 ++ e2 ++ e3 ++ e4

/-- xhtml_parse_footnote_network.py 410-416 (`parse_role_references`) -/
def parseRoleRefs (validUri : String → Bool) (roleRefs arcroleRefs : List XNode) : Except PyErr ErrNames :=
  ((roleRefs ++ arcroleRefs).mapM (parseRoleRef validUri)).map List.flatten

/-! ### Footnotes and relationships -/

/-- What xhtml_parse_footnote_network.py 35-77 reads of a footnote element. -/
def InlineElem.footnote (e : InlineElem) : FootnoteElem :=
  { elem := e.nonNumeric.elem, id := e.node.attr? "id", role := e.node.attr? "footnoteRole", langs := e.langs, title := e.node.attr? "title" }

/-- `s.split()`: the pieces between white space; `cur` is the piece that has been begun. -/
def splitSpace (cur : List Char) : List Char → List (List Char)
  | [] => if cur = [] then [] else [cur]
  | c :: cs => if pySpace c then (if cur = [] then splitSpace [] cs else cur :: splitSpace [] cs) else splitSpace (cur ++ [c]) cs

/-- xhtml_parse_footnote_network.py 104-120: the ids in the attribute of a relationship. -/
def refIds (x : XNode) (n : String) : List String := (splitSpace [] ((x.attr? n).getD "").toList).map String.ofList

/-- The attributes of a relationship element, xhtml_parse_footnote_network.py 101-122, 176-219; `float` gives the number of a text, if it is one. -/
def readRel (float : String → Option Rat) (x : XNode) : RelElem :=
  { fromRefs := refIds x "fromRefs", toRefs := refIds x "toRefs", fromMissing := (truthy (x.attr? "fromRefs")).isNone, toMissing := (truthy (x.attr? "toRefs")).isNone,
    arcRole := x.attr? "arcrole", linkRole := x.attr? "linkRole", order := numAttr float (x.attr? "order") }

/-- What parse_footnote_networks_xhtml makes: the footnotes by id, the networks, and the reports. -/
structure FootnoteNetworks where
  footnotes : Dict String Footnote
  networks : List FootNetwork
  reports : ErrNames

/-- xhtml_parse_footnote_network.py 419-449 (`parse_footnote_networks_xhtml`): `footnotes` are the footnote elements with the contents of their continuation chains. The networks are
stored next to those of the link bases, which do not change them, see `openXhtml`. -/
def readFootnotes (validUri : String → Bool) (float : String → Option Rat) (so : SetOrder) (res : Resources) (footnotes : List (FootnoteElem × List Elem)) (taken : List String) (facts : FactStore) :
    Except PyErr FootnoteNetworks := do
  let refs ← parseRoleRefs validUri res.roleRefs res.arcroleRefs
  let fns ← parseFootnotes validUri footnotes taken
  let rels ← parseRels validUri so fns.1 facts (res.relationships.map (readRel float))
  return { footnotes := fns.1, networks := rels.1, reports := refs ++ fns.2.1 ++ rels.2 }

/-! ### Filings -/

/-- A document of an inline filing: as any document, and the elements of an inline document. -/
structure FilingDoc where
  doc : SchemaDoc
  elems : List InlineElem := []

/-- The document, as the parser of inline documents sees it. -/
def FilingDoc.inline (d : FilingDoc) : InlineDoc := { root := d.doc.root, elems := d.elems }

/-- What xhtml_parse_facts.py 301-315 hands to the parser of footnote networks, besides the ids taken: the children of resources and the footnotes, each with the contents of its
continuation chain. The code keeps these from parse_facts_xhtml; here they are computed again from the documents. -/
def footnoteInputs (fuel : Nat) (docs : List InlineDoc) (taken : List String) : Option (Except PyErr (Resources × List (FootnoteElem × List Elem))) :=
  let docs := docs.filter isInstance
  match parseHeaders (docs.map (·.root)) with
  | .error e => some (.error e)
  | .ok parts =>
    match parseResources parts.1.resources [] with
    | .error e => some (.error e)
    | .ok res =>
      (createChains fuel ((inlineFacts docs).map (·.link)) ((inlineFootnotes docs).map (·.link)) ((inlineConts docs).map (·.link)) taken).map (fun c =>
        .ok (res.1, (inlineFootnotes docs).map (fun e => (e.footnote, chainElems (inlineConts docs) c.1 e.cont.oid))))

/-- brel/parsers/xhtml_filing_parser.py 33-46 (`__create_nsmap`) -/
def registerInlinePrefixes (roots : List XNode) : NsStore :=
  NsStore.run (("xml", xmlNs) :: ("html", "http://www.w3.org/1999/xhtml") :: (registeredNamespaces ((roots.flatMap (fun r => r :: r.descendants)).map (·.ns))).tail)

/-- The repositories of the context after parsing. The errors are kept by the step that reports them. -/
structure OpenedInline where
  namespaces : NsStore
  elements : SchemaState
  facts : InlineState
  footnotes : FootnoteNetworks
  networks : ReadNetworks
  components : List (ComponentOf Network)
  componentReports : List ComponentReport

/-- brel/parsers/filing_parser.py 40-48 (`parse`) with xhtml_filing_parser.py 48-66: the documents are those of the XML repository, with their keys, in its order. The footnote networks of
inline documents are in the same repository as the networks of link bases; no step reads networks of this class from it. `fuel` bounds the traversal of continuation chains, `steps` that of
networks. -/
def openXhtml (dateOf : String → Option Date) (dig : Char → Option Nat) (flt : String → Option Bool) (validUri : String → Bool) (float : String → Option Rat) (str : XNode → String) (so : SetOrder)
    (fuel steps : Nat) (docs : List FilingDoc) : Option (Except PyErr OpenedInline) :=
  let roots := docs.map (·.doc.root)
  match parseReportElements (docs.map (·.doc)) with
  | .error e => some (.error e)
  | .ok elements =>
    match parseFactsXhtml fuel elements.concept dateOf dig flt elements.store (docs.map (·.inline)) with
    | none => none
    | some (.error e) => some (.error e)
    | some (.ok facts) =>
      match footnoteInputs fuel (docs.map (·.inline)) [] with
      | none => none
      | some (.error e) => some (.error e)
      | some (.ok (res, fns)) =>
        match readFootnotes validUri float so res fns facts.taken facts.facts with
        | .error e => some (.error e)
        | .ok notes =>
          (readNetworks elements.store facts.facts float str so steps roots).map (fun r => r.bind (fun networks =>
            (parseComponents networks.networks.store roots).map (fun c =>
              { namespaces := registerInlinePrefixes roots, elements := elements, facts := facts, footnotes := notes, networks := networks, components := c.1, componentReports := c.2 })))

end Brel
