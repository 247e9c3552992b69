import Verif.Model.InlineContent
import Verif.Model.Link
import Verif.Model.FactValue
import Verif.Model.Resource
import Verif.Model.Repos

/-!
Model of `brel/parsers/XHMTL/networks/xhtml_parse_footnote_network.py`: footnotes and relationships of inline documents.

`is_valid_uri` (parsers/utils/url_utils.py, a call of `urllib.parse.urlparse`) is a parameter. The iteration order of sets of ids is a
parameter (`SetOrder`).
-/

namespace Brel

/-! ## Footnotes -/

/-- What parse_footnote reads of an `ix:footnote` element. `langs` are the `xml:lang` attributes from the element outwards. -/
structure FootnoteElem where
  elem : Elem
  id : Option String
  role : Option String
  langs : List (Option String)
  title : Option String := none

/-- resource/brel_footnote.py: the data of a footnote. -/
structure Footnote where
  content : List Char
  id : String
  lang : String
  role : String
  title : Option String
  deriving DecidableEq, Repr

/-- xhtml_parse_footnote_network.py 49, 59 -/
def defaultFootnoteRole : String := "http://www.xbrl.org/2003/role/footnote"

/-- xhtml_parse_footnote_network.py 29-77 (`parse_footnote`): the footnote (if the element has an id), the errors and the ids seen. -/
def parseFootnote (validUri : String → Bool) (f : FootnoteElem) (chain : List Elem) (taken : List String) :
    Except PyErr (Option Footnote × ErrNames × List String) :=
  match truthy f.id with
  | none => .ok (none, ["IXBRL_FOOTNOTE_WITHOUT_ID"], taken)
  | some i =>
    let dup : ErrNames := if i ∈ taken then ["IXBRL_DUPLICATE_ELEMENT_ID"] else []
    let (role, roleErr) : String × ErrNames := match f.role with
      | none => (defaultFootnoteRole, [])
      | some r => if validUri r then (r, []) else (defaultFootnoteRole, ["IXBRL_INVALID_FOOTNOTE_ROLE"])
    let (lang, langErr) : String × ErrNames := match truthy (elemLang f.langs) with
      | some l => (l, [])
      | none => ("en", ["IXBRL_FOOTNOTE_WITHOUT_LANGUAGE"])
    do
      let content ← relevantContent (f.elem :: chain)
      .ok (some ⟨serial content, i, lang, role, f.title⟩, dup ++ roleErr ++ langErr, appendNew taken i)

/-- State of the loop of parse_footnotes: the footnotes by id, the errors, the ids seen. -/
abbrev FootnoteState := Dict String Footnote × ErrNames × List String

/-- xhtml_parse_footnote_network.py 88-96: one round. -/
def footnoteStep (validUri : String → Bool) (s : FootnoteState) (f : FootnoteElem × List Elem) : Except PyErr FootnoteState :=
  (parseFootnote validUri f.1 f.2 s.2.2).map (fun r =>
    (match r.1 with
      | some n => Dict.set s.1 n.id n
      | none => s.1, s.2.1 ++ r.2.1, r.2.2))

/-- xhtml_parse_footnote_network.py 80-98 (`parse_footnotes`); each element comes with its continuation chain. -/
def parseFootnotes (validUri : String → Bool) (fs : List (FootnoteElem × List Elem)) (taken : List String) : Except PyErr FootnoteState :=
  fs.foldlM (footnoteStep validUri) ([], [], taken)

/-! ## Relationships -/

/-- The attributes of an `ix:relationship` element. The lists of ids are given as split at white space (`[]` for a missing, empty or
blank attribute); `fromMissing` and `toMissing` say whether the attribute was missing or empty. -/
structure RelElem where
  fromRefs : List String
  toRefs : List String
  fromMissing : Bool := fromRefs.isEmpty
  toMissing : Bool := toRefs.isEmpty
  arcRole : Option String := none
  linkRole : Option String := none
  order : NumAttr := .absent
  deriving DecidableEq, Repr

/-- A parsed relationship: the tuple of line 245. The sets of ids are lists without repetition in an unspecified order. -/
structure Rel where
  froms : List String
  tos : List String
  arcRole : String
  linkRole : String
  order : Rat
  deriving DecidableEq, Repr

/-- xhtml_parse_footnote_network.py 101-122 (`parse_relationship_from_and_to_refs`) -/
def parseRefs (so : SetOrder) (r : RelElem) : (List String × List String) × ErrNames :=
  ((so.strings (r.fromRefs.foldl appendNew []), so.strings (r.toRefs.foldl appendNew [])),
   (if r.fromMissing then ["IXBRL_RELATIONSHIP_WITHOUT_FROMREFS"] else []) ++ (if r.toMissing then ["IXBRL_RELATIONSHIP_WITHOUT_TOREFS"] else []))

/-- xhtml_parse_footnote_network.py 125-173 (`validate_relationship_from_and_to_refs`) -/
def validateRefs (footnotes : Dict String Footnote) (facts : FactStore) (froms tos : List String) : ErrNames :=
  (if froms.any (fun i => decide (i ∈ tos)) then ["IXBRL_RELATIONSHIP_REPEATED_ID"] else []) ++
  (if froms.any (fun i => (facts.getByIdOptional i).isNone) then ["IXBRL_RELATIONSHIP_INVALID_FACT_ID_IN_FROMREFS"] else []) ++
  (if tos.any (fun i => (facts.getByIdOptional i).isNone && !footnotes.has i) then ["IXBRL_RELATIONSHIP_INVALID_FACT_OR_FOOTNOTE_ID_IN_TOREFS"] else []) ++
  (if tos.any (fun i => footnotes.has i) && !tos.all (fun i => footnotes.has i) then ["IXBRL_RELATIONSHIP_MIXED_FACT_AND_FOOTNOTES_IN_TOREFS"] else [])

/-- xhtml_parse_footnote_network.py 181, 190 -/
def defaultArcRole : String := "http://www.xbrl.org/2003/arcrole/fact-footnote"
/-- xhtml_parse_footnote_network.py 194, 202 -/
def defaultLinkRole : String := "http://www.xbrl.org/2003/role/link"

/-- xhtml_parse_footnote_network.py 179-190, 192-202: a role attribute with its default. -/
def roleOr (validUri : String → Bool) (dflt err : String) (a : Option String) : String × ErrNames :=
  match truthy a with
  | none => (dflt, [])
  | some r => if validUri r then (r, []) else (dflt, [err])

/-- xhtml_parse_footnote_network.py 176-219 (`parse_relationship_attributes`): arc role, link role, order. When there is no order, or
an unreadable one, `order` is not bound in line 216. -/
def parseRelAttrs (validUri : String → Bool) (r : RelElem) : Except PyErr ((String × String × Rat) × ErrNames) :=
  let a := roleOr validUri defaultArcRole "IXBRL_RELATIONSHIP_INVALID_ARCROLE" r.arcRole
  let l := roleOr validUri defaultLinkRole "IXBRL_RELATIONSHIP_INVALID_LINKROLE" r.linkRole
  match r.order with
  | .num q => .ok ((a.1, l.1, if q = 0 then 1 else q), a.2 ++ l.2)
  | _ => .error .unboundLocalError

/-- xhtml_parse_footnote_network.py 222-245 (`parse_relationship`) -/
def parseRel (validUri : String → Bool) (so : SetOrder) (footnotes : Dict String Footnote) (facts : FactStore) (r : RelElem) : Except PyErr (Rel × ErrNames) :=
  let p := parseRefs so r
  let v := validateRefs footnotes facts p.1.1 p.1.2
  (parseRelAttrs validUri r).map (fun a => (⟨p.1.1, p.1.2, a.1.1, a.1.2.1, a.1.2.2⟩, p.2 ++ v ++ a.2))

/-- What a node of a footnote network points to: a fact or a footnote, with its id. -/
inductive FootTarget where
  | fact (id : String)
  | footnote (id : String)
  deriving DecidableEq, Repr

/-- networks/footnote_network_node.py 28-44. There is one node per id, so a node is named by its id. -/
structure FootNode where
  target : FootTarget
  arcRole : String
  linkRole : String
  order : Rat
  children : List String := []
  deriving DecidableEq, Repr

/-- The dictionary `id_to_node`. -/
abbrev FootNodes := Dict String FootNode

/-- xhtml_parse_footnote_network.py 267-277: the node for one origin of an arc. -/
def fromStep (facts : FactStore) (roots : List String) (a : Rel) (m : FootNodes) (i : String) : Except PyErr FootNodes :=
  if Dict.has m i = false ∧ i ∈ roots then (facts.getById i).map (fun _ => Dict.set m i ⟨.fact i, a.arcRole, a.linkRole, 1, []⟩) else .ok m

/-- xhtml_parse_footnote_network.py 281-289: the object an arc leads to; `none` when it is skipped. `not to_object` calls the truth value
of the fact. -/
def toTarget (footnotes : Dict String Footnote) (facts : FactStore) (i : String) : Except PyErr (Option FootTarget) :=
  if footnotes.has i then .ok (some (.footnote i))
  else do
    let f ← facts.getById i
    let b ← f.toBool
    .ok (if b then some (.fact i) else none)

/-- xhtml_parse_footnote_network.py 279-299: the node for one end of an arc. -/
def toStep (footnotes : Dict String Footnote) (facts : FactStore) (a : Rel) (m : FootNodes) (i : String) : Except PyErr FootNodes :=
  if Dict.has m i = false then (toTarget footnotes facts i).map (fun t =>
    match t with
    | some t => Dict.set m i ⟨t, a.arcRole, a.linkRole, a.order, []⟩
    | none => m)
  else .ok m

/-- xhtml_parse_footnote_network.py 266-299: one arc. -/
def arcStep (footnotes : Dict String Footnote) (facts : FactStore) (roots : List String) (m : FootNodes) (a : Rel) : Except PyErr FootNodes := do
  let m ← a.froms.foldlM (fromStep facts roots a) m
  a.tos.foldlM (toStep footnotes facts a) m

/-- xhtml_parse_footnote_network.py 253-262: the ids that are not the end of an arc. -/
def rootIds (so : SetOrder) (arcs : List Rel) : List String :=
  let all := (arcs.flatMap (fun a => a.froms ++ a.tos)).foldl appendNew []
  let internal := arcs.flatMap (·.tos)
  so.strings (all.filter (fun i => decide (i ∉ internal)))

/-- xhtml_parse_footnote_network.py 248-303 (`create_footnote_network_nodes`): the nodes; the root nodes are those of `rootIds`, the
lookup in line 301 raises `KeyError` for an id without a node. -/
def createFootNodes (so : SetOrder) (footnotes : Dict String Footnote) (facts : FactStore) (arcs : List Rel) : Except PyErr (FootNodes × List String) := do
  let roots := rootIds so arcs
  let m ← arcs.foldlM (arcStep footnotes facts roots) []
  if roots.all (fun i => Dict.has m i) then .ok (m, roots) else .error .keyError

/-- footnote_network_node.py 101-109: the order of a node, for the comparison in the sort. -/
def footOrderLe (m : FootNodes) (a b : String) : Bool := decide (((m.get? a).map (·.order)).getD 0 ≤ ((m.get? b).map (·.order)).getD 0)

/-- xhtml_parse_footnote_network.py 312-314 with footnote_network_node.py 101-109 (`_add_child`) -/
def footAddChild (m : FootNodes) (p : String × String) : Except PyErr FootNodes :=
  match m.get? p.1, m.get? p.2 with
  | some n, some _ => .ok (Dict.set m p.1 { n with children := sortBy (footOrderLe m) (n.children ++ [p.2]) })
  | _, _ => .error .keyError

/-- `itertools.product(from_ids, to_ids)` -/
def relPairs (a : Rel) : List (String × String) := a.froms.flatMap (fun f => a.tos.map (fun t => (f, t)))

/-- xhtml_parse_footnote_network.py 306-314 (`connect_footnote_network_nodes`) -/
def connectFootNodes (m : FootNodes) (arcs : List Rel) : Except PyErr FootNodes := (arcs.flatMap relPairs).foldlM footAddChild m

/-- networks/footnote_network.py, networks/i_network.py: a footnote network, with its nodes. -/
structure FootNetwork where
  roots : List String
  linkRole : String
  nodes : FootNodes
  deriving DecidableEq, Repr

/-- xhtml_parse_footnote_network.py 317-328 (`build_footnote_network`) -/
def buildFootNetwork (so : SetOrder) (footnotes : Dict String Footnote) (facts : FactStore) (linkRole : String) (arcs : List Rel) : Except PyErr FootNetwork := do
  let r ← createFootNodes so footnotes facts arcs
  let m ← connectFootNodes r.1 arcs
  .ok ⟨r.2, linkRole, m⟩

/-- xhtml_parse_footnote_network.py 341-343: the `defaultdict(list)` keyed by link role and arc role. -/
def groupRels (arcs : List Rel) : Dict (String × String) (List Rel) :=
  arcs.foldl (fun (d : Dict (String × String) (List Rel)) a => d.set (a.linkRole, a.arcRole) ((d.get? (a.linkRole, a.arcRole)).getD [] ++ [a])) []

/-- xhtml_parse_footnote_network.py 331-350 (`build_footnote_networks`): line 346 takes the second component of the key for the link role. -/
def buildFootNetworks (so : SetOrder) (footnotes : Dict String Footnote) (facts : FactStore) (arcs : List Rel) : Except PyErr (List FootNetwork) :=
  (groupRels arcs).mapM (fun g => buildFootNetwork so footnotes facts g.1.2 g.2)

/-- xhtml_parse_footnote_network.py 353-370 (`parse_relationships`) -/
def parseRels (validUri : String → Bool) (so : SetOrder) (footnotes : Dict String Footnote) (facts : FactStore) (rs : List RelElem) : Except PyErr (List FootNetwork × ErrNames) := do
  let ps ← rs.mapM (parseRel validUri so footnotes facts)
  let nets ← buildFootNetworks so footnotes facts (ps.map (·.1))
  .ok (nets, ps.flatMap (·.2))

end Brel
