import Verif.Model.Tables
import Verif.Model.Numeric

/-!
Filters of table link bases: `brel/parsers/XML/formula/xml_filter_parser.py` and the classes of `brel/formula/filters/`.

Left out: the argument `context`, which no function uses, and `assert_is_xlink_type` (lines 30-35), which has no effect.
-/

namespace Brel

/-- xml_filter_parser.py 27 -/
def filterName (kind n : String) : String := "{http://xbrl.org/2014/filter/" ++ kind ++ "}" ++ n

/-- member_axis.py -/
inductive MemberAxis where
  | child | childOrSelf | descendant | descendantOrSelf | unspecified
  deriving DecidableEq, Repr

/-- `MemberAxis(text)`; `none` is the `ValueError` -/
def MemberAxis.ofText (s : String) : Option MemberAxis :=
  if s = "child" then some .child else if s = "child-or-self" then some .childOrSelf else if s = "descendant" then some .descendant
  else if s = "descendant-or-self" then some .descendantOrSelf else if s = "" then some .unspecified else none

/-- explicit_dimension_filter_member.py -/
structure FilterMember where
  member : NameOrExpr
  linkrole : Option String := none
  arcrole : Option String := none
  axis : MemberAxis := .unspecified
  deriving DecidableEq, Repr

/-- period_date_time_filter_type.py -/
inductive DateTimeKind where
  | start | finish | instant
  deriving DecidableEq, Repr

/-- The conditions: the classes of formula/filters/concept, dimension and period. -/
inductive FilterBody where
  | conceptName (names : List QName) (expressions : List String)
  | explicitDimension (dimension : NameOrExpr) (members : List FilterMember)
  | typedDimension (dimension : NameOrExpr) (test : Option String)
  | period (test : String)
  | dateTime (kind : DateTimeKind) (date : String) (time : Option String)
  | forever
  deriving DecidableEq, Repr

/-- filter.py 6-22 with the conditions of the subclasses -/
structure ParsedFilter where
  label : Option String
  id : Option String
  complement : Bool := false
  body : FilterBody
  deriving DecidableEq, Repr

/-- Lines 56-65: a child of a concept element; `none` is the `return None` of the caller. -/
def conceptFilterEntry (acc : List QName × List String) (g : XNode) : Except PyErr (Option (List QName × List String)) :=
  if g.tag = some (filterName "concept" "qname") then do
    let q ← qnameFromStr (g.text.getD "") g.ns
    return some (acc.1 ++ [q], acc.2)
  else if g.text = some (filterName "concept" "qnameExpression") then .ok (some (acc.1, acc.2 ++ [g.text.getD ""]))
  else .ok none

/-- Lines 56-65 -/
def conceptFilterEntries (acc : List QName × List String) : List XNode → Except PyErr (Option (List QName × List String))
  | [] => .ok (some acc)
  | g :: gs => do
    match ← conceptFilterEntry acc g with
    | none => return none
    | some acc => conceptFilterEntries acc gs

/-- Lines 47-65 -/
def conceptFilterChildren (acc : List QName × List String) : List XNode → Except PyErr (Option (List QName × List String))
  | [] => .ok (some acc)
  | c :: cs =>
    if c.tag ≠ some (filterName "concept" "concept") then .ok none
    else if c.children.length > 1 then .ok none
    else do
      match ← conceptFilterEntries acc c.children with
      | none => return none
      | some acc => conceptFilterChildren acc cs

/-- Lines 38-67 (`parse_concept_name_filter_element`). The labels of filters are read from `label`, not from `xlink:label`. -/
def parseConceptNameFilter (x : XNode) : Except PyErr (Option ParsedFilter) := do
  match ← conceptFilterChildren ([], []) x.children with
  | none => return none
  | some (qs, es) => return some { label := x.attr? "label", id := x.attr? "id", body := .conceptName qs es }

/-- Lines 78-82 -/
def dimensionChild (acc : Option NameOrExpr) (c : XNode) : Except PyErr (Option NameOrExpr) :=
  if c.tag = some (filterName "concept" "qname") then do
    let q ← qnameFromStr (c.text.getD "") c.ns
    return some (.name q)
  else if c.text = some (filterName "concept" "qnameExpression") then .ok (some (.expr (c.text.getD "")))
  else .ok acc

/-- Lines 70-88 (`parse_dimension_element`) -/
def parseFilterDimension (x : XNode) : Except PyErr (Option NameOrExpr) :=
  if x.children.length > 0 then .ok none else x.children.foldlM dimensionChild none

/-- What lines 99-123 collect: the member, the link role, the arc role and the axis. -/
structure MemberParts where
  member : Option NameOrExpr := none
  linkrole : Option String := none
  arcrole : Option String := none
  axis : MemberAxis := .unspecified

/-- Lines 99-123; `none` is the `return None` of line 123. -/
def memberParts (acc : MemberParts) : List XNode → Except PyErr (Option MemberParts)
  | [] => .ok (some acc)
  | c :: cs =>
    let text := c.text.getD ""
    if c.tag = some (filterName "dimension" "qname") then do
      let q ← qnameFromStr text c.ns
      memberParts { acc with member := some (.name q) } cs
    else if c.tag = some (filterName "dimension" "qnameExpression") then memberParts { acc with member := some (.expr text) } cs
    else if c.tag = some (filterName "dimension" "variable") then do
      let q ← qnameFromStr text c.ns
      memberParts { acc with member := some (.name q) } cs
    else if c.tag = some (filterName "dimension" "linkrole") then memberParts { acc with linkrole := some text } cs
    else if c.tag = some (filterName "dimension" "arcrole") then memberParts { acc with arcrole := some text } cs
    else if c.tag = some (filterName "dimension" "axis") then
      match MemberAxis.ofText text with
      | none => .ok none
      | some a => memberParts { acc with axis := a } cs
    else memberParts acc cs

/-- Lines 91-134 (`parse_member_element`) -/
def parseFilterMember (x : XNode) : Except PyErr (Option FilterMember) := do
  match ← memberParts {} x.children with
  | none => return none
  | some p =>
    match p.member with
    | none => return none
    | some m => return some { member := m, linkrole := p.linkrole, arcrole := p.arcrole, axis := p.axis }

/-- Lines 145-168; `none` is `return None`. -/
def explicitParts (acc : Option (NameOrExpr × List FilterMember)) : List XNode → Except PyErr (Option (NameOrExpr × List FilterMember))
  | [] => .ok acc
  | c :: cs =>
    if c.tag = some (filterName "dimension" "dimension") then
      if acc.isSome then .ok none
      else do
        match ← parseFilterDimension c with
        | none => return none
        | some d => explicitParts (some (d, [])) cs
    else if c.tag = some (filterName "dimension" "member") then
      match acc with
      | none => .ok none
      | some (d, ms) => do
        match ← parseFilterMember c with
        | none => explicitParts acc cs
        | some m => explicitParts (some (d, ms ++ [m])) cs
    else explicitParts acc cs

/-- Lines 137-174 (`parse_explicit_dimension_filter_element`) -/
def parseExplicitDimensionFilter (x : XNode) : Except PyErr (Option ParsedFilter) := do
  match ← explicitParts none x.children with
  | none => return none
  | some (d, ms) => return some { label := x.attr? "label", id := x.attr? "id", body := .explicitDimension d ms }

/-- Lines 177-202 (`parse_typed_dimension_filter_element`): the first dimension decides. -/
def parseTypedDimensionFilter (x : XNode) : Except PyErr (Option ParsedFilter) :=
  match x.children.find? (fun c => decide (c.tag = some (filterName "dimension" "dimension"))) with
  | none => .ok none
  | some c => do
    match ← parseFilterDimension c with
    | none => return none
    | some d => return some { label := x.attr? "label", id := x.attr? "id", body := .typedDimension d (x.attr? "test") }

/-- Lines 205-217 (`parse_period_filter_element`) -/
def parsePeriodFilter (x : XNode) : Option ParsedFilter :=
  (x.attr? "test").map (fun t => { label := x.attr? "label", id := x.attr? "id", body := .period t })

/-- Lines 220-252 (`parse_period_date_time_filter_element`) -/
def parseDateTimeFilter (kind : DateTimeKind) (x : XNode) : Option ParsedFilter :=
  (truthy (x.attr? "date")).map (fun d => { label := x.attr? "label", id := x.attr? "id", body := .dateTime kind d (x.attr? "time") })

/-- Lines 255-261 (`parse_forever_filter_element`) -/
def parseForeverFilter (x : XNode) : ParsedFilter := { label := x.attr? "label", id := x.attr? "id", body := .forever }

/-- Lines 264-291 (`parse_filter_element`) -/
def parseFilterElement (x : XNode) : Except PyErr (Option ParsedFilter) :=
  if x.tag = some (filterName "concept" "conceptName") then parseConceptNameFilter x
  else if x.tag = some (filterName "dimension" "explicitDimension") then parseExplicitDimensionFilter x
  else if x.tag = some (filterName "dimension" "typedDimension") then parseTypedDimensionFilter x
  else if x.tag = some (filterName "period" "period") then .ok (parsePeriodFilter x)
  else if x.tag = some (filterName "period" "periodStart") then .ok (parseDateTimeFilter .start x)
  else if x.tag = some (filterName "period" "periodEnd") then .ok (parseDateTimeFilter .finish x)
  else if x.tag = some (filterName "period" "periodInstant") then .ok (parseDateTimeFilter .instant x)
  else if x.tag = some (filterName "period" "forever") then .ok (some (parseForeverFilter x))
  else .ok none

/-- What the table parser keeps of a filter (`Verif.Model.Tables`). -/
def ParsedFilter.tableFilter (f : ParsedFilter) : TableFilter := { label := f.label, id := f.id, complement := f.complement }

/-- The environment of the table parser with this parser of filters. -/
def filterEnv (elements : ElemStore) (isExplicit : ReportElement → Bool) (aspects : AspectStore) : TableEnv :=
  { elements := elements, isExplicit := isExplicit, aspects := aspects, parseFilter := fun x => (parseFilterElement x).map (fun f => f.map ParsedFilter.tableFilter) }

end Brel
