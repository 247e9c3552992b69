import Verif.Model.Xml
import Verif.Model.Repos
import Verif.Model.FactValue

/-!
Model of `brel/parsers/XML/table_linkbase/xml_table_linkbase_parser.py`, `brel/parsers/XML/formula/xml_aspect_formula_parser.py` and the classes of `brel/table_linkbases/`.

Breakdowns and definition nodes are kept under their labels and refer to each other by labels: arcs are read after all resources, so an object that lost its label to a later
one can no longer be reached. `dig` is the table of decimal digits of `int`. The functions that check something and do nothing (`assert_is_xlink_type`,
`assert_xlink_arcrole`, the tests followed by `pass`) are left out.
-/

namespace Brel

/-- Lines 45-49 of xml_table_linkbase_parser.py -/
def xlinkName (n : String) : String := "{http://www.w3.org/1999/xlink}" ++ n
def tableName (n : String) : String := "{http://xbrl.org/2014/table}" ++ n
def formulaName (n : String) : String := "{http://xbrl.org/2008/formula}" ++ n

/-! ## Rules of rule nodes -/

/-- `QName | XPathExpression` -/
inductive NameOrExpr where
  | name (q : QName)
  | expr (s : String)
  deriving DecidableEq, Repr

/-- The classes of brel/formula/aspects/. -/
inductive AspectRule where
  | concept (q : NameOrExpr)
  | entity (scheme value : Option String)
  | forever
  | instant (value : Option String)
  | duration (start stop : Option String)
  | explicit (dimension : QName) (member : Option NameOrExpr)
  deriving DecidableEq, Repr

/-- xml_aspect_formula_parser.py 23-40 (`parse_concept_formula_element`) -/
def parseConceptRule : List XNode → Except PyErr (Option AspectRule)
  | [] => .ok none
  | c :: cs =>
    if c.tag = some (formulaName "qname") then do
      let q ← qnameFromStr (c.text.getD "") c.ns
      return some (.concept (.name q))
    else if c.tag = some (formulaName "qnameExpression") then .ok (some (.concept (.expr (c.text.getD ""))))
    else parseConceptRule cs

/-- xml_aspect_formula_parser.py 43-57 (`parse_entity_identifier_formula_element`) -/
def parseEntityRule (x : XNode) : Option AspectRule :=
  if x.attr? "scheme" = none ∧ x.attr? "value" = none then none else some (.entity (x.attr? "scheme") (x.attr? "value"))

/-- xml_aspect_formula_parser.py 60-89 (`parse_period_formula_element`) -/
def parsePeriodRule (x : XNode) : Option AspectRule :=
  match x.children with
  | [c] =>
    if c.tag = some (formulaName "forever") then some .forever
    else if c.tag = some (formulaName "instant") then some (.instant (c.attr? "value"))
    else if c.tag = some (formulaName "duration") then some (.duration (c.attr? "start") (c.attr? "end"))
    else none
  | _ => none

/-- xml_aspect_formula_parser.py 92-124 (`parse_explicit_dimension_formula_element`) -/
def parseExplicitRule (x : XNode) : Except PyErr (Option AspectRule) :=
  match x.attr? "dimension" with
  | none => .ok none
  | some d =>
    if d = "" then .ok none
    else do
      let dim ← qnameFromStr d x.ns
      match x.children with
      | [c] =>
        if c.tag = some (formulaName "member") then
          match c.children with
          | [g] =>
            if g.tag = some (formulaName "qname") then do
              let m ← qnameFromStr (g.text.getD "") g.ns
              return some (.explicit dim (some (.name m)))
            else if g.tag = some (formulaName "qnameExpression") then return some (.explicit dim (some (.expr (g.text.getD ""))))
            else return none
          | _ => return none
        else if c.tag = some (formulaName "omit") then return some (.explicit dim none)
        else return none
      | _ => return none

/-- xml_aspect_formula_parser.py 127-142 (`parse_formula_aspect_element`) -/
def parseRule (x : XNode) : Except PyErr (Option AspectRule) :=
  if x.tag = some (formulaName "concept") then parseConceptRule x.children
  else if x.tag = some (formulaName "period") then .ok (parsePeriodRule x)
  else if x.tag = some (formulaName "explicitDimension") then parseExplicitRule x
  else if x.tag = some (formulaName "entityIdentifier") then .ok (parseEntityRule x)
  else .ok none

/-! ## Resources -/

/-- parent_child_order.py -/
inductive PCOrder where
  | parentFirst | childrenFirst | unspecified
  deriving DecidableEq, Repr

/-- xml_table_linkbase_parser.py 84-93 (`parse_parent_child_order`): `ParentChildOrder(…)` raises `ValueError` for another text. -/
def parseOrder (x : XNode) : Except PyErr PCOrder :=
  let s := (x.attr? "parentChildOrder").getD ""
  if s = "parent-first" then .ok .parentFirst
  else if s = "children-first" then .ok .childrenFirst
  else if s = "" then .ok .unspecified
  else .error .valueError

/-- rule_set.py -/
structure RuleSet where
  tag : Option String := none
  rules : List AspectRule := []
  deriving DecidableEq, Repr

/-- Lines 154-157, 172-175: the rules of a list of elements. -/
def parseRules (xs : List XNode) : Except PyErr (List AspectRule) :=
  xs.foldlM (fun rs x => do
    let r ← parseRule x
    return rs ++ r.toList) []

/-- Lines 145-159 (`parse_rule_set_element`) -/
def parseRuleSet (x : XNode) : Except PyErr (Option RuleSet) :=
  match x.attr? "tag" with
  | none => .ok none
  | some t =>
    if t = "" then .ok none
    else do
      let rs ← parseRules x.children
      return some { tag := some t, rules := rs }

/-- Lines 162-181 (`parse_rule_sets_for_rule_node_element`) -/
def parseRuleSets (x : XNode) : Except PyErr (List RuleSet) := do
  let (default, sets) ← x.children.foldlM (fun (st : List AspectRule × List RuleSet) c => do
    if c.tag = some (tableName "ruleSet") then
      let s ← parseRuleSet c
      return (st.1, st.2 ++ s.toList)
    else
      let r ← parseRule c
      return (st.1 ++ r.toList, st.2)) ([], [])
  if default = [] then return (if sets = [] then [{}] else sets)
  else return sets ++ [{ rules := default }]

/-- What distinguishes the classes of definition_nodes/. -/
inductive DefKind where
  | rule (isAbstract isMerge : Bool) (sets : Dict (Option String) RuleSet)
  | dimension (sources : List QName) (linkrole : String) (generations : Int) (dimension : QName)
  | aspect (aspect : Aspect) (unreported : Bool)
  deriving DecidableEq, Repr

/-- definition_node.py with the subclasses: `order` is `none` for open nodes, which have no parent-child order. -/
structure DefNode where
  kind : DefKind
  order : Option PCOrder
  tagSelector : Option String := none
  id : Option String := none
  label : Option String := none
  arcOrder : Int := 1
  children : List (String × Int) := []
  deriving DecidableEq, Repr

/-- breakdown.py -/
structure Breakdown where
  order : PCOrder
  id : Option String := none
  label : Option String := none
  axis : String := "x"
  roots : List (String × Int) := []
  deriving DecidableEq, Repr

/-- filter.py; the conditions of filters are left out. -/
structure TableFilter where
  label : Option String := none
  id : Option String := none
  complement : Bool := false
  deriving DecidableEq, Repr

/-- table.py: breakdowns for each axis. -/
structure TableDef where
  linkrole : String
  order : PCOrder
  id : Option String := none
  label : Option String := none
  filters : List TableFilter := []
  xs : List (String × Int) := []
  ys : List (String × Int) := []
  zs : List (String × Int) := []
  deriving DecidableEq, Repr

/-- What the parsers look up: the report elements, which dimensions are explicit, the aspects, and the parser of filters (xml_filter_parser.py 264-291). -/
structure TableEnv where
  elements : ElemStore
  isExplicit : ReportElement → Bool
  aspects : AspectStore
  parseFilter : XNode → Except PyErr (Option TableFilter)

/-- Lines 119-128 (`parse_table_element`) -/
def parseTable (linkrole : String) (x : XNode) : Except PyErr TableDef := do
  let o ← parseOrder x
  return { linkrole := linkrole, order := o, id := x.attr? "id", label := x.attr? (xlinkName "label") }

/-- Lines 131-138 (`parse_breakdown_element`) -/
def parseBreakdown (x : XNode) : Except PyErr Breakdown := do
  let o ← parseOrder x
  return { order := o, id := x.attr? "id", label := x.attr? (xlinkName "label") }

/-- Lines 184-206 (`parse_rule_node_element`) -/
def parseRuleNode (x : XNode) : Except PyErr DefNode := do
  let o ← parseOrder x
  let sets ← parseRuleSets x
  let byTag : Dict (Option String) RuleSet := sets.foldl (fun (d : Dict (Option String) RuleSet) s => d.set s.tag s) []
  return { kind := .rule ((x.attr? "abstract").getD "false" = "true") ((x.attr? "merge").getD "false" = "true") byTag, order := some o
           tagSelector := x.attr? "tagSelector", id := x.attr? "id", label := x.attr? (xlinkName "label") }

/-- The values collected in lines 214-217. The axis never changes, see `relationshipChild`. -/
structure RelState where
  sources : List QName := []
  linkrole : String := "http://www.xbrl.org/2003/role/link"
  generations : Int := 0
  deriving DecidableEq, Repr

/-- Lines 225-258: one child; `none` is `return None`. In line 243 an enumeration value is looked up in a list of texts, which it never is in. -/
def relationshipChild (dig : Char → Option Nat) (env : TableEnv) (s : RelState) (c : XNode) : Except PyErr (Option RelState) :=
  if c.tag = some (tableName "relationshipSource") then do
    let q ← qnameFromStr (c.text.getD "") c.ns
    if env.elements.hasTypedQName q .concept then return some { s with sources := s.sources ++ [q] } else return none
  else if c.tag = some (tableName "linkrole") then .ok (some { s with linkrole := c.text.getD "" })
  else if c.tag = some (tableName "formulaAxis") then .ok none
  else if c.tag = some (tableName "generations") then
    match pyInt dig (c.text.getD "").toList with
    | some n => .ok (some { s with generations := if n > 0 then n else 0 })
    | none => .ok (some { s with generations := 0 })
  else .ok (some s)

/-- Lines 225-258 -/
def relationshipChildren (dig : Char → Option Nat) (env : TableEnv) : List XNode → RelState → Except PyErr (Option RelState)
  | [], s => .ok (some s)
  | c :: cs, s => do
    match ← relationshipChild dig env s c with
    | none => return none
    | some s => relationshipChildren dig env cs s

/-- Lines 355-379: the dimension; `some none` if there is none, `none` is `return None`. -/
def relationshipDimension (env : TableEnv) : List XNode → Option QName → Except PyErr (Option (Option QName))
  | [], d => .ok (some d)
  | c :: cs, d =>
    if c.tag = some (tableName "dimension") then do
      let q ← qnameFromStr (c.text.getD "") c.ns
      if env.elements.hasTypedQName q .dimension then
        let e ← env.elements.getTypedByQName q .dimension
        if env.isExplicit e then relationshipDimension env cs (some e.name) else return none
      else return none
    else relationshipDimension env cs d

/-- Lines 209-288 for dimensions and lines 338-387 (`parse_dimension_relationship_node_element`). The axis is `descendant-or-self`, so line 260 never applies. -/
def parseDimensionNode (dig : Char → Option Nat) (env : TableEnv) (x : XNode) : Except PyErr (Option DefNode) := do
  let o ← parseOrder x
  match ← relationshipChildren dig env x.children {} with
  | none => return none
  | some s =>
    match ← relationshipDimension env x.children none with
    | some (some d) =>
      return some { kind := .dimension s.sources s.linkrole s.generations d, order := some o, tagSelector := x.attr? "tagSelector", id := x.attr? "id", label := x.attr? (xlinkName "label") }
    | _ => return none

/-- The aspects of brel_aspect.py 170-173; their labels are left out. -/
def coreAspect (n : String) : Aspect := { name := n, core := true }

/-- Lines 400-419: the aspect of an aspect node; `none` is `return None`. -/
def aspectChildren (env : TableEnv) : List XNode → Option Aspect × Bool → Except PyErr (Option (Option Aspect × Bool))
  | [], s => .ok (some s)
  | c :: cs, s =>
    if c.tag = some (tableName "conceptAspect") then aspectChildren env cs (some (coreAspect "concept"), s.2)
    else if c.tag = some (tableName "entityIdentifierAspect") then aspectChildren env cs (some (coreAspect "entity"), s.2)
    else if c.tag = some (tableName "periodAspect") then aspectChildren env cs (some (coreAspect "period"), s.2)
    else if c.tag = some (tableName "unitAspect") then aspectChildren env cs (some (coreAspect "unit"), s.2)
    else if c.tag = some (tableName "dimensionAspect") then do
      let q ← qnameFromStr (c.text.getD "") c.ns
      match env.aspects.get? q.prefixLocal with
      | none => return none
      | some a => aspectChildren env cs (some a, (c.attr? "includeUnreportedValue").getD "false" = "true")
    else aspectChildren env cs s

/-- Lines 390-425 (`parse_aspect_node_element`) -/
def parseAspectNode (env : TableEnv) (x : XNode) : Except PyErr (Option DefNode) := do
  match ← aspectChildren env x.children (none, false) with
  | some (some a, u) => return some { kind := .aspect a u, order := none, id := x.attr? "id", label := x.attr? (xlinkName "label") }
  | _ => return none

/-! ## A link -/

/-- The dictionaries of lines 696-699. -/
structure TableModel where
  tables : Dict String TableDef := []
  breakdowns : Dict String Breakdown := []
  nodes : Dict String DefNode := []
  filters : Dict String TableFilter := []

/-- Lines 680-694 (`add_unique_to_dict`) -/
def addUnique {α : Type} (label : Option String) (e : α) (d : Dict String α) : Dict String α :=
  match label with
  | none => d
  | some l => if l = "" then d else d.set l e

def TableModel.addNode (m : TableModel) : Option DefNode → TableModel
  | none => m
  | some n => { m with nodes := addUnique n.label n m.nodes }

/-- Lines 702-746: one resource. A comment has a function as tag, which has no `startswith`. Relationship nodes for concepts are read as those for dimensions. -/
def addResource (dig : Char → Option Nat) (env : TableEnv) (linkrole : String) (m : TableModel) (x : XNode) : Except PyErr TableModel :=
  if x.tag = some (tableName "table") then do
    let t ← parseTable linkrole x
    return { m with tables := addUnique t.label t m.tables }
  else if x.tag = some (tableName "breakdown") then do
    let b ← parseBreakdown x
    return { m with breakdowns := addUnique b.label b m.breakdowns }
  else if x.tag = some (tableName "ruleNode") then do
    let n ← parseRuleNode x
    return m.addNode (some n)
  else if x.tag = some (tableName "conceptRelationshipNode") then do
    let n ← parseDimensionNode dig env x
    return m.addNode n
  else if x.tag = some (tableName "dimensionRelationshipNode") then do
    let n ← parseDimensionNode dig env x
    return m.addNode n
  else if x.tag = some (tableName "aspectNode") then do
    let n ← parseAspectNode env x
    return m.addNode n
  else
    match x.tag with
    | none => .error .attributeError
    | some t =>
      if startsWith t.toList "http://xbrl.org/2008/filter".toList then do
        match ← env.parseFilter x with
        | none => return m
        | some f => return { m with filters := addUnique f.label f m.filters }
      else .ok m

/-- Lines 437-450 and the like: the labels at the ends of an arc, if both are there. -/
def arcEnds (x : XNode) : Option (String × String) :=
  match x.attr? (xlinkName "from"), x.attr? (xlinkName "to") with
  | some f, some t => if f = "" ∨ t = "" then none else some (f, t)
  | _, _ => none

/-- `int(get_str_attribute(…, "order", "1.0"))`, lines 460, 473 and the like: a `ValueError` unless the text is an integer, which the default is not. -/
def arcOrder (dig : Char → Option Nat) (x : XNode) : Except PyErr Int :=
  match pyInt dig ((x.attr? "order").getD "1.0").toList with
  | some n => .ok n
  | none => .error .valueError

/-- table.py 40-42 (`add_breakdown`) -/
def TableDef.add (t : TableDef) (axis : String) (e : String × Int) : TableDef :=
  if axis = "x" then { t with xs := t.xs ++ [e] }
  else if axis = "y" then { t with ys := t.ys ++ [e] }
  else { t with zs := t.zs ++ [e] }

/-- Lines 428-473 (`parse_table_breakdown_arc`) -/
def tableArc (dig : Char → Option Nat) (m : TableModel) (x : XNode) : Except PyErr TableModel :=
  match arcEnds x with
  | none => .ok m
  | some (f, t) =>
    match m.tables.get? f, m.breakdowns.get? t with
    | some tab, some b =>
      let axis := (x.attr? "axis").getD ""
      if axis ∈ ["x", "y", "z"] then do
        let o ← arcOrder dig x
        return { m with tables := m.tables.set f (tab.add axis (t, o)), breakdowns := m.breakdowns.set t { b with axis := axis } }
      else .error .valueError
    | _, _ => .ok m

/-- Lines 476-518 (`parse_breakdown_tree_arc`) -/
def rootArc (dig : Char → Option Nat) (m : TableModel) (x : XNode) : Except PyErr TableModel :=
  match arcEnds x with
  | none => .ok m
  | some (f, t) =>
    match m.breakdowns.get? f, m.nodes.get? t with
    | some b, some n => do
      let o ← arcOrder dig x
      return { m with breakdowns := m.breakdowns.set f { b with roots := b.roots ++ [(t, o)] }, nodes := m.nodes.set t { n with arcOrder := o } }
    | _, _ => .ok m

/-- `isinstance(node, RelationshipNode)` -/
def DefNode.isRelationship (n : DefNode) : Bool :=
  match n.kind with
  | .dimension .. => true
  | _ => false

/-- Lines 521-566 (`parse_definition_node_subtree_arc`) -/
def subtreeArc (dig : Char → Option Nat) (m : TableModel) (x : XNode) : Except PyErr TableModel :=
  match arcEnds x with
  | none => .ok m
  | some (f, t) =>
    match m.nodes.get? f, m.nodes.get? t with
    | some n, some _ =>
      if n.isRelationship then .ok m
      else do
        let o ← arcOrder dig x
        return { m with nodes := m.nodes.set f { n with children := n.children ++ [(t, o)] } }
    | _, _ => .ok m

/-- Lines 569-609 (`parse_table_filter_arc`) -/
def filterArc (m : TableModel) (x : XNode) : TableModel :=
  match arcEnds x with
  | none => m
  | some (f, t) =>
    match m.tables.get? f, m.filters.get? t with
    | some tab, some fl => { m with tables := m.tables.set f { tab with filters := tab.filters ++ [{ fl with complement := (x.attr? "complement").getD "false" = "true" }] } }
    | _, _ => m

/-- Lines 748-761: one arc. Filters of aspect nodes are not modelled, nodes have no filters here. -/
def addArc (dig : Char → Option Nat) (m : TableModel) (x : XNode) : Except PyErr TableModel :=
  if x.tag = some (tableName "tableBreakdownArc") then tableArc dig m x
  else if x.tag = some (tableName "breakdownTreeArc") then rootArc dig m x
  else if x.tag = some (tableName "definitionNodeSubtreeArc") then subtreeArc dig m x
  else if x.tag = some (tableName "tableFilterArc") then .ok (filterArc m x)
  else .ok m

/-! ## Parent-child order -/

/-- closed_definition_node.py 18-25 and definition_node.py 26-28 (`propagate_parent_child_order`); the first argument is the number of calls Python allows. -/
def propagateNode : Nat → Dict String DefNode → String → PCOrder → Except PyErr (Dict String DefNode)
  | 0, _, _, _ => .error .recursionError
  | k + 1, ns, l, o =>
    match ns.get? l with
    | none => .ok ns
    | some n =>
      let mine := if n.order = some .unspecified then some o else n.order
      n.children.foldlM (fun ns c => propagateNode k ns c.1 (mine.getD o)) (ns.set l { n with order := mine })

/-- breakdown.py 31-36 -/
def propagateBreakdown (k : Nat) (m : TableModel) (l : String) (o : PCOrder) : Except PyErr TableModel :=
  match m.breakdowns.get? l with
  | none => .ok m
  | some b => do
    let mine := if b.order = .unspecified then o else b.order
    let ns ← b.roots.foldlM (fun ns c => propagateNode k ns c.1 mine) m.nodes
    return { m with breakdowns := m.breakdowns.set l { b with order := mine }, nodes := ns }

/-- table.py 44-50: the axes in the order of line 30-34. -/
def propagateTable (k : Nat) (m : TableModel) (l : String) : Except PyErr TableModel :=
  match m.tables.get? l with
  | none => .ok m
  | some t =>
    let mine := if t.order = .unspecified then .parentFirst else t.order
    (t.xs ++ t.ys ++ t.zs).foldlM (fun m c => propagateBreakdown k m c.1 mine) { m with tables := m.tables.set l { t with order := mine } }

/-- Lines 666-761: the resources and arcs of a link. -/
def readTableLinkbase (dig : Char → Option Nat) (env : TableEnv) (x : XNode) : Except PyErr TableModel := do
  let linkrole := (x.attr? (xlinkName "role")).getD ""
  let m ← x.children.foldlM (addResource dig env linkrole) {}
  x.children.foldlM (addArc dig) m

/-- Lines 763-767 -/
def propagateAll (k : Nat) (m : TableModel) : Except PyErr TableModel := m.tables.keys.foldlM (propagateTable k) m

/-- Lines 656-772 (`parse_table_linkbase_element`); the tables of the result are the values of `tables`. -/
def parseTableLinkbase (dig : Char → Option Nat) (env : TableEnv) (k : Nat) (x : XNode) : Except PyErr TableModel := do
  let m ← readTableLinkbase dig env x
  propagateAll k m

/-- Lines 51-81 (`find_table_linkbase_elements`) -/
def findTableLinks (roots : List XNode) : List XNode :=
  roots.flatMap (fun r =>
    if r.tag = some "{http://xbrl.org/2003/linkbase}linkbase" then
      r.children.filter (fun c => decide (c.tag = some "{http://xbrl.org/2008/generic}link") && c.children.any (fun g => decide (g.tag = some (tableName "table"))))
    else [])

/-- Lines 775-788 (`parse_table_linkbase_from_xml`) -/
def parseTables (dig : Char → Option Nat) (env : TableEnv) (k : Nat) (roots : List XNode) : Except PyErr (TableStore TableDef) := do
  let models ← (findTableLinks roots).mapM (parseTableLinkbase dig env k)
  TableStore.run (·.linkrole) (models.flatMap (fun m => m.tables.values))

end Brel
