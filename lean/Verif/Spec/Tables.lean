import Verif.Model.Tables

/-! What the parent-child orders of a table are (C45). -/

namespace Brel

/-- What is ordered in a table linkbase. -/
inductive TableItem where
  | table (l : String)
  | breakdown (l : String)
  | node (l : String)
  deriving DecidableEq, Repr

/-- The breakdowns of a table, whatever the axis. -/
def TableDef.breakdowns (t : TableDef) : List String := (t.xs ++ t.ys ++ t.zs).map (·.1)

/-- `Under m i p`: an arc makes `i` a child of `p`. -/
inductive Under (m : TableModel) : TableItem → TableItem → Prop where
  | breakdown {t b tab} : m.tables.get? t = some tab → b ∈ tab.breakdowns → m.breakdowns.has b = true → Under m (.breakdown b) (.table t)
  | root {b n bd} : m.breakdowns.get? b = some bd → n ∈ bd.roots.map (·.1) → m.nodes.has n = true → Under m (.node n) (.breakdown b)
  | child {p n nd} : m.nodes.get? p = some nd → n ∈ nd.children.map (·.1) → m.nodes.has n = true → Under m (.node n) (.node p)

/-- The parent-child order an item has; open nodes have none. -/
def TableModel.orderOf (m : TableModel) : TableItem → Option PCOrder
  | .table l => (m.tables.get? l).map (·.order)
  | .breakdown l => (m.breakdowns.get? l).map (·.order)
  | .node l => (m.nodes.get? l).bind (·.order)

/-- The order an item states itself. -/
def TableModel.stated (m : TableModel) (i : TableItem) : Option PCOrder :=
  match m.orderOf i with
  | some .parentFirst => some .parentFirst
  | some .childrenFirst => some .childrenFirst
  | _ => none

/-- The order of an item: what it states, otherwise what the item above has; parent-first at the top. -/
inductive Inherits (m : TableModel) : TableItem → PCOrder → Prop where
  | own {i o} : m.stated i = some o → Inherits m i o
  | top {t} : m.stated (.table t) = none → Inherits m (.table t) .parentFirst
  | above {i p o} : Under m i p → m.stated i = none → Inherits m p o → Inherits m i o

/-- The items of a tree. -/
inductive WithinTable (m : TableModel) : TableItem → TableItem → Prop where
  | refl {i} : WithinTable m i i
  | under {p c i} : Under m c p → WithinTable m c i → WithinTable m p i

/-- The items that belong to some table. -/
def InTable (m : TableModel) (i : TableItem) : Prop := ∃ t tab, m.tables.get? t = some tab ∧ WithinTable m (.table t) i

/-- The models differ in nothing but parent-child orders. -/
structure SameTables (m m' : TableModel) : Prop where
  tables : ∀ l, (m'.tables.get? l).map (fun t => { t with order := .unspecified }) = (m.tables.get? l).map (fun t => { t with order := .unspecified })
  breakdowns : ∀ l, (m'.breakdowns.get? l).map (fun t => { t with order := .unspecified }) = (m.breakdowns.get? l).map (fun t => { t with order := .unspecified })
  nodes : ∀ l, (m'.nodes.get? l).map (fun t => { t with order := none }) = (m.nodes.get? l).map (fun t => { t with order := none })
  labels : m'.tables.keys = m.tables.keys

/-! ## What a link says (C91) -/

/-- The name of an element of the table linkbase. -/
def inTableNs (n : String) : String := "{http://xbrl.org/2014/table}" ++ n

/-- The label of a resource; an empty label is none. -/
def resourceLabel (e : XNode) : Option String :=
  match e.attr? "{http://www.w3.org/1999/xlink}label" with
  | some l => if l = "" then none else some l
  | none => none

/-- The resources of a link with this name, with their labels, in document order. -/
def labelled (n : String) (cs : List XNode) : List (String × XNode) :=
  cs.filterMap (fun e => if e.tag = some (inTableNs n) then (resourceLabel e).map (·, e) else none)

/-- The labels an arc with this name connects. -/
def edge (n : String) (e : XNode) : Option (String × String) :=
  if e.tag = some (inTableNs n) then
    match e.attr? "{http://www.w3.org/1999/xlink}from", e.attr? "{http://www.w3.org/1999/xlink}to" with
    | some f, some t => if f = "" ∨ t = "" then none else some (f, t)
    | _, _ => none
  else none

/-- What the arcs of a link with this name lead to from `l`, with their orders, in document order. Only arcs and targets that satisfy `good` count. -/
def edgesFrom (dig : Char → Option Nat) (n : String) (good : XNode → String → Bool) (cs : List XNode) (l : String) : List (String × Int) :=
  cs.filterMap (fun e =>
    match edge n e with
    | some (f, t) => if f = l ∧ good e t = true then ((e.attr? "order").bind (fun o => pyInt dig o.toList)).map (t, ·) else none
    | none => none)

/-- The last value of an attribute on the arcs with this name that lead to `l` from something that satisfies `good`. -/
def lastTo (n : String) (a : String) (good : String → Bool) (cs : List XNode) (l : String) : Option String :=
  (cs.filterMap (fun e =>
    match edge n e with
    | some (f, t) => if t = l ∧ good f = true then e.attr? a else none
    | none => none)).getLast?

/-- The order a resource states in its attribute `parentChildOrder`. -/
def StatesOrder (e : XNode) (o : PCOrder) : Prop :=
  match e.attr? "parentChildOrder" with
  | some "parent-first" => o = .parentFirst
  | some "children-first" => o = .childrenFirst
  | some "" => o = .unspecified
  | some _ => False
  | none => o = .unspecified

/-- Whether a resource with this name has the label. -/
def isLabel (n : String) (cs : List XNode) (l : String) : Bool := (labelled n cs).any (fun p => p.1 = l)

/-- The node an element is read as, if it is read; C92 states what the nodes are. -/
def readNode (dig : Char → Option Nat) (env : TableEnv) (e : XNode) : Except PyErr (Option DefNode) :=
  if e.tag = some (inTableNs "ruleNode") then (parseRuleNode e).map some
  else if e.tag = some (inTableNs "conceptRelationshipNode") then parseDimensionNode dig env e
  else if e.tag = some (inTableNs "dimensionRelationshipNode") then parseDimensionNode dig env e
  else if e.tag = some (inTableNs "aspectNode") then parseAspectNode env e
  else .ok none

/-- The nodes of a link that are read, with their labels, in document order. -/
def readNodes (dig : Char → Option Nat) (env : TableEnv) (cs : List XNode) : List (String × DefNode) :=
  cs.filterMap (fun e =>
    match readNode dig env e with
    | .ok (some n) => (resourceLabel e).map (·, n)
    | _ => none)

/-- Tags as lxml writes them: a name in braces followed by a local name, or a local name. -/
def LxmlTag (t : String) : Prop := t.toList.head? = some '{' ∨ '/' ∉ t.toList

/-! ## What a node says (C92, C93) -/

/-- The name of an element of formulas. -/
def inFormulaNs (n : String) : String := "{http://xbrl.org/2008/formula}" ++ n

/-- An element that holds a name or an expression for one. -/
inductive SaysName : XNode → NameOrExpr → Prop where
  | name {e q} : e.tag = some (inFormulaNs "qname") → qnameFromStr (e.text.getD "") e.ns = .ok q → SaysName e (.name q)
  | expr {e} : e.tag = some (inFormulaNs "qnameExpression") → SaysName e (.expr (e.text.getD ""))

/-- The rules elements say. -/
inductive SaysRule : XNode → AspectRule → Prop where
  | concept {e pre c post n} : e.tag = some (inFormulaNs "concept") → e.children = pre ++ c :: post → SaysName c n →
      (∀ p ∈ pre, p.tag ≠ some (inFormulaNs "qname") ∧ p.tag ≠ some (inFormulaNs "qnameExpression")) → SaysRule e (.concept n)
  | entity {e} : e.tag = some (inFormulaNs "entityIdentifier") → (e.attr? "scheme").isSome ∨ (e.attr? "value").isSome → SaysRule e (.entity (e.attr? "scheme") (e.attr? "value"))
  | forever {e c} : e.tag = some (inFormulaNs "period") → e.children = [c] → c.tag = some (inFormulaNs "forever") → SaysRule e .forever
  | instant {e c} : e.tag = some (inFormulaNs "period") → e.children = [c] → c.tag = some (inFormulaNs "instant") → SaysRule e (.instant (c.attr? "value"))
  | duration {e c} : e.tag = some (inFormulaNs "period") → e.children = [c] → c.tag = some (inFormulaNs "duration") → SaysRule e (.duration (c.attr? "start") (c.attr? "end"))
  | member {e d q c g n} : e.tag = some (inFormulaNs "explicitDimension") → e.attr? "dimension" = some d → d ≠ "" → qnameFromStr d e.ns = .ok q →
      e.children = [c] → c.tag = some (inFormulaNs "member") → c.children = [g] → SaysName g n → SaysRule e (.explicit q (some n))
  | omitted {e d q c} : e.tag = some (inFormulaNs "explicitDimension") → e.attr? "dimension" = some d → d ≠ "" → qnameFromStr d e.ns = .ok q →
      e.children = [c] → c.tag = some (inFormulaNs "omit") → SaysRule e (.explicit q none)

/-- `rs` are the rules the elements say, in document order; elements that say none are left out. -/
inductive SayRules : List XNode → List AspectRule → Prop where
  | nil : SayRules [] []
  | rule {e cs r rs} : SaysRule e r → SayRules cs rs → SayRules (e :: cs) (r :: rs)
  | skip {e cs rs} : (∀ r, ¬ SaysRule e r) → SayRules cs rs → SayRules (e :: cs) rs

/-- The rule sets of a rule node that have a tag, in document order. -/
def taggedSets (cs : List XNode) : List (String × XNode) :=
  cs.filterMap (fun e => if e.tag = some (inTableNs "ruleSet") then (match e.attr? "tag" with | some t => if t = "" then none else some (t, e) | none => none) else none)

/-- The aspects that are always there. -/
def alwaysAspect (e : XNode) : Option String :=
  if e.tag = some (inTableNs "conceptAspect") then some "concept"
  else if e.tag = some (inTableNs "entityIdentifierAspect") then some "entity"
  else if e.tag = some (inTableNs "periodAspect") then some "period"
  else if e.tag = some (inTableNs "unitAspect") then some "unit"
  else none

end Brel
