import Verif.Model.Filters

/-! Filters as the specifications of XBRL formulas write them, and what the elements that brel reads say. -/

namespace Brel.Spec

/-- An element of the name space of filters; `year` is 2008 in the specifications (Concept Filters, Dimension Filters and Period Filters 1.0). -/
def inFilterNs (year kind n : String) : String := "{http://xbrl.org/" ++ year ++ "/filter/" ++ kind ++ "}" ++ n

/-- The children of a filter for the names of concepts: each contains a name, or nothing, or an expression. -/
inductive ConceptEntries (expr : XNode → Option String) (year : String) : List XNode → List QName → List String → Prop where
  | nil : ConceptEntries expr year [] [] []
  | empty {c cs qs es} : c.tag = some (inFilterNs year "concept" "concept") → c.children = [] → ConceptEntries expr year cs qs es → ConceptEntries expr year (c :: cs) qs es
  | name {c g cs q qs es} : c.tag = some (inFilterNs year "concept" "concept") → c.children = [g] → g.tag = some (inFilterNs year "concept" "qname") →
      qnameFromStr (g.text.getD "") g.ns = .ok q → ConceptEntries expr year cs qs es → ConceptEntries expr year (c :: cs) (q :: qs) es
  | expression {c g cs e qs es} : c.tag = some (inFilterNs year "concept" "concept") → c.children = [g] → g.tag ≠ some (inFilterNs year "concept" "qname") →
      expr g = some e → ConceptEntries expr year cs qs es → ConceptEntries expr year (c :: cs) qs (e :: es)

/-- How the specification writes expressions: as the text of an element of that name. -/
def specifiedExpr (year : String) (g : XNode) : Option String := if g.tag = some (inFilterNs year "concept" "qnameExpression") then some (g.text.getD "") else none

/-- What brel takes for an expression: an element of any name but `qname` whose text is the name of the element for expressions. -/
def acceptedExpr (g : XNode) : Option String := if g.text = some (inFilterNs "2014" "concept" "qnameExpression") then g.text else none

end Brel.Spec
