import Verif.Model.Footnotes
import Verif.Spec.Common

/-! Specification of footnote networks of inline documents. -/

namespace Brel

/-- The children of an id in a network. -/
def FootNetwork.childrenOf (net : FootNetwork) (i : String) : List String := ((net.nodes.get? i).map (·.children)).getD []

end Brel

namespace Brel.Spec

/-- The ids that relationships lead to from the id `i`: those of each relationship that lists `i`, in document order. -/
def leadsTo (rs : List Rel) (i : String) : List String := rs.flatMap (fun r => if i ∈ r.froms then r.tos else [])

/-- The ids that occur in relationships. -/
def mentioned (rs : List Rel) (i : String) : Prop := ∃ r ∈ rs, i ∈ r.froms ∨ i ∈ r.tos

/-- A relationship leads to the id. -/
def isEnd (rs : List Rel) (i : String) : Prop := ∃ r ∈ rs, i ∈ r.tos

/-- The pairs of link role and arc role, in order of first occurrence. -/
def rolePairs (rs : List Rel) : List (String × String) := firstOccurrences (rs.map (fun r => (r.linkRole, r.arcRole)))

/-- The relationships with the given link role and arc role. -/
def withRoles (rs : List Rel) (k : String × String) : List Rel := rs.filter (fun r => r.linkRole = k.1 ∧ r.arcRole = k.2)

/-- The object an id stands for as the end of a relationship: a footnote, or else a fact. -/
def endKnown (footnotes : Dict String Footnote) (facts : FactStore) (i : String) : Prop := footnotes.has i = true ∨ facts.hasId i = true

end Brel.Spec
