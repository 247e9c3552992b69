import Verif.Spec.Open
import Verif.Spec.Arcs
import Verif.Model.CalcNetwork

/-! What a calculation network must satisfy, in terms of the documents. -/

namespace Brel

/-- The balance that the schemas declare for the concept. -/
def BalanceOf (docs : List SchemaDoc) (q : QName) : Option String :=
  ((counting (schemaDeclarations docs)).find? (fun d => decide (d.name = q))).bind (fun d => d.x.attr? "{http://www.xbrl.org/2003/instance}balance")

/-- The balances of concepts agree with the weights that the calculation links of the role state: every concept has a balance, concepts with the same balance are not subtracted from
each other, and concepts with different balances are not added. -/
structure BalancesAgree (float : String → Option Rat) (docs : List SchemaDoc) (role : String) : Prop where
  declared : ∀ up link l q, HasLink (docs.map (·.root)) "calculationLink" role up link → Locates (taxonomyStore docs) link l q → BalanceOf docs q ≠ none
  weights : ∀ q q' w, StatesArc (taxonomyStore docs) (docs.map (·.root)) "calculationLink" role q q' (fun x => StatesNumber float 0 (x.attr? "weight") w) →
    (BalanceOf docs q = BalanceOf docs q' → 0 ≤ w) ∧ (BalanceOf docs q ≠ BalanceOf docs q' → w ≤ 0)

end Brel
