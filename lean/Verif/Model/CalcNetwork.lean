import Verif.Model.Calc
import Verif.Model.Open

/-!
The checks of `brel/networks/calculation_network.py` for the networks of an opened filing: the nodes of the heap as trees, with the concepts of the repository.
-/

namespace Brel

/-- The nodes below a node as the checks walk through them (calculation_network.py 52-92 and 114-213): concept, weight and children in order; children shared by several nodes are
visited several times. The number bounds the depth of the recursion; without a bound a cycle is `RecursionError`. Only nodes with a concept are calculation nodes
(xml_calculation_network_factory.py 91-92). -/
def Heap.calcTree (concept : QName → Concept) (h : Heap) : Nat → Nat → Option (CalcTree Rat)
  | 0, _ => none
  | d + 1, i => (h[i]?).bind (fun n => match n.target with
    | .element q _ => (n.children.mapM (Heap.calcTree concept h d)).map (.node (concept q) n.weight)
    | _ => none)

/-- The concept object with this name in the repository: calculation_network_node.py 117-122 (`get_concept`). -/
def OpenedFiling.conceptNamed (o : OpenedFiling) (q : QName) : Concept := ((o.elements.byName.get? q).bind (·.concept)).getD { name := q }

/-- The roots of a network of the filing (i_network.py, `get_roots`) with everything below them. -/
def OpenedFiling.calcForest (o : OpenedFiling) (depth : Nat) (net : Network) : Option (List (CalcTree Rat)) :=
  net.roots.mapM (o.networks.networks.heap.calcTree o.conceptNamed depth)

/-- The numbers as rational numbers (infinities and NaN are left out, sums are exact). -/
def ratOps (float : String → Option Rat) : FloatOps Rat :=
  { ofStr := float, zero := 0, add := (· + ·), mul := (· * ·), eq := fun a b => decide (a = b), lt := fun a b => decide (a < b) }

/-- calculation_network.py 42-100 (`is_balance_consistent`) for a network of the filing; `none` if the recursion exceeds its limit. -/
def OpenedFiling.isBalanceConsistent (o : OpenedFiling) (float : String → Option Rat) (depth : Nat) (net : Network) : Option Bool :=
  (o.calcForest depth net).map (Brel.isBalanceConsistent (ratOps float))

/-- calculation_network.py 103-223 (`is_aggregation_consistent`) for a network of the filing and a list of facts; `none` if the recursion exceeds its limit. -/
def OpenedFiling.isAggregationConsistent (o : OpenedFiling) (float : String → Option Rat) (depth : Nat) (facts : List Fact) (net : Network) : Option (Except PyErr Bool) :=
  (o.calcForest depth net).map (Brel.isAggregationConsistent (ratOps float) facts)

end Brel
