import Verif.Model.CalcNetwork
import Verif.Model.OpenInline
import Verif.Model.FactRow

/-!
The checks of `brel/networks/calculation_network.py` for the networks of an opened inline filing. Unlike in `Verif.Model.XhtmlFacts`, the copies of contexts are told apart here, as the checks
compare members and dimensions by identity.
-/

namespace Brel

/-- The facts of the filing as `Filing.get_all_facts()` returns them (brel_filing.py 151-155): every fact has its own copy of the context (xhtml_parse_facts.py 233), made by
in_memory_context_repository.py 11-21. -/
def OpenedInline.allFacts (o : OpenedInline) : List Fact := o.facts.facts.getAll.zipIdx.map (fun p => p.1.copied p.2)

/-- The concept object with this name in the repository: calculation_network_node.py 117-122 (`get_concept`). -/
def OpenedInline.conceptNamed (o : OpenedInline) (q : QName) : Concept := ((o.elements.byName.get? q).bind (·.concept)).getD { name := q }

/-- The roots of a network of the filing (i_network.py, `get_roots`) with everything below them. -/
def OpenedInline.calcForest (o : OpenedInline) (depth : Nat) (net : Network) : Option (List (CalcTree Rat)) :=
  net.roots.mapM (o.networks.networks.heap.calcTree o.conceptNamed depth)

/-- calculation_network.py 42-100 (`is_balance_consistent`) for a network of the filing; `none` if the recursion exceeds its limit. -/
def OpenedInline.isBalanceConsistent (o : OpenedInline) (float : String → Option Rat) (depth : Nat) (net : Network) : Option Bool :=
  (o.calcForest depth net).map (Brel.isBalanceConsistent (ratOps float))

/-- calculation_network.py 103-223 (`is_aggregation_consistent`) for a network of the filing and a list of facts; `none` if the recursion exceeds its limit. -/
def OpenedInline.isAggregationConsistent (o : OpenedInline) (float : String → Option Rat) (depth : Nat) (facts : List Fact) (net : Network) : Option (Except PyErr Bool) :=
  (o.calcForest depth net).map (Brel.isAggregationConsistent (ratOps float) facts)

end Brel
