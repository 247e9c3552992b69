import Verif.Model.Double
import Verif.Model.CalcNetwork

/-! The aggregation check of an opened filing with the arithmetic of Python's floats. -/

namespace Brel

/-- calculation_network.py 103-223 (`is_aggregation_consistent`) for a network of the filing and a list of facts, computed with floats as the code does; the weights in the heap are
the finite floats that were read from the arcs. -/
def OpenedFiling.isAggregationConsistentFloat (o : OpenedFiling) (dig : Char → Option Nat) (depth : Nat) (facts : List Fact) (net : Network) : Option (Except PyErr Bool) :=
  (o.calcForest depth net).map (fun ts => Brel.isAggregationConsistent (dblOps dig) facts (CalcTree.mapWeights Dbl.fin ts))

end Brel
