import Verif.Model.Open
import Verif.Model.Filing
import Verif.Model.FactRow
import Verif.Model.Output

/-!
The queries of `brel/brel_filing.py` about the facts of a filing that was opened: they read the repositories that parsing leaves.
-/

namespace Brel

/-- brel_filing.py 95-97 (`Filing.__init__`): the repositories that the queries about facts and report elements read. The components are in `OpenedFiling.components`. -/
def OpenedFiling.data (o : OpenedFiling) : FilingData := { facts := o.facts.facts, elems := o.elements.store, ns := o.namespaces }

/-- brel_filing.py 421-430 (`generate_core_fact_table_pandas_df`) without pandas: the list of rows. -/
def OpenedFiling.coreTable (t : Translations) (ml mixed : Bool) (langs : List String) (o : OpenedFiling) : Except PyErr (List (Dict String String)) :=
  generateRows (fun f langs => factTableRow t ml o.networks.labelsOf langs f) mixed langs o.data.getAllCoreFacts

end Brel
