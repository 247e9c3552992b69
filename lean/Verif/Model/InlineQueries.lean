import Verif.Model.OpenInline
import Verif.Model.FilingQueries

/-!
The queries of `brel/brel_filing.py` about the facts of an inline filing that was opened.
-/

namespace Brel

/-- brel_filing.py 95-97 (`Filing.__init__`): the repositories that the queries about facts and report elements read. The components are in `OpenedInline.components`. -/
def OpenedInline.data (o : OpenedInline) : FilingData := { facts := o.facts.facts, elems := o.elements.store, ns := o.namespaces }

/-- brel_filing.py 421-430 (`generate_core_fact_table_pandas_df`) without pandas: the list of rows. -/
def OpenedInline.coreTable (t : Translations) (ml mixed : Bool) (langs : List String) (o : OpenedInline) : Except PyErr (List (Dict String String)) :=
  generateRows (fun f langs => factTableRow t ml o.networks.labelsOf langs f) mixed langs o.data.getAllCoreFacts

end Brel
