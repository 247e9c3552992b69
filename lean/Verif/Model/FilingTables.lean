import Verif.Model.Rows
import Verif.Model.Output
import Verif.Model.OpenInline

/-!
The tables of report elements, components and labels of an opened filing: `generate_report_elements_as_pandas_df`, `generate_components_as_pandas_df`, `get_all_labels` and
`generate_labels_as_pandas_df` of `brel/brel_filing.py`. A table is the list of its rows; pandas is left out.
-/

namespace Brel

/-- A report element with the labels that were added to it: the objects of brel/reportelements/. -/
def rowElement (nets : ReadNetworks) (e : SchemaElement) : RowElement :=
  match e.kind with
  | .concept => .concept { e.concept.getD { name := e.name } with labels := nets.labelsOf e.name }
  | .dimension => .dimension e.name (nets.labelsOf e.name) e.typed
  | .member => .plain .member e.name (nets.labelsOf e.name)
  | .abstract => .plain .abstract e.name (nets.labelsOf e.name)
  | .hypercube => .plain .hypercube e.name (nets.labelsOf e.name)
  | .lineItems => .plain .lineItems e.name (nets.labelsOf e.name)

/-- `get_all_report_elements`, brel_filing.py 157-161 with in_memory_report_element_repository.py 47-48 -/
def rowElements (elements : SchemaState) (nets : ReadNetworks) : List RowElement := (elements.byName.map (·.2)).map (rowElement nets)

/-- brel_filing.py 487-496 (`generate_report_elements_as_pandas_df`) -/
def elementTable (t : Translations) (ml mixed : Bool) (langs : List String) (elements : SchemaState) (nets : ReadNetworks) : Except PyErr (List (Dict String Cell)) :=
  generateRows (fun e ls => elementRow t ml ls e) mixed langs (rowElements elements nets)

/-- brel_component.py 77-91, as far as the row is concerned -/
def rowComponent (c : ComponentOf Network) : RowComponent :=
  { uri := c.uri, info := c.info, presentation := c.presentation.isSome, calculation := c.calculation.isSome, definition := c.definition.isSome }

/-- brel_filing.py 454-463 (`generate_components_as_pandas_df`) -/
def componentTable (t : Translations) (ml mixed : Bool) (langs : List String) (cs : List (ComponentOf Network)) : Except PyErr (List (Dict String Cell)) :=
  generateRows (fun c ls => componentRow t ml ls c) mixed langs (cs.map rowComponent)

/-- The value of an entry in the table of labels: a text or a name. -/
inductive LabelCell where
  | text (s : String)
  | name (q : QName)
  deriving DecidableEq, Repr

/-- brel_label.py 58-63 (`convert_to_dict`) and brel_filing.py 473-474 -/
def labelRow (l : Label) (q : QName) : Dict String LabelCell :=
  Dict.set [("text", .text l.text), ("language", .text l.language), ("label_role", .text l.role)] "report_element" (.name q)

/-- brel_filing.py 465-485 (`get_all_labels`, `generate_labels_as_pandas_df`) -/
def labelTable (elements : SchemaState) (nets : ReadNetworks) : List (Dict String LabelCell) :=
  (elements.byName.map (·.2)).flatMap (fun e => (nets.labelsOf e.name).map (fun l => labelRow l e.name))

end Brel
