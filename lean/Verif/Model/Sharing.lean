import Verif.Model.Filing
import Verif.Model.Errors

/-!
Model of the lists that the API hands out. A Python list is a cell of a heap. Some getters return a list that the filing keeps using
(the caller and the filing share the cell), others return a new list. Users may then change the lists they hold.
-/

namespace Brel

variable {Obj : Type}

/-- The lists that objects of a filing keep and hand out.
components: brel/data/component/in_memory_component_repository.py 16-20; errors: brel/data/errors/in_memory_error_repository.py 16-23;
aspects of the context of a fact: brel/brel_context.py 61 and 67-72; roots of a network: brel/networks/i_network.py 53-58;
children of a node: the files brel/networks/*_network_node.py; labels: brel/reportelements/*.py (`get_labels`);
numerators and denominators: brel/characteristics/unit_characteristic.py 57-67. -/
inductive Slot (Obj : Type) where
  | components
  | errors
  | aspects (fact : Obj)
  | roots (network : Obj)
  | children (node : Obj)
  | labels (element : Obj)
  | numerators (unit : Obj)
  | denominators (unit : Obj)
  deriving DecidableEq, Repr

/-- What the objects are, apart from the lists of `Slot`. Objects are never changed except through those lists.
(Lists that users change are taken to keep the declared types of elements.) -/
structure Objects (Obj : Type) where
  component : Obj → Component
  error : Obj → ErrorInstance
  aspect : Obj → Aspect
  fact : Obj → Fact
  element : Obj → ReportElement
  label : Obj → Label
  unit : Obj → String
  measure : Obj → QName
  /-- the networks of a component, brel/brel_component.py 76-78 -/
  networks : Obj → List Obj
  physical : Obj → Bool
  calculationNode : Obj → Bool

/-- The calls that return a list of objects. -/
inductive ListCall (Obj : Type) where
  | allFacts
  | allCoreFacts
  | factsWithConcept (name : QName)
  | allReportElements
  | allOfKind (kind : ElemKind)
  | allComponents
  | allPhysicalNetworks
  | allErrors
  | errorsBySeverity (v : Severity)
  | errorsByArea (a : Area)
  | networksOf (component : Obj)
  | aspectsOf (fact : Obj)
  | rootsOf (network : Obj)
  | childrenOf (node : Obj)
  | labelsOf (element : Obj)
  | numeratorsOf (unit : Obj)
  | denominatorsOf (unit : Obj)

/-- The place of a list in memory: made while the filing was opened, or later. -/
inductive Place where
  | opening (n : Nat)
  | later (n : Nat)
  deriving DecidableEq, Repr

/-- The state of a session: the objects the repositories keep in dictionaries and never hand out as such, the cell of each list of an
object, the contents of cells, the next free cell and the cells of the lists the user has got so far. -/
structure Session (Obj : Type) where
  facts : List Obj
  elements : List Obj
  physicalAndOther : List Obj
  cell : Slot Obj → Nat
  heap : Place → List Obj
  next : Nat := 0
  got : List Place := []

/-- The present content of a list of the filing. -/
def Session.content (s : Session Obj) (l : Slot Obj) : List Obj := s.heap (.opening (s.cell l))

/-- A fact as the code sees it now: `Context.__aspects` is the shared list, the dictionary of characteristics is not handed out
(brel/brel_context.py 61-62). -/
def Session.factNow (ob : Objects Obj) (s : Session Obj) (f : Obj) : Fact :=
  { ob.fact f with context := { (ob.fact f).context with aspects := (s.content (.aspects f)).map ob.aspect } }

/-- A report element as the code sees it now. -/
def Session.elementNow (ob : Objects Obj) (s : Session Obj) (e : Obj) : ReportElement :=
  { ob.element e with labels := (s.content (.labels e)).map ob.label }

/-- The filing as the queries of `Model/Filing.lean` see it now. -/
def Session.filingNow (ob : Objects Obj) (s : Session Obj) : FilingData :=
  { components := (s.content .components).map ob.component }

/-- The list of the filing that a call returns itself; `none` for calls that make a new list.
brel/brel_filing.py 163-168 (`get_all_components`), 184-188 (`get_all_errors`), brel/brel_fact.py 206-211 with brel/brel_context.py 67-72,
brel/networks/i_network.py 53-58, `get_children` of presentation_network_node.py 88-94, definition_network_node.py 61-62,
reference_network_node.py 70-71, label_network_node.py 70-71 and footnote_network_node.py 82-83 (calculation_network_node.py 87-90 makes
a new list), `get_labels` of the report elements, unit_characteristic.py 57-67. -/
def ListCall.handsOut (ob : Objects Obj) : ListCall Obj → Option (Slot Obj)
  | .allComponents => some .components
  | .allErrors => some .errors
  | .aspectsOf f => some (.aspects f)
  | .rootsOf n => some (.roots n)
  | .childrenOf n => if ob.calculationNode n then none else some (.children n)
  | .labelsOf e => some (.labels e)
  | .numeratorsOf u => some (.numerators u)
  | .denominatorsOf u => some (.denominators u)
  | _ => none

/-- The content of the list that a call returns.
brel_filing.py 151-161 with in_memory_fact_repository.py and in_memory_report_element_repository.py (`get_all`: `list(values())`),
170-179, 190-209, 225-304, 363-383, brel_component.py 160-171. -/
def ListCall.value (ob : Objects Obj) (s : Session Obj) : ListCall Obj → List Obj
  | .allFacts => s.facts
  | .allCoreFacts => s.facts.filter (fun f => (s.factNow ob f).isCore)
  | .factsWithConcept q => s.facts.filter (fun f => match (s.factNow ob f).getConcept with | .ok c => c.name = q | .error _ => false)
  | .allReportElements => s.elements
  | .allOfKind k => s.elements.filter (fun e => (ob.element e).kind = k)
  | .allComponents => s.content .components
  | .allPhysicalNetworks => s.physicalAndOther.filter ob.physical
  | .allErrors => s.content .errors
  | .errorsBySeverity v => (s.content .errors).filter (fun e => (ob.error e).severity = v)
  | .errorsByArea a => (s.content .errors).filter (fun e => (ob.error e).area = a)
  | .networksOf c => ob.networks c
  | .aspectsOf f => s.content (.aspects f)
  | .rootsOf n => s.content (.roots n)
  | .childrenOf n => s.content (.children n)
  | .labelsOf e => s.content (.labels e)
  | .numeratorsOf u => s.content (.numerators u)
  | .denominatorsOf u => s.content (.denominators u)

/-- What a user does: call the API, or change a list got before (`append`, `remove`, `clear`, `sort`, …: any new content). -/
inductive UserStep (Obj : Type) where
  | call (c : ListCall Obj)
  | change (i : Nat) (content : List Obj)

/-- `heap` with another content of one cell. -/
def setCell (heap : Place → List Obj) (i : Place) (l : List Obj) : Place → List Obj := fun j => if j = i then l else heap j

/-- One step. Changing a list that was not got has no effect. -/
def Session.step (ob : Objects Obj) (s : Session Obj) : UserStep Obj → Session Obj
  | .call c =>
    match c.handsOut ob with
    | some l => { s with got := s.got ++ [.opening (s.cell l)] }
    | none => { s with heap := setCell s.heap (.later s.next) (c.value ob s), next := s.next + 1, got := s.got ++ [.later s.next] }
  | .change i l =>
    match s.got[i]? with
    | some c => { s with heap := setCell s.heap c l }
    | none => s

/-- A history of steps. -/
def Session.run (ob : Objects Obj) (s : Session Obj) (h : List (UserStep Obj)) : Session Obj := h.foldl (Session.step ob) s

/-- The present content of the `i`-th list the user got. -/
def Session.userList (s : Session Obj) (i : Nat) : Option (List Obj) := s.got[i]?.map s.heap

/-! ### Questions that are answered without a list -/

/-- brel_filing.py 181-182 -/
def Session.hasAnyErrors (ob : Objects Obj) (s : Session Obj) : Bool := Brel.hasAnyErrors ((s.content .errors).map ob.error)

/-- brel_filing.py 399-410 -/
def Session.getComponent (ob : Objects Obj) (s : Session Obj) (uri : String) : Except PyErr Component := (s.filingNow ob).getComponent uri

/-- brel_filing.py 393-397 -/
def Session.getAllComponentUris (ob : Objects Obj) (s : Session Obj) : List String := (s.filingNow ob).getAllComponentUris

/-- brel/networks/i_network.py 103-113 (`get_root`): `roots[0]` of an empty list raises `IndexError`. -/
def Session.getRoot (s : Session Obj) (n : Obj) : Except PyErr Obj :=
  match s.content (.roots n) with
  | [] => .error .indexError
  | [r] => .ok r
  | _ => .error .valueError

/-- brel/networks/i_network_node.py 141-145 -/
def Session.isLeaf (s : Session Obj) (n : Obj) : Bool := (s.content (.children n)).isEmpty

/-- unit_characteristic.py 94-99 (`is_simple`) -/
def Session.unitIsSimple (s : Session Obj) (u : Obj) : Bool :=
  (s.content (.numerators u)).length = 1 && (s.content (.denominators u)).length = 0

/-- i_report_element.py 75-81 (`has_label_with_role`) -/
def Session.hasLabelWithRole (ob : Objects Obj) (s : Session Obj) (e : Obj) (role : String) : Bool :=
  (s.elementNow ob e).labels.any (fun l => l.role = role)

end Brel
