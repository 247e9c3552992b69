import Verif.Model.Network
/-! What a node points to, and the dictionaries of nodes and networks (`convert_to_dict`). -/
namespace Brel

/-- `points_to()`: presentation_network_node.py 82-86, calculation_network_node.py 81-85, definition_network_node.py 58-59, label_network_node.py 60-68, reference_network_node.py 60-68, footnote_network_node.py 72-82. -/
def NetNode.pointsTo (n : NetNode) : Except PyErr String :=
  match n.kind with
  | .presentation | .calculation | .definition => .ok "report element"
  | .label => match n.target with
    | .element _ _ => .ok "report element"
    | .labelResource _ => .ok "resource"
    | _ => .error .valueError
  | .reference => match n.target with
    | .element _ _ => .ok "report element"
    | .fact _ => .error .valueError
    | _ => .ok "resource"
  | .footnote => match n.target with
    | .element _ _ => .ok "report element"
    | .fact _ => .ok "fact"
    | _ => .ok "resource"

/-- `get_report_element()`: presentation_network_node.py 60-64, calculation_network_node.py 60-65, definition_network_node.py 49-50, label_network_node.py 46-50, reference_network_node.py 46-50, footnote_network_node.py 48-54. -/
def NetNode.getReportElement (n : NetNode) : Except PyErr Target :=
  match n.kind with
  | .presentation | .calculation | .definition => .ok n.target
  | .label | .reference | .footnote => match n.target with
    | .element _ _ => .ok n.target
    | _ => .error .valueError

/-- `get_resource()`: presentation_network_node.py 66-72, calculation_network_node.py 67-72, definition_network_node.py 52-53, label_network_node.py 52-55, reference_network_node.py 52-55, footnote_network_node.py 56-61. -/
def NetNode.getResource (n : NetNode) : Except PyErr Target :=
  match n.kind with
  | .presentation | .calculation | .definition => .error .valueError
  | .label => match n.target with
    | .labelResource _ => .ok n.target
    | _ => .error .valueError
  | .reference | .footnote => match n.target with
    | .element _ _ | .fact _ => .error .valueError
    | _ => .ok n.target

/-- `get_fact()`: presentation_network_node.py 74-80, calculation_network_node.py 74-79, definition_network_node.py 55-56, label_network_node.py 57-58, reference_network_node.py 57-58, footnote_network_node.py 63-68. -/
def NetNode.getFact (n : NetNode) : Except PyErr Target :=
  match n.kind with
  | .footnote => match n.target with
    | .fact _ => .ok n.target
    | _ => .error .valueError
  | _ => .error .valueError

/-- The names a node carries besides the data of `NetNode`: `get_arc_name()`, `get_link_role()`, `get_link_name()`. -/
structure NodeNames where
  arcName : QName
  linkRole : String
  linkName : QName

/-- The dictionary of a node: its keys are fixed, so it is a record; it is a tree. -/
inductive NodeDict where
  | mk (pointsTo arcRole arcName linkRole linkName : String) (order : Rat) (children : List NodeDict)

/-- i_network_node.py 162-175 (`convert_to_dict`); the values are taken in the order of the keys, and the recursion stops at the interpreter's limit. Unallocated indices cannot occur. -/
def Heap.nodeDict (h : Heap) (names : Nat → NodeNames) : (limit : Nat) → Nat → Except PyErr NodeDict
  | 0, _ => .error .recursionError
  | limit + 1, i =>
    match h[i]? with
    | none => .error .attributeError
    | some n => do
      let p ← n.pointsTo
      let cs ← n.children.mapM (Heap.nodeDict h names limit)
      return .mk p n.arcRole (names i).arcName.prefixLocal (names i).linkRole (names i).linkName.prefixLocal (h.orderOf i) cs

/-- The dictionary of a network. -/
structure NetworkDict where
  roots : List NodeDict
  linkRole : String
  linkName : String
  isPhysical : Bool

/-- i_network.py 138-148 (`convert_to_dict`); `linkName` is the name of the network's link. -/
def Network.dict (n : Network) (h : Heap) (names : Nat → NodeNames) (linkName : QName) (limit : Nat) : Except PyErr NetworkDict := do
  let rs ← n.roots.mapM (h.nodeDict names limit)
  return ⟨rs, n.linkRole, linkName.prefixLocal, n.physical⟩

end Brel
