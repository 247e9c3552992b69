import Verif.Model.Names

/-!
Model of `brel/networks/`: nodes with identity, children kept in order, and the traversals of `i_network.py` and `i_network_node.py`.

Nodes live in a heap; a node is its index. Orders and weights are rational numbers: every finite float is one, the code only compares
them (infinities and NaN are left out).
-/

namespace Brel

/-- The node classes of `brel/networks/`. -/
inductive NodeKind where
  | presentation | calculation | definition | label | reference | footnote
  deriving DecidableEq, Repr

/-- What a node points to. A report element is given by its name (the repository holds one object per name), together with the
information whether it is a `Concept`; resources and facts are compared by identity (a number). -/
inductive Target where
  | element (name : QName) (isConcept : Bool)
  | labelResource (id : Nat)
  | referenceResource (id : Nat)
  | footnoteResource (id : Nat)
  | fact (id : Nat)
  deriving DecidableEq, Repr

/-- The data of a node (`__init__` of the six node classes). `label` is the `xlink:label` of the locator or resource the node was
made from: Python does not store it, here it serves only to state properties. -/
structure NetNode where
  kind : NodeKind
  target : Target
  arcRole : String
  order : Rat
  weight : Rat := 0
  preferredLabel : Option String := none
  label : String := ""
  children : List Nat := []
  deriving DecidableEq, Repr

/-- All node objects, by allocation. -/
abbrev Heap := List NetNode

namespace Heap

/-- `get_children()` of the six node classes. -/
def children (h : Heap) (i : Nat) : List Nat := (h[i]?.map (·.children)).getD []

/-- `get_order()`; for label nodes it is the constant 1 (label_network_node.py 73-74). -/
def orderOf (h : Heap) (i : Nat) : Rat :=
  match h[i]? with
  | some n => if n.kind = .label then 1 else n.order
  | none => 0

/-- The key comparison of the sorts in `_add_child`. -/
def orderLe (h : Heap) (a b : Nat) : Bool := decide (h.orderOf a ≤ h.orderOf b)

/-- The new list of children: appended and sorted (presentation_network_node.py 140-141, calculation_network_node.py 133-134,
definition_network_node.py 88-89, footnote_network_node.py 108-109, reference_network_node.py 93-94), only appended for label
nodes (label_network_node.py 94). -/
def insertChild (h : Heap) (k : NodeKind) (cs : List Nat) (c : Nat) : List Nat :=
  if k = .label then cs ++ [c] else sortBy h.orderLe (cs ++ [c])

/-- `_add_child` of the six node classes: presentation_network_node.py 131-141 and calculation_network_node.py 125-134 raise
`TypeError`, definition_network_node.py 80-89, footnote_network_node.py 101-109 and reference_network_node.py 89-94 `ValueError` for
a node of another class; label_network_node.py 89-94 accepts everything. Unallocated indices cannot occur; they leave the heap as it is. -/
def addChild (h : Heap) (p c : Nat) : Except PyErr Heap :=
  match h[p]?, h[c]? with
  | some np, some nc =>
    if np.kind ≠ .label ∧ nc.kind ≠ np.kind then
      if np.kind = .presentation ∨ np.kind = .calculation then .error .typeError else .error .valueError
    else .ok (h.set p { np with children := h.insertChild np.kind np.children c })
  | _, _ => .ok h

/-- i_network.py 125-128 (`add_children`): recursion without a check for visited nodes. `limit` is the remaining recursion depth. -/
def visit (h : Heap) : (limit : Nat) → List Nat → Nat → Except PyErr (List Nat)
  | 0, _, _ => .error .recursionError
  | limit + 1, acc, i => (h.children i).foldlM (visit h limit) (appendNew acc i)

/-- i_network.py 127-128, 132-133: the loops over children and roots. -/
def visitList (h : Heap) (limit : Nat) (acc is : List Nat) : Except PyErr (List Nat) := is.foldlM (visit h limit) acc

/-- i_network.py 115-136 (`get_all_nodes`). The result is a `set` turned into a list: its order is not specified, here it is the
order of first visits. -/
def getAllNodes (h : Heap) (limit : Nat) (roots : List Nat) : Except PyErr (List Nat) := visitList h limit [] roots

/-- i_network_node.py 130-135, the loop of `get_all_descendants`: `pop` takes the last entry. `none` when the given number of steps
does not suffice. -/
def descLoop (h : Heap) : (steps : Nat) → (worklist acc : List Nat) → Option (List Nat)
  | 0, _, _ => none
  | steps + 1, worklist, acc => match worklist.getLast? with
    | none => some acc
    | some i => descLoop h steps (worklist.dropLast ++ h.children i) (appendNew acc i)

/-- i_network_node.py 124-137 (`get_all_descendants`): the node itself is included. -/
def getAllDescendants (h : Heap) (steps : Nat) (i : Nat) : Option (List Nat) := descLoop h steps [i] []

end Heap

/-- Carry out a history of insertions (parent, child); an exception ends it. The link parser does
so in its second pass (xml_extended_link_parser.py 262-264). -/
def runAdds (h : Heap) (ops : List (Nat × Nat)) : Except PyErr Heap := ops.foldlM (fun h o => h.addChild o.1 o.2) h

/-- i_network.py 39-49: the fields of a network; its nodes are in the heap. -/
structure Network where
  roots : List Nat
  linkRole : String
  kind : NodeKind
  physical : Bool
  deriving DecidableEq, Repr

/-- i_network.py 103-113 (`get_root`) -/
def Network.getRoot (n : Network) : Except PyErr Nat :=
  match n.roots with
  | [] => .error .indexError
  | [r] => .ok r
  | _ => .error .valueError

/-- i_network.py 84-90 (`get_arc_roles`); the order of the resulting list is not specified. -/
def Network.getArcRoles (n : Network) (h : Heap) (limit : Nat) : Except PyErr (List String) := do
  let nodes ← h.getAllNodes limit n.roots
  return (nodes.filterMap (fun i => h[i]?.map (·.arcRole))).foldl appendNew []

end Brel
