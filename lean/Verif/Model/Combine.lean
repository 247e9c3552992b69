import Verif.Model.Link

/-!
Model of `brel/parsers/utils/network_utils.py` and of the two passes of `parse_networks_from_xmls`
(`brel/parsers/XML/networks/xml_networks_parser.py`).
-/

namespace Brel

/-- network_utils.py 7-28 (`nodes_equal`): same class and equal objects. Report elements other than concepts are compared by identity,
concepts by name; there is one object per name. -/
def Heap.nodesEqual (h : Heap) (a b : Nat) : Bool :=
  match h[a]?, h[b]? with
  | some x, some y => decide (x.kind = y.kind) && decide (x.target = y.target)
  | _, _ => false

/-- network_utils.py 88-94: one root of a network; the state is the heap and the roots of the aggregate network. The loop over the
children of the root is over a list that does not change: the parent is a node of another network. -/
def mergeRoot (nodes : List Nat) (s : Heap × List Nat) (root : Nat) : Except PyErr (Heap × List Nat) :=
  match nodes.find? (fun n => s.1.nodesEqual n root) with
  | none => .ok (s.1, s.2 ++ [root])
  | some p => (runAdds s.1 ((s.1.children root).map (fun c => (p, c)))).map (fun h => (h, s.2))

/-- network_utils.py 76-80, 86-94: one network. `none` when the given number of steps does not suffice for `get_all_descendants`. -/
def mergeNetwork (so : SetOrder) (steps : Nat) (s : Heap × List Nat) (net : Network) : Option (Except PyErr (Heap × List Nat)) :=
  (s.2.mapM (fun r => (s.1.getAllDescendants steps r).map so.nodes)).map (fun ds => net.roots.foldlM (mergeRoot ds.flatten) s)

/-- network_utils.py 85-94: the networks in the order in which `pop` takes them. -/
def mergeAll (so : SetOrder) (steps : Nat) : Heap × List Nat → List Network → Option (Except PyErr (Heap × List Nat))
  | s, [] => some (.ok s)
  | s, n :: ns => match mergeNetwork so steps s n with
    | none => none
    | some (.error e) => some (.error e)
    | some (.ok s') => mergeAll so steps s' ns

/-- network_utils.py 31-96 (`combine_networks`). The result of `sorted` in line 69 is not used; the comparisons call `get_all_nodes`,
which can only raise `RecursionError`; this is left out. The last network becomes the aggregate: its object is changed and returned. -/
def combineNetworks (so : SetOrder) (steps : Nat) (h : Heap) (nets : List Network) : Option (Except PyErr (Heap × Network)) :=
  match nets.reverse with
  | [] => some (.error .valueError)
  | last :: rest => (mergeAll so steps (h, last.roots) rest).map (fun r => r.map (fun s => (s.1, { last with roots := s.2 })))

end Brel
