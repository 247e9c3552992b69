import Verif.Model.Filing
import Verif.Model.FactValue

/-!
Model of `brel/networks/calculation_network.py`.
The networks are finite trees (shared children are repeated; a cyclic network makes the Python code recurse for ever and has no
counterpart here). Floating point numbers are a parameter: the proofs use no law of arithmetic.
-/

namespace Brel

/-- The float operations the code uses. -/
structure FloatOps (F : Type) where
  /-- `float(text)`; `none` is `ValueError` -/
  ofStr : String → Option F
  zero : F
  add : F → F → F
  mul : F → F → F
  /-- `a == b` -/
  eq : F → F → Bool
  /-- `a < b` -/
  lt : F → F → Bool

/-- brel/networks/calculation_network_node.py 34-58: concept, weight and children (in order) of a node. -/
inductive CalcTree (F : Type) where
  | node (concept : Concept) (weight : F) (children : List (CalcTree F))

namespace CalcTree
variable {F : Type}

/-- calculation_network_node.py 110-115 (`get_concept`) -/
def concept : CalcTree F → Concept | .node c _ _ => c
/-- calculation_network_node.py 87-91 (`get_weight`) -/
def weight : CalcTree F → F | .node _ w _ => w
/-- calculation_network_node.py 82-85 (`get_children`) -/
def children : CalcTree F → List (CalcTree F) | .node _ _ cs => cs

end CalcTree

variable {F : Type}

/-- calculation_network.py 76-88: the balance of the child is `None`, or contradicts the weight. -/
def balanceConflict (ops : FloatOps F) (parentBalance : String) (child : CalcTree F) : Bool :=
  match child.concept.balance with
  | none => true
  | some b => if parentBalance = b then ops.lt child.weight ops.zero else ops.lt ops.zero child.weight

mutual
/-- calculation_network.py 52-92 (`is_subtree_balance_consistent`). Comparing with the integer 0 is comparing with `ops.zero`. -/
def subtreeBalance (ops : FloatOps F) : CalcTree F → Bool
  | .node c _ chs => match c.balance with
    | none => false
    | some b => childrenBalance ops b chs
/-- calculation_network.py 72-90: the loop over the children. -/
def childrenBalance (ops : FloatOps F) (parentBalance : String) : List (CalcTree F) → Bool
  | [] => true
  | ch :: chs =>
    if balanceConflict ops parentBalance ch then false
    else if !subtreeBalance ops ch then false
    else childrenBalance ops parentBalance chs
end

/-- calculation_network.py 42-100 (`is_balance_consistent`) -/
def isBalanceConsistent (ops : FloatOps F) : List (CalcTree F) → Bool
  | [] => true
  | r :: rs => if !subtreeBalance ops r then false else isBalanceConsistent ops rs

/-- `fact.get_characteristic(aspect) == node_characteristic`, both of which may be `None`. -/
def optCharEq : Option Characteristic → Option Characteristic → Bool
  | some a, some b => a.pyEq b
  | none, none => true
  | _, _ => false

/-- calculation_network.py 151-172: one filter step. -/
def filterAspect (nodeFact : Fact) (childConcept : Concept) (cands : List Fact) (a : Aspect) : Except PyErr (List Fact) :=
  if a.eq .concept then cands.filterM (fun f => do let c ← f.getConcept; return c.eq childConcept)
  else .ok (cands.filter (fun f => optCharEq (f.context.getCharacteristic a) (nodeFact.context.getCharacteristic a)))

/-- calculation_network.py 148-191: the only fact of the child's concept that agrees with the node's fact on all its aspects. -/
def childFact (facts : List Fact) (nodeFact : Fact) (childConcept : Concept) : Except PyErr Fact := do
  let cands ← nodeFact.context.getAspects.foldlM (filterAspect nodeFact childConcept) facts
  match cands with
  | [f] => return f
  | _ => throw .valueError

/-- calculation_network.py 142-193: the weighted sum of the children, from left to right. -/
def childrenSum (ops : FloatOps F) (facts : List Fact) (nodeFact : Fact) : F → List (CalcTree F) → Except PyErr F
  | acc, [] => .ok acc
  | acc, ch :: chs => do
    let f ← childFact facts nodeFact ch.concept
    let x ← f.toFloat ops.ofStr
    childrenSum ops facts nodeFact (ops.add acc (ops.mul x ch.weight)) chs

/-- calculation_network.py 135-213: the loop over the facts of a node; `rest` is the result of the loop over the children
(207-211), which does not depend on the fact. -/
def nodeFactsLoop (ops : FloatOps F) (facts : List Fact) (chs : List (CalcTree F)) (rest : Except PyErr Bool) :
    List Fact → Except PyErr Bool
  | [] => .ok true
  | f :: fs => do
    let v ← f.toFloat ops.ofStr
    let s ← childrenSum ops facts f ops.zero chs
    if !ops.eq v s then return false
    let r ← rest
    if !r then return false
    nodeFactsLoop ops facts chs rest fs

mutual
/-- calculation_network.py 114-213 (`is_subnetwork_aggregation_consistent`) -/
def subtreeAgg (ops : FloatOps F) (facts : List Fact) : CalcTree F → Except PyErr Bool
  | .node c _ chs =>
    if chs.isEmpty then .ok true
    else do
      let nodeFacts ← factsOfConcept facts c.name
      nodeFactsLoop ops facts chs (childrenAgg ops facts chs) nodeFacts
/-- calculation_network.py 207-211 -/
def childrenAgg (ops : FloatOps F) (facts : List Fact) : List (CalcTree F) → Except PyErr Bool
  | [] => .ok true
  | ch :: chs => do
    let r ← subtreeAgg ops facts ch
    if !r then return false
    childrenAgg ops facts chs
end

/-- calculation_network.py 103-223 (`is_aggregation_consistent`) -/
def isAggregationConsistent (ops : FloatOps F) (facts : List Fact) : List (CalcTree F) → Except PyErr Bool
  | [] => .ok true
  | r :: rs => do
    let b ← subtreeAgg ops facts r
    if !b then return false
    isAggregationConsistent ops facts rs

end Brel
