import Verif.Model.NetworkDict
/-! What it means that a dictionary mirrors a network: going the same way in both, one finds the same things. -/
namespace Brel
namespace Spec

/-- What a node points to must be something its class is made for. -/
def Fits : NodeKind → Target → Prop
  | .presentation, .element _ _ | .calculation, .element _ _ | .definition, .element _ _ => True
  | .label, .element _ _ | .label, .labelResource _ => True
  | .reference, .element _ _ | .reference, .labelResource _ | .reference, .referenceResource _ | .reference, .footnoteResource _ => True
  | .footnote, _ => True
  | _, _ => False

/-- The three things a node can point to. -/
def describe : Target → String
  | .element _ _ => "report element"
  | .fact _ => "fact"
  | .labelResource _ | .referenceResource _ | .footnoteResource _ => "resource"

/-- The node found by going down from node `i`: to the child at the first position, from there to the child at the second position, and so on. -/
def walk (h : Heap) (i : Nat) : List Nat → Option Nat
  | [] => some i
  | k :: way => match (h.children i)[k]? with
    | some c => walk h c way
    | none => none

/-- The dictionary found by going the same way. -/
def walkDict : NodeDict → List Nat → Option NodeDict
  | d, [] => some d
  | .mk _ _ _ _ _ _ cs, k :: way => match cs[k]? with
    | some c => walkDict c way
    | none => none

/-- What the entries of a dictionary must say about a node. -/
structure Says (h : Heap) (names : Nat → NodeNames) (i : Nat) (d : NodeDict) : Prop where
  entries : ∃ n p cs, h[i]? = some n ∧ n.pointsTo = .ok p ∧ cs.length = n.children.length ∧
    d = .mk p n.arcRole ((names i).arcName.pfx ++ ":" ++ (names i).arcName.localName) (names i).linkRole ((names i).linkName.pfx ++ ":" ++ (names i).linkName.localName)
      (if n.kind = .label then 1 else n.order) cs

end Spec
end Brel
