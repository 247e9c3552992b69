import Verif.Spec.Link
import Verif.Model.Combine

/-! Specification vocabulary for combined networks: the objects of a network and the relations between them. -/

namespace Brel

/-- Node `i` belongs to the network with these roots. -/
def InNetwork (h : Heap) (roots : List Nat) (i : Nat) : Prop := ∃ r ∈ roots, Reachable h.children r i

/-- The object node `i` stands for. -/
def Heap.targetOf (h : Heap) (i : Nat) : Option Target := (h[i]?).map NetNode.target

/-- The object occurs in the network. -/
def Occurs (h : Heap) (roots : List Nat) (t : Option Target) : Prop := ∃ i, InNetwork h roots i ∧ h.targetOf i = t

/-- In the network, a node for object `u` is a child of a node for object `t`. -/
def Related (h : Heap) (roots : List Nat) (t u : Option Target) : Prop :=
  ∃ i c, InNetwork h roots i ∧ c ∈ h.children i ∧ h.targetOf i = t ∧ h.targetOf c = u

/-- In the network, a child of a node for object `t` has these data (without its own children). -/
def RelatedAs (h : Heap) (roots : List Nat) (t : Option Target) (d : NetNode) : Prop :=
  ∃ i c, InNetwork h roots i ∧ c ∈ h.children i ∧ h.targetOf i = t ∧ (h[c]?).map (fun n => { n with children := [] }) = some d

/-- All nodes and edges lie in the heap. -/
def Heap.Closed (h : Heap) : Prop := ∀ p, ∀ c ∈ h.children p, c < h.length

end Brel
