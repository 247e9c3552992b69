import Verif.Model.Network

/-! Specification vocabulary for networks. -/

namespace Brel

/-- There is a path of `n` edges from `a` to `b`. -/
inductive Path (ch : Nat → List Nat) : Nat → Nat → Nat → Prop where
  | refl (a) : Path ch a a 0
  | step {a b c n} : b ∈ ch a → Path ch b c n → Path ch a c (n + 1)

/-- `b` can be reached from `a`. -/
def Reachable (ch : Nat → List Nat) (a b : Nat) : Prop := ∃ n, Path ch a b n

/-- Nothing below `a` lies on a cycle: the lengths of the paths from `a` are bounded. -/
def AcyclicFrom (ch : Nat → List Nat) (a : Nat) : Prop := ∃ d, ∀ b n, Path ch a b n → n < d

/-- What a sequence of insertions makes of a list of children. -/
structure ChildrenSpec (order : Nat → Rat) (added children : List Nat) : Prop where
  perm : children.Perm added
  sorted : children.Pairwise (fun a b => order a ≤ order b)
  stable : ∀ o : Rat, children.filter (fun c => decide (order c = o)) = added.filter (fun c => decide (order c = o))

/-- The children added to `p`, in the order of the insertions. -/
def addedTo (p : Nat) (ops : List (Nat × Nat)) : List Nat := (ops.filter (fun o => decide (o.1 = p))).map (·.2)

end Brel
