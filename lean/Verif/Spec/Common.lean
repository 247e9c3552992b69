/-!
Small specification vocabulary shared by the property statements. Nothing here refers to the model.
-/

namespace Brel

/-- Keep the first element of every key, in order of first appearance. -/
def firstByKey {α κ : Type} [DecidableEq κ] (k : α → κ) : List α → List α
  | [] => []
  | x :: xs => x :: (firstByKey k xs).filter (fun y => k y ≠ k x)

/-- The distinct elements in order of first appearance. -/
def firstOccurrences {α : Type} [DecidableEq α] (l : List α) : List α := firstByKey id l

/-- The last element of the history with key `i`. -/
def latest {α κ : Type} [DecidableEq κ] (k : α → κ) (hs : List α) (i : κ) : Option α :=
  hs.reverse.find? (fun x => k x = i)

/-- `a` stands somewhere before `b`. -/
def Precedes {α : Type} (a b : α) (l : List α) : Prop := ∃ x y z, l = x ++ a :: (y ++ b :: z)

end Brel
