import Verif.Model.InlineContent

/-! Specification of the content of inline facts and of continuation chains. -/

namespace Brel.Spec

mutual
/-- The text of an element in document order, without what is inside `ix:exclude`; without the tail. -/
def visibleText : Elem → List Char
  | .mk _ _ t _ kids => t.getD [] ++ visibleKids kids

/-- The text of children and of what follows each of them. -/
def visibleKids : List Elem → List Char
  | [] => []
  | c :: cs => (if c.name = "ix:exclude" then [] else visibleText c) ++ c.tail.getD [] ++ visibleKids cs
end

mutual
/-- All characters in the texts and tails of an element and its descendants meet `p`. -/
def allText (p : Char → Prop) : Elem → Prop
  | .mk _ _ t tl kids => (∀ c ∈ t.getD [], p c) ∧ (∀ c ∈ tl.getD [], p c) ∧ allTextKids p kids

/-- All characters in the texts of the elements meet `p`. -/
def allTextKids (p : Char → Prop) : List Elem → Prop
  | [] => True
  | c :: cs => allText p c ∧ allTextKids p cs
end

/-- `b` is the id that the continuation with id `a` continues at. -/
def Continues (idx : String → Option ContElem) (a b : String) : Prop := ∃ c, idx a = some c ∧ c.continuedAt = some b

/-- `Path idx start cs`: following `continuedAt` from `start` visits the continuations `cs` and then ends, because the last one has no `continuedAt` or an unknown one. -/
inductive Path (idx : String → Option ContElem) : Option String → List ContElem → Prop
  | done : Path idx none []
  | unknown {i} : idx i = none → Path idx (some i) []
  | step {i c cs} : idx i = some c → Path idx c.continuedAt cs → Path idx (some i) (c :: cs)

/-- `Visits idx a n b`: following `continuedAt` `n` times leads from the id `a` to the id `b`. -/
inductive Visits (idx : String → Option ContElem) : String → Nat → String → Prop
  | zero {a} : Visits idx a 0 a
  | succ {a b c n} : Continues idx a b → Visits idx b n c → Visits idx a (n + 1) c

/-- The continuations do not form a circle. -/
def NoCircle (idx : String → Option ContElem) : Prop := ∀ a n, ¬ Visits idx a (n + 1) a

/-- The continuation that an id stands for: the last one with that id. -/
def continuationOf (cs : List ContElem) (i : String) : Option ContElem := (cs.filter (fun c => c.id = some i)).getLast?

end Brel.Spec
