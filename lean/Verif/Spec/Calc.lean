import Verif.Model.Calc

/-! Specification vocabulary for the checks on calculation networks. -/

namespace Brel
variable {F : Type}

/-- `n` is a node of the network with roots `ts`. -/
inductive InForest : List (CalcTree F) → CalcTree F → Prop where
  | root {ts t} : t ∈ ts → InForest ts t
  | child {ts n m} : InForest ts n → m ∈ n.children → InForest ts m

/-- The fact has a concept, and it is `c`. -/
def Fact.HasConcept (f : Fact) (c : Concept) : Prop := f.getConcept = .ok c ∧ f.context.hasCharacteristic .concept = true

/-- `g` is a fact for concept `c` that agrees with `f` on every other aspect of `f`. -/
def Matches (f : Fact) (c : Concept) (g : Fact) : Prop :=
  (∃ k, g.getConcept = .ok k ∧ k.name = c.name) ∧
  ∀ a ∈ f.context.getAspects, a.name ≠ "concept" → optCharEq (g.context.getCharacteristic a) (f.context.getCharacteristic a) = true

/-- `g` is the only entry of the list that matches. -/
def UniqueMatch (facts : List Fact) (f : Fact) (c : Concept) (g : Fact) : Prop :=
  ∃ pre post, facts = pre ++ g :: post ∧ Matches f c g ∧ ∀ h ∈ pre ++ post, ¬ Matches f c h

/-- Starting from `acc`, adding value times weight of the matching fact of every child gives `s`. -/
inductive WeightedSum (ops : FloatOps F) (facts : List Fact) (f : Fact) : F → List (CalcTree F) → F → Prop where
  | nil (acc) : WeightedSum ops facts f acc [] acc
  | cons {acc ch chs g x s} : UniqueMatch facts f ch.concept g → ops.ofStr g.value = some x →
      WeightedSum ops facts f (ops.add acc (ops.mul x ch.weight)) chs s → WeightedSum ops facts f acc (ch :: chs) s

/-- The sums of an inner node are right for every fact of its concept. -/
def SumsHold (ops : FloatOps F) (facts : List Fact) (n : CalcTree F) : Prop :=
  n.children ≠ [] → ∀ f ∈ facts, (∃ k, f.HasConcept k ∧ k.name = n.concept.name) →
    ∃ v s, ops.ofStr f.value = some v ∧ WeightedSum ops facts f ops.zero n.children s ∧ ops.eq v s = true

/-- Some fact reports the concept of the node. -/
def Reported (facts : List Fact) (n : CalcTree F) : Prop := ∃ f ∈ facts, ∃ k, f.HasConcept k ∧ k.name = n.concept.name

/-- `n` is a node all of whose proper ancestors (on some path from a root) are reported. -/
inductive ReachedThroughReported (facts : List Fact) : List (CalcTree F) → CalcTree F → Prop where
  | root {ts t} : t ∈ ts → ReachedThroughReported facts ts t
  | child {ts n m} : ReachedThroughReported facts ts n → Reported facts n → m ∈ n.children → ReachedThroughReported facts ts m

end Brel
