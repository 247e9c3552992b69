import Verif.Model.Repos
import Verif.Spec.Common

/-! Specification vocabulary for the filing queries: when a characteristic is well formed, when a name text denotes an element. -/

namespace Brel

/-- A user-defined dimension. -/
def Characteristic.IsUserDimension (c : Characteristic) : Prop :=
  (∃ d m i, c.value = .explicit d m i) ∨ (∃ d i v, c.value = .typed d i v)

/-- What the parsers build: the four core kinds with their core aspects, and user-defined dimensions with a non-core aspect of
another name. -/
def Characteristic.WellFormed (c : Characteristic) : Prop :=
  (∃ x, c = .ofConcept x) ∨ (∃ x, c = .ofPeriod x) ∨ (∃ i s, c = .ofEntity i s) ∨ (∃ n a b, c = .ofUnit n a b) ∨
  (c.IsUserDimension ∧ c.aspect.core = false ∧ c.aspect.name ∉ ["concept", "period", "entity", "unit"])

/-- `s` is `p:l` with neither part empty and no further colon. -/
def IsPrefixed (s p l : String) : Prop := s = p ++ ":" ++ l ∧ p ≠ "" ∧ l ≠ "" ∧ ':' ∉ p.toList ∧ ':' ∉ l.toList

/-- The name text `s` denotes the name `q`: `prefix:local` must match both parts, any other text is a local name. -/
def Denotes (s : String) (q : QName) : Prop :=
  (∃ p l, IsPrefixed s p l ∧ q.pfx = p ∧ q.localName = l) ∨ ((¬ ∃ p l, IsPrefixed s p l) ∧ q.localName = s)

/-- `e` is the current element of its name after the stores `hs`, the text `s` denotes its name, and if the text has a prefix then
the pair of prefix and namespace of the element was registered (`nh`). -/
def FoundBy (nh : List (String × String)) (hs : List ReportElement) (s : String) (e : ReportElement) : Prop :=
  latest (·.name) hs e.name = some e ∧ Denotes s e.name ∧ ((∃ p l, IsPrefixed s p l) → (e.name.pfx, e.name.uri) ∈ nh)

/-- The fact was built with these characteristics, in this order. -/
def Fact.BuiltFrom (f : Fact) (cs : List Characteristic) : Prop :=
  (∀ c ∈ cs, c.WellFormed) ∧ ∃ i, f.context = cs.foldl Context.add (Context.new i)

end Brel
