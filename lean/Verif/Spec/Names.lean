import Verif.Model.Names
import Verif.Spec.Common

/-! Specification vocabulary for name texts. -/

namespace Brel

/-- The two parts of a text `{uri}local` that can be told apart: neither is empty, no closing brace in the URI, no opening brace in
the local name. -/
def IsClark (uri loc : String) : Prop := uri ≠ "" ∧ loc ≠ "" ∧ '}' ∉ uri.toList ∧ '{' ∉ loc.toList

/-- In the scope, the prefix is the one declared last for the namespace. -/
def LastPrefixOf (ns : NsMap) (p : Option String) (uri : String) : Prop :=
  ∃ pre post, ns = pre ++ (p, uri) :: post ∧ ∀ e ∈ post, e.2 ≠ uri

end Brel
