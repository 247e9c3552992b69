import Verif.Model.Repos
import Verif.Spec.Common

/-! Specification vocabulary for the repositories. -/

namespace Brel

/-- The rule an operation is about. -/
def RewriteOp.key : RewriteOp → List Char
  | .upsert o _ => o
  | .delete o => o

/-- The replacement the history prescribes for a start string. -/
def currentRule (ops : List RewriteOp) (o : List Char) : Option (List Char) :=
  match latest RewriteOp.key ops o with
  | some (.upsert _ r) => some r
  | _ => none

/-- Of the rules in force, those whose start string begins `uri`. -/
def MatchingRule (ops : List RewriteOp) (uri o r : List Char) : Prop := currentRule ops o = some r ∧ ∃ rest, uri = o ++ rest

end Brel
