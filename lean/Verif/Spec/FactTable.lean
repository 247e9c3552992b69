import Verif.Spec.FactRow
import Verif.Spec.XmlContext

/-! Which documents the properties of the table of facts are about. -/

namespace Brel
open Spec

/-- Dates have at most four and two digits, ids of units contain no colon, and dimensions are named with a prefix. -/
structure PlainTexts (dateOf : String → Option Date) (contexts units : List XNode) : Prop where
  dates : ∀ t d, dateOf t = some d → d.Short
  units : ∀ x ∈ units, ∀ i, x.attr? "id" = some i → ':' ∉ i.toList
  axes : ∀ m ∈ membersOf contexts, ∀ a, m.attr? "dimension" = some a → ':' ∈ a.toList

/-- The columns of a fact without languages: the names of the aspects, `id` and `value`. -/
structure PlainRowShows (f : Fact) (row : Dict String String) : Prop where
  aspects : ∀ a ∈ f.context.getAspects, ∀ c, f.context.getCharacteristic a = some c → ∃ s, Dict.get? row a.name = some s ∧
    match c.value with
    | .concept k => s = k.name.pfx ++ ":" ++ k.name.localName
    | .explicit _ m _ => s = m.pfx ++ ":" ++ m.localName
    | .period p => ShownPeriod p s
    | .entity i sc => s = "{" ++ sc ++ "}" ++ i
    | .unit n _ _ => s = n
    | .typed _ _ v => s = v
  id : Dict.get? row "id" = some (f.id.getD "")
  value : Dict.get? row "value" = some f.value
  only : row.length = f.context.getAspects.length + 2

end Brel
