import Verif.Lemmas.DateTables.Base

/-! Formats 45 to 49 of the table of formats with month names. -/

namespace Brel
open Spec

theorem named_ok_09 : ∀ f ∈ (namedDateFormats.drop 45).take 5, f ∉ unreadFormats → namedCheck (unreadMonths f) f = true := by decide +kernel

end Brel
