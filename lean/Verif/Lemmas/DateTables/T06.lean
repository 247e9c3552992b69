import Verif.Lemmas.DateTables.Base

/-! Formats 30 to 34 of the table of formats with month names. -/

namespace Brel
open Spec

theorem named_ok_06 : ∀ f ∈ (namedDateFormats.drop 30).take 5, f ∉ unreadFormats → namedCheck (unreadMonths f) f = true := by decide +kernel

end Brel
