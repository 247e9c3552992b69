import Verif.Lemmas.DateTables.Base

/-! Formats 75 to 79 of the table of formats with month names. -/

namespace Brel
open Spec

theorem named_ok_15 : ∀ f ∈ (namedDateFormats.drop 75).take 5, f ∉ unreadFormats → namedCheck (unreadMonths f) f = true := by decide +kernel

end Brel
