import Verif.Lemmas.DateTables.Base

/-! Formats 35 to 39 of the table of formats with month names. -/

namespace Brel
open Spec

theorem named_ok_07 : ∀ f ∈ (namedDateFormats.drop 35).take 5, f ∉ unreadFormats → namedCheck (unreadMonths f) f = true := by decide +kernel

end Brel
