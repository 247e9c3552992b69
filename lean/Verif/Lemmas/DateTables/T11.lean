import Verif.Lemmas.DateTables.Base

/-! Formats 55 to 59 of the table of formats with month names. -/

namespace Brel
open Spec

theorem named_ok_11 : ∀ f ∈ (namedDateFormats.drop 55).take 5, f ∉ unreadFormats → namedCheck (unreadMonths f) f = true := by decide +kernel

end Brel
