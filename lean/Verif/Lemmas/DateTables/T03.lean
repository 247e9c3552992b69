import Verif.Lemmas.DateTables.Base

/-! Formats 15 to 19 of the table of formats with month names. -/

namespace Brel
open Spec

theorem named_ok_03 : ∀ f ∈ (namedDateFormats.drop 15).take 5, f ∉ unreadFormats → namedCheck (unreadMonths f) f = true := by decide +kernel

end Brel
