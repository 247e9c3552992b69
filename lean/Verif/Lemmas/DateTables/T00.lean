import Verif.Lemmas.DateTables.Base

/-! Formats 0 to 4 of the table of formats with month names. -/

namespace Brel
open Spec

theorem named_ok_00 : ∀ f ∈ (namedDateFormats.drop 0).take 5, f ∉ unreadFormats → namedCheck (unreadMonths f) f = true := by decide +kernel

end Brel
