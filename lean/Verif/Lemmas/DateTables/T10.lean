import Verif.Lemmas.DateTables.Base

/-! Formats 50 to 54 of the table of formats with month names. -/

namespace Brel
open Spec

theorem named_ok_10 : ∀ f ∈ (namedDateFormats.drop 50).take 5, f ∉ unreadFormats → namedCheck (unreadMonths f) f = true := by decide +kernel

end Brel
