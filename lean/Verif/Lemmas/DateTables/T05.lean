import Verif.Lemmas.DateTables.Base

/-! Formats 25 to 29 of the table of formats with month names. -/

namespace Brel
open Spec

theorem named_ok_05 : ∀ f ∈ (namedDateFormats.drop 25).take 5, f ∉ unreadFormats → namedCheck (unreadMonths f) f = true := by decide +kernel

end Brel
