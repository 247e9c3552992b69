import Verif.Lemmas.DateTables.Base

/-! Formats 10 to 14 of the table of formats with month names. -/

namespace Brel
open Spec

theorem named_ok_02 : ∀ f ∈ (namedDateFormats.drop 10).take 5, f ∉ unreadFormats → namedCheck (unreadMonths f) f = true := by decide +kernel

end Brel
