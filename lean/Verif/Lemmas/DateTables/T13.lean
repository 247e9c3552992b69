import Verif.Lemmas.DateTables.Base

/-! Formats 65 to 69 of the table of formats with month names. -/

namespace Brel
open Spec

theorem named_ok_13 : ∀ f ∈ (namedDateFormats.drop 65).take 5, f ∉ unreadFormats → namedCheck (unreadMonths f) f = true := by decide +kernel

end Brel
