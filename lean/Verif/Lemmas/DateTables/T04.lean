import Verif.Lemmas.DateTables.Base

/-! Formats 20 to 24 of the table of formats with month names. -/

namespace Brel
open Spec

theorem named_ok_04 : ∀ f ∈ (namedDateFormats.drop 20).take 5, f ∉ unreadFormats → namedCheck (unreadMonths f) f = true := by decide +kernel

end Brel
