import Verif.Lemmas.DateTables.Base

/-! Formats 40 to 44 of the table of formats with month names. -/

namespace Brel
open Spec

theorem named_ok_08 : ∀ f ∈ (namedDateFormats.drop 40).take 5, f ∉ unreadFormats → namedCheck (unreadMonths f) f = true := by decide +kernel

end Brel
