import Verif.Lemmas.DateTables.Base

/-! Formats 70 to 74 of the table of formats with month names. -/

namespace Brel
open Spec

theorem named_ok_14 : ∀ f ∈ (namedDateFormats.drop 70).take 5, f ∉ unreadFormats → namedCheck (unreadMonths f) f = true := by decide +kernel

end Brel
