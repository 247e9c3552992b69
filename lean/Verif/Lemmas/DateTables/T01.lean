import Verif.Lemmas.DateTables.Base

/-! Formats 5 to 9 of the table of formats with month names. -/

namespace Brel
open Spec

theorem named_ok_01 : ∀ f ∈ (namedDateFormats.drop 5).take 5, f ∉ unreadFormats → namedCheck (unreadMonths f) f = true := by decide +kernel

end Brel
