import Verif.Lemmas.DateTables.Base

/-! Formats 60 to 64 of the table of formats with month names. -/

namespace Brel
open Spec

theorem named_ok_12 : ∀ f ∈ (namedDateFormats.drop 60).take 5, f ∉ unreadFormats → namedCheck (unreadMonths f) f = true := by decide +kernel

end Brel
