import Verif.Lemmas.DateCheck

/-! Exceptions in the tables of the date formats. -/

namespace Brel
open Spec

/-- The months whose names a format does not read, or reads as another month (see `C32_german_false`, `C32_lithuanian_false`, `C32_dutch_false`). -/
def unreadMonths (fmt : String) : List Nat :=
  if languageOf fmt = chars! "de" then [3, 5, 12]
  else if languageOf fmt = chars! "lt" then [9, 10, 11, 12]
  else if languageOf fmt = chars! "nl" then [4, 5, 6, 7, 8, 9, 10, 11, 12]
  else []

/-- The formats whose pattern has too few groups (see `C32_slovenian_false`). -/
def unreadFormats : List String := ["ixt:date-day-monthname-sl", "ixt:date-day-monthname-year-sl"]

end Brel
