import Verif.Model.Numeric

/-!
Model of the date half of `brel/parsers/XHMTL/xhtml_parse_transformation_registry.py` (604-871) and of
`parse_non_numerical_fact_value` (1043-1084). The tables are in `Model/FormatTables.lean`.
Simplifications: as in `Model/Numeric.lean`; `datetime.date.fromisoformat` is modelled on the texts `y-m-d` that reach it.
The library `convertdate.indian_civil` is not modelled: the call is never reached, because the year is missing from the
dictionary that is passed (715-718).
-/

namespace Brel

/-- Number of capture groups of a pattern. -/
def Re.groups : Re → Nat
  | .rep _ _ _ => 0
  | .lits _ => 0
  | .alt a b => a.groups + b.groups
  | .opt a => a.groups
  | .seq a b => a.groups + b.groups
  | .grp _ a => a.groups + 1

/-- `match.group(i)`: `IndexError` when the pattern has no such group. -/
def matchGroup (r : Re) (m : Caps) (i : Nat) : Except PyErr (Option (List Char)) :=
  if i ≤ r.groups then .ok (m.group i) else .error .indexError

/-- `str.lower` on one character (see `lowerPairs`). -/
def pyLowerChar (c : Char) : Char := ((lowerPairs.find? (fun p => p.1 = c)).map (·.2)).getD c

/-- `s.lower()` -/
def pyLower (s : List Char) : List Char := s.map pyLowerChar

/-- `"{:02n}".format(n)` for `n ≥ 0` -/
def pad2 (n : Nat) : List Char := let s := (toString n).toList; if s.length < 2 then '0' :: s else s

/-- `int(s)` where the text is followed by a use of the number; a negative number does not occur. -/
def intOf (dig : Char → Option Nat) (s : List Char) : Except PyErr Nat :=
  match pyInt dig s with
  | some n => .ok n.toNat
  | none => .error .valueError

/-- xhtml_parse_transformation_registry.py 635-642: the parts in the order of the groups. -/
def dateOrder (format : String) (isRecurring isFull : Bool) : List DatePart :=
  match irregularDateOrder.get? format with
  | some o => o
  | none => (if isRecurring || isFull then [.day] else []) ++ [.month] ++ (if isRecurring then [] else [.year])

/-- xhtml_parse_transformation_registry.py 632-649 (`parse_date_match`) -/
def parseDateMatch (r : Re) (m : Caps) (order : List DatePart) : Except PyErr (Dict DatePart (Option (List Char))) :=
  (order.zipIdx 1).foldlM (fun (d : Dict DatePart (Option (List Char))) p => (matchGroup r m p.2).map (fun g => d.set p.1 g)) []

/-- xhtml_parse_transformation_registry.py 652-661 (`convert_japanese_imperial_date_to_gregorian`) -/
def convertJapanese (dig : Char → Option Nat) (d : Dict DatePart (List Char)) : Except PyErr (Dict DatePart (List Char)) := do
  let era ← (d.get? .era).elim (.error .keyError) .ok
  let period ← (japaneseEras.get? (String.ofList era)).elim (.error .keyError) .ok
  let year ← (d.get? .year).elim (.error .keyError) .ok
  let offset ← if year = ['元'] then .ok 1 else intOf dig year
  .ok (d.set .year (toString (period.1.1 + offset - 1)).toList)

/-- xhtml_parse_transformation_registry.py 703-706: the key of the table of month names. -/
def monthCountry (format : String) : Option String :=
  let s := format.toList
  let country := if (s.drop (s.length - 3)).head? = some '-' then some (String.ofList (s.drop (s.length - 2))) else none
  if country = none ∧ isInfix "monthroman".toList s then some "roman" else country

/-- xhtml_parse_transformation_registry.py 710-714: position of the first list of names with the month. -/
def monthIndex (names : List (List (List Char))) (w : List Char) : Option Nat := names.findIdx? (fun l => l.any (fun n => n = w))

/-- xhtml_parse_transformation_registry.py 688: one part with normalised digits; a group that did not take part makes
`normalize_digits_in_string(None)` raise `TypeError`. -/
def normalizePart (p : DatePart × Option (List Char)) : Except PyErr (DatePart × List Char) :=
  match p.2 with
  | some v => .ok (p.1, normalizeDigits v)
  | none => .error .typeError

/-- xhtml_parse_transformation_registry.py 687-728 (`normalize_date_parts`). For the Indian format, `int(date_parts["year"])` (673) raises `KeyError`. -/
def normalizeDateParts (dig : Char → Option Nat) (parts : Dict DatePart (Option (List Char))) (format : String) :
    Except PyErr (Dict DatePart (List Char)) := do
  let d : Dict DatePart (List Char) ← parts.mapM normalizePart
  let d ← if isInfix "jpn".toList format.toList then convertJapanese dig d else .ok d
  let n : Dict DatePart (List Char) ← match d.get? .day with
    | some v => (intOf dig v).map (fun k => [(DatePart.day, pad2 k)])
    | none => .ok []
  let n : Dict DatePart (List Char) ← match d.get? .month with
    | some v =>
      match monthNames.get? (monthCountry format) with
      | none => .error .keyError
      | some names => .ok (match monthIndex names (pyLower v) with
        | some i => n.set .month (pad2 (i + 1))
        | none => n)
    | none => .ok n
  match d.get? .year with
  | some y =>
    if format = "ixt:date-ind-day-monthname-year-hi" then .error .keyError
    else if y.length = 2 then .ok (n.set .year ("20".toList ++ y))
    else if y.length = 1 then .ok (n.set .year ("200".toList ++ y))
    else .ok (n.set .year y)
  | none => .ok n

/-- Length of a month of the proleptic Gregorian calendar. -/
def daysInMonth (y m : Nat) : Nat :=
  if m = 2 then (if y % 4 = 0 ∧ (y % 100 ≠ 0 ∨ y % 400 = 0) then 29 else 28)
  else if m = 4 ∨ m = 6 ∨ m = 9 ∨ m = 11 then 30 else 31

/-- The number of a text of ASCII digits. -/
def digitsNat (s : List Char) : Option Nat :=
  if s.all (fun c => decide (48 ≤ c.toNat) && decide (c.toNat ≤ 57)) then some (digitsVal (s.map (fun c => c.toNat - 48))) else none

/-- Whether `datetime.date.fromisoformat(f"{y}-{m}-{d}")` succeeds. -/
def isoDateOk (y m d : List Char) : Bool :=
  match digitsNat y, digitsNat m, digitsNat d with
  | some ny, some nm, some nd => decide (y.length = 4) && decide (m.length = 2) && decide (d.length = 2) &&
      decide (1 ≤ ny) && decide (1 ≤ nm) && decide (nm ≤ 12) && decide (1 ≤ nd) && decide (nd ≤ daysInMonth ny nm)
  | _, _, _ => false

/-- `date_parts[k]` -/
def datePart (d : Dict DatePart (List Char)) (k : DatePart) : Except PyErr (List Char) := (d.get? k).elim (.error .keyError) .ok

/-- xhtml_parse_transformation_registry.py 762-808 (`validate_date_fact_value`): the reported errors.
The check of the era (803-807) is left out: `normalize_date_parts` never returns an era. -/
def validateDate (d : Dict DatePart (List Char)) (isRecurring isFull : Bool) : Except PyErr ErrNames := do
  let e1 : ErrNames :=
    if isRecurring then
      (if d.has .year then ["YEAR_PRESENT_IN_RECURRING_DATE"] else []) ++
      (if !d.has .month || !d.has .day then ["MONTH_OR_DAY_NOT_PRESENT_IN_RECURRING_DATE"] else [])
    else if !d.has .year || !d.has .month then ["YEAR_OR_MONTH_NOT_PRESENT_IN_NON_RECURRING_DATE"] else []
  let e2 : ErrNames := if isFull && !d.has .day then ["DAY_NOT_PRESENT_IN_FULL_DATE"] else []
  let y ← if isRecurring then .ok "2020".toList else datePart d .year
  let m ← datePart d .month
  let dd ← if isFull then datePart d .day else .ok "01".toList
  let e3 : ErrNames := if isoDateOk y m dd then [] else ["INVALID_GREGORIAN_DATE"]
  .ok (e1 ++ e2 ++ e3)

/-- xhtml_parse_transformation_registry.py 810-847 (`parse_date_fact_value`): the value and the reported errors. -/
def parseDate (dig : Char → Option Nat) (text : List Char) (format : String) : Except PyErr (List Char × ErrNames) :=
  let text := pyStrip text
  let hasDay := isInfix "day".toList format.toList
  let hasYear := isInfix "year".toList format.toList
  let isFull := hasDay && hasYear
  let isRecurring := hasDay && !hasYear
  match dateFormats.get? format with
  | none => .ok (text, ["UNSUPPORTED_DATE_FORMAT"])
  | some r =>
    match r.fullMatch text with
    | none => .ok (text, ["DATE_DOES_NOT_MATCH_EXPECTED_FORMAT"])
    | some m => do
      let parts ← parseDateMatch r m (dateOrder format isRecurring isFull)
      let d ← normalizeDateParts dig parts format
      let errs ← validateDate d isRecurring isFull
      if isFull then
        let y ← datePart d .year
        let mo ← datePart d .month
        let dd ← datePart d .day
        .ok (y ++ '-' :: mo ++ '-' :: dd, errs)
      else if isRecurring then
        let mo ← datePart d .month
        let dd ← datePart d .day
        .ok ('-' :: '-' :: mo ++ '-' :: dd, errs)
      else
        let y ← datePart d .year
        let mo ← datePart d .month
        .ok (y ++ '-' :: mo, errs)

/-- xhtml_parse_transformation_registry.py 850-871 (`parse_literal_fact_value`) -/
def parseLiteral (text : List Char) (format : String) : List Char × ErrNames :=
  if format = "ixt:fixed-empty" then ([], [])
  else if format = "ixt:fixed-false" then ("false".toList, [])
  else if format = "ixt:fixed-true" then ("true".toList, [])
  else if format = "ixt:fixed-zero" then ("0".toList, [])
  else (text, ["UNSUPPORTED_LITERAL_FACT_FORMAT"])

/-- xhtml_parse_transformation_registry.py 1043-1084 (`parse_non_numerical_fact_value`) -/
def parseNonNumerical (dig : Char → Option Nat) (text : List Char) (format : Option String) : Except PyErr (List Char × ErrNames) :=
  match truthy format with
  | none => .ok (text, [])
  | some format =>
    let format := (legacyFormats.get? format).getD format
    if startsWith format.toList "ixt:num".toList || format = "ixt:fixed-zero" then .ok (text, ["UNSUPPORTED_NON_NUMERIC_FACT_FORMAT"])
    else if startsWith format.toList "ixt:date".toList then
      if format = "ixt:datedaymonthyearin" then do
        let r1 ← parseDate dig text "ixt:date-day-month-year"
        let r2 ← parseDate dig text "ixt:date-day-monthname-year-hi"
        .ok (if r1.1 ≠ [] then r1.1 else r2.1, r1.2 ++ r2.2)
      else parseDate dig text format
    else .ok (parseLiteral text format)

end Brel
