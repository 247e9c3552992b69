import Verif.Model.Edgar
import Verif.Spec.Dates

/-! Filings listed by EDGAR, and which of them is asked for. -/

namespace Brel

/-- One filing of the list. -/
structure EdgarEntry where
  form : String
  isXBRL : String
  reportDate : String
  accession : String
  document : String
  deriving DecidableEq

/-- The list as EDGAR sends it: one list for each column. -/
def Recent.of (es : List EdgarEntry) : Recent :=
  ⟨es.map (·.form), es.map (·.isXBRL), es.map (·.reportDate), es.map (·.accession), es.map (·.document)⟩

/-- The filing is one of those asked for: an XBRL filing of this type and, if a date is given, for this report date. -/
structure EdgarEntry.Wanted (e : EdgarEntry) (type : String) (date : Option String) : Prop where
  form : e.form = type
  xbrl : e.isXBRL = "1"
  date : ∀ d, date = some d → e.reportDate = d

/-- The date as EDGAR writes it. -/
def dayText (y m d : Nat) : String := String.ofList (Spec.fourDigits y ++ ['-'] ++ Spec.twoDigits m ++ ['-'] ++ Spec.twoDigits d)

/-- The text is a date, of a year of four digits. -/
def IsDay (t : String) (y m d : Nat) : Prop := y < 10000 ∧ m < 100 ∧ d < 100 ∧ t = dayText y m d

/-- The first date is before the second. -/
def DayBefore (y m d y' m' d' : Nat) : Prop := y < y' ∨ y = y' ∧ (m < m' ∨ m = m' ∧ d < d')

/-- The filing `e` was made for an earlier date than `e'`. -/
def EdgarEntry.Before (e e' : EdgarEntry) : Prop := ∃ y m d y' m' d', IsDay e.reportDate y m d ∧ IsDay e'.reportDate y' m' d' ∧ DayBefore y m d y' m' d'

/-- The directory of a filing on the server: the number of the company with ten digits, the accession number without dashes. -/
def filingDir (cik : String) (e : EdgarEntry) : String :=
  "https://www.sec.gov/Archives/edgar/data/" ++ String.ofList (List.replicate (10 - cik.length) '0') ++ cik ++ "/" ++ String.ofList (e.accession.toList.filter (· ≠ '-')) ++ "/"

/-- The document that is opened: the main document; in place of a web page `x.htm` the data extracted from it, `x_htm.xml`. -/
def OpensDocument (cik : String) (e : EdgarEntry) (uri : String) : Prop :=
  (¬ ".htm".toList <:+ e.document.toList ∧ uri = filingDir cik e ++ e.document) ∨
  ∃ x, e.document = x ++ ".htm" ∧ uri = filingDir cik e ++ x ++ "_htm.xml"

end Brel
