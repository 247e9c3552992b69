import Verif.Model.Filing
/-! `==` and `str` of contexts and periods; `==` of characteristics is `Characteristic.pyEq`, of concepts `Concept.eq`. -/
namespace Brel

/-- The decimal digit of `n` at position `k`, counted from the right. -/
def decimalDigit (n k : Nat) : Char := Char.ofNat (48 + n / 10 ^ k % 10)

/-- `str` of a `datetime.date`: year with four digits, month and day with two (`isoformat`; years are below 10000). -/
def Date.text (d : Date) : List Char :=
  [decimalDigit d.year 3, decimalDigit d.year 2, decimalDigit d.year 1, decimalDigit d.year 0, '-', decimalDigit d.month 1, decimalDigit d.month 0, '-', decimalDigit d.day 1, decimalDigit d.day 0]

/-- period_characteristic.py 104-108 (`__str__`) -/
def Period.text : Period → List Char
  | .instant d => d.text
  | .duration s e => s.text ++ '/' :: e.text

/-- period_characteristic.py 110-114 (`__eq__`): the texts are compared. -/
def Period.pyEq (p q : Period) : Bool := p.text = q.text

/-- brel/brel_context.py 191-196 (`__eq__`): only the ids are compared. -/
def Context.pyEq (a b : Context) : Bool := a.id = b.id

end Brel
