import Verif.Model.FactValue

/-! The texts that denote integers and booleans, given as grammars. -/

namespace Brel

/-- What is assumed of the table of decimal digits: values below ten, and no digit is a space, a sign or an underscore. -/
structure DigitTable (dig : Char → Option Nat) : Prop where
  notSpace : ∀ c d, dig c = some d → pySpace c = false
  notSign : ∀ c d, dig c = some d → c ≠ '-' ∧ c ≠ '+' ∧ c ≠ '_'
  lt : ∀ c d, dig c = some d → d < 10

/-- The ASCII digits. -/
def asciiDigit (c : Char) : Option Nat := if '0' ≤ c ∧ c ≤ '9' then some (c.toNat - 48) else none

/-- Digits, optionally with one underscore between neighbours. -/
inductive DigitText (dig : Char → Option Nat) : List Char → List Nat → Prop
  | one {c d} : dig c = some d → DigitText dig [c] [d]
  | more {c d cs ds} : dig c = some d → DigitText dig cs ds → DigitText dig (c :: cs) (d :: ds)
  | under {c d cs ds} : dig c = some d → DigitText dig cs ds → DigitText dig (c :: '_' :: cs) (d :: ds)

/-- The value of a decimal digit list: the sum of `d · 10^position`. -/
def decimalValue : List Nat → Nat
  | [] => 0
  | d :: ds => d * 10 ^ ds.length + decimalValue ds

/-- `s` denotes the integer `n`: spaces, an optional sign, digits, spaces, and not too many digits for CPython. -/
def IntText (dig : Char → Option Nat) (s : List Char) (n : Int) : Prop :=
  ∃ l sgn body r ds, s = l ++ (sgn ++ body) ++ r ∧ (∀ c ∈ l, pySpace c = true) ∧ (∀ c ∈ r, pySpace c = true) ∧
    DigitText dig body ds ∧ ds.length ≤ 4300 ∧
    ((sgn = [] ∧ n = decimalValue ds) ∨ (sgn = ['+'] ∧ n = decimalValue ds) ∨ (sgn = ['-'] ∧ n = - (decimalValue ds : Int)))

/-- `s` denotes a truth value: the English word in any letter case (U+017F counts as a letter S). -/
def BoolText (s : List Char) (b : Bool) : Prop :=
  ∃ c1 c2 c3 c4 : Char,
    (b = true ∧ s = [c1, c2, c3, c4] ∧ (c1 = 't' ∨ c1 = 'T') ∧ (c2 = 'r' ∨ c2 = 'R') ∧ (c3 = 'u' ∨ c3 = 'U') ∧
      (c4 = 'e' ∨ c4 = 'E')) ∨
    (b = false ∧ ∃ c5, s = [c1, c2, c3, c4, c5] ∧ (c1 = 'f' ∨ c1 = 'F') ∧ (c2 = 'a' ∨ c2 = 'A') ∧ (c3 = 'l' ∨ c3 = 'L') ∧
      (c4 = 's' ∨ c4 = 'S' ∨ c4 = 'ſ') ∧ (c5 = 'e' ∨ c5 = 'E'))

/-- What kind of value an item type of XBRL 2.1 holds. -/
inductive ValueKind where
  | integer | number | boolean | text
  deriving DecidableEq, Repr

/-- The item types of the XBRL 2.1 instance schema, except `fractionItemType` (which has no text value), each with the kind of
value its XML Schema base type has. -/
def xbrlItemTypes : List (String × ValueKind) :=
  [("decimalItemType", .number), ("floatItemType", .number), ("doubleItemType", .number), ("monetaryItemType", .number),
   ("sharesItemType", .number), ("pureItemType", .number),
   ("integerItemType", .integer), ("nonPositiveIntegerItemType", .integer), ("negativeIntegerItemType", .integer),
   ("longItemType", .integer), ("intItemType", .integer), ("shortItemType", .integer), ("byteItemType", .integer),
   ("nonNegativeIntegerItemType", .integer), ("unsignedLongItemType", .integer), ("unsignedIntItemType", .integer),
   ("unsignedShortItemType", .integer), ("unsignedByteItemType", .integer), ("positiveIntegerItemType", .integer),
   ("booleanItemType", .boolean),
   ("stringItemType", .text), ("hexBinaryItemType", .text), ("base64BinaryItemType", .text), ("anyURIItemType", .text),
   ("QNameItemType", .text), ("durationItemType", .text), ("dateTimeItemType", .text), ("timeItemType", .text),
   ("dateItemType", .text), ("gYearMonthItemType", .text), ("gYearItemType", .text), ("gMonthDayItemType", .text),
   ("gDayItemType", .text), ("gMonthItemType", .text), ("normalizedStringItemType", .text), ("tokenItemType", .text),
   ("languageItemType", .text), ("NameItemType", .text), ("NCNameItemType", .text)]

end Brel
