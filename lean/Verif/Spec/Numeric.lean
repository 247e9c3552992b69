import Mathlib.Algebra.Field.Rat
import Verif.Spec.FactValue

/-!
What numbers texts denote: the text of an inline fact before the transformation, and the numeral stored after it.
-/

namespace Brel.Spec

/-- Value of a digit, ASCII (U+0030…) or full-width (U+FF10…). -/
def digitValue (c : Char) : Option Nat :=
  if 0x30 ≤ c.toNat ∧ c.toNat ≤ 0x39 then some (c.toNat - 0x30)
  else if 0xFF10 ≤ c.toNat ∧ c.toNat ≤ 0xFF19 then some (c.toNat - 0xFF10)
  else none

/-- The digits of a text; everything else (grouping characters, spaces) is skipped. -/
def digitsOf (s : List Char) : List Nat := s.filterMap digitValue

/-- The natural number with the given decimal digits, most significant first. -/
def natOf (ds : List Nat) : Nat := ds.foldl (fun n d => 10 * n + d) 0

/-- The number with the given digits before and after the decimal mark. -/
def decimalNumber (whole fraction : List Nat) : ℚ := (natOf whole : ℚ) + (natOf fraction : ℚ) / 10 ^ fraction.length

/-- The number written in a text whose decimal mark is `mark`. -/
def written (mark : Char) (t : List Char) : ℚ :=
  decimalNumber (digitsOf (t.takeWhile (· ≠ mark))) (digitsOf (t.dropWhile (· ≠ mark)))

/-- The number written as an amount and hundredths of it, as in "12 dollars 50 cents": the digits in front of the first character
that is neither a digit nor a grouping character are the amount, the digits behind it are the hundredths. -/
def writtenWithUnit (grouping : List Char) (t : List Char) : ℚ :=
  let p := fun c : Char => (digitValue c).isSome || decide (c ∈ grouping)
  (natOf (digitsOf (t.takeWhile p)) : ℚ) + (natOf (digitsOf (t.dropWhile p)) : ℚ) / 100

/-- An ASCII digit. -/
def IsAsciiDigit (c : Char) : Prop := 0x30 ≤ c.toNat ∧ c.toNat ≤ 0x39

instance (c : Char) : Decidable (IsAsciiDigit c) := inferInstanceAs (Decidable (_ ∧ _))

/-- `Numeral s w f`: `s` is the numeral with the integer digits `w` and the fraction digits `f`, `w` or `w.f`. -/
def Numeral (s w f : List Char) : Prop :=
  w ≠ [] ∧ (∀ c ∈ w, IsAsciiDigit c) ∧ (∀ c ∈ f, IsAsciiDigit c) ∧ ((f = [] ∧ s = w) ∨ (f ≠ [] ∧ s = w ++ '.' :: f))

/-- The text is a plain ASCII decimal numeral that denotes `x`. -/
def Denotes (s : List Char) (x : ℚ) : Prop := ∃ w f, Numeral s w f ∧ x = decimalNumber (digitsOf w) (digitsOf f)

/-- The text is a plain numeral without superfluous zeros. -/
def Canonical (s : List Char) : Prop :=
  ∃ w f, Numeral s w f ∧ (w = ['0'] ∨ w.head? ≠ some '0') ∧ f.getLast? ≠ some '0'

/-- The text denotes `x`, where a leading minus sign negates. -/
def SignedDenotes (s : List Char) (x : ℚ) : Prop := Denotes s x ∨ ∃ t, s = '-' :: t ∧ Denotes t (-x)

/-- The texts a decimal format accepts: digits with grouping characters, and optionally the decimal mark with digits and spaces. -/
def DecimalText (mark : Char) (grouping : List Char) (t : List Char) : Prop :=
  ∃ w f, t = w ++ f ∧ (∀ c ∈ w, IsAsciiDigit c ∨ c ∈ grouping) ∧
    (f = [] ∨ ∃ g, f = mark :: g ∧ g ≠ [] ∧ ∀ c ∈ g, IsAsciiDigit c ∨ c = ' ')

/-- The texts a unit format accepts: an amount, a text without digits that begins with a character that is not a grouping
character, `n` digits, and a text without digits. -/
def UnitText (grouping : List Char) (n : Nat) (t : List Char) : Prop :=
  ∃ w x u m r, t = w ++ x :: u ++ m ++ r ∧ w ≠ [] ∧ (∀ c ∈ w, (digitValue c).isSome ∨ c ∈ grouping) ∧
    digitValue x = none ∧ x ∉ grouping ∧ (∀ c ∈ u, digitValue c = none) ∧
    m.length = n ∧ (∀ c ∈ m, (digitValue c).isSome) ∧ (∀ c ∈ r, digitValue c = none)

/-- `t` is the text without the white space around it. -/
def Trimmed (text t : List Char) : Prop :=
  ∃ l r, text = l ++ t ++ r ∧ (∀ c ∈ l, pySpace c = true) ∧ (∀ c ∈ r, pySpace c = true) ∧
    (∀ c, t.head? = some c → pySpace c = false) ∧ (∀ c, t.getLast? = some c → pySpace c = false)

/-- The decimal formats of the transformation registry: name, decimal mark, grouping characters. -/
def decimalFormats : List (String × Char × List Char) :=
  [("ixt:num-comma-decimal", ',', ['.', ' ']), ("ixt:num-dot-decimal", '.', [',', ' ']),
   ("ixt:num-comma-decimal-apos", ',', ['.', ' ', '\'', '`', '´', '’', '′']),
   ("ixt:num-dot-decimal-apos", '.', [',', ' ', '\'', '`', '´', '’', '′'])]

/-- The formats that name units: name, grouping characters. -/
def unitFormats : List (String × List Char) :=
  [("ixt:num-unit-decimal", ['.', ',', '，']), ("ixt:num-unit-decimal-apos", ['.', ',', '，', '\'', '`', '´', '’', '′', '＇'])]

/-- Names of earlier versions of the registry with the formats they now have. -/
def earlierNames : List (String × String) :=
  [("ixt:numcommadecimal", "ixt:num-comma-decimal"), ("ixt:numdotdecimal", "ixt:num-dot-decimal"),
   ("ixt:numdotdecimalin", "ixt:num-dot-decimal"), ("ixt:numunitdecimal", "ixt:num-unit-decimal"),
   ("ixt:numunitdecimalin", "ixt:num-unit-decimal"), ("ixt:numcomma", "ixt:num-comma-decimal"),
   ("ixt:numcommadot", "ixt:num-dot-decimal"), ("ixt:numdotcomma", "ixt:num-comma-decimal"),
   ("ixt:numspacecomma", "ixt:num-comma-decimal"), ("ixt:numspacedot", "ixt:num-dot-decimal")]

/-- Names of earlier versions of the registry for texts that stand for zero. -/
def earlierZeroNames : List String := ["ixt:zerodash", "ixt:numdash"]

/-- The names of formats that are known: the current ones and the earlier ones. -/
def knownNames : List String := "ixt:fixed-zero" :: (decimalFormats.map (·.1) ++ unitFormats.map (·.1) ++ earlierNames.map (·.1))

end Brel.Spec
