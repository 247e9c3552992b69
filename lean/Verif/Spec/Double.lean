import Mathlib.Algebra.Order.Field.Rat
import Mathlib.Algebra.Order.AbsoluteValue.Basic
import Verif.Model.Double
import Verif.Spec.FactValue
import Verif.Spec.Calc
import Verif.Model.Network

/-! What a double is, which double a number is rounded to, and which numbers texts denote for `float`. -/

namespace Brel.Spec

/-- `q` is a number of the format binary64: at most 53 binary digits, the last one between `2 ^ -1074` and `2 ^ 971`. -/
def IsDouble (q : ℚ) : Prop := ∃ m e : Int, |m| < 2 ^ 53 ∧ -1074 ≤ e ∧ e ≤ 971 ∧ q = m * (2 : ℚ) ^ e

/-- The last binary digit that the format has room for is 0. -/
def LastDigitZero (q : ℚ) : Prop := ∃ m e : Int, |m| < 2 ^ 52 ∧ -1073 ≤ e ∧ q = m * (2 : ℚ) ^ e

/-- The least number that is too large for the format: half a unit of the last place beyond the largest double. -/
def overflowBound : ℚ := (2 ^ 54 - 1) * 2 ^ 970

/-- `x` is `q` correctly rounded: the double nearest to it, of two such the one whose last digit is zero, an infinity beyond the
largest double. -/
def NearestDouble (q : ℚ) (x : Dbl) : Prop :=
  (|q| < overflowBound ∧ ∃ v, x = .fin v ∧ IsDouble v ∧ (∀ d, IsDouble d → |v - q| ≤ |d - q|) ∧
    ∀ d, IsDouble d → d ≠ v → |d - q| = |v - q| → LastDigitZero v) ∨
  (overflowBound ≤ q ∧ x = .inf false) ∨ (q ≤ -overflowBound ∧ x = .inf true)

/-- What is assumed of the table of decimal digits for float literals: they are not among the other characters of the grammar. -/
structure FloatDigitTable (dig : Char → Option Nat) : Prop extends DigitTable dig where
  notMark : ∀ c d, dig c = some d → c ≠ '.' ∧ c ≠ 'e' ∧ c ≠ 'E'
  notLetter : ∀ c d, dig c = some d → c.toLower ≠ 'i' ∧ c.toLower ≠ 'n'

/-- Digits or nothing. -/
def DigitsOrNone (dig : Char → Option Nat) (s : List Char) (ds : List Nat) : Prop := (s = [] ∧ ds = []) ∨ DigitText dig s ds

/-- A sign and whether it negates. -/
def SignText (s : List Char) (neg : Bool) : Prop := (s = [] ∧ neg = false) ∨ (s = ['+'] ∧ neg = false) ∨ (s = ['-'] ∧ neg = true)

/-- The exponent part of a float literal with the exponent it denotes. -/
def ExponentText (dig : Char → Option Nat) (s : List Char) (e : Int) : Prop :=
  (s = [] ∧ e = 0) ∨ ∃ mark sgn body neg ds, (mark = 'e' ∨ mark = 'E') ∧ s = mark :: (sgn ++ body) ∧ SignText sgn neg ∧
    DigitText dig body ds ∧ e = if neg then -(decimalValue ds : Int) else (decimalValue ds : Int)

/-- A float literal without sign: digits, optionally a point with digits, an exponent; at least one digit before the exponent. -/
def FloatNumberText (dig : Char → Option Nat) (s : List Char) (q : ℚ) : Prop :=
  ∃ w f x ws fs e, DigitsOrNone dig w ws ∧ DigitsOrNone dig f fs ∧ ExponentText dig x e ∧ (w ≠ [] ∨ f ≠ []) ∧
    (s = w ++ x ∧ f = [] ∨ s = w ++ '.' :: f ++ x) ∧
    q = ((decimalValue ws : ℚ) + (decimalValue fs : ℚ) / 10 ^ fs.length) * (10 : ℚ) ^ e

/-- A word in any letter case. -/
def Word (w : String) (s : List Char) : Prop := s.map Char.toLower = w.toList

/-- What a text denotes for `float`: white space, a sign, a literal or one of the words "inf", "infinity", "nan", white space. -/
def FloatText (dig : Char → Option Nat) (s : List Char) (r : FloatReading) : Prop :=
  ∃ l sgn body right neg, s = l ++ (sgn ++ body) ++ right ∧ (∀ c ∈ l, pySpace c = true) ∧ (∀ c ∈ right, pySpace c = true) ∧
    SignText sgn neg ∧
    ((∃ q, FloatNumberText dig body q ∧ r = .num (if neg then -q else q)) ∨
      ((Word "inf" body ∨ Word "infinity" body) ∧ r = .inf neg) ∨ (Word "nan" body ∧ r = .nan))

/-- All numbers that the texts of the facts denote are multiples of `2 ^ k` with a factor of at most `B`; the weights are integers of at most `W`;
the sums of the children of a node have room in 53 binary digits. -/
structure SmallNumbers (dig : Char → Option Nat) (k B W : Int) (facts : List Fact) (ts : List (CalcTree ℚ)) : Prop where
  place : -1074 ≤ k ∧ k ≤ 971
  bound : B < 2 ^ 53
  values : ∀ f ∈ facts, ∀ r, FloatText dig f.value.toList r → ∃ n : Int, |n| ≤ B ∧ r = .num (n * (2 : ℚ) ^ k)
  weights : ∀ t, InForest ts t → ∀ c ∈ t.children, ∃ w : Int, |w| ≤ W ∧ c.weight = w
  room : ∀ t, InForest ts t → (t.children.length : Int) * (B * W) < 2 ^ 53

/-- The same for the nodes of a filing. -/
structure SmallFiling (dig : Char → Option Nat) (k B W : Int) (facts : List Fact) (h : Heap) : Prop where
  place : -1074 ≤ k ∧ k ≤ 971
  bound : B < 2 ^ 53
  values : ∀ f ∈ facts, ∀ r, FloatText dig f.value.toList r → ∃ n : Int, |n| ≤ B ∧ r = .num (n * (2 : ℚ) ^ k)
  weights : ∀ n ∈ h, ∃ w : Int, |w| ≤ W ∧ n.weight = w
  room : ∀ n ∈ h, (n.children.length : Int) * (B * W) < 2 ^ 53

end Brel.Spec
