import Mathlib.Algebra.Field.Rat
import Mathlib.Data.Rat.Floor
import Verif.Model.Calc
import Verif.Model.FactValue

/-!
Python's `float`: the numbers of the IEEE 754 format binary64, and the texts that `float(text)` accepts.
`brel/brel_fact.py` 98-108 and `brel/networks/calculation_network.py` compute with them.

The sign of zero is left out: addition, multiplication and comparison, which are all the code uses, do not depend on it.
-/

namespace Brel

/-- A `float`: a number, an infinity (`true` for the negative one) or NaN. -/
inductive Dbl where
  | fin (q : ℚ)
  | inf (neg : Bool)
  | nan
  deriving DecidableEq, Repr

/-- `2 ^ e` -/
def pow2 : Int → ℚ
  | .ofNat n => ((2 ^ n : Nat) : ℚ)
  | .negSucc n => mkRat 1 (2 ^ (n + 1))

/-- The largest `e` with `2 ^ e ≤ |q|`, for `q ≠ 0`. -/
def binaryLog (q : ℚ) : Int :=
  let e : Int := (Nat.log2 q.num.natAbs : Int) - (Nat.log2 q.den : Int)
  if pow2 e ≤ |q| then e else e - 1

/-- The next integer; of two equally near ones the even one. -/
def roundEven (x : ℚ) : Int :=
  let f := x.floor
  if x - f < 1 / 2 then f else if 1 / 2 < x - f then f + 1 else if f % 2 = 0 then f else f + 1

/-- The place of the last binary digit of the doubles near `q`: 53 digits, but not below `2 ^ -1074`. -/
def lastPlace (q : ℚ) : Int := max (binaryLog q - 52) (-1074)

/-- Rounding to the next double ("roundTiesToEven", IEEE 754-2008, 4.3.1); beyond the largest double it is an infinity. -/
def rnd (q : ℚ) : Dbl :=
  if q = 0 then .fin 0 else
    let v := roundEven (q / pow2 (lastPlace q)) * pow2 (lastPlace q)
    if |v| < pow2 1024 then .fin v else .inf (decide (q < 0))

namespace Dbl

/-- `a + b` -/
def add : Dbl → Dbl → Dbl
  | .fin a, .fin b => rnd (a + b)
  | .nan, _ => .nan
  | _, .nan => .nan
  | .inf s, .inf t => if s = t then .inf s else .nan
  | .inf s, .fin _ => .inf s
  | .fin _, .inf t => .inf t

/-- `a * b` -/
def mul : Dbl → Dbl → Dbl
  | .fin a, .fin b => rnd (a * b)
  | .nan, _ => .nan
  | _, .nan => .nan
  | .inf s, .inf t => .inf (s != t)
  | .inf s, .fin b => if b = 0 then .nan else .inf (s != decide (b < 0))
  | .fin a, .inf t => if a = 0 then .nan else .inf (t != decide (a < 0))

/-- `a == b` -/
def eq : Dbl → Dbl → Bool
  | .fin a, .fin b => decide (a = b)
  | .inf s, .inf t => s = t
  | _, _ => false

/-- `a < b` -/
def lt : Dbl → Dbl → Bool
  | .fin a, .fin b => decide (a < b)
  | .inf s, .inf t => s && !t
  | .inf s, .fin _ => s
  | .fin _, .inf t => !t
  | _, _ => false

end Dbl

/-! ### Texts -/

/-- What a text says before it is rounded. -/
inductive FloatReading where
  | num (q : ℚ)
  | inf (neg : Bool)
  | nan
  deriving DecidableEq, Repr

/-- CPython's conversion of decimal texts is correctly rounded (`PyOS_string_to_double`). -/
def FloatReading.toDbl : FloatReading → Dbl
  | .num q => rnd q
  | .inf s => .inf s
  | .nan => .nan

/-- `s` up to the first character with the property, and what follows that character, if there is one. -/
def splitFirst (p : Char → Bool) : List Char → List Char × Option (List Char)
  | [] => ([], none)
  | c :: cs => if p c then ([], some cs) else (c :: (splitFirst p cs).1, (splitFirst p cs).2)

/-- A sign, and what follows it. -/
def takeSign : List Char → Bool × List Char
  | '-' :: t => (true, t)
  | '+' :: t => (false, t)
  | t => (false, t)

/-- Digits, or nothing. -/
def parseDigitsOpt (dig : Char → Option Nat) (s : List Char) : Option (List Nat) := if s = [] then some [] else parseDigits dig s

/-- The exponent of a float literal; no exponent is 0. -/
def parseExponent (dig : Char → Option Nat) : Option (List Char) → Option Int
  | none => some 0
  | some s => (parseDigits dig (takeSign s).2).map (fun ds => if (takeSign s).1 then -(digitsVal ds : Int) else (digitsVal ds : Int))

/-- `10 ^ e` -/
def pow10 : Int → ℚ
  | .ofNat n => ((10 ^ n : Nat) : ℚ)
  | .negSucc n => mkRat 1 (10 ^ (n + 1))

/-- A float literal without sign ("floatnumber" in the documentation of `float`). -/
def parseFloatNumber (dig : Char → Option Nat) (s : List Char) : Option ℚ :=
  let m := splitFirst (fun c => c = 'e' || c = 'E') s
  let p := splitFirst (fun c => c = '.') m.1
  (parseDigitsOpt dig p.1).bind (fun w => (parseDigitsOpt dig (p.2.getD [])).bind (fun f => (parseExponent dig m.2).bind (fun e =>
    if w = [] ∧ f = [] then none else some ((digitsVal (w ++ f) : ℚ) * pow10 (e - (f.length : Int))))))

/-- Python `float(s)` before rounding; `none` is `ValueError`. -/
def pyFloat (dig : Char → Option Nat) (s : List Char) : Option FloatReading :=
  let t := takeSign (pyStrip s)
  let word := t.2.map Char.toLower
  if word = "inf".toList ∨ word = "infinity".toList then some (.inf t.1)
  else if word = "nan".toList then some .nan
  else (parseFloatNumber dig t.2).map (fun q => .num (if t.1 then -q else q))

/-- Python `float(s)`. -/
def pyDouble (dig : Char → Option Nat) (s : String) : Option Dbl := (pyFloat dig s.toList).map FloatReading.toDbl

/-- The number that a float is, unless it is an infinity or NaN. -/
def Dbl.number? : Dbl → Option ℚ
  | .fin q => some q
  | _ => none

/-- `float(s)` as a rational number; infinities and NaN are left out. -/
def doubleOf (dig : Char → Option Nat) (s : String) : Option ℚ := (pyDouble dig s).bind Dbl.number?

/-- The number that the text says, without rounding; infinities and NaN are left out. The code does not compute it: the checks on floats are compared with it. -/
def exactOf (dig : Char → Option Nat) (s : String) : Option ℚ := (pyFloat dig s.toList).bind (fun r => match r with | .num q => some q | _ => none)

/-- The operations of `calculation_network.py` on floats. -/
def dblOps (dig : Char → Option Nat) : FloatOps Dbl :=
  { ofStr := pyDouble dig, zero := .fin 0, add := Dbl.add, mul := Dbl.mul, eq := Dbl.eq, lt := Dbl.lt }

mutual
/-- The same network with other numbers as weights. -/
def CalcTree.mapWeight {F G : Type} (g : F → G) : CalcTree F → CalcTree G
  | .node c w chs => .node c (g w) (CalcTree.mapWeights g chs)
/-- The same for a list of nodes. -/
def CalcTree.mapWeights {F G : Type} (g : F → G) : List (CalcTree F) → List (CalcTree G)
  | [] => []
  | t :: ts => CalcTree.mapWeight g t :: CalcTree.mapWeights g ts
end

end Brel
