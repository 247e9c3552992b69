import Verif.Model.Elements

/-!
Model of the typed value accessors of `brel/brel_fact.py`.
Python's `int(str)` and `str.upper()` are modelled on character lists. `float(str)` is a parameter.
The table of decimal digits (ASCII and all other Unicode decimal digits that `int` accepts) is a parameter `dig`.
-/

namespace Brel

/-- Characters for which Python's `str.isspace` holds, which `int()` strips. -/
def pySpace (c : Char) : Bool :=
  let n := c.toNat
  (9 ≤ n && n ≤ 13) || (28 ≤ n && n ≤ 32) || n = 0x85 || n = 0xA0 || n = 0x1680 || (0x2000 ≤ n && n ≤ 0x200A) ||
  n = 0x2028 || n = 0x2029 || n = 0x202F || n = 0x205F || n = 0x3000

/-- `s.strip()` -/
def pyStrip (s : List Char) : List Char :=
  ((s.dropWhile pySpace).reverse.dropWhile pySpace).reverse

/-- Digits with single underscores between them, as in `int()` literals. -/
def parseDigits (dig : Char → Option Nat) : List Char → Option (List Nat)
  | [] => none
  | [c] => (dig c).map (fun d => [d])
  | c :: '_' :: cs => (dig c).bind (fun d => (parseDigits dig cs).map (fun ds => d :: ds))
  | c :: c' :: cs => (dig c).bind (fun d => (parseDigits dig (c' :: cs)).map (fun ds => d :: ds))

/-- Decimal value of a digit list, most significant first. -/
def digitsVal (ds : List Nat) : Nat := ds.foldl (fun acc d => acc * 10 + d) 0

/-- CPython's default `sys.int_info.default_max_str_digits`: longer literals raise `ValueError`. -/
def maxStrDigits : Nat := 4300

/-- Unsigned part of `int()`. -/
def pyNat (dig : Char → Option Nat) (s : List Char) : Option Nat :=
  match parseDigits dig s with
  | some ds => if ds.length ≤ maxStrDigits then some (digitsVal ds) else none
  | none => none

/-- Python `int(s)`; `none` is `ValueError`. -/
def pyInt (dig : Char → Option Nat) (s : List Char) : Option Int :=
  match pyStrip s with
  | '-' :: t => (pyNat dig t).map (fun n : Nat => - (n : Int))
  | '+' :: t => (pyNat dig t).map (fun n : Nat => (n : Int))
  | t => (pyNat dig t).map (fun n : Nat => (n : Int))

/-- `str.upper()` on one character, as far as it can produce a letter of "TRUE" or "FALSE": ASCII letters and U+017F. -/
def pyUpperChar (c : Char) : Char :=
  if 'a' ≤ c ∧ c ≤ 'z' then Char.ofNat (c.toNat - 32) else if c = 'ſ' then 'S' else c

/-- `s.upper()` (see `pyUpperChar`). -/
def pyUpper (s : List Char) : List Char := s.map pyUpperChar

/-- The result of `get_value()`. -/
inductive PyVal (F : Type) where
  | int (n : Int)
  | float (x : F)
  | bool (b : Bool)
  | str (s : String)
  deriving DecidableEq, Repr

/-- brel/brel_fact.py 82-92 (`__int__`) -/
def Fact.toInt (dig : Char → Option Nat) (f : Fact) : Except PyErr Int :=
  match pyInt dig f.value.toList with
  | some n => .ok n
  | none => .error .valueError

/-- brel/brel_fact.py 98-108 (`__float__`) -/
def Fact.toFloat {F : Type} (flt : String → Option F) (f : Fact) : Except PyErr F :=
  match flt f.value with
  | some x => .ok x
  | none => .error .valueError

/-- brel/brel_fact.py 114-126 (`__bool__`) -/
def Fact.toBool (f : Fact) : Except PyErr Bool :=
  if pyUpper f.value.toList = "TRUE".toList then .ok true
  else if pyUpper f.value.toList = "FALSE".toList then .ok false
  else .error .valueError

/-- brel/brel_fact.py 128-139 (`get_value`) -/
def Fact.getValue {F : Type} (dig : Char → Option Nat) (flt : String → Option F) (f : Fact) : Except PyErr (PyVal F) := do
  let c ← f.getConcept
  if c.isInteger then return .int (← f.toInt dig)
  else if c.isNumeric then return .float (← f.toFloat flt)
  else if c.isBoolean then return .bool (← f.toBool)
  else return .str f.value

end Brel
