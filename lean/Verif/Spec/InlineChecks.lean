import Verif.Spec.Numeric
import Verif.Spec.OpenInline
import Verif.Spec.Aggregation

/-! The number that an element of an inline document states. -/

namespace Brel
open Spec

/-- The element states the number: its text is written in a decimal format, the scale and the sign are applied. -/
structure StatesAmount (dig : Char → Option Nat) (e : NonFractionElem) (v : ℚ) : Prop where
  shown : e.nil = none ∨ e.nil = some "false"
  outer : e.differs = false
  number : ∃ fmt mark grouping text t n, (fmt, mark, grouping) ∈ decimalFormats ∧ e.value.format = some fmt ∧ e.value.text = some text ∧ Trimmed text.toList t ∧ DecimalText mark grouping t ∧
    ((e.value.scale = none ∧ n = 0) ∨ ∃ sc, e.value.scale = some sc ∧ IntText dig sc.toList n) ∧
    ((e.value.sign = none ∧ v = written mark t * (10 : ℚ) ^ n) ∨ (e.value.sign = some "-" ∧ v = -(written mark t * (10 : ℚ) ^ n)))

/-- No dimension is called "concept"; names of dimensions usually have a prefix. -/
def NamedApart (contexts : List XNode) : Prop := ∀ m ∈ membersOf contexts, m.attr? "dimension" ≠ some "concept"

/-- Numerals are read as the numbers they denote; a text without digits, or a sign alone, is no number. -/
structure ReadsNumerals (float : String → Option Rat) : Prop where
  numerals : ∀ (s : String) x, SignedDenotes s.toList x → float s = some x
  others : float "" = none ∧ float "-" = none

end Brel
