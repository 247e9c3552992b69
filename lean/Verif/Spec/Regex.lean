import Verif.Model.Regex

/-!
Declarative reading of the patterns: which part of a text a pattern can consume, and what its groups then capture.
-/

namespace Brel.Spec
open Brel

/-- `Consumes r w caps caps'`: the pattern can consume exactly the text `w`, changing the captures from `caps` to `caps'`. -/
inductive Consumes : Re → List Char → Caps → Caps → Prop
  | rep {c : Cls} {lo : Nat} {hi : Option Nat} {w : List Char} {caps : Caps} :
      (∀ x ∈ w, c.has x = true) → lo ≤ w.length → (∀ n, hi = some n → w.length ≤ n) → Consumes (.rep c lo hi) w caps caps
  | lits {ws : List (List Char)} {w : List Char} {caps : Caps} : w ∈ ws → Consumes (.lits ws) w caps caps
  | altLeft {a b : Re} {w : List Char} {caps caps' : Caps} : Consumes a w caps caps' → Consumes (.alt a b) w caps caps'
  | altRight {a b : Re} {w : List Char} {caps caps' : Caps} : Consumes b w caps caps' → Consumes (.alt a b) w caps caps'
  | optSome {a : Re} {w : List Char} {caps caps' : Caps} : Consumes a w caps caps' → Consumes (.opt a) w caps caps'
  | optNone {a : Re} {caps : Caps} : Consumes (.opt a) [] caps caps
  | seq {a b : Re} {v w : List Char} {caps caps' caps'' : Caps} :
      Consumes a v caps caps' → Consumes b w caps' caps'' → Consumes (.seq a b) (v ++ w) caps caps''
  | grp {i : Nat} {a : Re} {w : List Char} {caps caps' : Caps} :
      Consumes a w caps caps' → Consumes (.grp i a) w caps ((i, w) :: caps')

/-- The pattern between `^` and `$` matches the text and captures `caps`. -/
def MatchesFully (r : Re) (s : List Char) (caps : Caps) : Prop :=
  ∃ w rest, s = w ++ rest ∧ (rest = [] ∨ rest = ['\n']) ∧ Consumes r w [] caps

end Brel.Spec
