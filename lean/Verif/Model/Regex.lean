import Verif.Py

/-!
The fragment of Python's `re` module that the transformation registry uses.
It does not model a function of /repo but the library the registry calls.
A pattern is a sequence of greedy character-class repetitions, literals, alternatives, optional parts and capture groups between `^` and `$`.
-/

namespace Brel

/-- `chars! "abc"` is the list of the characters of the literal. -/
syntax "chars!" str : term
macro_rules
  | `(chars! $s) => do
    let cs := (s.getString.toList.map Lean.Syntax.mkCharLit).toArray
    `([$cs,*])

/-- A character class: code point ranges, possibly complemented. -/
structure Cls where
  neg : Bool
  ranges : List (Nat × Nat)
  deriving DecidableEq, Repr

/-- Whether a character belongs to the class. -/
def Cls.has (c : Cls) (x : Char) : Bool :=
  (c.ranges.any (fun r => decide (r.1 ≤ x.toNat) && decide (x.toNat ≤ r.2))) != c.neg

/-- Patterns. `rep c lo hi` is `c{lo,hi}` with `none` for no upper bound; `lits` is an ordered alternative of literals. -/
inductive Re where
  | rep (c : Cls) (lo : Nat) (hi : Option Nat)
  | lits (ws : List (List Char))
  | alt (a b : Re)
  | opt (a : Re)
  | seq (a b : Re)
  | grp (i : Nat) (a : Re)
  deriving DecidableEq, Repr

/-- Captured groups, the most recent capture of a group first. -/
abbrev Caps := List (Nat × List Char)

/-- `match.group(i)`; `none` is Python's `None` of a group that did not take part. -/
def Caps.group (c : Caps) (i : Nat) : Option (List Char) := (c.find? (fun e => e.1 = i)).map (·.2)

/-- Greedy repetition: first tries to take one more character, and falls back to continuing here when at least `lo` were taken. -/
def runRep {α : Type} (c : Cls) (k : List Char → Option α) : Nat → Option Nat → List Char → Option α
  | lo, _, [] => if lo = 0 then k [] else none
  | lo, hi, x :: s =>
    let here := if lo = 0 then k (x :: s) else none
    if hi = some 0 then here
    else if c.has x then (runRep c k (lo - 1) (hi.map (· - 1)) s).or here
    else here

/-- `s` without the prefix `w`, if it has it. -/
def dropLit (w s : List Char) : Option (List Char) := if w.isPrefixOf s then some (s.drop w.length) else none

/-- Backtracking matcher in continuation style, with the alternatives tried in Python's order. -/
def Re.run {α : Type} : Re → (List Char → Caps → Option α) → List Char → Caps → Option α
  | .rep c lo hi, k, s, caps => runRep c (fun s' => k s' caps) lo hi s
  | .lits ws, k, s, caps => ws.findSome? (fun w => (dropLit w s).bind (fun s' => k s' caps))
  | .alt a b, k, s, caps => (a.run k s caps).or (b.run k s caps)
  | .opt a, k, s, caps => (a.run k s caps).or (k s caps)
  | .seq a b, k, s, caps => a.run (fun s' caps' => b.run k s' caps') s caps
  | .grp i a, k, s, caps => a.run (fun s' caps' => k s' ((i, s.take (s.length - s'.length)) :: caps')) s caps

/-- `$`: the end of the text, or before a newline that ends it. -/
def atEnd (s : List Char) : Bool := decide (s = []) || decide (s = ['\n'])

/-- `re.match(r"^…$", s)`, and `re.search`, which is the same for an anchored pattern. -/
def Re.fullMatch (r : Re) (s : List Char) : Option Caps :=
  r.run (fun s' caps => if atEnd s' then some caps else none) s []

end Brel
