/-
Fragments of the Python run time that the model is written in.
None of these definitions models a function of /repo: they stand for built-in Python types and functions.
-/

namespace Brel

/-- Python exceptions that code in /repo raises or lets escape. -/
inductive PyErr where
  | valueError
  | typeError
  | keyError
  | indexError
  | attributeError
  | unboundLocalError
  | assertionError
  | fileNotFoundError
  | recursionError
  | syntaxError
  deriving DecidableEq, Repr

/-- `Except` has no decidable equality in core; used by `decide` in examples. -/
instance {ε α : Type} [DecidableEq ε] [DecidableEq α] : DecidableEq (Except ε α)
  | .ok a, .ok b => if h : a = b then isTrue (by rw [h]) else isFalse (by intro e; cases e; exact h rfl)
  | .error a, .error b => if h : a = b then isTrue (by rw [h]) else isFalse (by intro e; cases e; exact h rfl)
  | .ok _, .error _ => isFalse (by intro e; cases e)
  | .error _, .ok _ => isFalse (by intro e; cases e)

/-- Python `dict`: an insertion-ordered association list with at most one entry per key. -/
abbrev Dict (κ β : Type) := List (κ × β)

namespace Dict
variable {κ β : Type} [DecidableEq κ]

/-- `d.get(k)` -/
def get? (d : Dict κ β) (k : κ) : Option β :=
  (d.find? (fun e => e.1 = k)).map (·.2)

/-- `k in d` -/
def has (d : Dict κ β) (k : κ) : Bool := d.any (fun e => e.1 = k)

/-- `d[k]` -/
def get (d : Dict κ β) (k : κ) : Except PyErr β :=
  match d.get? k with
  | some v => .ok v
  | none => .error .keyError

/-- `d[k] = v`: an existing key keeps its position, a new key is appended. -/
def set : Dict κ β → κ → β → Dict κ β
  | [], k, v => [(k, v)]
  | (k', v') :: d, k, v => if k' = k then (k', v) :: d else (k', v') :: set d k v

/-- `del d[k]` for a present key (no effect otherwise). -/
def erase (d : Dict κ β) (k : κ) : Dict κ β := d.filter (fun e => e.1 ≠ k)

/-- `list(d.keys())` -/
def keys (d : Dict κ β) : List κ := d.map (·.1)

/-- `list(d.values())` -/
def values (d : Dict κ β) : List β := d.map (·.2)

end Dict

/-- Insert `x` before the first element that is not smaller. -/
def insertBy {α : Type} (le : α → α → Bool) (x : α) : List α → List α
  | [] => [x]
  | y :: ys => if le x y then x :: y :: ys else y :: insertBy le x ys

/-- Python's `sorted`/`list.sort`: a stable sort (as an insertion sort). -/
def sortBy {α : Type} (le : α → α → Bool) : List α → List α
  | [] => []
  | x :: xs => insertBy le x (sortBy le xs)

/-- `next((x for x in l if p(x)), None)` -/
def firstMatch {α : Type} (p : α → Bool) (l : List α) : Option α := l.find? p

/-- `if x not in l: l.append(x)` -/
def appendNew {α : Type} [DecidableEq α] (l : List α) (x : α) : List α :=
  if x ∈ l then l else l ++ [x]

/-- `s.startswith(p)` on character lists. -/
def startsWith (s p : List Char) : Bool := p.isPrefixOf s

/-- `s.endswith(p)` on character lists. -/
def endsWith (s p : List Char) : Bool := p.reverse.isPrefixOf s.reverse

/-- `needle in text` -/
def isInfix (needle text : List Char) : Bool := (List.range (text.length + 1)).any (fun i => needle.isPrefixOf (text.drop i))

end Brel
