import Verif.Model.NsNormalize
import Verif.Spec.FactValue

/-! What normalised name spaces are (C37, C90). -/

namespace Brel

/-- The prefixes bound in the maps, with their URIs. -/
def Bound (maps : List (Dict (Option String) String)) (p u : String) : Prop := ∃ m ∈ maps, (some p, u) ∈ m

/-- URIs are versions of each other: they differ only in digits, hyphens, underscores and dots. -/
def Versions (dig : Char → Option Nat) (u v : String) : Prop :=
  let strip (s : String) := s.toList.filter (fun c => decide (dig c = none ∧ c ∉ ['-', '_', '.']))
  strip u = strip v

/-- The prefix may stand for the version group of `u`: it is bound to a version of `u`, or it is the default prefix of a bound version. -/
def Candidate (dig : Char → Option Nat) (maps : List (Dict (Option String) String)) (u p : String) : Prop :=
  ∃ v, Versions dig u v ∧ (Bound maps p v ∨ (defaultPrefix dig v = some p ∧ ∃ q, Bound maps q v))

/-- Prefixes are used consistently: no prefix may stand for two groups. -/
def Consistent (dig : Char → Option Nat) (maps : List (Dict (Option String) String)) : Prop :=
  ∀ p u v, Candidate dig maps u p → Candidate dig maps v p → Versions dig u v

/-- The digits of a text, separated where there is something else. -/
def digitSegments (dig : Char → Option Nat) (s : List Char) : List (List Nat) :=
  s.foldr (fun c segs =>
    match dig c, segs with
    | some d, seg :: rest => (d :: seg) :: rest
    | some d, [] => [[d]]
    | none, segs => [] :: segs) [[]]

/-- The sum of all numbers in a text. -/
def numberSum (dig : Char → Option Nat) (u : String) : Nat := ((digitSegments dig u.toList).map digitsVal).sum

/-- No number in a bound URI is too long for Python's `int`. -/
def ShortNumbers (dig : Char → Option Nat) (maps : List (Dict (Option String) String)) : Prop :=
  ∀ p u, Bound maps p u → ∀ r ∈ digitSegments dig u.toList, r.length ≤ 4300

/-- The prefix for a URI that represents its group: its default prefix, otherwise one of the shortest prefixes bound to a version of it. -/
def Preferred (dig : Char → Option Nat) (maps : List (Dict (Option String) String)) (u p : String) : Prop :=
  defaultPrefix dig u = some p ∨
    (defaultPrefix dig u = none ∧ (∃ v, Versions dig u v ∧ Bound maps p v) ∧ ∀ q v, Versions dig u v → Bound maps q v → p.length ≤ q.length)

/-- The texts an expression of the configuration describes. -/
inductive Describes (dig : Char → Option Nat) : List UriTok → List Char → Prop where
  | nil : Describes dig [] []
  | lit {c ts s} : Describes dig ts s → Describes dig (.lit c :: ts) (c :: s)
  | dot {c ts s} : c ≠ '\n' → Describes dig ts s → Describes dig (.dot :: ts) (c :: s)
  | digit {c d ts s} : dig c = some d → Describes dig ts s → Describes dig (.digit :: ts) (c :: s)
  | present {c ts s} : Describes dig ts s → Describes dig (.opt c :: ts) (c :: s)
  | absent {c ts s} : Describes dig ts s → Describes dig (.opt c :: ts) s

/-- The URI begins with a text the expression describes. -/
def BeginsWith (dig : Char → Option Nat) (regex : String) (u : String) : Prop :=
  ∃ a b, u.toList = a ++ b ∧ Describes dig (uriToks regex.toList) a


end Brel
