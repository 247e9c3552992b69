import Verif.Model.Printing

/-! Specification vocabulary for printed networks and facts. -/

namespace Brel

/-- The node at a place of a forest. A place is the list of positions on the way down: the first one selects a root, each further one
a child. -/
def nodeAt (ch : Nat → List Nat) : List Nat → List Nat → Option Nat
  | _, [] => none
  | f, [i] => f[i]?
  | f, i :: p => f[i]?.bind (fun n => nodeAt ch (ch n) p)

/-- For every step on the way to a place: whether it leads to the last one of its siblings. -/
def lastFlags (ch : Nat → List Nat) : List Nat → List Nat → List Bool
  | _, [] => []
  | f, i :: p => decide (i + 1 = f.length) :: lastFlags ch ((f[i]?.map ch).getD []) p

/-- The drawing to the left of a line: three columns per level, a connector to the node itself, and for every ancestor that has further
siblings below a vertical line. -/
def drawing : List Bool → String
  | [] => ""
  | [last] => if last then "└──" else "├──"
  | last :: rest => (if last then "   " else "│  ") ++ drawing rest

/-- The line of a place: its drawing and the text of its node. -/
def placeLine (t : NodeTexts) (ch : Nat → List Nat) (f : List Nat) (p : List Nat) : String :=
  drawing (lastFlags ch f p) ++ ((nodeAt ch f p).map t.text).getD ""

/-- The places of a forest that are occupied, in depth-first order. -/
structure DepthFirst (ch : Nat → List Nat) (forest : List Nat) (places : List (List Nat)) : Prop where
  /-- every place with a node is listed, and no other one -/
  complete : ∀ p, p ∈ places ↔ (nodeAt ch forest p).isSome
  /-- ancestors come before descendants, smaller positions before larger ones: the order of the lists of positions -/
  ordered : places.Pairwise (· < ·)

/-- The column an aspect is printed in, relative to another one: the four core aspects first, then by name. -/
def columnRank (name : String) : Nat :=
  if name = "concept" then 0 else if name = "period" then 1 else if name = "entity" then 2 else if name = "unit" then 3 else 4

end Brel
