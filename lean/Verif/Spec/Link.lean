import Verif.Model.Link
import Verif.Spec.Common
import Verif.Spec.Network

/-! Specification vocabulary for parsed links. -/

namespace Brel

/-- The entries of a list that have an earlier entry with the same key, in order. -/
def repeated {α κ : Type} [DecidableEq κ] (key : α → κ) (l : List α) : List α :=
  (List.range l.length).filterMap (fun i => (l[i]?).bind (fun a => if (l.take i).any (fun b => key b = key a) then some a else none))

/-- Node `i` of the result was made for this link (the heap `h` holds the earlier ones). -/
def NewNode (h : Heap) (res : LinkResult) (i : Nat) (n : NetNode) : Prop := h.length ≤ i ∧ res.heap[i]? = some n

/-- The arc leads from the end of `n` to the end of `m`; the networks of physical factories hold one kind of relation each, there the
arc role has to agree. -/
def Joins (k : LinkKind) (a : Arc) (n m : NetNode) : Prop :=
  a.frm = n.label ∧ a.to = m.label ∧ (k.physical = true → a.role = n.arcRole ∧ a.role = m.arcRole)

instance (k : LinkKind) (a : Arc) (n m : NetNode) : Decidable (Joins k a n m) := by unfold Joins; exact inferInstance

/-- No arc leads to the node. -/
def NoIncoming (k : LinkKind) (arcs : List Arc) (n : NetNode) : Prop :=
  ∀ a ∈ arcs, a.to = n.label → ¬ (k.physical = true → a.role = n.arcRole)

/-- The arc roles at a link end, each once; `unknown` for an end without arcs. -/
def rolesAt (arcs : List Arc) (l : String) : List String :=
  match firstOccurrences ((arcs.filter (fun a => a.to = l || a.frm = l)).map (·.role)) with
  | [] => ["unknown"]
  | r :: rs => r :: rs

/-- The arc leads to the node. -/
def LeadsTo (k : LinkKind) (a : Arc) (n : NetNode) : Prop := a.to = n.label ∧ (k.physical = true → a.role = n.arcRole)

instance (k : LinkKind) (a : Arc) (n : NetNode) : Decidable (LeadsTo k a n) := by unfold LeadsTo; exact inferInstance

/-- The number a numeric attribute stands for, with the default for a missing or empty attribute. -/
def NumAttr.means (dflt : Rat) (x : NumAttr) (q : Rat) : Prop := x = .num q ∨ ((x = .absent ∨ x = .empty) ∧ q = dflt)

/-- The node shows the order, weight and preferred label written on the arc. -/
structure ShowsArc (k : LinkKind) (a : Arc) (n : NetNode) : Prop where
  order : k = .presentation ∨ k = .calculation ∨ k = .reference ∨ k = .footnote → a.order.means 1 n.order
  definitionOrder : k = .physicalDefinition → a.order.means 0 n.order
  weight : k = .calculation → a.weight.means 0 n.weight
  preferredLabel : k = .presentation → n.preferredLabel = some (a.preferredLabel.getD "http://www.xbrl.org/2003/role/label")

/-- An arc whose `use` attribute prohibits the relation. -/
def Arc.prohibited (a : Arc) : Prop := a.use = some "prohibited"

/-- The objects a link of the given kind is about: report elements for presentation and definition links, concepts for calculation
links, elements and their resources for label and reference links, and anything but labels and references for footnote links. -/
def Admissible (k : LinkKind) (t : Target) : Prop :=
  match k with
  | .presentation | .physicalDefinition | .logicalDefinition => ∃ q c, t = .element q c
  | .calculation => ∃ q, t = .element q true
  | .label => (∃ q c, t = .element q c) ∨ ∃ i, t = .labelResource i
  | .reference => (∃ q c, t = .element q c) ∨ ∃ i, t = .referenceResource i
  | .footnote => (∃ q c, t = .element q c) ∨ (∃ i, t = .fact i) ∨ ∃ i, t = .footnoteResource i

/-- The kinds of link named by the tags of XBRL 2.1, with the kinds of networks they give. -/
def tagKinds : List (String × List LinkKind) :=
  [("presentationLink", [.presentation]), ("calculationLink", [.calculation]), ("definitionLink", [.physicalDefinition, .logicalDefinition]),
   ("labelLink", [.label]), ("referenceLink", [.reference]), ("footnoteLink", [.footnote])]

/-- The Clark notation of a tag in the namespace of XBRL linkbases. -/
def linkTag (name : String) : String := "{http://www.xbrl.org/2003/linkbase}" ++ name

end Brel
