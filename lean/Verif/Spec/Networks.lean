import Verif.Spec.Combine
import Verif.Model.Networks

/-! What the networks of a filing are, in terms of its links. -/

namespace Brel

/-- The link has a role, and it contains `/role/link`. -/
def LinkXml.standard (l : LinkXml) : Bool :=
  match l.role with
  | .ok (some r) => isInfix "/role/link".toList r.toList
  | _ => false

/-- The links with a standard role, then the others, each in the order of the documents. -/
def inOrder (links : List LinkXml) : List LinkXml := links.filter (·.standard) ++ links.filter (fun l => !l.standard)

/-- Reading links one after the other: `LinkRun so h ls h' ns lbs` if, starting with the nodes `h`, the links `ls` yield the networks `ns`, the nodes
`h'` and the labels `lbs` of elements. A link without a role yields nothing. -/
inductive LinkRun (so : SetOrder) : Heap → List LinkXml → Heap → List Network → List (QName × Nat) → Prop where
  | nil {h} : LinkRun so h [] h [] []
  | skip {h l ls h' ns lbs} : l.role = .ok none → LinkRun so h ls h' ns lbs → LinkRun so h (l :: ls) h' ns lbs
  | link {h l ls r x h' ns lbs} : l.role = .ok (some r) → parseXmlLink (l.node.tag.getD "") so r h l.arcs l.ends = .ok x → LinkRun so x.1 ls h' ns lbs →
      LinkRun so h (l :: ls) h' (x.2.1 ++ ns) (x.2.2 ++ lbs)

/-- The networks of a role and a class that are combined. -/
def Network.logicalOf (r : String) (k : NodeKind) (n : Network) : Bool := decide (n.linkRole = r) && decide (n.kind = k) && !n.physical

/-- The networks of a role and a class that are kept as they are. -/
def Network.physicalOf (r : String) (k : NodeKind) (n : Network) : Bool := decide (n.linkRole = r) && decide (n.kind = k) && n.physical

/-- The network `net` (with the nodes `h'`) has the objects and relations of the networks of the group (with the nodes `h`), and no others; children keep their order, weight and
preferred label. One network alone is kept as it is. -/
structure Unites (h : Heap) (group : List Network) (h' : Heap) (net : Network) : Prop where
  objects : ∀ t, Occurs h' net.roots t ↔ ∃ n ∈ group, Occurs h n.roots t
  relations : ∀ t u, Related h' net.roots t u ↔ ∃ n ∈ group, Related h n.roots t u
  data : ∀ t d, RelatedAs h' net.roots t d ↔ ∃ n ∈ group, RelatedAs h n.roots t d
  alone : ∀ n, group = [n] → net = n ∧ ∀ i, InNetwork h n.roots i → h'.children i = h.children i

/-- The report a link element causes on its own. -/
def LinkXml.report (l : LinkXml) : Option String :=
  match l.role with
  | .ok none => some "MISSING_LINK_ROLE"
  | .ok (some _) =>
    if ["presentationLink", "calculationLink", "definitionLink", "labelLink", "referenceLink", "footnoteLink"].any (fun n => isInfix n.toList (l.node.tag.getD "").toList) then none
    else some "UNSUPPORTED_LINK_TYPE"
  | _ => none

end Brel
