import Verif.Spec.LinkValid

/-! What the arcs of a link say about order, weight and preferred labels. -/

namespace Brel

/-- The arc element `x` of the link leads from label `l` to label `m`. -/
def ArcBetween (link : XNode) (l m : String) (x : XNode) : Prop :=
  ∃ own role, Part link "arc" own x ∧ x.xlinkAttr "from" = some l ∧ x.xlinkAttr "to" = some m ∧ x.xlinkAttr "arcrole" = some role

/-- The attribute says the number `v`; if it is missing or empty, that is `dflt`. -/
def StatesNumber (float : String → Option Rat) (dflt : Rat) (attr : Option String) (v : Rat) : Prop :=
  (∃ t, attr = some t ∧ t ≠ "" ∧ float t = some v) ∨ ((attr = none ∨ attr = some "") ∧ v = dflt)

/-- The preferred label an arc asks for. -/
def StatesLabel (attr : Option String) (v : Option String) : Prop := v = some (attr.getD "http://www.xbrl.org/2003/role/label")

/-- Arcs of the link that lead to the same place agree on the attribute. -/
def AgreeOn (link : XNode) (name : String) : Prop :=
  ∀ l l' m x x', ArcBetween link l m x → ArcBetween link l' m x' → x.attr? name = x'.attr? name

/-- In the network of this role and class, a node for the second report element with the property is a child of a node for the first. -/
def ReadNetworks.ShowsChild (s : ReadNetworks) (role : String) (k : NodeKind) (q q' : QName) (P : NetNode → Prop) : Prop :=
  ∃ net ∈ s.networks.store.getByType k, net.logicalOf role k = true ∧ ∃ i c n b b', InNetwork s.networks.heap net.roots i ∧ c ∈ s.networks.heap.children i ∧
    s.networks.heap.targetOf i = some (.element q b) ∧ s.networks.heap[c]? = some n ∧ n.target = .element q' b' ∧ P n

/-- A link of the role with the tag has an arc from the first report element to the second, with the property. -/
def StatesArc (elems : ElemStore) (roots : List XNode) (name role : String) (q q' : QName) (P : XNode → Prop) : Prop :=
  ∃ up link l m x, HasLink roots name role up link ∧ ArcBetween link l m x ∧ Locates elems link l q ∧ Locates elems link m q' ∧ P x

end Brel
