import Verif.Model.Linkbase
import Verif.Spec.Link
import Verif.Spec.Networks

/-! What the link bases of a filing say, in terms of the elements of their documents. -/

namespace Brel

/-- `Lineage r c x`: `x` is `r` or a node below it; `c` lists the nodes from `x` up to `r`. -/
inductive Lineage (r : XNode) : List XNode → XNode → Prop where
  | self : Lineage r [r] r
  | child {p c : XNode} {up : List XNode} : Lineage r (p :: up) p → c ∈ p.children → Lineage r (c :: p :: up) c

/-- `x` is below `r`; `own` lists the nodes from `x` up to the child of `r`. -/
def Below (r : XNode) (own : List XNode) (x : XNode) : Prop := own ≠ [] ∧ Lineage r (own ++ [r]) x

/-- An attribute of the XLink name space. -/
def XNode.xlinkAttr (x : XNode) (n : String) : Option String := x.attr? ("{http://www.w3.org/1999/xlink}" ++ n)

/-- The language in force: the `xml:lang` attribute of the first of these nodes that has one. -/
def nearestLang (chain : List XNode) : Option String := chain.findSome? (fun x => x.attr? "{http://www.w3.org/XML/1998/namespace}lang")

/-- The documents contain the extended link, with this tag (of the name space of link bases) and this role; `up` lists the nodes from the link up to the root of its document. -/
structure HasLink (roots : List XNode) (name role : String) (up : List XNode) (link : XNode) : Prop where
  placed : ∃ root ∈ roots, ∃ own, Below root own link ∧ up = own ++ [root]
  tag : link.tag = some (linkTag name)
  extended : link.xlinkAttr "type" = some "extended"
  role : link.xlinkAttr "role" = some role

/-- The link contains the element, which has this XLink type. -/
structure Part (link : XNode) (type : String) (own : List XNode) (x : XNode) : Prop where
  below : Below link own x
  element : x.tag ≠ none
  type : x.xlinkAttr "type" = some type

/-- The reference ends in this id. -/
def Refers (href i : String) : Prop := '#' ∉ i.toList ∧ (href = i ∨ ∃ doc, href = doc ++ "#" ++ i)

/-- The link has a locator with this label for the report element with this name. -/
def Locates (elems : ElemStore) (link : XNode) (l : String) (q : QName) : Prop :=
  ∃ own x href i e, Part link "locator" own x ∧ x.xlinkAttr "label" = some l ∧ x.xlinkAttr "href" = some href ∧ Refers href i ∧ elems.byId.get? i = some e ∧ e.name = q

/-- The link has an arc between these labels. -/
def Joined (link : XNode) (l m : String) : Prop :=
  ∃ own x role, Part link "arc" own x ∧ x.xlinkAttr "from" = some l ∧ x.xlinkAttr "to" = some m ∧ x.xlinkAttr "arcrole" = some role

/-- The link has an arc between these labels with this arc role. -/
def JoinedBy (link : XNode) (arcrole l m : String) : Prop :=
  ∃ own x, Part link "arc" own x ∧ x.xlinkAttr "from" = some l ∧ x.xlinkAttr "to" = some m ∧ x.xlinkAttr "arcrole" = some arcrole

/-- The link has an element `label` with this XLink label, which says this: its text, its role and the language in force. -/
def Labelled (up : List XNode) (link : XNode) (l : String) (lab : Label) : Prop :=
  ∃ own x, Part link "resource" own x ∧ x.tag = some (linkTag "label") ∧ x.xlinkAttr "label" = some l ∧
    lab.label = l ∧ x.xlinkAttr "role" = some lab.role ∧ nearestLang (own ++ up) = some lab.language ∧ lab.text = x.text.getD ""

/-- The links are those of XBRL 2.1 and the prefix `xlink` is bound to the name space of XLink in them. -/
structure PlainLinks (roots : List XNode) : Prop where
  tags : ∀ root ∈ roots, ∀ own x, Below root own x → isLinkElement x = true → ∃ name ∈ tagKinds.map (·.1), x.tag = some (linkTag name)
  scope : ∀ root ∈ roots, ∀ own x, Below root own x → isLinkElement x = true → ∀ c y, Lineage x c y → y.tag ≠ none → y.ns.get? (some "xlink") = some "http://www.w3.org/1999/xlink"
  resources : ∀ root ∈ roots, ∀ own x, Below root own x → isLinkElement x = true → ∀ c y, Part x "resource" c y → ∃ name ∈ ["label", "footnote", "reference"], y.tag = some (linkTag name)

/-- In label links, arcs do not lead to locators. -/
def LabelsLast (roots : List XNode) : Prop :=
  ∀ up link role, HasLink roots "labelLink" role up link → ∀ l m, Joined link l m → ∀ own x, Part link "locator" own x → x.xlinkAttr "label" ≠ some m

/-- The tags of the links whose networks of one role are united, with the class of these networks. -/
def unitedTags : List (String × NodeKind) := [("presentationLink", .presentation), ("calculationLink", .calculation), ("definitionLink", .definition)]

/-- The network of this role and class shows the report element. -/
def ReadNetworks.Shows (s : ReadNetworks) (role : String) (k : NodeKind) (q : QName) : Prop :=
  ∃ net ∈ s.networks.store.getByType k, net.logicalOf role k = true ∧ ∃ b, Occurs s.networks.heap net.roots (some (.element q b))

/-- In the network of this role and class, the second report element is a child of the first. -/
def ReadNetworks.ShowsBelow (s : ReadNetworks) (role : String) (k : NodeKind) (q q' : QName) : Prop :=
  ∃ net ∈ s.networks.store.getByType k, net.logicalOf role k = true ∧ ∃ b b', Related s.networks.heap net.roots (some (.element q b)) (some (.element q' b'))

/-- In a physical definition network of this role, all of whose nodes have this arc role, the second report element is a child of the first. -/
def ReadNetworks.ShowsRelation (s : ReadNetworks) (role arcrole : String) (q q' : QName) : Prop :=
  ∃ net ∈ s.networks.physicalNetworks, net.kind = .definition ∧ net.linkRole = role ∧ (∀ i, InNetwork s.networks.heap net.roots i → (s.networks.heap[i]?).map NetNode.arcRole = some arcrole) ∧
    ∃ b b', Related s.networks.heap net.roots (some (.element q b)) (some (.element q' b'))

/-- The arcs of the link form no cycle: they go up a rank. All of them start at a report element. -/
structure Rooted (elems : ElemStore) (link : XNode) : Prop where
  rank : ∃ rank : String → Nat, ∀ l m, Joined link l m → rank l < rank m
  source : ∀ l m, Joined link l m → ∃ q, Locates elems link l q

end Brel
