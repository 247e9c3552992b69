import Verif.Spec.CalcNetwork
import Verif.Spec.Calc

/-! What the sums of a calculation network are, in terms of the documents. -/

namespace Brel

/-- The extended links of the documents with this tag and role, in document order. -/
def linksOfRole (roots : List XNode) (name role : String) : List XNode :=
  roots.flatMap (fun r => r.descendants.filter (fun x => decide (x.tag = some (linkTag name)) && decide (x.xlinkAttr "type" = some "extended") && decide (x.xlinkAttr "role" = some role)))

/-- The elements of the link with this XLink type, in document order. -/
def linkParts (link : XNode) (type : String) : List XNode := link.descendants.filter (fun x => decide (x.tag ≠ none) && decide (x.xlinkAttr "type" = some type))

/-- The locator refers to the report element with this name. -/
def LocatorFor (elems : ElemStore) (x : XNode) (q : QName) : Prop := ∃ href i e, x.xlinkAttr "href" = some href ∧ Refers href i ∧ elems.byId.get? i = some e ∧ e.name = q

/-- What is added up for a label: the arcs that leave it, each with the locators it leads to. -/
def summands (link : XNode) (l : String) : List (XNode × XNode) :=
  ((linkParts link "arc").filter (fun x => decide (x.xlinkAttr "from" = some l))).flatMap
    (fun x => ((linkParts link "locator").filter (fun y => decide (y.xlinkAttr "label" = x.xlinkAttr "to"))).map (fun y => (x, y)))

/-- The facts that belong to the fact `f`, one for every locator that refers to a concept, add up to the number; each is multiplied with the weight its arc states. -/
inductive AddsUp (elems : ElemStore) (float : String → Option Rat) (facts : List Fact) (f : Fact) : List (XNode × XNode) → Rat → Prop where
  | nil : AddsUp elems float facts f [] 0
  | skip {x y rest s} : (∀ q, ¬ LocatorFor elems y q) → AddsUp elems float facts f rest s → AddsUp elems float facts f ((x, y) :: rest) s
  | add {x y q g v w rest s} : LocatorFor elems y q → UniqueMatch facts f { name := q } g → float g.value = some v → StatesNumber float 0 (x.attr? "weight") w →
      AddsUp elems float facts f rest s → AddsUp elems float facts f ((x, y) :: rest) (v * w + s)

/-- Every fact for the concept is the sum of the facts that belong to it, if the label has summands. -/
def TotalsHold (elems : ElemStore) (float : String → Option Rat) (facts : List Fact) (link : XNode) (l : String) (q : QName) : Prop :=
  (∃ p ∈ summands link l, ∃ q', LocatorFor elems p.2 q') → ∀ f ∈ facts, (∃ k, f.HasConcept k ∧ k.name = q) → ∃ v, float f.value = some v ∧ AddsUp elems float facts f (summands link l) v

/-- The locator with this label and concept is reached from one without incoming arc through locators whose concepts have facts. -/
inductive Met (elems : ElemStore) (facts : List Fact) (link : XNode) : String → QName → Prop where
  | top {l q} : Locates elems link l q → (∀ l', ¬ Joined link l' l) → Met elems facts link l q
  | under {l q m q'} : Met elems facts link l q → (∃ f ∈ facts, ∃ k, f.HasConcept k ∧ k.name = q) → Joined link l m → Locates elems link m q' → Met elems facts link m q'

end Brel
