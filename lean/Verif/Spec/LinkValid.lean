import Verif.Spec.Linkbase
import Verif.Model.XmlFacts

/-! Valid extended links, and what is to be reported about links. -/

namespace Brel

/-- The attribute is missing or a number; `float` gives the number of a text, if it is one. -/
def NumberAttr (float : String → Option Rat) (x : XNode) (n : String) : Prop := ∀ t, x.attr? n = some t → t ≠ "" ∧ ∃ q, float t = some q

/-- The kind of resources the links with a tag contain. -/
def resourceTags : List (String × String) := [("labelLink", "label"), ("referenceLink", "reference"), ("footnoteLink", "footnote")]

/-- The link, with this tag, is one that XBRL 2.1 allows:
arcs have both ends, a role and numeric attributes; locators have a label and a reference, which may only lead to the objects the kind of link is about, if it leads anywhere;
resources have a label, a role and the tag for the kind of link; a label link leads from elements to labels, and every label belongs to an element; arcs form no cycle. -/
structure ValidLink (elems : ElemStore) (facts : FactStore) (float : String → Option Rat) (name : String) (link : XNode) : Prop where
  arcs : ∀ own x, Part link "arc" own x → (∃ l, x.xlinkAttr "from" = some l) ∧ (∃ m, x.xlinkAttr "to" = some m) ∧ (∃ r, x.xlinkAttr "arcrole" = some r) ∧
    NumberAttr float x "order" ∧ NumberAttr float x "weight"
  locators : ∀ own x, Part link "locator" own x → (∃ l, x.xlinkAttr "label" = some l) ∧ ∃ href i, x.xlinkAttr "href" = some href ∧ Refers href i ∧
    (∀ e, elems.byId.get? i = some e → name = "calculationLink" → e.kind = .concept) ∧
    (∀ f, elems.byId.get? i = none → facts.byId.get? i = some f → name = "footnoteLink")
  resources : ∀ own x, Part link "resource" own x → (∃ l, x.xlinkAttr "label" = some l) ∧ (∃ r, x.xlinkAttr "role" = some r) ∧
    ∃ t, (name, t) ∈ resourceTags ∧ x.tag = some (linkTag t) ∧ (t = "reference" → ∀ c ∈ x.children, c.tag ≠ none)
  labels : name = "labelLink" →
    (∀ own x m, Part link "resource" own x → x.xlinkAttr "label" = some m → (∃ l, Joined link l m) ∧ ∀ m', ¬ Joined link m m') ∧
    (∀ own x m, Part link "locator" own x → x.xlinkAttr "label" = some m → ∀ l, ¬ Joined link l m)
  acyclic : ∃ rank : String → Nat, ∀ l m, Joined link l m → rank l < rank m

/-- The documents contain an extended link with this tag; `up` lists the nodes from the link up to the root of its document. -/
structure ContainsLink (roots : List XNode) (name : String) (up : List XNode) (link : XNode) : Prop where
  placed : ∃ root ∈ roots, ∃ own, Below root own link ∧ up = own ++ [root]
  tag : link.tag = some (linkTag name)
  extended : link.xlinkAttr "type" = some "extended"

/-- All extended links of the documents that have a role are valid. -/
def ValidLinks (elems : ElemStore) (facts : FactStore) (float : String → Option Rat) (roots : List XNode) : Prop :=
  ∀ name role up link, HasLink roots name role up link → ValidLink elems facts float name link

/-- What the arcs of a link say: their ends and roles, in document order. -/
def arcKeys (link : XNode) : List (Option String × Option String × Option String) :=
  (link.descendants.filter (fun x => decide (x.tag ≠ none) && decide (x.xlinkAttr "type" = some "arc"))).map (fun x => (x.xlinkAttr "from", x.xlinkAttr "to", x.xlinkAttr "arcrole"))

/-- What is reported about a link: arcs that are repeated, locators that refer to nothing, labels and footnotes without language. -/
inductive LinkReport (elems : ElemStore) (facts : FactStore) (up : List XNode) (link : XNode) : SchemaReport → Prop where
  | repeated {l m r : String} : 2 ≤ (arcKeys link).count (some l, some m, some r) → LinkReport elems facts up link ("DUPLICATE_LINKBASE_ARC", [("arc_from", some l), ("arc_to", some m)])
  | unresolved {own x href i} : Part link "locator" own x → x.xlinkAttr "href" = some href → Refers href i → elems.byId.get? i = none → facts.byId.get? i = none →
      LinkReport elems facts up link ("XML_REFERENCED_LOCATOR_ELEMENT_NOT_FOUND", [("elem_id", some i)])
  | label {own x} : Part link "resource" own x → x.tag = some (linkTag "label") → nearestLang (own ++ up) = none → LinkReport elems facts up link ("MISSING_LABEL_LANGUAGE", [])
  | footnote {own x} : Part link "resource" own x → x.tag = some (linkTag "footnote") → nearestLang (own ++ up) = none → LinkReport elems facts up link ("XML_MISSING_FOOTNOTE_LANGUAGE", [])

end Brel
