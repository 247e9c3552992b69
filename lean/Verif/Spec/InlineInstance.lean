import Verif.Spec.XhtmlFacts
import Verif.Spec.Instance
import Verif.Spec.InlineContent

/-! When the documents of an inline filing are valid. -/

namespace Brel.Spec
open Brel

/-- Every element of a list has one of some tags. -/
def OnlyTags (ts : List String) (xs : List XNode) : Prop := ∀ x ∈ xs, ∃ t ∈ ts, x.prefixTag = .ok t

/-- The headers of the documents contain nothing but valid references, contexts, units, relationships and hidden facts and footnotes. -/
structure ValidDeclarations (dateOf : String → Option Date) (re : ElemStore) (docs : List InlineDoc) : Prop where
  header : headers docs ≠ []
  children : ∀ h ∈ headers docs, OnlyTags ["ix:hidden", "ix:resources", "ix:references"] h.children ∧
    (withTag "ix:hidden" h.children).length ≤ 1 ∧ (withTag "ix:resources" h.children).length ≤ 1
  resources : headerElems docs "ix:resources" ≠ []
  references : ∀ x ∈ headerElems docs "ix:references", x.children ≠ [] ∧ OnlyTags ["link:schemaRef", "link:linkbaseRef"] x.children
  hidden : ∀ x ∈ headerElems docs "ix:hidden", OnlyTags ["ix:footnote", "ix:nonFraction", "ix:nonNumeric"] x.children
  inside : ∀ x ∈ headerElems docs "ix:resources", OnlyTags ["ix:relationship", "link:roleRef", "link:arcroleRef", "xbrli:context", "xbrli:unit"] x.children
  contexts : ∀ x ∈ resourceElems docs "xbrli:context", (x.attr? "id").isSome ∧ ValidContext dateOf re x
  units : ∀ x ∈ resourceElems docs "xbrli:unit", (x.attr? "id").isSome ∧ ValidUnit x

/-- The continuations of some elements: all have ids, every reference leads to one, no two references lead to the same, they do not form a circle, each belongs to the chain of an
element, and no element of a chain contains another one of it. -/
structure ValidContinuations (starts conts : List ContElem) : Prop where
  ids : ∀ c ∈ conts, c.id.isSome
  known : ∀ e ∈ starts ++ conts, ∀ i, e.continuedAt = some i → ∃ c ∈ conts, c.id = some i
  once : ((starts ++ conts).filterMap (·.continuedAt)).Nodup
  circle : NoCircle (continuationOf conts)
  used : ∀ c ∈ conts, ∃ e ∈ starts, ∃ cs, Path (continuationOf conts) e.continuedAt cs ∧ c ∈ cs
  apart : ∀ e ∈ starts, ∀ cs, Path (continuationOf conts) e.continuedAt cs → ∀ a ∈ e :: cs, ∀ b ∈ e :: cs, b.oid ∉ a.inside

/-- The content of a fact element, with that of its continuations, can be read without a report; for which contents this is the case is the subject of other properties. -/
def Readable (dig : Char → Option Nat) (flt : String → Option Bool) (chain : List Elem) (e : InlineElem) : FactKind → Prop
  | .text => ∃ r, parseNonNumeric dig e.txt chain [] = .ok r ∧ r.2.2.1 = []
  | .number => ∃ r, parseNonFraction dig flt e.num [] = .ok r ∧ r.2.1 = []

/-- A fact element: written with the prefix `ix`, it names a concept, refers to a declared context and, as a number has to, to a declared unit, and its content can be read. -/
structure ValidInlineFact (data : ReportElement → Concept) (dig : Char → Option Nat) (flt : String → Option Bool) (re : ElemStore) (docs : List InlineDoc) (e : InlineElem) : Prop where
  concept : (inlineConcept data re e.node).isSome
  context : ∃ ref, e.node.attr? "contextRef" = some ref ∧ (declaredContext (resourceElems docs "xbrli:context") ref).isSome
  unit : ∀ u, e.node.attr? "unitRef" = some u → u ≠ "" → (declaredUnit (resourceElems docs "xbrli:unit") u).isSome
  value : (kindOf e = some .text ∧ ∀ cs : List InlineElem, (∀ c ∈ cs, c ∈ inlineConts docs) →
      Path (continuationOf ((inlineConts docs).map (·.link))) e.link.continuedAt (cs.map (·.link)) → Readable dig flt (cs.map (·.nonNumeric.elem)) e .text) ∨
    (kindOf e = some .number ∧ (∃ u, e.node.attr? "unitRef" = some u ∧ u ≠ "") ∧ Readable dig flt [] e .number)

/-- The elements that can be continued: text facts and footnotes. -/
def continuable (docs : List InlineDoc) : List InlineElem := (inlineFacts docs).filter (fun e => decide (kindOf e = some .text)) ++ inlineFootnotes docs

/-- An inline filing whose declarations, continuations and facts are valid. The last condition says that elements are told apart by identity. -/
structure ValidInline (data : ReportElement → Concept) (dateOf : String → Option Date) (dig : Char → Option Nat) (flt : String → Option Bool) (re : ElemStore) (docs : List InlineDoc) : Prop where
  declarations : ValidDeclarations dateOf re docs
  continuations : ValidContinuations ((continuable docs).map (·.link)) ((inlineConts docs).map (·.link))
  facts : ∀ e ∈ inlineFacts docs, ValidInlineFact data dig flt re docs e
  objects : ((inlineFacts docs ++ inlineFootnotes docs).map (·.cont.oid)).Nodup ∧ ((inlineConts docs).map (·.cont.oid)).Nodup

/-- The ids of a filing, with repetitions: of references, contexts, units, continuations and facts. -/
def allIds (docs : List InlineDoc) : List String :=
  idsOf (headerElems docs "ix:references" ++ resourceElems docs "xbrli:context" ++ resourceElems docs "xbrli:unit" ++ (inlineConts docs).map (·.node) ++ (inlineFacts docs).map (·.node))

end Brel.Spec
