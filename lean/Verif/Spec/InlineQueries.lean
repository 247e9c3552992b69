import Verif.Model.InlineQueries
import Verif.Spec.OpenInline
import Verif.Spec.FilingQueries

/-! What the queries about facts of inline filings answer, in terms of the documents (C133). -/

namespace Brel
open Spec

/-- The members in the segment of the context that an inline element refers to. Contexts may be declared in any of the documents. -/
def inlineMembers (docs : List FilingDoc) (e : InlineElem) : List XNode :=
  (((e.node.attr? "contextRef").bind (declaredContext (resourceElems (inlineDocs docs) "xbrli:context"))).bind (fun cx => cx.find "entity")).toList.flatMap segmentOf

/-- The inline elements that state facts without dimensions, in order. -/
def inlineCore (docs : List FilingDoc) : List InlineElem := (inlineFacts (inlineDocs docs)).filter (fun e => (inlineMembers docs e).isEmpty)

/-- The name of the concept that an inline element gives as its name. -/
def inlineName (docs : List FilingDoc) (e : InlineElem) : Option QName := (inlineConcept (taxonomyConcept (docs.map (·.doc))) (taxonomyStore (docs.map (·.doc))) e.node).map (·.name)

/-- The inline elements that state facts of a concept, in order. -/
def inlineNamed (docs : List FilingDoc) (q : QName) : List InlineElem := (inlineFacts (inlineDocs docs)).filter (fun e => decide (inlineName docs e = some q))

/-- The fact is what the element says, together with its continuations if it is a text. -/
def InlineStates (dateOf : String → Option Date) (dig : Char → Option Nat) (flt : String → Option Bool) (docs : List FilingDoc) (e : InlineElem) (f : Fact) : Prop :=
  ∃ cs, (Spec.kindOf e = some .text → ContinuedBy (inlineDocs docs) e cs) ∧
    inlineFactOf (taxonomyConcept (docs.map (·.doc))) dateOf dig flt (taxonomyStore (docs.map (·.doc))) (resourceElems (inlineDocs docs) "xbrli:context")
      (resourceElems (inlineDocs docs) "xbrli:unit") (fun _ => cs.map (·.nonNumeric.elem)) e = some f

/-- The prefixes that are bound: `xml`, `html` and those of the documents. -/
def inlinePrefixes (docs : List FilingDoc) : List (String × String) :=
  ("xml", "http://www.w3.org/XML/1998/namespace") :: ("html", "http://www.w3.org/1999/xhtml") :: (boundPrefixes (docs.map (·.doc))).tail

/-- Short dates, no colons in the ids of units, and axes with prefixes. -/
abbrev InlineTexts (dateOf : String → Option Date) (docs : List FilingDoc) : Prop :=
  PlainTexts dateOf (resourceElems (inlineDocs docs) "xbrli:context") (resourceElems (inlineDocs docs) "xbrli:unit")

end Brel
