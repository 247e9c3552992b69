import Verif.Model.XhtmlFacts
import Verif.Spec.XmlFacts

/-! What the elements of inline documents mean. -/

namespace Brel.Spec
open Brel

/-- The report of an id that was used before. -/
def duplicateId : String := "IXBRL_DUPLICATE_ELEMENT_ID"

/-- Ids are used in order, after others were used before; `n` reports are made, one or two for each id that was used earlier and none for the others. -/
def Reported : List String → List String → Nat → Prop
  | _, [], n => n = 0
  | seen, i :: is, n => ∃ k m, n = k + m ∧ (if i ∈ seen then 1 ≤ k ∧ k ≤ 2 else k = 0) ∧ Reported (i :: seen) is m

/-- The elements of a list with a prefixed tag. -/
def withTag (t : String) (xs : List XNode) : List XNode := xs.filter (fun x => decide (x.prefixTag.toOption = some t))

/-- The elements of a list with none of some tags. -/
def withoutTags (ts : List String) (xs : List XNode) : List XNode := xs.filter (fun x => decide (∀ t ∈ ts, x.prefixTag.toOption ≠ some t))

/-- The headers of the documents. -/
def headers (docs : List InlineDoc) : List XNode := docs.flatMap (fun d => headersOf d.root)

/-- The children of the headers of the documents with a tag. -/
def headerElems (docs : List InlineDoc) (t : String) : List XNode := withTag t ((headers docs).flatMap XNode.children)

/-- The children of the resources elements with a tag. -/
def resourceElems (docs : List InlineDoc) (t : String) : List XNode := withTag t ((headerElems docs "ix:resources").flatMap XNode.children)

/-- The ids of elements. -/
def idsOf (xs : List XNode) : List String := xs.filterMap (fun x => x.attr? "id")

/-- The context element an id denotes: the first one of that id with a period and an entity. -/
def declaredContext (xs : List XNode) (i : String) : Option XNode := xs.find? (fun x => decide (x.attr? "id" = some i) && (partsOf x).isSome)

/-- The unit an id denotes: the one of the last usable unit element of that id. -/
def declaredUnit (xs : List XNode) (i : String) : Option Characteristic :=
  (xs.filterMap (fun x => if x.attr? "id" = some i then unitOf x else none)).getLast?

/-- The concept of the taxonomy a fact element names. -/
def inlineConcept (data : ReportElement → Concept) (re : ElemStore) (x : XNode) : Option Concept := do
  let n ← x.attr? "name"
  let q ← (qnameFromStr n x.ns).toOption
  (elementOf re .concept q).map (conceptFor data)

/-- The unit a fact element refers to, if there is one. -/
def inlineUnits (units : List XNode) (x : XNode) : List Characteristic :=
  match x.attr? "unitRef" with
  | none | some "" => []
  | some u => (declaredUnit units u).toList

/-- Whether a fact element refers to a unit that is not declared. -/
def unitMissing (units : List XNode) (x : XNode) : Bool :=
  match truthy (x.attr? "unitRef") with
  | some u => (declaredUnit units u).isNone
  | none => false

/-- The two kinds of elements that state a fact. -/
inductive FactKind where
  | text
  | number
  deriving DecidableEq

/-- The kind of a fact element. -/
def kindOf (e : InlineElem) : Option FactKind :=
  if e.node.prefixTag.toOption = some "ix:nonNumeric" then some .text
  else if e.node.prefixTag.toOption = some "ix:nonFraction" then some .number
  else none

/-- The value of a fact element of a kind; what it is for the various formats is the subject of other properties. -/
def inlineValue (dig : Char → Option Nat) (flt : String → Option Bool) (chain : List Elem) (e : InlineElem) : FactKind → Option String
  | .text => (parseNonNumeric dig e.txt chain []).toOption.map (fun r => String.ofList r.1)
  | .number => (parseNonFraction dig flt e.num []).toOption.map (fun r => r.1.value)

/-- The fact a fact element states: its own id and value, the concept it names, the unit it refers to and what its context states. -/
def inlineFactOf (data : ReportElement → Concept) (dateOf : String → Option Date) (dig : Char → Option Nat) (flt : String → Option Bool) (re : ElemStore) (contexts units : List XNode)
    (chainOf : Nat → List Elem) (e : InlineElem) : Option Fact := do
  let k ← kindOf e
  let c ← inlineConcept data re e.node
  let ref ← e.node.attr? "contextRef"
  let cx ← declaredContext contexts ref
  let v ← inlineValue dig flt (chainOf e.cont.oid) e k
  return { id := e.node.attr? "id", value := v,
           context := (statedBy dateOf re cx ++ Characteristic.ofConcept c :: inlineUnits units e.node).foldl Context.add (Context.new ref) }

/-- Whether a fact element names a known concept and refers to a known context. -/
def usable (data : ReportElement → Concept) (re : ElemStore) (contexts : List XNode) (e : InlineElem) : Bool :=
  (kindOf e).isSome && (inlineConcept data re e.node).isSome && ((e.node.attr? "contextRef").bind (declaredContext contexts)).isSome

end Brel.Spec
