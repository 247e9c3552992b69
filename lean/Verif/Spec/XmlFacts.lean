import Verif.Model.XmlFacts
import Verif.Spec.XmlContext

/-! What the fact elements of XML instances mean. -/

namespace Brel.Spec
open Brel

/-- The unit a unit element states, whatever was parsed before. -/
def unitOf (x : XNode) : Option Characteristic :=
  match parseUnit x {} with
  | .ok (some c, _) => some c
  | _ => none

/-- The concept of the taxonomy a fact element is named after. -/
def conceptOf (data : ReportElement → Concept) (re : ElemStore) (x : XNode) : Option Concept := do
  let q ← (qnameFromStr (x.tag.getD "") x.ns).toOption
  (elementOf re .concept q).map (conceptFor data)

/-- The units a fact element refers to: none, or the one of its document with that id. -/
def unitsOf (root x : XNode) : Option (List Characteristic) :=
  match x.attr? "unitRef" with
  | none | some "" => some []
  | some u => ((findById root "unit" u).bind unitOf).map (fun c => [c])

/-- The context element of its document a fact element refers to, if it has a period and an entity. -/
def contextOf (root x : XNode) : Option XNode := do
  let cx ← (x.attr? "contextRef").bind (findById root "context")
  if (partsOf cx).isSome then some cx else none

/-- The fact a fact element of a document states: its own id and text, and the characteristics of its concept, unit and context. -/
def factOf (data : ReportElement → Concept) (dateOf : String → Option Date) (re : ElemStore) (root x : XNode) : Option Fact := do
  let c ← conceptOf data re x
  let us ← unitsOf root x
  let cx ← contextOf root x
  return { id := x.attr? "id", value := x.text.getD "",
           context := (Characteristic.ofConcept c :: us ++ statedBy dateOf re cx).foldl Context.add (Context.new ((x.attr? "contextRef").getD "")) }

/-- The fact elements of a filing, each with its document. -/
def elementsOf (roots : List XNode) : List (XNode × XNode) := roots.flatMap (fun r => (factElements r).map (fun x => (r, x)))

/-- A tag denotes one concept, whatever prefixes are in scope. -/
def TagsUnambiguous (re : ElemStore) : Prop :=
  ∀ t ns ns' q q' e e', qnameFromStr t ns = .ok q → qnameFromStr t ns' = .ok q' → elementOf re .concept q = some e → elementOf re .concept q' = some e' → e = e'

/-- Units of the same id in different documents are the same. -/
def UnitsAgree (roots : List XNode) : Prop :=
  ∀ r ∈ roots, ∀ r' ∈ roots, ∀ u x x', findById r "unit" u = some x → findById r' "unit" u = some x' → unitOf x = unitOf x'

/-- A fact without a value, of a concept that must have one. -/
def noValue (x : XNode) (f : Fact) : Bool :=
  x.text.isNone && (match f.context.getCharacteristic .concept with
    | some ⟨_, .concept c⟩ => !c.nillable
    | _ => false)

end Brel.Spec
