import Verif.Model.FactParts
import Verif.Spec.FilingQueries
import Verif.Spec.InlineQueries

/-! What the accessors of a fact answer, in terms of its element (C134). -/

namespace Brel
open Spec

/-- The answers of a fact are a concept, a unit if there is one, the period and the entity of a context element, and the members of its segment. -/
structure HasParts (dateOf : String → Option Date) (re : ElemStore) (c : Concept) (u : Option Characteristic) (cx : XNode) (f : Fact) : Prop where
  concept : f.getConcept = .ok c
  unit : f.getUnit = u
  period : ∃ p d, cx.find "period" = some p ∧ periodOf dateOf p = some d ∧ f.getPeriod = some (.ofPeriod d)
  entity : ∃ e i s, cx.find "entity" = some e ∧ entityOf e = some (i, s) ∧ f.getEntity = some (.ofEntity i s)
  dimensions : ∀ a : Aspect, ':' ∈ a.name.toList → f.context.getCharacteristic a =
    ((cx.find "entity").toList.flatMap segmentOf |>.filterMap (dimensionOf re)).find? (fun d => decide (d.aspect.name = a.name))

/-- The unit element of its document that a fact element refers to. -/
def unitNode (root x : XNode) : Option XNode := (x.attr? "unitRef").bind (fun u => if u = "" then none else findById root "unit" u)

/-- The fact says what a fact element of a document and the elements it refers to say. -/
def ElementSays (dateOf : String → Option Date) (docs : List SchemaDoc) (p : XNode × XNode) (f : Fact) : Prop :=
  f.id = p.2.attr? "id" ∧ f.value = p.2.text.getD "" ∧ (∀ ux, unitNode p.1 p.2 = some ux → (unitOf ux).isSome) ∧
    ∃ c cx, conceptOf (taxonomyConcept docs) (taxonomyStore docs) p.2 = some c ∧ contextOf p.1 p.2 = some cx ∧
      HasParts dateOf (taxonomyStore docs) c ((unitNode p.1 p.2).bind unitOf) cx f

/-- The unit that an inline element refers to; units may be declared in any of the documents. -/
def inlineUnitStated (docs : List FilingDoc) (e : InlineElem) : Option Characteristic :=
  (e.node.attr? "unitRef").bind (fun u => if u = "" then none else declaredUnit (resourceElems (inlineDocs docs) "xbrli:unit") u)

/-- The fact says what an inline element and the elements it refers to say. -/
def InlineSays (dateOf : String → Option Date) (docs : List FilingDoc) (e : InlineElem) (f : Fact) : Prop :=
  f.id = e.node.attr? "id" ∧ ∃ c ref cx, inlineConcept (taxonomyConcept (docs.map (·.doc))) (taxonomyStore (docs.map (·.doc))) e.node = some c ∧ e.node.attr? "contextRef" = some ref ∧
    declaredContext (resourceElems (inlineDocs docs) "xbrli:context") ref = some cx ∧ HasParts dateOf (taxonomyStore (docs.map (·.doc))) c (inlineUnitStated docs e) cx f

/-- The text of a context without dimensions: concept, entity, period and unit, each followed by a space. -/
def ContextSays (dateOf : String → Option Date) (c : Concept) (u : Option Characteristic) (cx : XNode) (t : String) : Prop :=
  ∃ p d e i s, cx.find "period" = some p ∧ periodOf dateOf p = some d ∧ cx.find "entity" = some e ∧ entityOf e = some (i, s) ∧
    ((u = none ∧ t = c.name.prefixLocal ++ " " ++ ("{" ++ s ++ "}" ++ i) ++ " " ++ d.shown ++ " ") ∨
      ∃ n a b, u = some (.ofUnit n a b) ∧ t = c.name.prefixLocal ++ " " ++ ("{" ++ s ++ "}" ++ i) ++ " " ++ d.shown ++ " " ++ n ++ " ")

/-- What a context says about an aspect of the name `n`: concept, entity, period, unit if there is one, and for each axis the first member of the segment. -/
inductive SaysAbout (dateOf : String → Option Date) (re : ElemStore) (c : Concept) (u : Option Characteristic) (cx : XNode) : String → String → Prop where
  | concept : SaysAbout dateOf re c u cx "concept" c.name.prefixLocal
  | entity {e : XNode} {i s : String} : cx.find "entity" = some e → entityOf e = some (i, s) → SaysAbout dateOf re c u cx "entity" ("{" ++ s ++ "}" ++ i)
  | period {p : XNode} {d : Period} : cx.find "period" = some p → periodOf dateOf p = some d → SaysAbout dateOf re c u cx "period" d.shown
  | unit {n : String} {a b : List QName} : u = some (.ofUnit n a b) → SaysAbout dateOf re c u cx "unit" n
  | dimension {n : String} {x : Characteristic} : ':' ∈ n.toList →
      ((cx.find "entity").toList.flatMap segmentOf |>.filterMap (dimensionOf re)).find? (fun d => decide (d.aspect.name = n)) = some x → SaysAbout dateOf re c u cx n x.value.plainText

/-- A text puts together what a context says, in the order of the names, with a space after each. -/
def SaysAll (says : String → String → Prop) (t : String) : Prop :=
  ∃ parts : List (String × String), parts.Pairwise (fun a b => a.1 < b.1) ∧ (∀ n v, (n, v) ∈ parts ↔ says n v) ∧ t = parts.foldl (fun t p => t ++ (p.2 ++ " ")) ""

end Brel
