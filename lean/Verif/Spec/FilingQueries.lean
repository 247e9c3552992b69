import Verif.Model.FilingQueries
import Verif.Spec.Open
import Verif.Spec.FactTable
import Verif.Spec.FactRow
import Verif.Spec.Filing

/-! What the queries about facts answer, in terms of the documents (C132). -/

namespace Brel
open Spec

/-- The members in the segment of the context that a fact element refers to. -/
def membersStated (root x : XNode) : List XNode := ((contextOf root x).bind (fun cx => cx.find "entity")).toList.flatMap segmentOf

/-- The fact elements whose contexts have no dimensions, in order. -/
def coreElements (docs : List SchemaDoc) : List (XNode × XNode) := (elementsOf (docs.map (·.root))).filter (fun p => (membersStated p.1 p.2).isEmpty)

/-- The name of the concept that a fact element is named after. -/
def reportedName (docs : List SchemaDoc) (x : XNode) : Option QName := (conceptOf (taxonomyConcept docs) (taxonomyStore docs) x).map (·.name)

/-- The fact elements of a concept, in order. -/
def elementsNamed (docs : List SchemaDoc) (q : QName) : List (XNode × XNode) := (elementsOf (docs.map (·.root))).filter (fun p => decide (reportedName docs p.2 = some q))

/-- The facts are those that the fact elements state, in order. -/
def StatedByAll (dateOf : String → Option Date) (docs : List SchemaDoc) (fs : List Fact) (ps : List (XNode × XNode)) : Prop :=
  fs.map some = ps.map (fun p => factOf (taxonomyConcept docs) dateOf (taxonomyStore docs) p.1 p.2)

/-- A language in which the core aspects have titles. -/
def TitleLanguage (ml : Bool) (l : String) : Prop := l = "" ∨ ∃ t ∈ ["en-US", "fr-FR", "de-DE", "es-ES"], languagesMatch ml l t = true

/-- The prefixes that the documents bind, with their name spaces. -/
def boundPrefixes (docs : List SchemaDoc) : List (String × String) := registeredNamespaces (((docs.map (·.root)).flatMap (fun r => r :: r.descendants)).map (·.ns))

end Brel
