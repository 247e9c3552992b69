import Verif.Spec.XmlFacts
import Verif.Spec.Names

/-! When the facts of an XML instance document are valid, and how an instance document is written. -/

namespace Brel.Spec
open Brel

/-- A name in the namespace of XBRL instances. -/
def xbrli (n : String) : String := "{http://www.xbrl.org/2003/instance}" ++ n

/-- A name in the namespace of dimensions in contexts. -/
def xbrldi (n : String) : String := "{http://xbrl.org/2006/xbrldi}" ++ n

/-- A unit element: one measure, or the quotient of two. -/
inductive ValidUnit (x : XNode) : Prop
  | simple (m : XNode) (one : x.children = [m]) (tag : m.tag = some (xbrli "measure")) (text : m.text.isSome)
  | quotient (d a b ma mb : XNode) (one : x.children = [d]) (tag : d.tag = some (xbrli "divide")) (two : d.children = [a, b])
      (num : a.tag = some (xbrli "unitNumerator")) (den : b.tag = some (xbrli "unitDenominator")) (na : a.children = [ma]) (nb : b.children = [mb])
      (ta : ma.text.isSome) (tb : mb.text.isSome)

/-- A context element: a period whose dates can be read and whose end is not before its start, an entity with identifier and scheme, and a segment of
members that name known dimensions and members, or a known dimension and one value. -/
structure ValidContext (dateOf : String → Option Date) (re : ElemStore) (x : XNode) : Prop where
  parts : ∃ p e, partsOf x = some (p, e) ∧ (periodOf dateOf p).isSome ∧ (entityOf e).isSome ∧
    ∀ m ∈ segmentOf e, (dimensionOf re m).isSome ∧ m.children.length ≤ 1

/-- A fact element: it is named after a concept, has a value unless the concept may lack one, and refers to a context and at most one unit of its
document, which are valid. -/
structure ValidFact (data : ReportElement → Concept) (dateOf : String → Option Date) (re : ElemStore) (root x : XNode) : Prop where
  concept : ∃ c, conceptOf data re x = some c ∧ x.tag = some c.name.clark ∧ (x.text.isSome ∨ c.nillable = true)
  unit : ∀ u, x.attr? "unitRef" = some u → u ≠ "" → ∃ ux, findById root "unit" u = some ux ∧ ValidUnit ux
  context : ∃ ref cx, x.attr? "contextRef" = some ref ∧ findById root "context" ref = some cx ∧ ValidContext dateOf re cx

/-- Fact elements with the same tag are named after the same concept. -/
def SameConcepts (data : ReportElement → Concept) (re : ElemStore) (xs : List XNode) : Prop :=
  ∀ x ∈ xs, ∀ y ∈ xs, x.tag = y.tag → conceptOf data re x = conceptOf data re y

/-! ### Writing an instance document -/

/-- The date of an instant, or the first and the last date of a duration. -/
inductive StatedPeriod where
  | at (date : String)
  | between (first last : String)

/-- A dimension and its member, or a dimension and the element that holds its value. -/
inductive StatedDim where
  | explicit (axis member : QName)
  | typed (axis : QName) (tag value : String)

/-- A context. -/
structure StatedContext where
  id : String
  scheme : String
  identifier : String
  period : StatedPeriod
  dims : List StatedDim

/-- A unit: a measure, or a quotient of measures. -/
structure StatedUnit where
  id : String
  measure : QName
  per : Option QName

/-- A fact, with the ids of its context and its unit. -/
structure StatedFact where
  id : String
  concept : QName
  context : String
  unit : Option String
  value : String

/-- What an instance document is to say. -/
structure Instance where
  ns : NsMap
  contexts : List StatedContext
  units : List StatedUnit
  facts : List StatedFact

/-- `<period>` -/
def writePeriod (ns : NsMap) : StatedPeriod → XNode
  | .at d => .mk (some (xbrli "period")) [] none ns [.mk (some (xbrli "instant")) [] (some d) ns []]
  | .between a b => .mk (some (xbrli "period")) [] none ns [.mk (some (xbrli "startDate")) [] (some a) ns [], .mk (some (xbrli "endDate")) [] (some b) ns []]

/-- `<explicitMember>` and `<typedMember>`; names are written `prefix:local`. -/
def writeDim (ns : NsMap) : StatedDim → XNode
  | .explicit a m => .mk (some (xbrldi "explicitMember")) [("dimension", a.prefixLocal)] (some m.prefixLocal) ns []
  | .typed a t v => .mk (some (xbrldi "typedMember")) [("dimension", a.prefixLocal)] none ns [.mk (some t) [] (some v) ns []]

/-- `<context>`; the segment is left out if there are no dimensions. -/
def writeContext (ns : NsMap) (c : StatedContext) : XNode :=
  .mk (some (xbrli "context")) [("id", c.id)] none ns
    [.mk (some (xbrli "entity")) [] none ns (.mk (some (xbrli "identifier")) [("scheme", c.scheme)] (some c.identifier) ns [] ::
       if c.dims = [] then [] else [.mk (some (xbrli "segment")) [] none ns (c.dims.map (writeDim ns))]),
     writePeriod ns c.period]

/-- `<measure>` -/
def writeMeasure (ns : NsMap) (q : QName) : XNode := .mk (some (xbrli "measure")) [] (some q.prefixLocal) ns []

/-- `<unit>` -/
def writeUnit (ns : NsMap) (u : StatedUnit) : XNode :=
  .mk (some (xbrli "unit")) [("id", u.id)] none ns
    [match u.per with
      | none => writeMeasure ns u.measure
      | some d => .mk (some (xbrli "divide")) [] none ns [.mk (some (xbrli "unitNumerator")) [] none ns [writeMeasure ns u.measure],
          .mk (some (xbrli "unitDenominator")) [] none ns [writeMeasure ns d]]]

/-- A fact element; the element of an empty value has no text. -/
def writeFact (ns : NsMap) (f : StatedFact) : XNode :=
  .mk (some f.concept.clark) ([("id", f.id), ("contextRef", f.context)] ++ (match f.unit with | none => [] | some u => [("unitRef", u)]))
    (if f.value = "" then none else some f.value) ns []

/-- The instance document. -/
def Instance.write (i : Instance) : XNode :=
  .mk (some (xbrli "xbrl")) [] none i.ns (i.contexts.map (writeContext i.ns) ++ i.units.map (writeUnit i.ns) ++ i.facts.map (writeFact i.ns))

/-! ### What the document says -/

/-- The period with these dates. -/
def StatedPeriod.meaning (dateOf : String → Option Date) : StatedPeriod → Option Period
  | .at d => (dateOf d).map Period.instant
  | .between a b => do
    let x ← dateOf a
    let y ← dateOf b
    if Date.le x y then some (.duration x y) else none

/-- The dates of a period. -/
def StatedPeriod.dates : StatedPeriod → List String
  | .at d => [d]
  | .between a b => [a, b]

/-- The dimension of the taxonomy and its member or value. -/
def StatedDim.meaning (re : ElemStore) : StatedDim → Option Characteristic
  | .explicit a m => do
    let d ← elementOf re .dimension a
    let e ← elementOf re .member m
    return ⟨{ name := a.prefixLocal }, .explicit d.name e.name [e.tag]⟩
  | .typed a _ v => (elementOf re .dimension a).map (fun d => ⟨{ name := a.prefixLocal }, .typed d.name [d.tag] v⟩)

/-- The names of a dimension. -/
def StatedDim.names : StatedDim → List QName
  | .explicit a m => [a, m]
  | .typed a _ _ => [a]

/-- The unit with this id, if there is to be one. -/
def Instance.unitsFor (i : Instance) : Option String → Option (List Characteristic)
  | none => some []
  | some u => (i.units.find? (fun x => x.id = u)).map (fun x => [Characteristic.ofUnit u [x.measure] x.per.toList])

/-- The fact with the concept of the taxonomy, the unit and the context with these ids. -/
def Instance.fact (i : Instance) (data : ReportElement → Concept) (dateOf : String → Option Date) (re : ElemStore) (f : StatedFact) : Option Fact := do
  let e ← elementOf re .concept f.concept
  let us ← i.unitsFor f.unit
  let c ← i.contexts.find? (fun x => x.id = f.context)
  let p ← c.period.meaning dateOf
  return { id := some f.id, value := f.value,
           context := (Characteristic.ofConcept (conceptFor data e) :: us ++ (Characteristic.ofPeriod p :: Characteristic.ofEntity c.identifier c.scheme :: c.dims.filterMap (StatedDim.meaning re))).foldl
             Context.add (Context.new c.id) }

/-- A name that can be written `prefix:local` in the scope. -/
structure Writable (ns : NsMap) (q : QName) : Prop where
  pfx : q.pfx ≠ "" ∧ q.pfx ≠ "xml" ∧ ':' ∉ q.pfx.toList ∧ '{' ∉ q.pfx.toList
  localName : q.localName ≠ "" ∧ ':' ∉ q.localName.toList
  bound : ns.get? (some q.pfx) = some q.uri

/-- What an instance has to satisfy to be read. -/
structure Instance.Valid (i : Instance) (data : ReportElement → Concept) (dateOf : String → Option Date) (re : ElemStore) : Prop where
  /-- every date can be read, and durations end when they start or later -/
  periods : ∀ c ∈ i.contexts, (c.period.meaning dateOf).isSome ∧ ∀ d ∈ c.period.dates, d ≠ "" ∧ ' ' ∉ d.toList
  /-- an identifier is used with one scheme only -/
  entities : ∀ c ∈ i.contexts, ∀ c' ∈ i.contexts, c.identifier = c'.identifier → c.scheme = c'.scheme
  /-- dimensions and members are known, and their names can be written, without spaces -/
  dims : ∀ c ∈ i.contexts, ∀ d ∈ c.dims, (d.meaning re).isSome ∧ ∀ q ∈ d.names, Writable i.ns q ∧ ' ' ∉ q.prefixLocal.toList
  /-- measures can be written -/
  measures : ∀ u ∈ i.units, Writable i.ns u.measure ∧ ∀ q ∈ u.per, Writable i.ns q
  /-- ids of units are not empty -/
  unitIds : ∀ u ∈ i.units, u.id ≠ ""
  /-- ids of facts are distinct -/
  factIds : (i.facts.map (·.id)).Nodup
  /-- a fact is of a known concept that is written with the last prefix of its namespace, and has a value unless the concept may lack one -/
  concepts : ∀ f ∈ i.facts, ∃ e, elementOf re .concept f.concept = some e ∧ IsClark f.concept.uri f.concept.localName ∧ f.concept.uri ≠ xmlNs ∧
    LastPrefixOf i.ns (some f.concept.pfx) f.concept.uri ∧ (f.value ≠ "" ∨ (data e).nillable = true)
  /-- a fact refers to a context and, if it refers to a unit, to one of the instance -/
  contexts : ∀ f ∈ i.facts, ∃ c ∈ i.contexts, c.id = f.context
  units : ∀ f ∈ i.facts, ∀ u, f.unit = some u → ∃ x ∈ i.units, x.id = u

end Brel.Spec
