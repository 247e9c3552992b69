import Verif.Model.XmlContext

/-! What context elements mean, read off one element at a time, without any cache. -/

namespace Brel.Spec
open Brel

/-- The report element of a kind with a name. -/
def elementOf (re : ElemStore) (k : ElemKind) (q : QName) : Option ReportElement :=
  (re.byName.get? q).filter (fun e => e.kind = k)

/-- The date an element states. -/
def dateIn (dateOf : String → Option Date) (x : XNode) : Option Date :=
  x.text.bind (fun t => if t = "" then none else dateOf t)

/-- The period a period element states: its instant, or else its start and end date if the end is not before the start. -/
def periodOf (dateOf : String → Option Date) (x : XNode) : Option Period :=
  match x.find "instant" with
  | some i => (dateIn dateOf i).map Period.instant
  | none => do
    let a ← (← x.find "startDate") |> dateIn dateOf
    let b ← (← x.find "endDate") |> dateIn dateOf
    if Date.le a b then some (.duration a b) else none

/-- The identifier and the scheme an entity element states. -/
def entityOf (x : XNode) : Option (String × String) := do
  let i ← x.find "identifier"
  let scheme ← i.attr? "scheme"
  let id ← i.text
  return (id, scheme)

/-- The dimension and the member an explicit member element names. -/
def explicitOf (re : ElemStore) (x : XNode) : Option Characteristic := do
  let axis ← x.attr? "dimension"
  let dim ← elementOf re .dimension (← (qnameFromStr axis x.ns).toOption)
  let m ← x.text
  if m = "" then none
  else
    let member ← elementOf re .member (← (qnameFromStr m x.ns).toOption)
    return ⟨{ name := axis }, .explicit dim.name member.name [member.tag]⟩

/-- The dimension a typed member element names and the value it states. -/
def typedOf (re : ElemStore) (x : XNode) : Option Characteristic := do
  let axis ← x.attr? "dimension"
  let dim ← elementOf re .dimension (← (qnameFromStr axis x.ns).toOption)
  let v ← (← x.children.head?).text
  return ⟨{ name := axis }, .typed dim.name [dim.tag] v⟩

/-- The dimension a child of a segment states. -/
def dimensionOf (re : ElemStore) (x : XNode) : Option Characteristic := do
  let t ← x.tag
  if isInfix "explicitMember".toList t.toList then explicitOf re x
  else if isInfix "typedMember".toList t.toList then typedOf re x
  else none

/-- The period and the entity element of a context element; a context that lacks one is not read any further. -/
def partsOf (x : XNode) : Option (XNode × XNode) := do
  return (← x.find "period", ← x.find "entity")

/-- The characteristics a context element states. -/
def statedBy (dateOf : String → Option Date) (re : ElemStore) (x : XNode) : List Characteristic :=
  match partsOf x with
  | none => []
  | some (p, e) => (periodOf dateOf p).toList.map Characteristic.ofPeriod
      ++ (entityOf e).toList.map (fun i => Characteristic.ofEntity i.1 i.2) ++ (segmentOf e).filterMap (dimensionOf re)

/-- One step of a history of a filing being parsed: a context element is parsed, or the fact parsers store a concept or a unit, or
report an error. -/
inductive CtxOp where
  | context (x : XNode) (given : List Characteristic)
  | concept (id : String) (c : Concept)
  | unit (id name : String) (nums dens : List QName)
  | report (e : String)

/-- The effect of a step on the repositories. -/
def CtxOp.apply (dateOf : String → Option Date) (re : ElemStore) (s : ParseState) : CtxOp → Except PyErr ParseState
  | .context x given => (parseContext dateOf re x given s).map (·.2)
  | .concept i c => .ok (s.put i (.ofConcept c))
  | .unit i n a b => .ok (s.put i (.ofUnit n a b))
  | .report e => .ok (s.err e)

/-- A whole history, from empty repositories. -/
def runOps (dateOf : String → Option Date) (re : ElemStore) (ops : List CtxOp) : Except PyErr ParseState :=
  ops.foldlM (CtxOp.apply dateOf re) {}

/-- The context elements parsed in a history. -/
def contextsOf (ops : List CtxOp) : List XNode :=
  ops.filterMap (fun o => match o with | .context x _ => some x | _ => none)

/-- The identifiers and schemes of the entities stated by contexts, in order. -/
def entitiesOf (xs : List XNode) : List (String × String) := xs.filterMap (fun x => (partsOf x).bind (fun p => entityOf p.2))

/-- No date text of a context contains a space (the lexical forms of xs:date and xs:dateTime have none). -/
def PlainDates (x : XNode) : Prop :=
  ∀ p e, partsOf x = some (p, e) → ∀ c ∈ p.children, ∀ t, c.text = some t → ' ' ∉ t.toList

/-- The members of the segments of contexts. -/
def membersOf (xs : List XNode) : List XNode := xs.flatMap (fun x => match partsOf x with | none => [] | some (_, e) => segmentOf e)

/-- The texts of contexts have one meaning each. -/
structure Unambiguous (re : ElemStore) (xs : List XNode) : Prop where
  dates : ∀ x ∈ xs, PlainDates x
  /-- an identifier is used with one scheme only -/
  entities : ∀ a ∈ entitiesOf xs, ∀ b ∈ entitiesOf xs, a.1 = b.1 → a.2 = b.2
  /-- names of dimensions contain no space -/
  axes : ∀ m ∈ membersOf xs, ∀ a, m.attr? "dimension" = some a → ' ' ∉ a.toList
  /-- the same texts name the same dimension and member -/
  explicit : ∀ m ∈ membersOf xs, ∀ m' ∈ membersOf xs, m.attr? "dimension" = m'.attr? "dimension" → m.text = m'.text →
    (explicitOf re m).isSome → (explicitOf re m').isSome → explicitOf re m = explicitOf re m'
  /-- the same text names the same dimension -/
  typed : ∀ m ∈ membersOf xs, ∀ m' ∈ membersOf xs, m.attr? "dimension" = m'.attr? "dimension" →
    m.children.head?.bind (·.text) = m'.children.head?.bind (·.text) → (typedOf re m).isSome → (typedOf re m').isSome → typedOf re m = typedOf re m'

end Brel.Spec
