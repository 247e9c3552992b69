import Verif.Model.Names

/-!
Model of `brel/resource/brel_label.py`, `brel/reportelements/`, `brel/characteristics/`, `brel/brel_context.py` and the data
part of `brel/brel_fact.py`.
-/

namespace Brel

/-- brel/resource/brel_label.py 15-33 (`BrelLabel`): text, xlink label, language, role. -/
structure Label where
  text : String
  label : String
  language : String
  role : String := "http://www.xbrl.org/2003/role/label"
  deriving DecidableEq, Repr

/-- brel/reportelements/concept.py 26-63 (`textual_types`) -/
def textualTypes : List String :=
  ["domainItemType", "escapedItemType", "xmlNodesItemType", "xmlItemType", "textBlockItemType",
   "guidanceItemType", "noLangTokenItemType", "noLangStringItemType", "prefixedContentItemType",
   "prefixedContentType", "SQNameItemType", "SQNameType", "gYearListItemType", "dateTimeItemType",
   "fractionItemType", "stringItemType", "booleanItemType", "hexBinaryItemType", "base64BinaryItemType",
   "anyURIItemType", "QNameItemType", "durationItemType", "dateTimeItemType", "timeItemType", "dateItemType",
   "gYearMonthItemType", "gYearItemType", "gMonthDayItemType", "gDayItemType", "gMonthItemType",
   "normalizedStringItemType", "tokenItemType", "languageItemType", "NameItemType", "NCNameItemType",
   "financialInstrumentGlobalIdentifierItemType"]

/-- brel/reportelements/concept.py 65-122 (`numeric_types`) -/
def numericTypes : List String :=
  ["percentItemType", "perShareItemType", "areaItemType", "volumeItemType", "massItemType", "weightItemType",
   "energyItemType", "powerItemType", "lengthItemType", "memoryItemType", "noDecimalsMonetaryItemType",
   "nonNegativeMonetaryItemType", "nonNegativeNoDecimalsMonetaryItemType", "insolationItemType",
   "temperatureItemType", "pressureItemType", "frequencyItemType", "irradianceItemType", "speedItemType",
   "planeAngleItemType", "voltageItemType", "electricCurrentItemType", "forceItemType", "electricChargeItemType",
   "flowItemType", "massFlowItemType", "monetaryPerLengthItemType", "monetaryPerAreaItemType",
   "monetaryPerVolumeItemType", "monetaryPerDurationItemType", "monetaryPerEnergyItemType",
   "monetaryPerMassItemType", "ghgEmissionsItemType", "energyPerMonetaryItemType",
   "ghgEmissionsPerMonetaryItemType", "volumePerMonetaryItemType", "decimalItemType", "floatItemType",
   "doubleItemType", "integerItemType", "nonPositiveIntegerItemType", "negativeIntegerItemType", "longItemType",
   "intItemType", "shortItemType", "byteItemType", "nonNegativeIntegerItemType", "unsignedLongItemType",
   "unsignedIntItemType", "unsignedShortItemType", "unsignedByteItemType", "positiveIntegerItemType",
   "monetaryItemType", "sharesItemType", "pureItemType", "perUnitItemType"]

/-- brel/reportelements/concept.py 124-140 (`integer_types`) -/
def integerTypes : List String :=
  ["noDecimalsMonetaryItemType", "nonNegativeNoDecimalsMonetaryItemType", "integerItemType",
   "nonPositiveIntegerItemType", "negativeIntegerItemType", "longItemType", "intItemType", "shortItemType",
   "byteItemType", "nonNegativeIntegerItemType", "unsignedLongItemType", "unsignedIntItemType",
   "unsignedShortItemType", "unsignedByteItemType", "positiveIntegerItemType"]

/-- brel/reportelements/concept.py 143-175 (`Concept` data). -/
structure Concept where
  name : QName
  id : Option String := none
  labels : List Label := []
  periodType : String := "instant"
  balance : Option String := none
  nillable : Bool := false
  dataType : String := "xbrli:stringItemType"
  deriving DecidableEq, Repr

/-- `s.split(":")[-1]`: the part after the last colon, the whole string if there is none. -/
def lastSegment (s : String) : String :=
  String.ofList (s.toList.reverse.takeWhile (· ≠ ':')).reverse

/-- brel/reportelements/concept.py 226-231 -/
def Concept.isTextual (c : Concept) : Bool := lastSegment c.dataType ∈ textualTypes
/-- brel/reportelements/concept.py 233-238 -/
def Concept.isNumeric (c : Concept) : Bool := lastSegment c.dataType ∈ numericTypes
/-- brel/reportelements/concept.py 240-245 -/
def Concept.isInteger (c : Concept) : Bool := lastSegment c.dataType ∈ integerTypes
/-- brel/reportelements/concept.py 247-252 -/
def Concept.isBoolean (c : Concept) : Bool := lastSegment c.dataType = "booleanItemType"

/-- brel/characteristics/brel_aspect.py 48-51. -/
structure Aspect where
  name : String
  labels : List Label := []
  core : Bool := false
  deriving DecidableEq, Repr

/-- brel/characteristics/brel_aspect.py 131-134: aspects are equal when their names are equal. -/
def Aspect.eq (a b : Aspect) : Bool := a.name = b.name

/-- brel/characteristics/brel_aspect.py 142-178 (labels of the core aspects are not modelled). -/
def Aspect.concept : Aspect := { name := "concept", core := true }
/-- brel/characteristics/brel_aspect.py 170, 175 -/
def Aspect.period : Aspect := { name := "period", core := true }
/-- brel/characteristics/brel_aspect.py 171, 176 -/
def Aspect.entity : Aspect := { name := "entity", core := true }
/-- brel/characteristics/brel_aspect.py 172, 177 -/
def Aspect.unit : Aspect := { name := "unit", core := true }

/-- A calendar date, `datetime.date`, with its lexicographic order. -/
structure Date where
  year : Nat
  month : Nat
  day : Nat
  deriving DecidableEq, Repr

/-- `a <= b` for `datetime.date` -/
def Date.le (a b : Date) : Bool :=
  a.year < b.year || (a.year = b.year && (a.month < b.month || (a.month = b.month && a.day ≤ b.day)))

/-- brel/characteristics/period_characteristic.py 43-47; the fields that are `None` for the other kind are left out. -/
inductive Period where
  | instant (d : Date)
  | duration (s e : Date)
  deriving DecidableEq, Repr

/-- Identity of a Python object. An original object has a one-element identity; a deep copy made by the `n`-th allocation
prepends `n`, so different copies have different identities. -/
abbrev Ident := List Nat

/-- The classes of `brel/characteristics/` with the data they hold.
`memberId`/`dimId` stand for object identity of the member and the dimension (neither class defines `__eq__`). -/
inductive CharVal where
  /-- concept_characteristic.py 24-25 -/
  | concept (c : Concept)
  /-- period_characteristic.py 43-47 -/
  | period (p : Period)
  /-- entity_characteristic.py 23-25 -/
  | entity (id scheme : String)
  /-- unit_characteristic.py 43-48 -/
  | unit (name : String) (numerators denominators : List QName)
  /-- explicit_dimension_characteristic.py 31-34 -/
  | explicit (dim member : QName) (memberId : Ident)
  /-- typed_dimension_characteristic.py 26-29 -/
  | typed (dim : QName) (dimId : Ident) (value : String)
  deriving DecidableEq, Repr

/-- A characteristic and the aspect it reports (`get_aspect` of each class). -/
structure Characteristic where
  aspect : Aspect
  value : CharVal
  deriving DecidableEq, Repr

/-- `==` between characteristics: unit_characteristic.py 88-92, entity_characteristic.py 53-57,
period_characteristic.py 110-114, explicit_dimension_characteristic.py 82-88, typed_dimension_characteristic.py 56-64.
`==` of periods compares their texts, which are equal exactly when the dates are.
Simplification: two `ConceptCharacteristic`s (no `__eq__`, identity) are never compared by the modelled code and count as unequal. -/
def Characteristic.pyEq (a b : Characteristic) : Bool :=
  match a.value, b.value with
  | .period p, .period q => p = q
  | .entity i s, .entity i' s' => "{" ++ s ++ "}" ++ i = "{" ++ s' ++ "}" ++ i'
  | .unit n _ _, .unit n' _ _ => n = n'
  | .explicit _ _ m, .explicit _ _ m' => m = m' && a.aspect.eq b.aspect
  | .typed _ d v, .typed _ d' v' => d = d' && a.aspect.eq b.aspect && v = v'
  | _, _ => false

/-- concept_characteristic.py 45-49 -/
def Characteristic.ofConcept (c : Concept) : Characteristic := ⟨.concept, .concept c⟩
/-- period_characteristic.py 98-102 -/
def Characteristic.ofPeriod (p : Period) : Characteristic := ⟨.period, .period p⟩
/-- entity_characteristic.py 28-32 -/
def Characteristic.ofEntity (id scheme : String) : Characteristic := ⟨.entity, .entity id scheme⟩
/-- unit_characteristic.py 51-55 -/
def Characteristic.ofUnit (n : String) (nums dens : List QName) : Characteristic := ⟨.unit, .unit n nums dens⟩

/-- brel/brel_context.py 57-64. `chars` is keyed by aspect name because `Aspect.__hash__`/`__eq__` only use the name. -/
structure Context where
  id : String
  aspects : List Aspect := []
  chars : Dict String Characteristic := []
  deriving DecidableEq, Repr

/-- brel/brel_context.py 57-64 (`__init__`) -/
def Context.new (id : String) : Context := { id := id, aspects := [], chars := [] }

/-- The sort key `lambda aspect: aspect.get_name()` of brel_context.py 172. -/
def Aspect.nameLe (a b : Aspect) : Bool := decide (a.name ≤ b.name)

/-- brel/brel_context.py 159-174 (`_add_characteristic`) -/
def Context.add (ctx : Context) (c : Characteristic) : Context :=
  if ctx.aspects.any (fun a => a.eq c.aspect) then ctx
  else { ctx with
    aspects := sortBy Aspect.nameLe (ctx.aspects ++ [c.aspect])
    chars := ctx.chars.set c.aspect.name c }

/-- brel/brel_context.py 74-80 -/
def Context.getCharacteristic (ctx : Context) (a : Aspect) : Option Characteristic :=
  (ctx.chars.find? (fun e => e.1 = a.name)).map (·.2)

/-- brel/brel_context.py 83-89 -/
def Context.hasCharacteristic (ctx : Context) (a : Aspect) : Bool :=
  ctx.aspects.any (fun b => a.eq b)

/-- brel/brel_context.py 67-72 -/
def Context.getAspects (ctx : Context) : List Aspect := ctx.aspects

/-- brel/brel_context.py 151-156 -/
def Context.hasNoncoreDimensions (ctx : Context) : Bool := ctx.aspects.any (fun a => !a.core)

/-- brel/brel_fact.py 44-56. Decimals and precision are left out. -/
structure Fact where
  id : Option String
  context : Context
  value : String
  deriving DecidableEq, Repr

/-- brel/brel_fact.py 160-172 (`get_concept`): raises `AttributeError` when the context has no concept characteristic
(`None.get_value()`). A characteristic with the concept aspect is always a `ConceptCharacteristic`. -/
def Fact.getConcept (f : Fact) : Except PyErr Concept :=
  match f.context.getCharacteristic .concept with
  | some ⟨_, .concept c⟩ => .ok c
  | _ => .error .attributeError

/-- brel/brel_fact.py 258-263 -/
def Fact.isCore (f : Fact) : Bool := !f.context.hasNoncoreDimensions

end Brel
