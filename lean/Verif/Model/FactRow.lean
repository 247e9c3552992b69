import Verif.Model.Rows
import Verif.Model.ContextStore

/-! Rows of the table of facts with everything they are made from: labels of the aspects, texts of the characteristics, labels of concepts and members. -/

namespace Brel

/-- brel/characteristics/brel_aspect.py 142-178: the labels of the core aspects. -/
def coreLabels : String → List Label
  | "concept" => [⟨"Concept [Axis]", "concept", "en-US", "http://www.xbrl.org/2003/role/label"⟩, ⟨"Concept [Axe]", "concept", "fr-FR", "http://www.xbrl.org/2003/role/label"⟩,
      ⟨"Konzept [Achse]", "concept", "de-DE", "http://www.xbrl.org/2003/role/label"⟩, ⟨"Concepto [Eje]", "concept", "es-ES", "http://www.xbrl.org/2003/role/label"⟩]
  | "period" => [⟨"Period [Axis]", "period", "en-US", "http://www.xbrl.org/2003/role/label"⟩, ⟨"Période [Axe]", "period", "fr-FR", "http://www.xbrl.org/2003/role/label"⟩,
      ⟨"Periode [Achse]", "period", "de-DE", "http://www.xbrl.org/2003/role/label"⟩, ⟨"Periodo [Eje]", "period", "es-ES", "http://www.xbrl.org/2003/role/label"⟩]
  | "entity" => [⟨"Entity [Axis]", "entity", "en-US", "http://www.xbrl.org/2003/role/label"⟩, ⟨"Entité [Axe]", "entity", "fr-FR", "http://www.xbrl.org/2003/role/label"⟩,
      ⟨"Organisation [Achse]", "entity", "de-DE", "http://www.xbrl.org/2003/role/label"⟩, ⟨"Entidad [Eje]", "entity", "es-ES", "http://www.xbrl.org/2003/role/label"⟩]
  | "unit" => [⟨"Unit [Axis]", "unit", "en-US", "http://www.xbrl.org/2003/role/label"⟩, ⟨"Unité [Axe]", "unit", "fr-FR", "http://www.xbrl.org/2003/role/label"⟩,
      ⟨"Einheit [Achse]", "unit", "de-DE", "http://www.xbrl.org/2003/role/label"⟩, ⟨"Unidad [Eje]", "unit", "es-ES", "http://www.xbrl.org/2003/role/label"⟩]
  | _ => []

/-- brel_aspect.py 71-75 (`get_labels`): the four core aspects are class attributes and carry the labels above. -/
def Aspect.ownLabels (a : Aspect) : List Label := if a.core then coreLabels a.name else a.labels

/-- A fact whose aspects carry their labels. -/
def Fact.labelled (f : Fact) : Fact :=
  { f with context := { f.context with aspects := f.context.aspects.map (fun a => { a with labels := a.ownLabels }) } }

/-- `n` with `k` digits. -/
def fixedDigits : Nat → Nat → List Char
  | 0, _ => []
  | k + 1, n => fixedDigits k (n / 10) ++ [Char.ofNat (48 + n % 10)]

/-- `str` of a `datetime.date`: four digits for the year and two for the month and the day. The year of a `datetime.date` has at most four digits. -/
def Date.iso (d : Date) : String := String.ofList (fixedDigits 4 d.year ++ '-' :: fixedDigits 2 d.month ++ '-' :: fixedDigits 2 d.day)

/-- brel/characteristics/period_characteristic.py 104-108 (`__str__`) -/
def Period.shown : Period → String
  | .instant d => d.iso
  | .duration s e => s.iso ++ "/" ++ e.iso

/-- The labels of the member object with this identity. Labels are added to the elements of the repository (xml_label_network_factory.py 93-119), after the facts have been read (filing_parser.py
40-48); the object is one of these, unless it is a deep copy (in_memory_context_repository.py 21), which was made while there were no labels. -/
def objectLabels (labels : QName → List Label) (q : QName) (i : Ident) : List Label := if i.length = 1 then labels q else []

/-- `characteristic.get_value().__str__()`, brel/brel_context.py 111: concept.py 352-353, member.py 58-59, period_characteristic.py 104-108, entity_characteristic.py 34-45,
unit_characteristic.py 69-74, typed_dimension_characteristic.py 39-43. -/
def CharVal.plainText : CharVal → String
  | .concept c => c.name.prefixLocal
  | .period p => p.shown
  | .entity i s => "{" ++ s ++ "}" ++ i
  | .unit n _ _ => n
  | .explicit _ m _ => m.prefixLocal
  | .typed _ _ v => v

/-- `get_localized_value_string`: concept_characteristic.py 36-43, explicit_dimension_characteristic.py 53-59, unit_characteristic.py 76-79, and i_characteristic.py 32-35 for the others;
`labels` gives the labels of the report elements. -/
def CharVal.localized (t : Translations) (ml : Bool) (labels : QName → List Label) (langs : List String) : CharVal → Except PyErr String
  | .concept c => getFromLabels ml (labels c.name) c.name.localName langs
  | .explicit _ m i => getFromLabels ml (objectLabels labels m i) m.localName langs
  | .unit n _ _ => t.getText ml langs "unit" n
  | .period p => .ok p.shown
  | .entity i s => .ok ("{" ++ s ++ "}" ++ i)
  | .typed _ _ v => .ok v

/-- brel/brel_context.py 91-116 (`get_characteristic_as_str`) with languages. -/
def Context.localized (ctx : Context) (t : Translations) (ml : Bool) (labels : QName → List Label) (langs : List String) (a : Aspect) : Except PyErr String :=
  match ctx.getCharacteristic a with
  | none => t.getText ml langs "literal" "none"
  | some c => c.value.localized t ml labels langs

/-- brel/brel_context.py 91-116 (`get_characteristic_as_str`) without languages. -/
def Context.plainText (ctx : Context) (a : Aspect) : String :=
  match ctx.getCharacteristic a with
  | none => ""
  | some c => c.value.plainText

/-- brel/brel_fact.py 225-256 (`convert_to_dict`) and brel/brel_context.py 198-226 -/
def factTableRow (t : Translations) (ml : Bool) (labels : QName → List Label) (langs : List String) (f : Fact) : Except PyErr (Dict String String) :=
  if langs = [] then .ok (factRowPlain f.context.plainText f.labelled)
  else factRow t ml langs (f.context.localized t ml labels langs) f.labelled

/-- The fact of an inline filing as it is in memory: its context is a deep copy, xhtml_parse_facts.py 233, to which the concept and the unit are added. -/
def Fact.copied (n : Nat) (f : Fact) : Fact := { f with context := f.context.deepcopy n }

end Brel
