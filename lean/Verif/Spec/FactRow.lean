import Verif.Model.FactRow
import Verif.Spec.Rows

/-! What the table of facts shows. -/

namespace Brel

/-- The earliest preferred language for which there is an entry determines the text: the first entry in this language; in the default language the given text. -/
def ShownIn (ml : Bool) (langs : List String) (entries : List (String × String)) (dflt text : String) : Prop :=
  ∃ pre l post, langs = pre ++ l :: post ∧ (∀ l' ∈ pre, l' ≠ "" ∧ ∀ e ∈ entries, languagesMatch ml l' e.1 = false) ∧
    (l = "" ∧ text = dflt ∨ l ≠ "" ∧ ∃ as e bs, entries = as ++ e :: bs ∧ (∀ y ∈ as, languagesMatch ml l y.1 = false) ∧ languagesMatch ml l e.1 = true ∧ e.2 = text)

/-- The titles of the columns of the core aspects; there are none in Italian. -/
def coreTitles (name : String) : List (String × String) :=
  if name = "concept" then [("en-US", "Concept [Axis]"), ("fr-FR", "Concept [Axe]"), ("de-DE", "Konzept [Achse]"), ("es-ES", "Concepto [Eje]")]
  else if name = "period" then [("en-US", "Period [Axis]"), ("fr-FR", "Période [Axe]"), ("de-DE", "Periode [Achse]"), ("es-ES", "Periodo [Eje]")]
  else if name = "entity" then [("en-US", "Entity [Axis]"), ("fr-FR", "Entité [Axe]"), ("de-DE", "Organisation [Achse]"), ("es-ES", "Entidad [Eje]")]
  else if name = "unit" then [("en-US", "Unit [Axis]"), ("fr-FR", "Unité [Axe]"), ("de-DE", "Einheit [Achse]"), ("es-ES", "Unidad [Eje]")]
  else []

/-- The title of the column of an aspect: that of the core aspect in the language; a dimension has only its name. -/
def ShownTitle (ml : Bool) (langs : List String) (a : Aspect) (s : String) : Prop := ShownIn ml langs (if a.core then coreTitles a.name else []) a.name s

/-- The number that digits stand for. -/
def readDigits (l : List Char) : Nat := l.foldl (fun v c => v * 10 + (c.toNat - 48)) 0

/-- These are `k` digits for the number `n`. -/
def IsNumeral (k n : Nat) (l : List Char) : Prop := l.length = k ∧ (∀ c ∈ l, 48 ≤ c.toNat ∧ c.toNat ≤ 57) ∧ readDigits l = n

/-- The date in the form YYYY-MM-DD. -/
def IsIsoDate (d : Date) (s : List Char) : Prop :=
  ∃ y m dd, s = y ++ '-' :: m ++ '-' :: dd ∧ IsNumeral 4 d.year y ∧ IsNumeral 2 d.month m ∧ IsNumeral 2 d.day dd

/-- A date of the calendar has no more digits than this. -/
def Date.Short (d : Date) : Prop := d.year < 10000 ∧ d.month < 100 ∧ d.day < 100

/-- The text of a period: its date, or its first and its last date. -/
def ShownPeriod : Period → String → Prop
  | .instant d, s => IsIsoDate d s.toList
  | .duration a b, s => ∃ x y, s.toList = x ++ '/' :: y ∧ IsIsoDate a x ∧ IsIsoDate b y

/-- The labels, as entries. -/
def labelEntries (ls : List Label) : List (String × String) := ls.map (fun l => (l.language, l.text))

/-- What is shown for the value of a characteristic: labels of concepts and members, by default their local name; the translation of the id of a unit; plain texts for the others. `labels` are the labels of
concepts, `members` those of members. -/
def CharVal.Shows (ml : Bool) (langs : List String) (o : Option String) (labels members : QName → List Label) : CharVal → String → Prop
  | .concept c, s => ShownIn ml langs (labelEntries (labels c.name)) c.name.localName s
  | .explicit _ m _, s => ShownIn ml langs (labelEntries (members m)) m.localName s
  | .period p, s => ShownPeriod p s
  | .entity i sc, s => s = "{" ++ sc ++ "}" ++ i
  | .unit n _ _, s => FixedText o "unit" n s
  | .typed _ _ v, s => s = v

/-- The id of a fact, or the word for none. -/
def ShownId (o : Option String) (i : Option String) (s : String) : Prop :=
  (∃ x, i = some x ∧ x ≠ "" ∧ s = x) ∨ ((i = none ∨ i = some "") ∧ FixedText o "literal" "none" s)

/-- The row shows the fact, and nothing else: a column for each aspect, for the id and for the value. -/
structure FactRowShows (ml : Bool) (langs : List String) (o : Option String) (labels members : QName → List Label) (f : Fact) (row : Dict String String) : Prop where
  aspects : ∀ a ∈ f.context.getAspects, ∀ c, f.context.getCharacteristic a = some c → ∃ t s, ShownTitle ml langs a t ∧ Dict.get? row t = some s ∧ c.value.Shows ml langs o labels members s
  id : ∃ t s, FixedText o "literal" "id" t ∧ Dict.get? row t = some s ∧ ShownId o f.id s
  value : ∃ t, FixedText o "literal" "value" t ∧ Dict.get? row t = some f.value
  only : row.length = f.context.getAspects.length + 2

/-- Every title and every label that the row needs is there in one of the languages. -/
def HasTexts (ml : Bool) (langs : List String) (labels members : QName → List Label) (f : Fact) : Prop :=
  ∀ a ∈ f.context.getAspects, (∃ t, ShownTitle ml langs a t) ∧ ∀ c, f.context.getCharacteristic a = some c →
    match c.value with
    | .concept k => ∃ s, ShownIn ml langs (labelEntries (labels k.name)) k.name.localName s
    | .explicit _ m _ => ∃ s, ShownIn ml langs (labelEntries (members m)) m.localName s
    | _ => True

/-- A characteristic as the documents of a filing state it: a core aspect with a value of its kind, or a dimension. -/
inductive StatedChar : Characteristic → Prop where
  | concept (c : Concept) : StatedChar ⟨⟨"concept", [], true⟩, .concept c⟩
  | period (p : Period) : StatedChar ⟨⟨"period", [], true⟩, .period p⟩
  | entity (i s : String) : StatedChar ⟨⟨"entity", [], true⟩, .entity i s⟩
  | unit (n : String) (a b : List QName) : StatedChar ⟨⟨"unit", [], true⟩, .unit n a b⟩
  | explicit (name : String) (d m : QName) (i : Nat) : StatedChar ⟨⟨name, [], false⟩, .explicit d m [i]⟩
  | typed (name : String) (d : QName) (i : Nat) (v : String) : StatedChar ⟨⟨name, [], false⟩, .typed d [i] v⟩

/-- The dimensions are named with a prefix, the id of the unit contains no colon, and the dates are dates of the calendar. -/
def PlainChar (c : Characteristic) : Prop :=
  match c.value with
  | .unit n _ _ => ':' ∉ n.toList
  | .period (.instant d) => d.Short
  | .period (.duration a b) => a.Short ∧ b.Short
  | .explicit _ _ _ | .typed _ _ _ => ':' ∈ c.aspect.name.toList
  | _ => True

/-- A fact made of such characteristics. -/
def StatedFact (f : Fact) : Prop := ∃ (i : String) (cs : List Characteristic), f.context = cs.foldl Context.add (Context.new i) ∧ (∀ c ∈ cs, StatedChar c) ∧ ∀ c ∈ cs, PlainChar c

end Brel
