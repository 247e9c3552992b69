import Verif.Props.FactTable
import Verif.Model.Equality

/-! Concrete rows of the table of facts (C121, C122). -/

namespace Brel

/-- The texts of dates in the table are those that equality of periods compares. -/
theorem iso_eq_text (d : Date) : d.iso.toList = d.text := by
  simp [Date.iso, Date.text, fixedDigits, decimalDigit, Nat.div_div_eq_div_mul]

theorem shown_eq_text (p : Period) : p.shown.toList = p.text := by
  cases p <;> simp [Period.shown, Period.text, iso_eq_text]

end Brel

namespace Brel.FactTableExample
open Brel Spec

def nm (l : String) : QName := ⟨"http://x", "x", l⟩

/-- A unit element: its id is EUR, its measure is the US dollar. -/
def unitNode : XNode :=
  .mk (some "{http://www.xbrl.org/2003/instance}unit") [("id", "EUR")] none [(some "xbrli", "http://www.xbrl.org/2003/instance"), (some "iso4217", "http://www.xbrl.org/2003/iso4217")]
    [.mk (some "{http://www.xbrl.org/2003/instance}measure") [] (some "iso4217:USD") [(some "xbrli", "http://www.xbrl.org/2003/instance"), (some "iso4217", "http://www.xbrl.org/2003/iso4217")] []]

/-- The dimension: it is called `x:Region`, or `value` in the default namespace. -/
def dim (axis : String) : QName := if axis = "value" then ⟨"http://x", "", "value"⟩ else nm "Region"

def sales : Concept := { name := nm "Sales" }

def chars (axis : String) : List Characteristic :=
  [.ofConcept sales, .ofUnit "EUR" [⟨"http://www.xbrl.org/2003/iso4217", "iso4217", "USD"⟩] [], .ofPeriod (.duration ⟨2020, 1, 1⟩ ⟨2020, 12, 31⟩), .ofEntity "0001" "http://cik",
    ⟨{ name := axis }, .explicit (dim axis) (nm "North") [7]⟩]

/-- Sales in the north. -/
def fact (axis : String) : Fact := { id := some "f1", value := "100", context := (chars axis).foldl Context.add (Context.new "c1") }

def labels (q : QName) : List Label :=
  if q = nm "Sales" then [⟨"Revenue", "l1", "en-US", "http://www.xbrl.org/2003/role/label"⟩, ⟨"Umsatz", "l2", "de-DE", "http://www.xbrl.org/2003/role/label"⟩]
  else if q = nm "North" then [⟨"Northern region", "l3", "en-US", "http://www.xbrl.org/2003/role/label"⟩]
  else if q = nm "Region" then [⟨"Region [Axis]", "l4", "en-US", "http://www.xbrl.org/2003/role/label"⟩] else []

theorem stated_chars (axis : String) : ∀ c ∈ chars axis, StatedChar c := by
  intro c hc
  simp only [chars, List.mem_cons, List.not_mem_nil, or_false] at hc
  rcases hc with rfl | rfl | rfl | rfl | rfl
  · exact .concept _
  · exact .unit _ _ _
  · exact .period _
  · exact .entity _ _
  · exact .explicit _ _ _ _

/-- The hypotheses of the theorems hold for a concrete fact. -/
theorem stated : StatedFact (fact "x:Region") := by
  refine ⟨"c1", chars "x:Region", rfl, stated_chars _, ?_⟩
  intro c hc
  simp only [chars, List.mem_cons, List.not_mem_nil, or_false] at hc
  rcases hc with rfl | rfl | rfl | rfl | rfl
  · trivial
  · show ':' ∉ _; decide
  · exact ⟨⟨by decide, by decide, by decide⟩, by decide, by decide, by decide⟩
  · trivial
  · show ':' ∈ _; decide

theorem unit_stated : unitOf unitNode = some (.ofUnit "EUR" [⟨"http://www.xbrl.org/2003/iso4217", "iso4217", "USD"⟩] []) := by decide +kernel

def outcome (r : Except PyErr (Dict String String)) : Option (Dict String String) := match r with | .ok d => some d | .error _ => none

/-- The words that the rows below need. -/
def small : Translations := Translations.load ((sectionRows "literal" textsLiteral ++ sectionRows "unit" [("EUR", ["Euro", "Euro", "Euro", "Euro", "Euro"])]).filter (fun r => r.lang = "en" ∨ r.lang = "de"))

theorem section_rows {kind : String} {texts : List (String × List String)} (huniq : ∀ s ∈ shippedSections, s.1 = kind → s.2 = texts) {r : TransRow} (h : r ∈ shippedRows) (hns : r.ns = translationBase ++ kind) :
    r ∈ sectionRows kind texts := by
  obtain ⟨s, hs, h⟩ := List.mem_flatMap.1 h
  have h1 := (mem_sectionRows h).1
  rw [hns] at h1
  have h2 : s.1 = kind := by
    apply String.toList_injective
    have := congrArg String.toList h1
    rw [String.toList_append, String.toList_append] at this
    exact (List.append_cancel_left this).symm
  rw [h2, huniq s hs h2] at h
  exact h

theorem section_shipped {kind : String} {texts : List (String × List String)} (hs : (kind, texts) ∈ shippedSections) {r : TransRow} (h : r ∈ sectionRows kind texts) : r ∈ shippedRows :=
  List.mem_flatMap.2 ⟨_, hs, h⟩

/-- The shipped table shows a word with the given translation. -/
theorem shipped_text {langs : List String} {tag kind name text : String} {texts : List (String × List String)} (ht : TextLanguage true langs (some tag)) (hs : (kind, texts) ∈ shippedSections)
    (huniq : ∀ s ∈ shippedSections, s.1 = kind → s.2 = texts) (hall : ∀ r ∈ sectionRows kind texts, r.name = name → r.lang ++ "-" ++ r.locale = tag → r.text = text) (hex : ∃ r ∈ sectionRows kind texts, r.name = name) :
    shippedTranslations.get true ⟨translationBase ++ kind, "", name⟩ langs = .ok text := by
  obtain ⟨s, h1, h2⟩ := get_fixed ht kind name
  rw [h1]
  rcases h2 with ⟨r, hr, e1, e2, e3, e4⟩ | ⟨hno, _⟩
  · rw [← e4, hall r (section_rows huniq hr e1) e2 e3]
  · obtain ⟨r, hr, e⟩ := hex
    exact absurd ⟨(mem_sectionRows hr).1, e⟩ (hno r (section_shipped hs hr))

theorem literal_section : ("literal", textsLiteral) ∈ shippedSections ∧ ∀ s ∈ shippedSections, s.1 = "literal" → s.2 = textsLiteral := by
  constructor
  · simp [shippedSections]
  · intro s hs e
    simp only [shippedSections, List.mem_cons, List.not_mem_nil, or_false] at hs
    rcases hs with rfl | rfl | rfl | rfl | rfl | rfl | rfl <;> first | rfl | exact absurd e (by decide)

theorem unit_section : ("unit", textsUnit) ∈ shippedSections ∧ ∀ s ∈ shippedSections, s.1 = "unit" → s.2 = textsUnit := by
  constructor
  · simp [shippedSections]
  · intro s hs e
    simp only [shippedSections, List.mem_cons, List.not_mem_nil, or_false] at hs
    rcases hs with rfl | rfl | rfl | rfl | rfl | rfl | rfl <;> first | rfl | exact absurd e (by decide)

/-- The two tables agree on the words of the row. -/
structure Agree (t t' : Translations) (langs : List String) : Prop where
  id : t.get true ⟨"http://www.brel.com/translations/literal", "", "id"⟩ langs = t'.get true ⟨"http://www.brel.com/translations/literal", "", "id"⟩ langs
  value : t.get true ⟨"http://www.brel.com/translations/literal", "", "value"⟩ langs = t'.get true ⟨"http://www.brel.com/translations/literal", "", "value"⟩ langs
  none : t.get true ⟨"http://www.brel.com/translations/literal", "", "none"⟩ langs = t'.get true ⟨"http://www.brel.com/translations/literal", "", "none"⟩ langs
  unit : t.get true ⟨"http://www.brel.com/translations/unit", "", "EUR"⟩ langs = t'.get true ⟨"http://www.brel.com/translations/unit", "", "EUR"⟩ langs

theorem agree_row {t t' : Translations} {langs : List String} (h : Agree t t' langs) (hl : langs ≠ []) (lab : QName → List Label) (axis : String) :
    factTableRow t true lab langs (fact axis) = factTableRow t' true lab langs (fact axis) := by
  have hcell : (fact axis).context.localized t true lab langs = (fact axis).context.localized t' true lab langs := by
    funext a
    unfold Context.localized
    cases hc : (fact axis).context.getCharacteristic a with
    | none => exact h.none
    | some c =>
      have hm : c ∈ chars axis := by
        have e : (fact axis).context.getCharacteristic a = _ := C01_first_characteristic_wins "c1" (chars axis) a
        exact List.mem_of_find?_eq_some (e.symm.trans hc)
      simp only [chars, List.mem_cons, List.not_mem_nil, or_false] at hm
      rcases hm with rfl | rfl | rfl | rfl | rfl
      · rfl
      · exact h.unit
      · rfl
      · rfl
      · rfl
  unfold factTableRow
  rw [if_neg hl, if_neg hl, hcell]
  unfold factRow
  rw [h.id, h.value, h.none]

theorem get_small {q : QName} {langs : List String} {s : String} (h : (match small.get true q langs with | .ok x => some x | .error _ => none) = some s) : small.get true q langs = .ok s := by
  cases hg : small.get true q langs with
  | ok x => rw [hg] at h; exact congrArg Except.ok (Option.some.inj h)
  | error e => rw [hg] at h; cases h

theorem agree_english : Agree shippedTranslations small ["en-US", ""] := by
  have ht : TextLanguage true ["en-US", ""] (some "en-US") := .tag (by decide) (by decide) (by decide)
  exact ⟨(shipped_text (kind := "literal") (text := "Id") ht literal_section.1 literal_section.2 (by decide +kernel) (by decide +kernel)).trans (get_small (by decide +kernel)).symm,
    (shipped_text (kind := "literal") (text := "Value") ht literal_section.1 literal_section.2 (by decide +kernel) (by decide +kernel)).trans (get_small (by decide +kernel)).symm,
    (shipped_text (kind := "literal") (text := "None") ht literal_section.1 literal_section.2 (by decide +kernel) (by decide +kernel)).trans (get_small (by decide +kernel)).symm,
    (shipped_text (kind := "unit") (text := "Euro") ht unit_section.1 unit_section.2 (by decide +kernel) (by decide +kernel)).trans (get_small (by decide +kernel)).symm⟩

theorem agree_german : Agree shippedTranslations small ["de-DE", ""] := by
  have ht : TextLanguage true ["de-DE", ""] (some "de-DE") := .tag (by decide) (by decide) (by decide)
  exact ⟨(shipped_text (kind := "literal") (text := "ID") ht literal_section.1 literal_section.2 (by decide +kernel) (by decide +kernel)).trans (get_small (by decide +kernel)).symm,
    (shipped_text (kind := "literal") (text := "Wert") ht literal_section.1 literal_section.2 (by decide +kernel) (by decide +kernel)).trans (get_small (by decide +kernel)).symm,
    (shipped_text (kind := "literal") (text := "Keine") ht literal_section.1 literal_section.2 (by decide +kernel) (by decide +kernel)).trans (get_small (by decide +kernel)).symm,
    (shipped_text (kind := "unit") (text := "Euro") ht unit_section.1 unit_section.2 (by decide +kernel) (by decide +kernel)).trans (get_small (by decide +kernel)).symm⟩

theorem of_outcome {r : Except PyErr (Dict String String)} {d : Dict String String} (h : outcome r = some d) : r = .ok d := by
  cases r with
  | ok x => exact congrArg Except.ok (Option.some.inj h)
  | error e => cases h

def english : Dict String String := [("Concept [Axis]", "Revenue"), ("Entity [Axis]", "{http://cik}0001"), ("Period [Axis]", "2020-01-01/2020-12-31"), ("Unit [Axis]", "Euro"),
  ("x:Region", "Northern region"), ("Id", "f1"), ("Value", "100")]

/-- The row in English. The dimension is shown by its name, although it has an English label. -/
theorem english_row : factTableRow shippedTranslations true labels ["en-US", ""] (fact "x:Region") = .ok english :=
  (agree_row agree_english (by decide) _ _).trans (of_outcome (by decide +kernel))

/-- The row in German: the member has no German label. -/
example : factTableRow shippedTranslations true labels ["de-DE", ""] (fact "x:Region") = .ok [("Konzept [Achse]", "Umsatz"), ("Organisation [Achse]", "{http://cik}0001"),
    ("Periode [Achse]", "2020-01-01/2020-12-31"), ("Einheit [Achse]", "Euro"), ("x:Region", "North"), ("ID", "f1"), ("Wert", "100")] :=
  (agree_row agree_german (by decide) _ _).trans (of_outcome (by decide +kernel))

/-- The row without languages. -/
example : outcome (factTableRow shippedTranslations true labels [] (fact "x:Region")) = some [("concept", "x:Sales"), ("entity", "{http://cik}0001"),
    ("period", "2020-01-01/2020-12-31"), ("unit", "EUR"), ("x:Region", "x:North"), ("id", "f1"), ("value", "100")] := by decide +kernel

/-- The inline copy of the fact. -/
theorem english_copy (n : Nat) : factTableRow shippedTranslations true labels ["en-US", ""] ((fact "x:Region").copied n) = .ok [("Concept [Axis]", "Revenue"), ("Entity [Axis]", "{http://cik}0001"),
    ("Period [Axis]", "2020-01-01/2020-12-31"), ("Unit [Axis]", "Euro"), ("x:Region", "North"), ("Id", "f1"), ("Value", "100")] := by
  have e : factTableRow shippedTranslations true labels ["en-US", ""] ((fact "x:Region").copied n) =
      factTableRow shippedTranslations true (fun q => if q = nm "North" then [] else labels q) ["en-US", ""] (fact "x:Region") := rfl
  rw [e, agree_row agree_english (by decide)]
  exact of_outcome (by decide +kernel)

end Brel.FactTableExample

namespace Brel
open Spec FactTableExample

/-- C121 fails for units: an amount in US dollars is shown in euros, because the id of the unit is translated and not its measure. -/
theorem C121_unit_false : ∃ (x : XNode) (n : String) (usd : QName) (f : Fact) (row : Dict String String), unitOf x = some (.ofUnit n [usd] []) ∧ usd = ⟨"http://www.xbrl.org/2003/iso4217", "iso4217", "USD"⟩ ∧
    StatedFact f ∧ f.context.getCharacteristic .unit = some (.ofUnit n [usd] []) ∧ factTableRow shippedTranslations true labels ["en-US", ""] f = .ok row ∧
    Dict.get? row "Unit [Axis]" = some "Euro" :=
  ⟨unitNode, "EUR", ⟨"http://www.xbrl.org/2003/iso4217", "iso4217", "USD"⟩, fact "x:Region", english, unit_stated, rfl, stated, by decide +kernel, english_row, by decide +kernel⟩

/-- C121 fails for dimensions without prefix: a dimension called `value` shares the column of the value, and the row does not show its member. -/
theorem C121_unprefixed_false : ∃ (f : Fact) (i : String) (cs : List Characteristic) (m : QName) (row : Dict String String), f.context = cs.foldl Context.add (Context.new i) ∧ (∀ c ∈ cs, StatedChar c) ∧
    (∃ c, f.context.getCharacteristic { name := "value" } = some c ∧ ∃ d j, c.value = .explicit d m j) ∧ factTableRow shippedTranslations true labels [] f = .ok row ∧
    ∀ e ∈ row, e.2 ≠ m.localName ∧ e.2 ≠ m.prefixLocal :=
  ⟨fact "value", "c1", chars "value", nm "North", [("concept", "x:Sales"), ("entity", "{http://cik}0001"), ("period", "2020-01-01/2020-12-31"), ("unit", "EUR"), ("value", "100"), ("id", "f1")], rfl,
    stated_chars _, ⟨⟨{ name := "value" }, .explicit (dim "value") (nm "North") [7]⟩, by decide +kernel, _, _, rfl⟩, of_outcome (by decide +kernel), by decide +kernel⟩

/-- C122 fails for members: the same fact shows the label of its member if it is from an XML instance, and only the name if it is from an inline document. -/
theorem C122_member_false : ∃ (f : Fact) (row row' : Dict String String), StatedFact f ∧ factTableRow shippedTranslations true labels ["en-US", ""] f = .ok row ∧
    Dict.get? row "x:Region" = some "Northern region" ∧ ∀ n, factTableRow shippedTranslations true labels ["en-US", ""] (f.copied n) = .ok row' ∧ Dict.get? row' "x:Region" = some "North" :=
  ⟨fact "x:Region", english, _, stated, english_row, by decide +kernel, fun n => ⟨english_copy n, by decide +kernel⟩⟩

end Brel
