import Verif.Props.FilingTables
import Verif.Props.OpenExample
import Verif.Props.OpenInlineExample

/-! Examples for C130. -/

namespace Brel
open Spec


theorem typeNames_of {docs : List SchemaDoc} (h : ∀ d ∈ docs, ∀ e ∈ d.root.descendants, (e.attr? "type").all (fun t => decide ('{' ∉ t.toList) && (decide (':' ∉ t.toList) || (matchColon t).isSome)) = true) : TypeNames docs := by
  intro d hd e he t ht
  have := h d hd e he
  rw [ht, Option.all_some, Bool.and_eq_true, Bool.or_eq_true, decide_eq_true_eq, decide_eq_true_eq] at this
  refine ⟨this.1, this.2.imp_right fun hm => ?_⟩
  obtain ⟨⟨p, n⟩, hm⟩ := Option.isSome_iff_exists.1 hm
  obtain ⟨h1, h2⟩ := (matchColon_iff t p n).1 hm
  exact ⟨p, n, h1, h2⟩

namespace OpenExample
open LinkbaseExample

theorem type_names : TypeNames docs := typeNames_of (by decide +kernel)

/-- The concept `C` has no label at all. -/
theorem unlabelled : Unlabelled true ["en", "de"] docs (nm "C") := by
  intro lang hl
  refine ⟨?_, ?_⟩
  · have : ∀ l ∈ ["en", "de"], l ≠ "" := by decide
    exact this lang hl
  · rintro ⟨lab, up, link, role, h, ⟨l, m, _, hloc, _⟩, _⟩
    rw [store_is] at hloc
    obtain ⟨own, x, href, i, e, hp, _, hh, hr, hi, hq⟩ := hloc
    rcases links_are (hasLink_only h) with ⟨rfl, _⟩ | ⟨_, hn⟩
    · have all : ∀ y ∈ labels.descendants, y.xlinkAttr "type" = some "locator" →
          (y.xlinkAttr "href").all (fun h => (LinkbaseExample.elems.byId.get? (String.ofList (fragment h.toList))).all (fun e => decide (e.name ≠ nm "C"))) = true := by decide +kernel
      have := all x hp.below.descendant hp.type
      rw [hh, Option.all_some, ← refers_unique hr, hi, Option.all_some, decide_eq_true_eq] at this
      exact this hq
    · exact absurd hn (by decide)

theorem declares_C : ∃ d ∈ counting (schemaDeclarations docs), d.name = nm "C" := by
  have : (counting (schemaDeclarations docs)).any (fun d => decide (d.name = nm "C")) = true := by decide +kernel
  obtain ⟨d, hd, h⟩ := List.any_eq_true.1 this
  exact ⟨d, hd, of_decide_eq_true h⟩

/-- Three elements: in the default language the table has three rows, in English or German there is none, although two of the elements have labels. -/
example : ∃ steps o, openXml sampleDates LinkbaseExample.float LinkbaseExample.str .insertion steps docs = some (.ok o) ∧
    (∃ rows, elementTable shippedTranslations true true ["en", ""] o.elements o.networks = .ok rows ∧ rows.length = 3) ∧
    (∃ rows, componentTable shippedTranslations true true ["en-US"] o.components = .ok rows ∧ rows.length = 1) ∧ LabelRows docs (labelTable o.elements o.networks) ∧
    (∃ e, elementTable shippedTranslations true true ["en", "de"] o.elements o.networks = .error e) ∧ elementTable shippedTranslations true false ["en", "de"] o.elements o.networks = .ok [] := by
  obtain ⟨steps, o, ho, _, _⟩ := C105_opens (str := LinkbaseExample.str) (so := .insertion) filing_valid
  have ho := ho 0
  obtain ⟨d, hd, hn⟩ := declares_C
  obtain ⟨l1, h1⟩ := textLanguage_default (ml := true) (langs := ["en", ""]) (by simp)
  obtain ⟨_, _, _, t1, t2⟩ := C130_elements_partial filing_valid type_names ho h1
  obtain ⟨rows, hr⟩ := t1.2 (fun _ _ => ⟨"", by simp, Or.inl rfl⟩)
  obtain ⟨_, _, _, rows', hr', hc⟩ := C130_components (ml := true) (langs := ["en-US"]) filing_valid ho (.tag (t := "en-US") (by decide) (by decide) (by decide +kernel))
  refine ⟨steps, o, ho, ⟨rows, hr, ?_⟩, ⟨rows', hr', ?_⟩, C130_labels filing_valid ho, C130_elements_false filing_valid type_names ho _ (by simp) hd (hn ▸ unlabelled)⟩
  · rw [← (t2 rows hr).length_eq]; decide +kernel
  · rw [← hc.length_eq]; decide +kernel

/-- A row of the table of labels. -/
example : Dict.get? (labelRow ⟨"Bonds", "lb", "en", "std"⟩ (nm "B")) "report_element" = some (.name (nm "B")) ∧ labelRow ⟨"Bonds", "lb", "en", "std"⟩ (nm "B") ≠ labelRow ⟨"Bonds", "lb", "en", "std"⟩ (nm "A") := by
  decide +kernel

end OpenExample

example := C130_inline_partial (str := LinkbaseExample.str) (so := .insertion) InlineExample.filing_valid (fuel := 2) (by rw [InlineExample.ds_is]; decide +kernel)
  (by rw [InlineExample.plain_is]; exact typeNames_of (by decide +kernel))

end Brel
