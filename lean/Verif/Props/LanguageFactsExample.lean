import Verif.Props.LanguageFacts
import Verif.Props.LanguageTablesExample
import Verif.Props.FilingQueriesExample

/-! Examples for C136. -/

namespace Brel
open Spec

namespace FilingQueriesExample
open WrittenExample

theorem italian_untitled : ¬ TitleLanguage false "it-IT" := by
  have : ¬ ("it-IT" = "" ∨ (["en-US", "fr-FR", "de-DE", "es-ES"].any (fun t => languagesMatch false "it-IT" t)) = true) := by decide +kernel
  exact fun h => this (h.imp_right fun ⟨t, ht, hm⟩ => List.any_eq_true.2 ⟨t, ht, hm⟩)

/-- One core fact, shown in Italian, English and the default language: no row in Italian, which has no titles for the core aspects, and one in each of the others. With Italian last the table is empty. -/
example (str : XNode → String) (so : SetOrder) : ∃ steps o, openXml sampleDates WrittenExample.float str so steps filing.write = some (.ok o) ∧
    (∃ row row', o.coreTable shippedTranslations false false ["it-IT", "en-US", ""] = .ok [row, row']) ∧ o.coreTable shippedTranslations false false ["en-US", "", "it-IT"] = .ok [] := by
  obtain ⟨steps, o, h1, _, h3⟩ := C127_roundtrip str so WrittenExample.filing_valid
  have hv := Written.valid WrittenExample.filing_valid
  have hs := (opened_shows hv (h1 0)).2
  have hen : CoreLabelled false filing.write "en-US" := by
    refine ⟨.inr ⟨"en-US", by decide, by decide +kernel⟩, fun p hp q hq => .inr ?_⟩
    rw [names_are p hp] at hq
    cases hq
    exact (hasLabelIn_iff (fun lab => hs.labels _ lab)).2 ⟨_, (h3.labels _ _).2 ⟨_, List.mem_cons_self, ⟨_, List.mem_cons_self, rfl, rfl⟩, rfl⟩, by decide +kernel⟩
  have hlen : (coreElements filing.write).length = 1 := by
    have := congrArg List.length core_is
    rwa [List.length_map] at this
  have one : ∀ {l : String} {rows : List (Dict String String)}, FactBlock sampleDates false filing.write l rows → ∃ row, rows = [row] := by
    rintro l rows ⟨_, _, fs, _, _, hf, hr⟩
    have := congrArg List.length hf
    rw [List.length_map, List.length_map, hlen] at this
    exact List.length_eq_one_iff.1 (hr.length_eq.symm.trans this)
  refine ⟨steps, o, h1 0, ?_, ?_⟩
  · obtain ⟨post, parts, g1, g2, g3⟩ := C136_facts_partial (ml := false) hv texts (h1 0) ["it-IT", "en-US", ""]
    have hp : post = ["en-US", ""] := OpenExample.afterLast_unique g1 ⟨["it-IT"], rfl, .inr ⟨[], "it-IT", rfl, fun h => italian_untitled h.1⟩, fun l hl => by
      rcases List.mem_cons.1 hl with rfl | hl
      · exact hen
      · rw [List.mem_singleton.1 hl]
        exact ⟨.inl rfl, fun _ _ _ _ => .inl rfl⟩⟩
    subst hp
    cases g3 with
    | cons a g3 =>
      cases g3 with
      | cons b g3 =>
        cases g3
        obtain ⟨row, rfl⟩ := one a
        obtain ⟨row', rfl⟩ := one b
        exact ⟨row, row', g2⟩
  · obtain ⟨post, parts, g1, g2, g3⟩ := C136_facts_partial (ml := false) hv texts (h1 0) ["en-US", "", "it-IT"]
    have hp : post = [] := OpenExample.afterLast_unique g1 ⟨["en-US", "", "it-IT"], rfl, .inr ⟨["en-US", ""], "it-IT", rfl, fun h => italian_untitled h.1⟩, by simp⟩
    subst hp
    cases g3
    exact g2

end FilingQueriesExample

end Brel
