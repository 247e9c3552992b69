import Verif.Props.FactParts
import Verif.Props.FilingQueriesExample
import Verif.Props.InlineQueriesExample

/-! C134 for the filings of C127 and C128. -/

namespace Brel
open Spec

namespace FactPartsExample

/-- The three facts of the written filing answer what their elements say. The core fact is of `p:Assets`; its context as a text is this concept, the entity, the period and the unit. -/
example (str : XNode → String) (so : SetOrder) : ∃ steps o, openXml sampleDates WrittenExample.float str so steps WrittenExample.filing.write = some (.ok o) ∧
    Rel2 (ElementSays sampleDates WrittenExample.filing.write) (elementsOf (WrittenExample.filing.write.map (·.root))) o.data.getAllFacts ∧ o.data.getAllFacts.length = 3 ∧
    ∃ f, o.data.getAllCoreFacts = [f] ∧ ∃ d i s rest, f.context.text = "p:Assets" ++ " " ++ ("{" ++ s ++ "}" ++ i) ++ " " ++ Period.shown d ++ " " ++ rest := by
  obtain ⟨steps, o, h1, _, _⟩ := C127_roundtrip str so WrittenExample.filing_valid
  have hv := Written.valid WrittenExample.filing_valid
  have hall := C134_xml_partial hv FilingQueriesExample.texts (h1 0)
  have hcore := C134_xml_text_partial hv FilingQueriesExample.texts (h1 0)
  refine ⟨steps, o, h1 0, hall, ?_, ?_⟩
  · rw [← hall.length_eq]
    decide +kernel
  · have hlen := congrArg List.length FilingQueriesExample.core_is
    rw [List.length_map, hcore.length_eq] at hlen
    obtain ⟨f, hf⟩ := List.length_eq_one_iff.1 hlen
    refine ⟨f, hf, ?_⟩
    obtain ⟨p, hp, c, cx, hc, _, q, d, e, i, s, _, _, _, _, h⟩ := hcore.mem_right f (by rw [hf]; exact List.mem_cons_self)
    have hn := FilingQueriesExample.names_are p hp
    unfold reportedName at hn
    rw [hc] at hn
    have hn : c.name = ⟨"u", "p", "Assets"⟩ := Option.some.inj hn
    have ht : c.name.prefixLocal = "p:Assets" := by rw [hn]; decide +kernel
    rw [ht] at h
    rcases h with ⟨_, h⟩ | ⟨n, a, b, _, h⟩
    · exact ⟨d, i, s, "", by rw [h, String.append_empty]⟩
    · exact ⟨d, i, s, n ++ " ", by rw [h]; simp only [String.append_assoc]⟩

open LinkbaseExample InlineExample InlineChecksExample in
/-- The three facts of the inline filings have units; with a dimension they have the same period, entity and unit as without. -/
example (d : Bool) : ∃ steps o, openXhtml sampleDates asciiDigit sampleFloat (fun _ => true) (exactOf asciiDigit) str .insertion 2 steps (InlineChecksExample.docs d right) = some (.ok o) ∧
    o.data.getAllFacts.length = 3 ∧ (∀ f ∈ o.data.getAllFacts, f.getUnit.isSome ∧ f.getPeriod.isSome ∧ f.getEntity.isSome) ∧
    ∀ f ∈ o.data.getAllFacts, (f.context.getCharacteristic { name := "p:D" }).isSome = d := by
  obtain ⟨steps, o, h1, _, hs⟩ := C110_opens_partial (str := str) (so := .insertion) (InlineQueriesExample.valid d) (InlineQueriesExample.fuel_is d)
  have hall := C134_inline_partial (InlineQueriesExample.valid d) (InlineQueriesExample.texts d right) hs
  refine ⟨steps, o, h1 0, ?_, fun f hf => ?_, fun f hf => ?_⟩
  · rw [← hall.length_eq]
    have : ∀ d, (inlineFacts (inlineDocs (InlineChecksExample.docs d right))).length = 3 := by decide +kernel
    exact this d
  · obtain ⟨e, he, _, c, ref, cx, _, _, _, h⟩ := hall.mem_right f hf
    obtain ⟨_, _, _, _, hp⟩ := h.period
    obtain ⟨_, _, _, _, _, he'⟩ := h.entity
    refine ⟨?_, by rw [hp]; rfl, by rw [he']; rfl⟩
    rw [h.unit]
    have : ∀ d, ∀ e ∈ inlineFacts (inlineDocs (InlineChecksExample.docs d right)), (inlineUnitStated (InlineChecksExample.docs d right) e).isSome = true := by decide +kernel
    exact this d e he
  · obtain ⟨e, he, _, c, ref, cx, _, hr, hcx, h⟩ := hall.mem_right f hf
    rw [h.dimensions _ (by decide)]
    rw [InlineChecksExample.ds_is, InlineChecksExample.contexts_are] at hcx
    have hcx : cx = InlineChecksExample.context d := List.mem_singleton.1 (List.mem_of_find?_eq_some hcx)
    rw [hcx, InlineChecksExample.plain_is, InlineChecksExample.store_is]
    cases d <;> decide +kernel

open LinkbaseExample InlineExample InlineChecksExample in
/-- In the texts of the contexts with a dimension, `p:M` is what is said about `p:D`. -/
example : ∃ steps o, openXhtml sampleDates asciiDigit sampleFloat (fun _ => true) (exactOf asciiDigit) str .insertion 2 steps (InlineChecksExample.docs true right) = some (.ok o) ∧
    ∀ f ∈ o.data.getAllFacts, ∃ parts : List (String × String), parts.Pairwise (fun a b => a.1 < b.1) ∧ ("p:D", "p:M") ∈ parts ∧ f.context.text = parts.foldl (fun t p => t ++ (p.2 ++ " ")) "" := by
  obtain ⟨steps, o, h1, _, hs⟩ := C110_opens_partial (str := str) (so := .insertion) (InlineQueriesExample.valid true) (InlineQueriesExample.fuel_is true)
  refine ⟨steps, o, h1 0, fun f hf => ?_⟩
  obtain ⟨e, _, c, ref, cx, _, _, hcx, parts, h2, h3, h4⟩ := (C134_inline_texts_partial (InlineQueriesExample.valid true) (InlineQueriesExample.texts true right) hs).mem_right f hf
  refine ⟨parts, h2, (h3 _ _).2 ?_, h4⟩
  rw [InlineChecksExample.ds_is, InlineChecksExample.contexts_are] at hcx
  have hcx : cx = InlineChecksExample.context true := List.mem_singleton.1 (List.mem_of_find?_eq_some hcx)
  rw [hcx, InlineChecksExample.plain_is, InlineChecksExample.store_is]
  have hd : ((((InlineChecksExample.context true).find "entity").toList.flatMap segmentOf |>.filterMap (dimensionOf InlineChecksExample.store)).find? (fun d => decide (d.aspect.name = "p:D"))).map
      (fun x => x.value.plainText) = some "p:M" := by decide +kernel
  obtain ⟨x, hx, ht⟩ := Option.map_eq_some_iff.1 hd
  have := SaysAbout.dimension (dateOf := sampleDates) (c := c) (u := inlineUnitStated (InlineChecksExample.docs true right) e) (by decide) hx
  rwa [ht] at this

end FactPartsExample

end Brel
