import Verif.Props.FilingQueries
import Verif.Props.WrittenFilingExample

/-! C132 for the filing of C127: facts with and without dimensions. -/

namespace Brel
open Spec

namespace FilingQueriesExample
open WrittenExample

theorem texts : PlainTexts sampleDates ((filing.write.map (·.root)).flatMap XNode.children) ((filing.write.map (·.root)).flatMap XNode.children) := by
  refine ⟨?_, ?_, ?_⟩
  · intro t d h
    unfold sampleDates at h
    split at h
    · cases h; exact ⟨by decide, by decide, by decide⟩
    · split at h
      · cases h; exact ⟨by decide, by decide, by decide⟩
      · cases h
  · have h : ∀ x ∈ (filing.write.map (·.root)).flatMap XNode.children, (x.attr? "id").all (fun i => decide (':' ∉ i.toList)) = true := by decide +kernel
    intro x hx i hi
    have := h x hx
    rw [hi] at this
    exact of_decide_eq_true this
  · have h : ∀ m ∈ membersOf ((filing.write.map (·.root)).flatMap XNode.children), (m.attr? "dimension").all (fun a => decide (':' ∈ a.toList)) = true := by decide +kernel
    intro m hm a ha
    have := h m hm
    rw [ha] at this
    exact of_decide_eq_true this

theorem core_is : (coreElements filing.write).map (fun p => p.2.attr? "id") = [some "f2"] := by decide +kernel
theorem names_are : ∀ p ∈ coreElements filing.write, reportedName filing.write p.2 = some ⟨"u", "p", "Assets"⟩ := by decide +kernel

/-- Of the three facts one is a core fact; two are of the concept `p:Assets`. In English the table of core facts has one row. -/
example (str : XNode → String) (so : SetOrder) : ∃ steps o, openXml sampleDates WrittenExample.float str so steps filing.write = some (.ok o) ∧
    (∃ f, o.data.getAllCoreFacts = [f]) ∧ (∃ f g, o.data.getFactsByConceptName (.qname ⟨"u", "p", "Assets"⟩) = .ok [f, g]) ∧ ∃ row, o.coreTable shippedTranslations false false ["en-US"] = .ok [row] := by
  obtain ⟨steps, o, h1, _, h3⟩ := C127_roundtrip str so WrittenExample.filing_valid
  have hv := Written.valid WrittenExample.filing_valid
  have hl : ∀ p ∈ coreElements filing.write, ∀ q, reportedName filing.write p.2 = some q → ∃ l ∈ ["en-US"], l = "" ∨ ∃ x ∈ o.networks.labelsOf q, languagesMatch false l x.language = true := by
    intro p hp q hq
    rw [names_are p hp] at hq
    cases hq
    refine ⟨_, List.mem_cons_self, Or.inr ⟨_, (h3.labels _ _).2 ⟨_, List.mem_cons_self, ⟨_, List.mem_cons_self, rfl, rfl⟩, rfl⟩, by decide +kernel⟩⟩
  have hlen : (coreElements filing.write).length = 1 := by
    have := congrArg List.length core_is
    rwa [List.length_map] at this
  have one : ∀ {fs : List Fact} {ps : List (XNode × XNode)}, StatedByAll sampleDates filing.write fs ps → fs.length = ps.length := by
    intro fs ps h
    have := congrArg List.length h
    rwa [List.length_map, List.length_map] at this
  obtain ⟨fs, rows, h4, h5, _, h7⟩ := C132_core_table_partial hv texts (h1 0) (ml := false) (langs := ["en-US"]) (.tag (t := "en-US") (by decide) (by decide) (by decide +kernel))
    ⟨_, List.mem_cons_self, Or.inr ⟨"en-US", by decide, by decide +kernel⟩⟩ hl
  refine ⟨steps, o, h1 0, ?_, ?_, ?_⟩
  · exact List.length_eq_one_iff.1 ((one (C132_core_partial hv texts (h1 0))).trans hlen)
  · obtain ⟨fs, hfs⟩ : ∃ fs, o.data.getFactsByConceptName (.qname ⟨"u", "p", "Assets"⟩) = .ok fs :=
      ⟨_, (C132_by_name hv (h1 0) _ _).1.2 ⟨⟨_, (by decide +kernel : latest (·.name) (taxonomy filing.write) ⟨"u", "p", "Assets"⟩ = some { kind := .concept, name := ⟨"u", "p", "Assets"⟩, id := some "p_Assets" }), rfl⟩, named_stated hv _⟩⟩
    have h8 := (((C132_by_name hv (h1 0) _ fs).1).1 hfs).2
    have h9 : (elementsNamed filing.write ⟨"u", "p", "Assets"⟩).length = 2 := by decide +kernel
    obtain ⟨f, g, rfl⟩ := List.length_eq_two.1 ((one h8).trans h9)
    exact ⟨f, g, hfs⟩
  · obtain ⟨row, hr⟩ := List.length_eq_one_iff.1 (h5.length_eq.symm.trans ((one h4).trans hlen))
    exact ⟨row, hr ▸ h7 _ rfl⟩

/-- In Spanish it is empty, as there are no Spanish labels. -/
example (str : XNode → String) (so : SetOrder) : ∃ steps o, openXml sampleDates WrittenExample.float str so steps filing.write = some (.ok o) ∧
    o.coreTable shippedTranslations false false ["es-ES"] = .ok [] ∧ ∃ e, o.coreTable shippedTranslations false true ["es-ES"] = .error e := by
  obtain ⟨steps, o, h1, _, h3⟩ := C127_roundtrip str so WrittenExample.filing_valid
  have hne : coreElements filing.write ≠ [] := by
    intro h
    have := core_is
    rw [h] at this
    cases this
  obtain ⟨p, hp⟩ := List.exists_mem_of_ne_nil _ hne
  refine ⟨steps, o, h1 0, C132_core_table_false (Written.valid WrittenExample.filing_valid) texts (h1 0) (by decide) hp (names_are p hp) ?_⟩
  intro lab hlab
  obtain ⟨l, hl, _, rfl⟩ := (h3.labels _ _).1 hlab
  have : ∀ l ∈ filing.labels, languagesMatch false "es-ES" l.language = false := by decide +kernel
  exact this l hl

end FilingQueriesExample
end Brel
