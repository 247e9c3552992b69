import Verif.Props.InlineQueries
import Verif.Props.InlineChecksExample

/-! C133 for the filings of C128: three facts, all without a dimension or all with one. -/

namespace Brel
open Spec

namespace InlineQueriesExample
open LinkbaseExample InlineExample InlineChecksExample

theorem texts (d : Bool) (es : List InlineElem) : InlineTexts sampleDates (InlineChecksExample.docs d es) := by
  unfold InlineTexts
  rw [InlineChecksExample.ds_is, InlineChecksExample.contexts_are, InlineChecksExample.units_are]
  refine ⟨?_, ?_, ?_⟩
  · intro t d h
    unfold sampleDates at h
    split at h
    · cases h; exact ⟨by decide, by decide, by decide⟩
    · split at h
      · cases h; exact ⟨by decide, by decide, by decide⟩
      · cases h
  · have h : ∀ x ∈ [unit], (x.attr? "id").all (fun i => decide (':' ∉ i.toList)) = true := by decide +kernel
    intro x hx i hi
    have := h x hx
    rw [hi] at this
    exact of_decide_eq_true this
  · have h : ∀ d, ∀ m ∈ membersOf [InlineChecksExample.context d], (m.attr? "dimension").all (fun a => decide (':' ∈ a.toList)) = true := by decide +kernel
    intro m hm a ha
    have := h d m hm
    rw [ha] at this
    exact of_decide_eq_true this

theorem core_without : (inlineCore (InlineChecksExample.docs false right)).map (fun e => e.node.attr? "id") = [some "f1", some "f2", some "f3"] := by decide +kernel
theorem core_with : inlineCore (InlineChecksExample.docs true right) = [] := by
  have : (inlineCore (InlineChecksExample.docs true right)).map (fun e => e.node.attr? "id") = [] := by decide +kernel
  exact List.map_eq_nil_iff.1 this
theorem total_is (d : Bool) : (inlineNamed (InlineChecksExample.docs d right) (nm "T")).map (fun e => e.node.attr? "id") = [some "f1"] := by revert d; decide +kernel
theorem concept_T (d : Bool) : latest (·.name) (taxonomy (InlineChecksExample.plain d)) (nm "T") = some ⟨.concept, nm "T", some "p_T", [], 0⟩ := by revert d; decide +kernel
theorem no_member (d : Bool) : ¬ ∃ e, latest (·.name) (taxonomy (InlineChecksExample.plain d)) (nm "M") = some e ∧ e.kind = .concept := by
  have : ∀ d, latest (·.name) (taxonomy (InlineChecksExample.plain d)) (nm "M") = some ⟨.member, nm "M", some "p_M", [], 0⟩ := by decide +kernel
  rintro ⟨e, h1, h2⟩
  rw [this d] at h1
  cases h1
  cases h2

theorem valid (d : Bool) : ValidInlineFiling sampleDates asciiDigit sampleFloat (fun _ => true) (exactOf asciiDigit) (InlineChecksExample.docs d right) := by
  cases d
  · exact right_valid
  · exact dims_valid

theorem fuel_is (d : Bool) : (inlineConts (inlineDocs (InlineChecksExample.docs d right))).length < 2 := by revert d; decide +kernel

/-- Without dimensions all three facts are core facts, with one none is. In both filings one fact is of the total, and the member of the dimension is not a concept that can be asked for. -/
example (d : Bool) : ∃ steps o, openXhtml sampleDates asciiDigit sampleFloat (fun _ => true) (exactOf asciiDigit) str .insertion 2 steps (InlineChecksExample.docs d right) = some (.ok o) ∧
    o.data.getAllCoreFacts.length = (if d then 0 else 3) ∧ (∃ f, o.data.getFactsByConceptName (.qname (nm "T")) = .ok [f]) ∧
    (∃ err, o.data.getFactsByConceptName (.qname (nm "M")) = .error err) ∧ ∃ R, o.data.getAllReportedConcepts = .ok R ∧ nm "T" ∈ R.map (·.name) := by
  obtain ⟨steps, o, h1, _, hs⟩ := C110_opens_partial (str := str) (so := .insertion) (valid d) (fuel_is d)
  refine ⟨steps, o, h1 0, ?_, ?_, ?_, ?_⟩
  · rw [← (C133_core_partial (valid d) (texts d right) hs).length_eq]
    cases d
    · have := congrArg List.length core_without
      rwa [List.length_map] at this
    · rw [core_with]; rfl
  · obtain ⟨fs, h2, h3⟩ := (C133_by_name_partial (valid d) (texts d right) (h1 0) hs (nm "T")).1 ⟨_, concept_T d, rfl⟩
    have := congrArg List.length (total_is d)
    rw [List.length_map, h3.length_eq] at this
    obtain ⟨f, rfl⟩ := List.length_eq_one_iff.1 this
    exact ⟨f, h2⟩
  · exact (C133_by_name_partial (valid d) (texts d right) (h1 0) hs (nm "M")).2 (no_member d)
  · obtain ⟨R, h2, _, h3⟩ := C133_reported_partial (texts d right) hs
    refine ⟨R, h2, (h3 _).2 fun h => ?_⟩
    have := total_is d
    rw [h] at this
    cases this

/-- In the default language the table of core facts has three rows without dimensions, and none with. -/
example (d : Bool) : ∃ steps o, openXhtml sampleDates asciiDigit sampleFloat (fun _ => true) (exactOf asciiDigit) str .insertion 2 steps (InlineChecksExample.docs d right) = some (.ok o) ∧
    ∃ rows, o.coreTable shippedTranslations false false [""] = .ok rows ∧ rows.length = (if d then 0 else 3) := by
  obtain ⟨steps, o, h1, _, hs⟩ := C110_opens_partial (str := str) (so := .insertion) (valid d) (fuel_is d)
  obtain ⟨t, htl⟩ := textLanguage_default (ml := false) (langs := [""]) List.mem_cons_self
  obtain ⟨fs, rows, h2, h3, _, h4⟩ := C133_core_table_partial (valid d) (texts d right) hs htl ⟨_, List.mem_cons_self, Or.inl rfl⟩ (fun e _ q _ => ⟨_, List.mem_cons_self, Or.inl rfl⟩)
  refine ⟨steps, o, h1 0, rows, h4 _ rfl, ?_⟩
  rw [← h3.length_eq, ← h2.length_eq]
  cases d
  · have := congrArg List.length core_without
    rwa [List.length_map] at this
  · rw [core_with]; rfl

end InlineQueriesExample

end Brel
