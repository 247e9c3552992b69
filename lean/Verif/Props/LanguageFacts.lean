import Verif.Spec.LanguageFacts
import Verif.Props.LanguageTables
import Verif.Props.FilingQueries

/-! C136: the table of core facts of an opened filing, one language at a time. -/

namespace Brel
open Spec

variable {dateOf : String → Option Date} {float : String → Option Rat} {str : XNode → String} {so : SetOrder} {steps : Nat} {docs : List SchemaDoc} {o : OpenedFiling} {ml : Bool}

theorem no_title {labels : QName → List Label} {data : ReportElement → Concept} {re : ElemStore} {root x : XNode} {f : Fact} (h : factOf data dateOf re root x = some f) {l : String}
    (hl : ¬ TitleLanguage ml l) : ¬ HasTexts ml [l] labels labels f := by
  intro ht
  unfold factOf at h
  simp only [bind, Option.bind_eq_some_iff] at h
  obtain ⟨c, _, us, _, cx, _, h⟩ := h
  cases h
  have hfind : (Characteristic.ofConcept c :: us ++ statedBy dateOf re cx).find? (fun d => d.aspect.name = (Characteristic.ofConcept c).aspect.name) = some (.ofConcept c) := by
    rw [List.cons_append, List.find?_cons_of_pos (by simp)]
  obtain ⟨s, pre, l', post, h1, _, h3⟩ := (ht (Characteristic.ofConcept c).aspect ((C02_aspects_exact _ _ _).2 ⟨_, hfind, rfl⟩)).1
  have hl' : l' = l := by
    have hm : l' ∈ [l] := by rw [h1]; simp
    exact List.mem_singleton.1 hm
  subst hl'
  rcases h3 with ⟨he, _⟩ | ⟨_, as, e, bs, he, _, hm, _⟩
  · exact hl (.inl he)
  · have hme : e ∈ coreTitles "concept" := by
      have : e ∈ as ++ e :: bs := by simp
      rw [← he] at this
      exact this
    have key : ∀ e ∈ coreTitles "concept", e.1 ∈ ["en-US", "fr-FR", "de-DE", "es-ES"] := by decide +kernel
    exact hl (.inr ⟨e.1, key e hme, hm⟩)

theorem titled_of_title {l : String} (h : TitleLanguage ml l) : Titled ml l := by
  refine h.imp_right ?_
  rintro ⟨t, ht, hm⟩
  have key : ∀ t ∈ ["en-US", "fr-FR", "de-DE", "es-ES"], t ∈ shippedTags := by decide +kernel
  exact ⟨t, key t ht, hm⟩

/-- C136: one language at a time, the table of core facts of an opened XML filing consists of the tables of the single languages, one below the other, from the language after the last one
that lacks the titles of the core aspects or a label of a concept of a core fact. -/
theorem C136_facts_partial (hv : ValidFiling dateOf float docs) (hp : PlainTexts dateOf ((docs.map (·.root)).flatMap XNode.children) ((docs.map (·.root)).flatMap XNode.children))
    (ho : openXml dateOf float str so steps docs = some (.ok o)) (langs : List String) :
    LanguageBlocks (CoreLabelled ml docs) (FactBlock dateOf ml docs) langs (o.coreTable shippedTranslations ml false langs) := by
  have hs := (opened_shows hv ho).2
  have hL : ∀ q, StatedLabels docs q (o.networks.labelsOf q) := fun q => hs.labels q
  refine rows_by_language _ _ _ _ ?_ ?_ langs
  · rintro l ⟨ht, hd⟩
    obtain ⟨t, htl⟩ := titled_iff.1 (titled_of_title ht)
    obtain ⟨fs, rows, h1, h2, h3, _⟩ := C132_core_table_partial hv hp ho htl ⟨l, List.mem_singleton.2 rfl, ht⟩
      (fun p hp q hq => ⟨l, List.mem_singleton.2 rfl, (hd p hp q hq).imp_right (hasLabelIn_iff (hL q)).1⟩)
    exact ⟨rows, h3, t, _, fs, htl, hL, h1, h2⟩
  · intro l hl
    by_cases ht : TitleLanguage ml l
    · right
      rintro ⟨rows, hr⟩
      refine hl ⟨ht, fun p hpc q hq => ?_⟩
      by_contra hno
      obtain ⟨h0, h1⟩ := not_or.1 hno
      obtain ⟨_, e, he⟩ := C132_core_table_false (ml := ml) hv hp ho h0 hpc hq (fun lab hlab => by
        cases hm : languagesMatch ml l lab.language with
        | false => rfl
        | true => exact absurd ((hasLabelIn_iff (hL q)).2 ⟨lab, hlab, hm⟩) h1)
      have hr : o.coreTable shippedTranslations ml true [l] = .ok rows := hr
      rw [he] at hr
      cases hr
    · cases hes : o.data.getAllCoreFacts with
      | nil => exact .inl rfl
      | cons f fs =>
        right
        rintro ⟨rows, hr⟩
        obtain ⟨row, _, hrow⟩ := ((mapM_ok_iff _ _ _).1 hr).mem_left f List.mem_cons_self
        have hrow : factTableRow shippedTranslations ml o.networks.labelsOf [l] f = .ok row := hrow
        have hm : some f ∈ o.data.getAllCoreFacts.map some := by rw [hes]; exact List.mem_cons_self
        rw [C132_core_partial hv hp ho] at hm
        obtain ⟨p, hpc, hpf⟩ := List.mem_map.1 hm
        have hst : StatedFact f := by
          refine factOf_stated hp ?_ hpf
          intro y hy
          obtain ⟨r, hr, hp'⟩ := List.mem_flatMap.1 (List.mem_filter.1 hpc).1
          obtain ⟨x, _, rfl⟩ := List.mem_map.1 hp'
          exact ⟨List.mem_flatMap.2 ⟨r, hr, hy⟩, List.mem_flatMap.2 ⟨r, hr, hy⟩⟩
        obtain ⟨e, he⟩ : ∃ e, factTableRow shippedTranslations ml o.networks.labelsOf [l] f = .error e := by
          by_cases htl : ∃ t, TextLanguage ml [l] t
          · obtain ⟨t, htl⟩ := htl
            exact (C121_row_partial hst (by simp) htl).2 (no_title hpf ht)
          · exact C121_no_language (by simp) (fun t h => htl ⟨t, h⟩) f
        rw [he] at hrow
        cases hrow

end Brel
