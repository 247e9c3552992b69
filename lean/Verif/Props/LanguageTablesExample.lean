import Verif.Props.LanguageTables
import Verif.Props.FilingTablesExample

/-! Examples for C135. -/

namespace Brel
open Spec

namespace OpenExample
open LinkbaseExample

theorem english_titled : Titled true "en-US" := .inr ⟨"en-US", by decide, by decide +kernel⟩

theorem klingon_untitled : ¬ Titled true "tlh" := by
  have : ¬ ("tlh" = "" ∨ shippedTags.any (fun t => languagesMatch true "tlh" t) = true) := by decide +kernel
  exact fun h => this (h.imp_right fun ⟨t, ht, hm⟩ => List.any_eq_true.2 ⟨t, ht, hm⟩)

theorem afterLast_unique {shown : String → Prop} {langs post post' : List String} (h : AfterLast shown langs post) (h' : AfterLast shown langs post') : post = post' := by
  obtain ⟨pre, he, hp, ha⟩ := h
  obtain ⟨pre', he', hp', ha'⟩ := h'
  have key : ∀ {pre pre' post post' : List String}, pre ++ post = pre' ++ post' → (pre' = [] ∨ ∃ p l, pre' = p ++ [l] ∧ ¬ shown l) → (∀ l ∈ post, shown l) → pre'.length ≤ pre.length := by
    intro pre pre' post post' e hp' ha
    rcases hp' with rfl | ⟨p, l, rfl, hl⟩
    · exact Nat.zero_le _
    · by_contra hlt
      refine hl (ha l ?_)
      have hle : pre.length ≤ p.length := by
        rw [List.length_append, List.length_singleton] at hlt
        omega
      have : post = (p.drop pre.length) ++ ([l] ++ post') := by
        have := congrArg (List.drop pre.length) e
        rw [List.drop_left, List.append_assoc, List.drop_append_of_le_length hle] at this
        exact this
      rw [this]
      simp
  have e := he.symm.trans he'
  have hlen := Nat.le_antisymm (key e.symm hp ha') (key e hp' ha)
  exact (List.append_inj e hlen).2

/-- The components in Klingon, English and the default language: the one component has a row in each language but Klingon. The other way round there is no row at all. The elements are shown in
the default language only, as not all of them have labels. -/
example : ∃ steps o, openXml sampleDates LinkbaseExample.float LinkbaseExample.str .insertion steps docs = some (.ok o) ∧
    (∃ rows, componentTable shippedTranslations true false ["tlh", "en-US", ""] o.components = .ok rows ∧ rows.length = 2) ∧
    componentTable shippedTranslations true false ["", "en-US", "tlh"] o.components = .ok [] ∧
    (∃ rows, elementTable shippedTranslations true false ["en", "de", ""] o.elements o.networks = .ok rows ∧ rows.length = 3) := by
  obtain ⟨steps, o, ho, _, _⟩ := C105_opens (str := LinkbaseExample.str) (so := .insertion) filing_valid
  have ho := ho 0
  obtain ⟨d, hd, hn⟩ := declares_C
  refine ⟨steps, o, ho, ?_, ?_, ?_⟩
  · obtain ⟨post, parts, h1, h2, h3⟩ := C135_components (ml := true) filing_valid ho ["tlh", "en-US", ""]
    have hp : post = ["en-US", ""] := afterLast_unique h1 ⟨["tlh"], rfl, .inr ⟨[], "tlh", rfl, klingon_untitled⟩, fun l hl => by
      rcases List.mem_cons.1 hl with rfl | hl
      · exact english_titled
      · exact .inl (List.mem_singleton.1 hl)⟩
    subst hp
    refine ⟨_, h2, ?_⟩
    cases h3 with
    | cons a h3 =>
      cases h3 with
      | cons b h3 =>
        cases h3
        obtain ⟨_, _, _, _, _, r, e, hr⟩ := a
        obtain ⟨_, _, _, _, _, r', e', hr'⟩ := b
        cases e
        cases e'
        have l1 := hr.length_eq
        have l2 := hr'.length_eq
        rw [List.flatten_cons, List.flatten_cons, List.flatten_nil, List.append_nil, List.length_append, ← l1, ← l2]
        decide +kernel
  · obtain ⟨post, parts, h1, h2, h3⟩ := C135_components (ml := true) filing_valid ho ["", "en-US", "tlh"]
    have hp : post = [] := afterLast_unique h1 ⟨["", "en-US", "tlh"], rfl, .inr ⟨["", "en-US"], "tlh", rfl, klingon_untitled⟩, by simp⟩
    subst hp
    cases h3
    exact h2
  · obtain ⟨post, parts, h1, h2, h3⟩ := C135_elements_partial (ml := true) filing_valid type_names ho ["en", "de", ""]
    have hp : post = [""] := afterLast_unique h1 ⟨["en", "de"], rfl, .inr ⟨["en"], "de", rfl, fun h => by
      have hu := unlabelled "de" (by simp)
      exact (h.2 d hd).elim hu.1 (fun k => hu.2 (hn ▸ k))⟩, fun l hl => by
      rw [List.mem_singleton.1 hl]
      exact ⟨.inl rfl, fun _ _ => .inl rfl⟩⟩
    subst hp
    refine ⟨_, h2, ?_⟩
    cases h3 with
    | cons a h3 =>
      cases h3
      obtain ⟨_, _, _, _, _, _, t2⟩ := a
      rw [List.flatten_cons, List.flatten_nil, List.append_nil, ← (t2 _ rfl).length_eq]
      decide +kernel

end OpenExample

example := C135_inline_partial (str := LinkbaseExample.str) (so := .insertion) InlineExample.filing_valid (fuel := 2) (by rw [InlineExample.ds_is]; decide +kernel)
  (by rw [InlineExample.plain_is]; exact typeNames_of (by decide +kernel))

end Brel
