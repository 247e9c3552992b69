import Verif.Spec.Languages
import Verif.Lemmas.Linkbase
import Verif.Props.Output
import Verif.Props.LinkbaseExample

/-! C106: the languages of a filing. -/

namespace Brel

theorem foldl_trees (roots : List XNode) (acc : List String) (hn : acc.Nodup) :
    (roots.foldl (fun acc root => (treeLanguages root).foldl appendNew acc) acc).Nodup ∧
    ∀ lang, lang ∈ roots.foldl (fun acc root => (treeLanguages root).foldl appendNew acc) acc ↔ lang ∈ acc ∨ ∃ root ∈ roots, lang ∈ treeLanguages root := by
  induction roots generalizing acc with
  | nil => simp [hn]
  | cons r rs ih =>
    rw [List.foldl_cons]
    have := ih ((treeLanguages r).foldl appendNew acc) (foldl_appendNew_nodup _ _ hn)
    refine ⟨this.1, fun lang => ?_⟩
    rw [this.2 lang, mem_foldl_appendNew]
    rw [or_assoc]
    simp [List.mem_cons]

theorem mem_treeLanguages (root : XNode) (lang : String) : lang ∈ treeLanguages root ↔ ∃ own x, Below root own x ∧ StatesLanguage x lang := by
  unfold treeLanguages
  rw [List.mem_filterMap]
  constructor
  · rintro ⟨p, hp, h⟩
    obtain ⟨own, hb, _⟩ := (scoped_iff [] root p).1 hp
    by_cases ht : p.2.tag.isSome = true
    · rw [if_pos ht] at h
      exact ⟨own, p.2, hb, Option.isSome_iff_ne_none.1 ht, h⟩
    · rw [if_neg ht] at h; cases h
  · rintro ⟨own, x, hb, ht, hl⟩
    refine ⟨(own.map XNode.lang, x), (scoped_iff [] root _).2 ⟨own, hb, by simp⟩, ?_⟩
    rw [if_pos (Option.isSome_iff_ne_none.2 ht)]
    exact hl

/-- C106. Whatever the order of sets, the languages of the filing are those that some element below the root of a document states, each once. -/
theorem C106_languages_partial (so : SetOrder) (roots : List XNode) :
    (availableLanguages so roots).Nodup ∧ ∀ lang, lang ∈ availableLanguages so roots ↔ LanguageInside roots lang := by
  obtain ⟨h1, h2⟩ := foldl_trees roots [] List.nodup_nil
  refine ⟨(so.strings_perm _).nodup_iff.2 h1, fun lang => ?_⟩
  unfold availableLanguages
  rw [(so.strings_perm _).mem_iff, h2 lang]
  simp only [List.not_mem_nil, false_or, mem_treeLanguages]
  rfl

/-- C106. If no root states a language that is stated nowhere else, the languages of the filing are all that its documents state. -/
theorem C106_all_languages (so : SetOrder) (roots : List XNode) (hroot : ∀ root ∈ roots, ∀ lang, StatesLanguage root lang → LanguageInside roots lang) (lang : String) :
    lang ∈ availableLanguages so roots ↔ LanguageStated roots lang := by
  rw [(C106_languages_partial so roots).2 lang]
  constructor
  · exact Or.inl
  · rintro (h | ⟨root, hr, h⟩)
    · exact h
    · exact hroot root hr lang h

theorem lineage_mem {r x : XNode} {c : List XNode} (h : Lineage r c x) : ∀ y ∈ c, (y = r ∨ ∃ own, Below r own y) := by
  induction h with
  | self => intro y hy; exact Or.inl (List.mem_singleton.1 hy)
  | @child p c up hl hc ih =>
    intro y hy
    rcases List.mem_cons.1 hy with rfl | hy
    · have hn : Lineage r (y :: p :: up) y := .child hl hc
      rcases hn.split with ⟨h1, _⟩ | ⟨d, hd, ch', h1, h2⟩
      · cases h1
      · exact Or.inr ⟨ch', (below_iff ..).2 ⟨d, hd, h1⟩⟩
    · exact ih y hy

theorem lineage_of_below {r x : XNode} {own : List XNode} (h : Below r own x) : Lineage r (own ++ [r]) x := h.2

theorem lineage_trans {r p x : XNode} {up c : List XNode} (h : Lineage r (up ++ [r]) p) (hne : up ≠ [] ) (hx : Lineage p c x) :
    ∃ ch, Lineage r ch x := by
  induction hx with
  | self => exact ⟨_, h⟩
  | @child q d up' hl hc ih =>
    obtain ⟨ch, hch⟩ := ih
    have := hch.head
    cases ch with
    | nil => cases this
    | cons a t =>
      cases this
      exact ⟨_, .child hch hc⟩

/-- C106. The language of every label that the documents give is offered, or a root states it. -/
theorem C106_label_languages (so : SetOrder) (roots : List XNode) (hc : CommentsPlain roots) {role : String} {up : List XNode} {link : XNode} {l : String} {lab : Label}
    (hl : HasLink roots "labelLink" role up link) (h : Labelled up link l lab) :
    lab.language ∈ availableLanguages so roots ∨ ∃ root ∈ roots, StatesLanguage root lab.language := by
  obtain ⟨own, x, hp, _, _, _, _, hlang, _⟩ := h
  obtain ⟨root, hr, own', hb', rfl⟩ := hl.placed
  obtain ⟨y, hy, hyl⟩ := List.exists_of_findSome?_eq_some hlang
  have hplace : y = root ∨ ∃ o, Below root o y := by
    rw [List.mem_append] at hy
    rcases hy with hy | hy
    · rcases lineage_mem hp.below.2 y (List.mem_append_left _ hy) with rfl | ⟨o, ho⟩
      · exact Or.inr ⟨own', hb'⟩
      · obtain ⟨ch, hch⟩ := lineage_trans hb'.2 hb'.1 ho.2
        have hhead := hch.head
        cases ch with
        | nil => cases hhead
        | cons a t => cases hhead; exact lineage_mem hch y List.mem_cons_self
    · exact lineage_mem hb'.2 y hy
  have htag : y.tag ≠ none := by
    intro ht
    have : ∃ c, Lineage root c y := by
      rcases hplace with rfl | ⟨o, ho⟩
      · exact ⟨_, .self⟩
      · exact ⟨_, ho.2⟩
    obtain ⟨c, hcl⟩ := this
    have := hc root hr c y hcl ht
    unfold XNode.attr? at hyl
    rw [this] at hyl
    cases hyl
  rcases hplace with rfl | ⟨o, ho⟩
  · exact Or.inr ⟨y, hr, htag, hyl⟩
  · exact Or.inl (((C106_languages_partial so roots).2 _).2 ⟨root, hr, o, y, ho, htag, hyl⟩)

/-- C106. If the languages of the report are allowed, output may be in the language of every label unless that language is stated by a root only. -/
theorem C106_output_languages (so : SetOrder) (roots : List XNode) (hroot : ∀ root ∈ roots, ∀ lang, StatesLanguage root lang → LanguageInside roots lang) (lang : String)
    (hs : LanguageStated roots lang) (filing library : OutputParams) (sys : Option String) (call : Option LangArg) (allowSystem allowDefault : Bool) :
    lang ∈ preferredLanguages filing library sys (availableLanguages so roots) call true allowSystem allowDefault := by
  have := (C10_preferred_languages filing library sys (availableLanguages so roots) call true allowSystem allowDefault).2.1 lang
  refine this.2 ⟨availableLanguages so roots, ?_, (C106_all_languages so roots hroot lang).2 hs⟩
  simp [languageSources]

/-! ## Examples and disagreements -/

namespace LanguagesExample
open LinkbaseExample

/-- Two languages, of a label and of a link. -/
example : availableLanguages .insertion [labelDoc, presDoc] = ["en", "de"] ∧ availableLanguages .reversed [labelDoc, presDoc] = ["de", "en"] := by decide +kernel

/-- The assumptions hold of the example: the roots state no language, and comments have no attributes. -/
example : (∀ root ∈ [labelDoc, presDoc], ∀ lang, StatesLanguage root lang → LanguageInside [labelDoc, presDoc] lang) ∧ CommentsPlain [labelDoc, presDoc] := by
  constructor
  · intro root hr lang h
    have hn : ∀ root ∈ [labelDoc, presDoc], root.attr? LinkbaseExample.lang = none := by decide +kernel
    have h2 : root.attr? LinkbaseExample.lang = some lang := h.2
    rw [hn root hr] at h2
    cases h2
  · intro root hr c x hx ht
    have hd : ∀ root ∈ [labelDoc, presDoc], root.tag.isSome = true ∧ (root.scoped []).all (fun p => p.2.tag.isSome || p.2.attrs.isEmpty) = true := by decide +kernel
    rcases hx.split with ⟨_, rfl⟩ | ⟨d, hdm, ch', h1, _⟩
    · have := (hd x hr).1; rw [ht] at this; cases this
    · have := List.all_eq_true.1 (hd root hr).2 (ch'.map XNode.lang, x) ((scoped_iff [] root _).2 ⟨ch', (below_iff ..).2 ⟨d, hdm, h1⟩, by simp⟩)
      simpa [ht] using this

/-- A link base whose root says that everything in it is German. -/
def german : XNode := .mk (some (linkTag "linkbase")) [(lang, "de")] none ns
  [.mk (some (linkTag "labelLink")) [(xl "type", "extended"), (xl "role", "http://www.xbrl.org/2003/role/link")] none ns
    [loc "a" "p_A", lab "la" "std" "Aktiva" [], arc "labelArc" "a" "la" "cl"]]

end LanguagesExample

/-- C106 fails: a link base may state its language once, at the root. Its labels are read in that language, but the filing does not list it: the output is not offered in the language
of the report. -/
theorem C106_root_language_false :
    (LinkbaseExample.good [LanguagesExample.german]).map (fun s => s.labelsOf (LinkbaseExample.nm "A")) = some [{ text := "Aktiva", label := "la", language := "de", role := "std" }] ∧
    (∀ so, availableLanguages so [LanguagesExample.german] = []) ∧
    ∀ so, preferredLanguages {} libraryDefaults none (availableLanguages so [LanguagesExample.german]) none true true true = [""] := by
  have h : ∀ so, availableLanguages so [LanguagesExample.german] = [] := by
    intro so
    have : ([LanguagesExample.german].foldl (fun acc root => (treeLanguages root).foldl appendNew acc) []) = ([] : List String) := by decide +kernel
    unfold availableLanguages
    rw [this]
    exact List.perm_nil.1 (so.strings_perm [])
  refine ⟨by decide +kernel, h, fun so => ?_⟩
  rw [h so]
  decide +kernel

end Brel
