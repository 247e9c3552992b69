import Verif.Lemmas.Output
import Verif.Props.Context

/-! C10 - C15, C56, C58, C59: languages, output parameters, tables, translations, labels. -/

namespace Brel

/-! ### C10: preferred languages -/

/-- C10. The languages are those of the enabled sources, each once; a language of a more important source stands before every
language that only less important sources mention, and inside a source the order of mention is kept. -/
theorem C10_preferred_languages (filing library : OutputParams) (sys : Option String) (report : List String) (call : Option LangArg)
    (allowReport allowSystem allowDefault : Bool) :
    let S := languageSources (callLanguages call) (storedLanguages filing.languages) (storedLanguages library.languages) sys report
      allowSystem allowReport allowDefault
    let r := preferredLanguages filing library sys report call allowReport allowSystem allowDefault
    r.Nodup ∧ (∀ l, l ∈ r ↔ ∃ s ∈ S, l ∈ s) ∧
    (∀ pre post a b, S = pre ++ post → (∃ s ∈ pre, a ∈ s) → (∃ s ∈ post, b ∈ s) → (∀ s ∈ pre, b ∉ s) → Precedes a b r) ∧
    r = firstOccurrences S.flatten := by
  dsimp only
  rw [preferredLanguages_eq]
  generalize languageSources (callLanguages call) (storedLanguages filing.languages) (storedLanguages library.languages) sys report
      allowSystem allowReport allowDefault = S
  refine ⟨firstOccurrences_nodup _, ?_, ?_, rfl⟩
  · intro l
    rw [mem_firstOccurrences, List.mem_flatten]
  · rintro pre post a b rfl ⟨s, hs, ha⟩ ⟨s', hs', hb⟩ hn
    rw [List.flatten_append]
    apply firstOccurrences_precedes
    · exact List.mem_flatten.2 ⟨s, hs, ha⟩
    · exact List.mem_flatten.2 ⟨s', hs', hb⟩
    · rw [List.mem_flatten]
      rintro ⟨x, hx, hbx⟩
      exact hn x hx hbx

/-- C10. What a stored or passed language argument offers: a text offers itself, a list its members, nothing offers nothing. -/
theorem C10_offered_languages (l : List String) (s : String) :
    callLanguages none = [] ∧ callLanguages (some (.one s)) = [s] ∧ callLanguages (some (.many l)) = l ∧
    storedLanguages none = [] ∧ (s ≠ "" → storedLanguages (some (.one s)) = [s]) ∧ storedLanguages (some (.many l)) = l := by
  refine ⟨rfl, rfl, rfl, rfl, ?_, rfl⟩
  intro h
  simp [storedLanguages, h]

example : preferredLanguages { languages := some (.one "de") } libraryDefaults (some "en_US") ["fr", "de"] (some (.many ["it", "de"]))
    true true true = ["it", "de", "en_US", "fr", ""] := by decide

/-! ### C11: output parameters -/

/-- C11. Every boolean parameter is the value of the call, else of the filing, else of the library, else `False`. -/
theorem C11_effective_parameters (filing library kw : OutputParams) (sys : Option String) (report : List String) :
    let e := inferOutputParams filing library sys report kw
    e.allowDefault = ((kw.allowDefault.or filing.allowDefault).or library.allowDefault).getD false ∧
    e.allowSystem = ((kw.allowSystem.or filing.allowSystem).or library.allowSystem).getD false ∧
    e.allowReport = ((kw.allowReport.or filing.allowReport).or library.allowReport).getD false ∧
    e.matchLocale = ((kw.matchLocale.or filing.matchLocale).or library.matchLocale).getD false ∧
    e.allowMixed = ((kw.allowMixed.or filing.allowMixed).or library.allowMixed).getD false := by
  have h : ∀ a b c, preferredParameter a b c = ((a.or b).or c).getD false := by
    intro a b c
    cases a <;> cases b <;> cases c <;> rfl
  simp only [inferOutputParams, h, and_self]

/-- C11. An explicit `False` in the call is respected, and one on the filing unless the call says otherwise. -/
theorem C11_explicit_false (f l : Option Bool) :
    preferredParameter (some false) f l = false ∧ preferredParameter none (some false) l = false := ⟨rfl, rfl⟩

example : (inferOutputParams { allowMixed := some false } libraryDefaults none [] { allowDefault := some false }).allowMixed = false ∧
    (inferOutputParams { allowMixed := some false } libraryDefaults none [] { allowDefault := some false }).allowDefault = false ∧
    (inferOutputParams { allowMixed := some false } libraryDefaults none [] { allowDefault := some false }).matchLocale = true := by decide

/-! ### C59: setting parameters -/

/-- The parameters of the last `set_filing_output_params` in the history. -/
def lastFilingParams (ops : List ParamOp) : OutputParams :=
  (ops.filterMap (fun o => match o with | .setFiling kw => some kw | _ => none)).getLast?.getD {}

/-- C59, what holds: the filing's parameters are exactly those of the last setting. -/
theorem C59_filing_params_partial (ops : List ParamOp) : (ParamState.run ops).filing = lastFilingParams ops := by
  have h : ∀ (ops : List ParamOp) (s : ParamState), (ops.foldl ParamState.step s).filing =
      (ops.filterMap (fun o => match o with | .setFiling kw => some kw | _ => none)).getLast?.getD s.filing := by
    intro ops
    induction ops with
    | nil => intro s; rfl
    | cons o ops ih =>
      intro s
      rw [List.foldl_cons, ih]
      cases o with
      | setFiling kw =>
        simp only [List.filterMap_cons, List.getLast?_cons]
        cases List.getLast? (ops.filterMap (fun o => match o with | .setFiling kw => some kw | _ => none)) <;> rfl
      | setLibrary kw => simp only [List.filterMap_cons]; rfl
      | setLibraryLanguages l => simp only [List.filterMap_cons]; rfl
  exact h ops {}

/-- C59 is false: setting one parameter on the filing, or on the library, resets all the others of that level. -/
theorem C59_other_parameters_kept_false :
    (∃ a b : ParamOp, (ParamState.run [a]).filing.allowMixed = some false ∧ b = .setFiling { matchLocale := some true } ∧
      (ParamState.run [a, b]).filing.allowMixed = none) ∧
    (∃ b : ParamOp, (ParamState.run []).library.allowDefault = some true ∧ b = .setLibrary { languages := some (.one "de") } ∧
      (ParamState.run [b]).library.allowDefault = none ∧
      (inferOutputParams (ParamState.run [b]).filing (ParamState.run [b]).library none [] {}).allowDefault = false) :=
  ⟨⟨.setFiling { allowMixed := some false }, _, by decide, rfl, by decide⟩, ⟨_, by decide, rfl, by decide, by decide⟩⟩

/-- C59. The two levels are independent: what one level holds depends only on the settings made at that level. -/
theorem C59_levels_independent (ops : List ParamOp) :
    (ParamState.run ops).library = (ParamState.run (ops.filter (fun o => match o with | .setFiling _ => false | _ => true))).library ∧
    (ParamState.run ops).filing = (ParamState.run (ops.filter (fun o => match o with | .setFiling _ => true | _ => false))).filing := by
  have h : ∀ (ops : List ParamOp) (s s' : ParamState),
      (s.library = s'.library → (ops.foldl ParamState.step s).library =
        ((ops.filter (fun o => match o with | .setFiling _ => false | _ => true)).foldl ParamState.step s').library) ∧
      (s.filing = s'.filing → (ops.foldl ParamState.step s).filing =
        ((ops.filter (fun o => match o with | .setFiling _ => true | _ => false)).foldl ParamState.step s').filing) := by
    intro ops
    induction ops with
    | nil => intro s s'; exact ⟨id, id⟩
    | cons o ops ih =>
      intro s s'
      cases o with
      | setFiling kw => exact ⟨fun e => (ih (s.step (.setFiling kw)) s').1 e, fun _ => (ih (s.step (.setFiling kw)) (s'.step (.setFiling kw))).2 rfl⟩
      | setLibrary kw => exact ⟨fun _ => (ih (s.step (.setLibrary kw)) (s'.step (.setLibrary kw))).1 rfl, fun e => (ih (s.step (.setLibrary kw)) s').2 e⟩
      | setLibraryLanguages l =>
        refine ⟨fun e => (ih (s.step (.setLibraryLanguages l)) (s'.step (.setLibraryLanguages l))).1 ?_, fun e => (ih (s.step (.setLibraryLanguages l)) s').2 e⟩
        simp only [ParamState.step, e]
  exact ⟨(h ops {} {}).1 rfl, (h ops {} {}).2 rfl⟩

/-- C59. The library's parameters after a setting of all of them are exactly these. -/
theorem C59_library_params_partial (ops : List ParamOp) (kw : OutputParams) : (ParamState.run (ops ++ [.setLibrary kw])).library = kw := by
  unfold ParamState.run
  rw [List.foldl_append]
  rfl

/-- C59. Setting the library languages keeps every other parameter. -/
theorem C59_library_languages (s : ParamState) (l : LangArg) :
    (s.step (.setLibraryLanguages l)).filing = s.filing ∧
    (s.step (.setLibraryLanguages l)).library = { s.library with languages := some (.many (callLanguages (some l))) } := ⟨rfl, rfl⟩

/-! ### C12: the two language flags -/

/-- C12 is false, in general: the system language is offered exactly when the *report* flag is effective, and a report language
exactly when the *system* flag is (for languages no other source mentions). -/
theorem C12_flags_swapped (filing library kw : OutputParams) (sys : String) (report : List String) (lang : String)
    (hs : sys ≠ "") (hl : lang ∈ report) (hle : lang ≠ "")
    (hfree : ∀ x ∈ [sys, lang], x ∉ callLanguages kw.languages ∧ x ∉ storedLanguages filing.languages ∧ x ∉ storedLanguages library.languages)
    (hd : sys ∉ report) :
    let e := inferOutputParams filing library (some sys) report kw
    (sys ∈ e.languages ↔ e.allowReport = true) ∧ (lang ∈ e.languages ↔ e.allowSystem = true) := by
  have h1 := hfree sys (by simp)
  have h2 := hfree lang (by simp)
  have hne : lang ≠ sys := fun e => hd (e ▸ hl)
  dsimp only
  unfold inferOutputParams
  dsimp only
  generalize preferredParameter kw.allowSystem filing.allowSystem library.allowSystem = aS
  generalize preferredParameter kw.allowReport filing.allowReport library.allowReport = aR
  generalize preferredParameter kw.allowDefault filing.allowDefault library.allowDefault = aD
  rw [preferredLanguages_eq, mem_firstOccurrences, mem_firstOccurrences]
  unfold languageSources
  cases aS <;> cases aR <;> cases aD <;> simp [h1, h2, hs, hl, hle, hd, hne, Option.filter]

/-- C12 is false, with a witness: the call forbids the system language and allows the report languages, and gets the opposite. -/
theorem C12_own_source_false :
    ∃ (kw : OutputParams) (sys : String) (report : List String),
      let e := inferOutputParams {} libraryDefaults (some sys) report kw
      e.allowSystem = false ∧ e.allowReport = true ∧ sys ∈ e.languages ∧ ∀ l ∈ report, l ∉ e.languages :=
  ⟨{ allowSystem := some false, allowReport := some true }, "en_US", ["de"], by decide⟩

/-- C12, the part that holds: when the two flags agree, both sources are controlled correctly. -/
theorem C12_equal_flags_partial (filing library kw : OutputParams) (sys : String) (report : List String) (lang : String)
    (hs : sys ≠ "") (hl : lang ∈ report) (hle : lang ≠ "")
    (hfree : ∀ x ∈ [sys, lang], x ∉ callLanguages kw.languages ∧ x ∉ storedLanguages filing.languages ∧ x ∉ storedLanguages library.languages)
    (hd : sys ∉ report)
    (heq : (inferOutputParams filing library (some sys) report kw).allowSystem = (inferOutputParams filing library (some sys) report kw).allowReport) :
    let e := inferOutputParams filing library (some sys) report kw
    (sys ∈ e.languages ↔ e.allowSystem = true) ∧ (lang ∈ e.languages ↔ e.allowReport = true) := by
  have := C12_flags_swapped filing library kw sys report lang hs hl hle hfree hd
  dsimp only at this ⊢
  rw [heq]
  rw [heq] at this
  exact this

/-- The hypotheses are met by the default configuration. -/
example : let e := inferOutputParams {} libraryDefaults (some "en_US") ["de", "fr"] {}
    (∀ x ∈ ["en_US", "fr"], x ∉ callLanguages none ∧ x ∉ storedLanguages libraryDefaults.languages) ∧
    e.allowSystem = e.allowReport ∧ e.languages = ["en_US", "de", "fr", ""] := by decide

/-! ### C13: tables in one language -/

/-- C13. What the single-language mode really returns: the rows of every language after the last one that fails. -/
theorem C13_rows_after_last_failure {ε ρ : Type} (conv : ε → List String → Except PyErr ρ) (es : List ε) (pre post : List String)
    (rows : String → List ρ) (hpre : pre = [] ∨ ∃ p l, pre = p ++ [l] ∧ FailsIn conv es l) (hpost : ∀ l ∈ post, RendersAll conv es l (rows l)) :
    generateRows conv false (pre ++ post) es = .ok (post.flatMap rows) := by
  unfold generateRows
  rw [if_neg (by decide), List.foldl_append]
  have : pre.foldl (fun data lang => renderLoop conv lang data es) [] = [] := by
    rcases hpre with rfl | ⟨p, l, rfl, hf⟩
    · rfl
    · rw [List.foldl_append, List.foldl_cons, List.foldl_nil]
      exact renderLoop_fail conv l es _ hf
  rw [this, foldl_render_all conv es rows post [] hpost]
  rfl

/-- C13 is false: whenever two different places of the language list can show all elements and nothing fails, every element gets a
row for each of them. -/
theorem C13_one_row_per_element_false :
    ∃ (ε ρ : Type) (conv : ε → List String → Except PyErr ρ) (es : List ε) (langs : List String) (r : List ρ),
      es.length = 1 ∧ (∀ l ∈ langs, ¬ FailsIn conv es l) ∧ generateRows conv false langs es = .ok r ∧ r.length = 2 := by
  refine ⟨Unit, String, fun _ l => .ok (l.headD ""), [()], ["en", "de"], ["en", "de"], rfl, ?_, rfl, rfl⟩
  rintro l _ ⟨e, _, x, hx⟩
  cases hx

/-- C13 is false in the other direction as well: a language that shows everything is lost when a later one fails. -/
theorem C13_first_usable_language_false :
    ∃ (ε ρ : Type) (conv : ε → List String → Except PyErr ρ) (es : List ε) (langs : List String),
      es.length = 1 ∧ (∃ l, langs.head? = some l ∧ ¬ FailsIn conv es l) ∧ generateRows conv false langs es = .ok [] := by
  refine ⟨Unit, String, fun _ l => if l = ["en"] then .ok "x" else .error .keyError, [()], ["en", "de"], rfl, ⟨"en", rfl, ?_⟩, rfl⟩
  rintro ⟨e, _, x, hx⟩
  simp at hx

/-- C13, the part that holds: if the only language that can show all elements is the last of the list, the table has exactly one row
per element, in order, in that language; if no language can, the table is empty. -/
theorem C13_only_last_language_partial {ε ρ : Type} (conv : ε → List String → Except PyErr ρ) (es : List ε) (pre : List String) (l : String)
    (hpre : ∀ x ∈ pre, FailsIn conv es x) :
    (∀ rows, RendersAll conv es l rows → generateRows conv false (pre ++ [l]) es = .ok rows ∧ rows.length = es.length) ∧
    (FailsIn conv es l → generateRows conv false (pre ++ [l]) es = .ok []) := by
  constructor
  · intro rows h
    have hp : pre = [] ∨ ∃ p x, pre = p ++ [x] ∧ FailsIn conv es x := by
      rcases List.eq_nil_or_concat pre with rfl | ⟨p, x, rfl⟩
      · exact Or.inl rfl
      · exact Or.inr ⟨p, x, by simp, hpre x (by simp)⟩
    have := C13_rows_after_last_failure conv es pre [l] (fun _ => rows) hp (by intro x hx; simp at hx; rw [hx]; exact h)
    refine ⟨by simpa using this, ?_⟩
    have := congrArg List.length h
    simpa using this.symm
  · intro hf
    have := C13_rows_after_last_failure conv es (pre ++ [l]) [] (fun _ => []) (Or.inr ⟨pre, l, rfl, hf⟩) (by simp)
    simpa using this

/-- C13. With mixed languages there is one row per element, in order, each from the whole language list; an element that cannot be
shown raises. -/
theorem C13_mixed {ε ρ : Type} (conv : ε → List String → Except PyErr ρ) (es : List ε) (langs : List String) (rows : List ρ) :
    generateRows conv true langs es = .ok rows ↔ es.map (fun e => conv e langs) = rows.map Except.ok := by
  unfold generateRows
  rw [if_pos rfl]
  induction es generalizing rows with
  | nil => cases rows <;> simp [pure, Except.pure]
  | cons e es ih =>
    rw [List.mapM_cons]
    cases hc : conv e langs with
    | error x => cases rows <;> simp [hc, bind, Except.bind]
    | ok r =>
      cases hm : es.mapM (fun e => conv e langs) with
      | error x =>
        simp only [bind, Except.bind, reduceCtorEq, false_iff]
        cases rows with
        | nil => simp
        | cons r' rs =>
          intro h
          simp only [List.map_cons, List.cons.injEq] at h
          have := (ih rs).2 h.2
          rw [hm] at this; cases this
      | ok rs' =>
        simp only [bind, Except.bind, pure, Except.pure, Except.ok.injEq]
        constructor
        · rintro rfl
          simp [hc, (ih rs').1 hm]
        · intro h
          cases rows with
          | nil => simp at h
          | cons r' rs =>
            simp only [List.map_cons, List.cons.injEq, hc, Except.ok.injEq] at h
            have := (ih rs).2 h.2
            rw [hm] at this
            cases this
            rw [h.1]

example : generateRows (fun (n : Nat) l => if l = ["xx"] then .error .keyError else .ok (n, l)) false ["xx", "en"] [1, 2] =
    .ok [(1, ["en"]), (2, ["en"])] := by decide

/-! ### C14: translations -/

/-- C14. A translation is the one offered by the earliest language of the list that offers any; the request fails with `KeyError`
exactly when no language of the list offers one. -/
theorem C14_translation (t : Translations) (ml : Bool) (q : QName) (langs : List String) :
    (∀ s, t.get ml q langs = .ok s ↔
      ∃ pre l post, langs = pre ++ l :: post ∧ Offers t ml q l s ∧ ∀ l' ∈ pre, ∀ s', ¬ Offers t ml q l' s') ∧
    (t.get ml q langs = .error .keyError ↔ ∀ l ∈ langs, ∀ s, ¬ Offers t ml q l s) := by
  induction langs with
  | nil =>
    constructor
    · intro s
      simp [Translations.get]
    · simp [Translations.get]
  | cons l ls ih =>
    unfold Translations.get
    cases hg : t.getSingle ml q l with
    | ok x =>
      have hx := (getSingle_ok_iff t ml q l x).1 hg
      simp only [Except.ok.injEq, reduceCtorEq, false_iff]
      constructor
      · intro s
        constructor
        · rintro rfl
          exact ⟨[], l, ls, rfl, hx, by simp⟩
        · rintro ⟨pre, l', post, e, ho, hp⟩
          cases pre with
          | nil =>
            have e := List.cons.inj e
            rw [← e.1] at ho
            have := (getSingle_ok_iff t ml q l s).2 ho
            rw [hg] at this
            exact Except.ok.inj this
          | cons y pre =>
            have e := List.cons.inj e
            exact absurd hx (e.1 ▸ hp y List.mem_cons_self x)
      · intro h
        exact h l List.mem_cons_self x hx
    | error x =>
      have hno : ∀ s, ¬ Offers t ml q l s := by
        intro s ho
        have := (getSingle_ok_iff t ml q l s).2 ho
        rw [hg] at this; cases this
      simp only
      constructor
      · intro s
        rw [ih.1 s]
        constructor
        · rintro ⟨pre, l', post, rfl, ho, hp⟩
          refine ⟨l :: pre, l', post, rfl, ho, ?_⟩
          intro y hy
          rcases List.mem_cons.1 hy with rfl | hy
          · exact hno
          · exact hp y hy
        · rintro ⟨pre, l', post, e, ho, hp⟩
          cases pre with
          | nil =>
            have e := List.cons.inj e
            rw [← e.1] at ho
            exact absurd ho (hno s)
          | cons y pre =>
            have e := List.cons.inj e
            exact ⟨pre, l', post, e.2, ho, fun z hz => hp z (List.mem_cons_of_mem _ hz)⟩
      · rw [ih.2]
        constructor
        · intro h y hy
          rcases List.mem_cons.1 hy with rfl | hy
          · exact hno
          · exact h y hy
        · intro h y hy
          exact h y (List.mem_cons_of_mem _ hy)

/-- C14. The entry of a name and language tag is the text of the last row of the translation file for them. -/
theorem C14_table_from_rows (rows : List TransRow) (q : QName) (tag : String) :
    ((Dict.get? (Translations.load rows) q).bind (fun d => Dict.get? d tag)) = (latest (fun r => (r.qname, r.tag)) rows (q, tag)).map (·.text) ∧
    (Dict.get? (Translations.load rows) q = none ↔ ∀ r ∈ rows, r.qname ≠ q) := by
  have h : ∀ rows (t : Translations),
      ((Dict.get? (rows.foldl Translations.addRow t) q).bind (fun d => Dict.get? d tag)) =
        ((latest (fun r => (r.qname, r.tag)) rows (q, tag)).map (·.text)).or ((Dict.get? t q).bind (fun d => Dict.get? d tag)) ∧
      (Dict.get? (rows.foldl Translations.addRow t) q = none ↔ (∀ r ∈ rows, r.qname ≠ q) ∧ Dict.get? t q = none) := by
    intro rows
    induction rows with
    | nil => intro t; simp [latest]
    | cons r rows ih =>
      intro t
      rw [List.foldl_cons, (ih _).1, (ih _).2, latest_cons]
      have hq : Dict.get? (Translations.addRow t r) q = if r.qname = q then some (Dict.set ((Dict.get? t q).getD []) r.tag r.text) else Dict.get? t q := by
        unfold Translations.addRow
        rw [Dict.get?_set]
        by_cases e : r.qname = q
        · rw [if_pos e, if_pos e, e]
        · rw [if_neg e, if_neg e]
      rw [hq]
      by_cases e : r.qname = q
      · rw [if_pos e]
        constructor
        · simp only [Option.bind_some, Dict.get?_set]
          by_cases e' : r.tag = tag
          · simp only [e, e', if_true]
            cases latest (fun r => (r.qname, r.tag)) rows (q, tag) <;> simp
          · simp only [e, e', if_false, Prod.mk.injEq, true_and]
            cases hl : latest (fun r => (r.qname, r.tag)) rows (q, tag) with
            | some x => simp
            | none =>
              simp only [Option.map_none, Option.none_or]
              cases Dict.get? t q <;> simp [Dict.get?]
        · simp [e]
      · rw [if_neg e]
        constructor
        · simp only [Prod.mk.injEq, e, false_and, if_false, Option.or_none]
        · simp [e]
  have := h rows []
  unfold Translations.load
  refine ⟨?_, ?_⟩
  · rw [this.1]
    cases (latest (fun r => (r.qname, r.tag)) rows (q, tag)).map (·.text) <;> simp [Dict.get?]
  · rw [this.2]
    simp [Dict.get?]

/-- The label offered in a language: the default language `""` offers the default text, any other the first label whose language
matches. -/
def OffersLabel (ml : Bool) (labels : List Label) (dflt lang text : String) : Prop :=
  (lang = "" ∧ text = dflt) ∨
  (lang ≠ "" ∧ ∃ pre l post, labels = pre ++ l :: post ∧ languagesMatch ml lang l.language = true ∧ l.text = text ∧
    ∀ x ∈ pre, languagesMatch ml lang x.language = false)

/-- C14. Labels are chosen in the same way: the earliest language of the list that offers a label decides, and the request fails
with `ValueError` exactly when none does. -/
theorem C14_label (ml : Bool) (labels : List Label) (dflt : String) (langs : List String) :
    (∀ s, getFromLabels ml labels dflt langs = .ok s ↔
      ∃ pre l post, langs = pre ++ l :: post ∧ OffersLabel ml labels dflt l s ∧ ∀ l' ∈ pre, ∀ s', ¬ OffersLabel ml labels dflt l' s') ∧
    (getFromLabels ml labels dflt langs = .error .valueError ↔ ∀ l ∈ langs, ∀ s, ¬ OffersLabel ml labels dflt l s) := by
  have key : ∀ l s, (labelWithLanguage ml labels l ⟨dflt, "", "", "http://www.xbrl.org/2003/role/label"⟩).map (·.text) = some s ↔
      OffersLabel ml labels dflt l s := by
    intro l s
    unfold labelWithLanguage OffersLabel
    by_cases h : l = ""
    · subst h
      simp only [if_true, Option.map_some, Option.some.injEq, true_and, ne_eq, not_true, false_and, or_false]
      exact eq_comm
    · rw [if_neg h]
      simp only [h, false_and, false_or, ne_eq, not_false_eq_true, true_and]
      cases hf : labels.find? (fun x => languagesMatch ml l x.language) with
      | none =>
        simp only [Option.map_none, reduceCtorEq, false_iff]
        rintro ⟨pre, x, post, e, hm, _⟩
        exact List.find?_eq_none.1 hf x (by rw [e]; simp) hm
      | some x =>
        obtain ⟨hx, as, bs, e, hb⟩ := List.find?_eq_some_iff_append.1 hf
        simp only [Option.map_some, Option.some.injEq]
        constructor
        · rintro rfl
          exact ⟨as, x, bs, e, hx, rfl, fun y hy => by simpa using hb y hy⟩
        · rintro ⟨pre, y, post, e', hm, ht, hp⟩
          have : labels.find? (fun x => languagesMatch ml l x.language) = some y :=
            List.find?_eq_some_iff_append.2 ⟨hm, pre, post, e', fun z hz => by simpa using hp z hz⟩
          rw [hf] at this
          cases this
          exact ht
  induction langs with
  | nil =>
    constructor
    · intro s; simp [getFromLabels]
    · simp [getFromLabels]
  | cons l ls ih =>
    unfold getFromLabels
    cases hg : labelWithLanguage ml labels l ⟨dflt, "", "", "http://www.xbrl.org/2003/role/label"⟩ with
    | some x =>
      have hx : OffersLabel ml labels dflt l x.text := (key l x.text).1 (by rw [hg]; rfl)
      simp only [Except.ok.injEq, reduceCtorEq, false_iff]
      constructor
      · intro s
        constructor
        · rintro rfl
          exact ⟨[], l, ls, rfl, hx, by simp⟩
        · rintro ⟨pre, l', post, e, ho, hp⟩
          cases pre with
          | nil =>
            have e := List.cons.inj e
            rw [← e.1] at ho
            have := (key l s).2 ho
            rw [hg] at this
            exact Option.some.inj this
          | cons y pre =>
            have e := List.cons.inj e
            exact absurd hx (e.1 ▸ hp y List.mem_cons_self x.text)
      · intro h
        exact h l List.mem_cons_self _ hx
    | none =>
      have hno : ∀ s, ¬ OffersLabel ml labels dflt l s := by
        intro s ho
        have := (key l s).2 ho
        rw [hg] at this; cases this
      simp only
      constructor
      · intro s
        rw [ih.1 s]
        constructor
        · rintro ⟨pre, l', post, rfl, ho, hp⟩
          refine ⟨l :: pre, l', post, rfl, ho, ?_⟩
          intro y hy
          rcases List.mem_cons.1 hy with rfl | hy
          · exact hno
          · exact hp y hy
        · rintro ⟨pre, l', post, e, ho, hp⟩
          cases pre with
          | nil =>
            have e := List.cons.inj e
            rw [← e.1] at ho
            exact absurd ho (hno s)
          | cons y pre =>
            have e := List.cons.inj e
            exact ⟨pre, l', post, e.2, ho, fun z hz => hp z (List.mem_cons_of_mem _ hz)⟩
      · rw [ih.2]
        constructor
        · intro h y hy
          rcases List.mem_cons.1 hy with rfl | hy
          · exact hno
          · exact h y hy
        · intro h y hy
          exact h y (List.mem_cons_of_mem _ hy)

/-- C14. When a request matches a language tag: with the locale, up to case; without it, the parts before the first dash, up to case. -/
theorem C14_language_match (r a : String) :
    (languagesMatch true r a = true ↔ lower r = lower a) ∧
    (languagesMatch false r a = true ↔ beforeDash (lower r) = beforeDash (lower a)) := by
  unfold languagesMatch
  constructor <;> simp

example :
    let t := Translations.load [⟨"n", "id", "en", "US", "ID"⟩, ⟨"n", "id", "de", "DE", "Kennung"⟩, ⟨"n", "id", "en", "US", "Id"⟩]
    t.get true ⟨"n", "", "id"⟩ ["fr-FR", "DE-de", "en-US"] = .ok "Kennung" ∧ t.get false ⟨"n", "", "id"⟩ ["en-GB", "de"] = .ok "Id" ∧
    t.get true ⟨"n", "", "id"⟩ ["en", "de"] = .error .keyError ∧ t.get true ⟨"n", "", "x"⟩ ["en"] = .ok "x" := by decide

/-! ### C15: main label -/

/-- C15. The main label is the first label in the first language of the documented list that has a label; without such a label it is
the first label of all; only an element without labels yields the marker. -/
theorem C15_main_label (labels : List Label) :
    (∀ pre lang post, mainLabelLanguages = pre ++ lang :: post → (∃ l ∈ labels, l.language = lang) →
      (∀ x ∈ pre, ∀ l ∈ labels, l.language ≠ x) → FirstInLanguage labels lang (selectMainLabel labels)) ∧
    ((∀ x ∈ mainLabelLanguages, ∀ l ∈ labels, l.language ≠ x) → ∀ l0 rest, labels = l0 :: rest → selectMainLabel labels = l0) ∧
    (labels ≠ [] → selectMainLabel labels ∈ labels) ∧
    (selectMainLabel []).text = "NO_LABEL" := by
  have no : ∀ lang, (∀ l ∈ labels, l.language ≠ lang) → hasLabelWithLanguage labels lang = false := by
    intro lang h
    cases hb : hasLabelWithLanguage labels lang with
    | false => rfl
    | true =>
      obtain ⟨l, hl, e⟩ := (hasLabel_iff labels lang).1 hb
      exact absurd e (h l hl)
  refine ⟨?_, ?_, ?_, rfl⟩
  · intro pre lang post e hex hpre
    have hl : hasLabelWithLanguage labels lang = true := (hasLabel_iff _ _).2 hex
    cases labels with
    | nil => obtain ⟨l, hl, _⟩ := hex; cases hl
    | cons l0 rest =>
      unfold selectMainLabel
      unfold mainLabelLanguages at e
      rcases pre with _ | ⟨a1, _ | ⟨a2, _ | ⟨a3, _ | ⟨a4, _ | ⟨a5, _ | ⟨a6, pre⟩⟩⟩⟩⟩⟩ <;>
        simp only [List.nil_append, List.cons_append, List.cons.injEq, reduceCtorEq, and_false, List.nil_eq, List.append_eq_nil_iff] at e
      · obtain ⟨rfl, _⟩ := e
        simp only [hl, if_true]
        exact nextLabel_spec _ _ _ hl
      · obtain ⟨rfl, rfl, _⟩ := e
        simp only [hl, no "en" (hpre _ (by simp)), if_true, Bool.false_eq_true, if_false]
        exact nextLabel_spec _ _ _ hl
      · obtain ⟨rfl, rfl, rfl, _⟩ := e
        simp only [hl, no "en" (hpre _ (by simp)), no "en-US" (hpre _ (by simp)), if_true, Bool.false_eq_true, if_false]
        exact nextLabel_spec _ _ _ hl
      · obtain ⟨rfl, rfl, rfl, rfl, _⟩ := e
        simp only [hl, no "en" (hpre _ (by simp)), no "en-US" (hpre _ (by simp)), no "en-GB" (hpre _ (by simp)), if_true,
          Bool.false_eq_true, if_false]
        exact nextLabel_spec _ _ _ hl
      · obtain ⟨rfl, rfl, rfl, rfl, rfl, _⟩ := e
        simp only [hl, no "en" (hpre _ (by simp)), no "en-US" (hpre _ (by simp)), no "en-GB" (hpre _ (by simp)), no "EN" (hpre _ (by simp)),
          if_true, Bool.false_eq_true, if_false]
        exact nextLabel_spec _ _ _ hl
      · obtain ⟨rfl, rfl, rfl, rfl, rfl, rfl, _⟩ := e
        simp only [hl, no "en" (hpre _ (by simp)), no "en-US" (hpre _ (by simp)), no "en-GB" (hpre _ (by simp)), no "EN" (hpre _ (by simp)),
          no "EN-US" (hpre _ (by simp)), if_true, Bool.false_eq_true, if_false]
        exact nextLabel_spec _ _ _ hl
  · rintro h l0 rest rfl
    unfold selectMainLabel
    have n := fun x (hx : x ∈ mainLabelLanguages) => no x (h x hx)
    simp only [n "en" (by decide), n "en-US" (by decide), n "en-GB" (by decide), n "EN" (by decide), n "EN-US" (by decide),
      n "EN-GB" (by decide), Bool.false_eq_true, if_false]
  · intro h
    have mem : ∀ lang d, d ∈ labels → nextLabel labels lang d ∈ labels := by
      intro lang d hd
      unfold nextLabel firstMatch
      cases hf : labels.find? (fun l => decide (l.language = lang)) with
      | none => exact hd
      | some y => exact List.mem_of_find?_eq_some hf
    cases labels with
    | nil => exact absurd rfl h
    | cons l0 rest =>
      unfold selectMainLabel
      dsimp only
      repeat' split
      all_goals first
        | exact mem _ _ List.mem_cons_self
        | exact List.mem_cons_self

example : selectMainLabel [⟨"a", "", "de", ""⟩, ⟨"b", "", "EN", ""⟩, ⟨"c", "", "en-GB", ""⟩, ⟨"d", "", "en-GB", ""⟩] = ⟨"c", "", "en-GB", ""⟩ ∧
    selectMainLabel [⟨"a", "", "de", ""⟩, ⟨"b", "", "fr", ""⟩] = ⟨"a", "", "de", ""⟩ := by decide

/-! ### C56: the system language -/

/-- C56 is false: Python's locale names have the form `en_US`. Such a language never matches a label or translation tag, which
contain no underscore, with or without matching the locale. -/
theorem C56_system_language_never_matches (ml : Bool) (sys tag : String) (hs : '_' ∈ sys.toList) (hd : '-' ∉ sys.toList)
    (ht : '_' ∉ tag.toList) : languagesMatch ml sys tag = false := by
  have h1 := (lower_underscore sys).2 hs
  have h2 : '_' ∉ (lower tag).toList := fun h => ht ((lower_underscore tag).1 h)
  have h3 : '-' ∉ (lower sys).toList := fun h => hd ((lower_dash sys).1 h)
  unfold languagesMatch
  cases ml
  · simp only [Bool.false_eq_true, if_false, decide_eq_false_iff_not]
    rw [beforeDash_of_no_dash _ h3]
    intro e
    exact h2 (beforeDash_mem _ _ (e ▸ h1))
  · simp only [if_true, decide_eq_false_iff_not]
    intro e
    exact h2 (e ▸ h1)

/-- C56 is false, with a witness: an element with an English label is not shown in English on an English system. -/
theorem C56_system_language_selects_label_false :
    ∃ labels : List Label, (∃ l ∈ labels, l.language = "en-US") ∧
      ∀ ml, getFromLabels ml labels "x" ["en_US"] = .error .valueError ∧
        getFromLabels ml labels "x" ["en_US", "de-DE", "en-US"] = .ok "Vermögen" := by
  refine ⟨[⟨"Assets", "", "en-US", ""⟩, ⟨"Vermögen", "", "de-DE", ""⟩], ⟨_, List.mem_cons_self, rfl⟩, ?_⟩
  intro ml
  cases ml <;> decide

/-- C56, the part that holds: a system language that is a plain language code matches the tags of that language (without matching the
locale), and exactly the same tag (with it). -/
theorem C56_plain_code_partial (sys : String) (hd : '-' ∉ sys.toList) :
    (∀ region, languagesMatch false sys (sys ++ "-" ++ region) = true) ∧ ∀ ml, languagesMatch ml sys sys = true := by
  constructor
  · intro region
    unfold languagesMatch
    simp only [Bool.false_eq_true, if_false, decide_eq_true_eq]
    have h3 : '-' ∉ (lower sys).toList := fun h => hd ((lower_dash sys).1 h)
    rw [beforeDash_of_no_dash _ h3]
    unfold beforeDash lower
    simp only [String.toList_append, String.toList_ofList, List.map_append]
    congr 1
    have : List.map Char.toLower "-".toList = ['-'] := by decide
    rw [this, List.append_assoc]
    have h4 : ∀ c ∈ sys.toList.map Char.toLower, (decide (c ≠ '-')) = true := by
      intro c hc
      have : c ≠ '-' := by
        rintro rfl
        apply h3
        unfold lower
        rw [String.toList_ofList]; exact hc
      simpa using this
    generalize sys.toList.map Char.toLower = l at h4
    induction l with
    | nil => simp
    | cons c l ih =>
      rw [List.cons_append, List.takeWhile_cons, if_pos (h4 c List.mem_cons_self),
        ← ih (fun x hx => h4 x (List.mem_cons_of_mem _ hx))]
  · intro ml
    unfold languagesMatch
    cases ml <;> simp

/-! ### C58: rows of facts -/

/-- C58, the part that holds with languages: if the labels of the aspects in the chosen languages are different from each other and
from the captions of id and value, the row has a cell for every aspect, the id and the value. -/
theorem C58_row_complete_partial (t : Translations) (ml : Bool) (langs : List String) (cell : Aspect → Except PyErr String) (f : Fact)
    (k v : Aspect → String) (hk : ∀ a ∈ f.context.getAspects, getFromLabels ml a.labels a.name langs = .ok (k a))
    (hv : ∀ a ∈ f.context.getAspects, cell a = .ok (v a)) (idLit valueLit noneLit : String)
    (hid : t.get ml ⟨"http://www.brel.com/translations/literal", "", "id"⟩ langs = .ok idLit)
    (hval : t.get ml ⟨"http://www.brel.com/translations/literal", "", "value"⟩ langs = .ok valueLit)
    (hnone : t.get ml ⟨"http://www.brel.com/translations/literal", "", "none"⟩ langs = .ok noneLit)
    (hd : ((f.context.getAspects.map k) ++ [idLit, valueLit]).Nodup) :
    ∃ row, factRow t ml langs cell f = .ok row ∧ (∀ a ∈ f.context.getAspects, Dict.get? row (k a) = some (v a)) ∧
      Dict.get? row idLit = some (if f.id.getD "" = "" then noneLit else f.id.getD "") ∧ Dict.get? row valueLit = some f.value := by
  have hd1 : (f.context.getAspects.map k).Nodup := (List.nodup_append.1 hd).1
  have hd3 : ∀ a ∈ f.context.getAspects, k a ≠ idLit ∧ k a ≠ valueLit := by
    intro a ha
    have := (List.nodup_append.1 hd).2.2 (k a) (List.mem_map_of_mem ha)
    exact ⟨this _ (by simp), this _ (by simp)⟩
  have hd2 : idLit ≠ valueLit := by
    have := (List.nodup_append.1 hd).2.1
    simpa using this
  let i := if f.id.getD "" = "" then noneLit else f.id.getD ""
  have hrow : factRow t ml langs cell f =
      .ok (Dict.set (Dict.set (f.context.getAspects.foldl (fun row a => Dict.set row (k a) (v a)) []) idLit i) valueLit f.value) := by
    unfold factRow contextRow
    rw [foldlM_set_spec (fun a => getFromLabels ml a.labels a.name langs) cell k v _ hk hv, hid, hval]
    show (match f.id with | some _ => _ | none => _) = _
    simp only [hnone]
    cases hf : f.id with
    | none => simp [i, hf, bind, Except.bind, pure, Except.pure]
    | some x =>
      by_cases hx : x = ""
      · simp [i, hf, hx, bind, Except.bind, pure, Except.pure]
      · simp [i, hf, hx, bind, Except.bind, pure, Except.pure]
  refine ⟨_, hrow, ?_, ?_, ?_⟩
  · intro a ha
    rw [Dict.get?_set, if_neg (Ne.symm (hd3 a ha).2), Dict.get?_set, if_neg (Ne.symm (hd3 a ha).1),
      foldl_set_get? k v, latest_of_nodup k _ hd1 a ha]
  · rw [Dict.get?_set, if_neg (Ne.symm hd2), Dict.get?_set, if_pos rfl]
  · rw [Dict.get?_set, if_pos rfl]

/-- C58. Without languages the columns are the aspect names, which are all different: every aspect keeps its cell unless it is called
`id` or `value`. -/
theorem C58_plain_row_complete (cell : Aspect → String) (fid : Option String) (value ctxId : String) (cs : List Characteristic) (a : Aspect)
    (ha : a ∈ (cs.foldl Context.add (Context.new ctxId)).getAspects) (hn : a.name ≠ "id") (hn' : a.name ≠ "value") :
    Dict.get? (factRowPlain cell ⟨fid, cs.foldl Context.add (Context.new ctxId), value⟩) a.name = some (cell a) := by
  have hs := C02_aspects_strictly_sorted ctxId cs
  generalize cs.foldl Context.add (Context.new ctxId) = ctx at ha hs
  have hnd : (ctx.getAspects.map (·.name)).Nodup := by
    refine List.pairwise_map.2 (hs.imp ?_)
    intro a b h e
    rw [e] at h
    exact String.lt_irrefl _ h
  unfold factRowPlain contextRowPlain
  rw [Dict.get?_set, if_neg (Ne.symm hn'), Dict.get?_set, if_neg (Ne.symm hn), foldl_set_get? (fun a : Aspect => a.name) cell,
    latest_of_nodup (fun a : Aspect => a.name) _ hnd a ha]

/-- C58 is false: two dimensions with the same label share one column, and the first one's value is lost. -/
theorem C58_row_complete_false :
    ∃ (t : Translations) (langs : List String) (f : Fact) (cell : Aspect → Except PyErr String) (a : Aspect) (row : Dict String String),
      a ∈ f.context.getAspects ∧ cell a = .ok "North" ∧ factRow t true langs cell f = .ok row ∧ ∀ e ∈ row, e.2 ≠ "North" := by
  let lab : List Label := [⟨"Region", "", "en", ""⟩]
  let a1 : Aspect := { name := "p:A", labels := lab }
  let a2 : Aspect := { name := "p:B", labels := lab }
  refine ⟨[], ["en"], ⟨some "f", { id := "c", aspects := [a1, a2], chars := [] }, "1"⟩,
    fun a => if a.name = "p:A" then .ok "North" else .ok "South", a1, [("Region", "South"), ("id", "f"), ("value", "1")], ?_, ?_, ?_, ?_⟩
  · simp [Context.getAspects]
  · rfl
  · decide
  · decide

/-- A context with two differently labelled aspects meets the hypotheses of `C58_row_complete_partial`. -/
example : factRow [] true ["en", ""] (fun a => .ok (a.name ++ "!"))
    ⟨none, { id := "c", aspects := [{ name := "p:A", labels := [⟨"Region", "", "en", ""⟩] }, { name := "unit" }], chars := [] }, "7"⟩ =
    .ok [("Region", "p:A!"), ("unit", "unit!"), ("id", "none"), ("value", "7")] := by decide

end Brel
