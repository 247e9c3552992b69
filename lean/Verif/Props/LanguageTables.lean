import Verif.Spec.LanguageTables
import Verif.Props.FilingTables
import Verif.Props.Output

/-! C135: the tables of report elements and components of an opened filing, one language at a time. -/

namespace Brel
open Spec

variable {ml : Bool} {docs : List SchemaDoc} {els : SchemaState} {nets : ReadNetworks}

theorem afterLast_exists (shown : String → Prop) : ∀ langs : List String, ∃ post, AfterLast shown langs post
  | [] => ⟨[], [], rfl, .inl rfl, by simp⟩
  | l :: ls => by
    obtain ⟨post, pre, he, hp, ha⟩ := afterLast_exists shown ls
    rcases hp with rfl | ⟨p, x, rfl, hx⟩
    · by_cases hl : shown l
      · exact ⟨l :: post, [], by rw [he]; rfl, .inl rfl, fun y hy => (List.mem_cons.1 hy).elim (fun e => e ▸ hl) (ha y)⟩
      · exact ⟨post, [l], by rw [he]; rfl, .inr ⟨[], l, rfl, hl⟩, ha⟩
    · exact ⟨post, l :: (p ++ [x]), by rw [he]; rfl, .inr ⟨l :: p, x, rfl, hx⟩, ha⟩

theorem renders_of_mapM {ε ρ : Type} {conv : ε → List String → Except PyErr ρ} {lang : String} : ∀ {es : List ε} {rows : List ρ}, es.mapM (fun e => conv e [lang]) = .ok rows →
    RendersAll conv es lang rows := by
  intro es rows h
  replace h := (mapM_ok_iff _ _ _).1 h
  unfold RendersAll
  induction h with
  | nil => rfl
  | cons hab _ ih => rw [List.map_cons, List.map_cons, hab, ih]

theorem rows_by_language {ε ρ : Type} (conv : ε → List String → Except PyErr ρ) (es : List ε) (shown : String → Prop) (block : String → List ρ → Prop)
    (hs : ∀ l, shown l → ∃ rows, es.mapM (fun e => conv e [l]) = .ok rows ∧ block l rows) (hf : ∀ l, ¬ shown l → es = [] ∨ ¬ ∃ rows, es.mapM (fun e => conv e [l]) = .ok rows)
    (langs : List String) : LanguageBlocks shown block langs (generateRows conv false langs es) := by
  classical
  obtain ⟨post, pre, he, hp, ha⟩ := afterLast_exists shown langs
  let rows : String → List ρ := fun l => if h : shown l then (hs l h).choose else []
  have hr : ∀ l ∈ post, es.mapM (fun e => conv e [l]) = .ok (rows l) ∧ block l (rows l) := by
    intro l hl
    have hl := ha l hl
    simp only [rows, dif_pos hl]
    exact (hs l hl).choose_spec
  refine ⟨post, post.map rows, ⟨pre, he, hp, ha⟩, ?_, ?_⟩
  · rw [← List.flatMap_def, he]
    by_cases hes : es = []
    · subst hes
      have h0 : ∀ l ∈ post, rows l = [] := by
        intro l hl
        have := (hr l hl).1
        rw [List.mapM_nil] at this
        exact (Except.ok.inj this).symm
      have h1 : post.flatMap rows = [] := List.flatMap_eq_nil_iff.2 h0
      rw [h1]
      unfold generateRows
      rw [if_neg (by decide)]
      have : ∀ ls : List String, ls.foldl (fun data lang => renderLoop conv lang data []) ([] : List ρ) = [] := by
        intro ls
        induction ls with
        | nil => rfl
        | cons l ls ih => rw [List.foldl_cons]; exact ih
      rw [this]
    · refine C13_rows_after_last_failure conv es pre post rows (hp.imp_right ?_) (fun l hl => renders_of_mapM (hr l hl).1)
      rintro ⟨p, l, hpl, hl⟩
      refine ⟨p, l, hpl, ?_⟩
      rcases hf l hl with h | h
      · exact absurd h hes
      · by_contra hno
        refine h (mapM_ok_of _ _ (fun e he => ?_))
        cases hc : conv e [l] with
        | ok r => exact ⟨r, rfl⟩
        | error x => exact absurd ⟨e, he, x, hc⟩ hno
  · clear he hp
    induction post with
    | nil => exact .nil
    | cons l ls ih =>
      exact .cons (hr l List.mem_cons_self).2 (ih (fun y hy => ha y (List.mem_cons_of_mem _ hy)) (fun y hy => hr y (List.mem_cons_of_mem _ hy)))

theorem titled_iff {lang : String} : Titled ml lang ↔ ∃ o, TextLanguage ml [lang] o := by
  constructor
  · intro h
    by_cases hl : lang = ""
    · subst hl; exact ⟨_, .default⟩
    · obtain ⟨t, ht, hm⟩ := h.resolve_left hl
      exact ⟨_, .tag hl ht hm⟩
  · rintro ⟨o, h⟩
    cases h with
    | default => exact .inl rfl
    | tag _ ht hm => exact .inr ⟨_, ht, hm⟩
    | skip _ _ r => cases r

theorem elements_by_language (hS : ValidSchemas docs) (hT : TypeNames docs) (hE : Rel2 (DeclaredAs docs) (counting (schemaDeclarations docs)) (els.byName.map (·.2)))
    (hL : ∀ q, StatedLabels docs q (nets.labelsOf q)) (langs : List String) :
    LanguageBlocks (AllLabelled ml docs) (ElementBlock ml docs) langs (elementTable shippedTranslations ml false langs els nets) := by
  refine rows_by_language _ _ _ _ ?_ ?_ langs
  · rintro l ⟨ht, hd⟩
    obtain ⟨o, ho⟩ := titled_iff.1 ht
    have hk := elements_core hS hT hE hL ho
    obtain ⟨_, _, _, t1, _⟩ := id hk
    obtain ⟨rows, hr⟩ := t1.2 (fun d hm => ⟨l, List.mem_singleton.2 rfl, hd d hm⟩)
    rw [hr] at hk
    exact ⟨rows, hr, o, ho, hk⟩
  · intro l hl
    by_cases ht : Titled ml l
    · right
      rintro ⟨rows, hr⟩
      refine hl ⟨ht, fun d hd => ?_⟩
      obtain ⟨o, ho⟩ := titled_iff.1 ht
      obtain ⟨_, _, _, t1, _⟩ := elements_core hS hT hE hL ho
      obtain ⟨l', hm, h⟩ := t1.1 ⟨rows, hr⟩ d hd
      rw [← List.mem_singleton.1 hm]
      exact h
    · cases hes : rowElements els nets with
      | nil => exact .inl rfl
      | cons e es =>
        right
        rintro ⟨rows, hr⟩
        obtain ⟨row, _, hrow⟩ := ((mapM_ok_iff _ _ _).1 hr).mem_left e List.mem_cons_self
        have hrow : elementRow shippedTranslations ml [l] e = .ok row := hrow
        rw [(C104_no_language (by simp) (fun o ho => ht (titled_iff.2 ⟨o, ho⟩)) e ⟨"", "", false, false, false⟩).1] at hrow
        cases hrow

theorem components_by_language {cs : List (ComponentOf Network)} (hC : ∀ {langs : List String} {l : Option String}, TextLanguage ml langs l →
    ComponentRows ml langs docs l (componentTable shippedTranslations ml true langs cs)) (langs : List String) :
    LanguageBlocks (Titled ml) (ComponentBlock ml docs) langs (componentTable shippedTranslations ml false langs cs) := by
  refine rows_by_language _ _ _ _ ?_ ?_ langs
  · intro l ht
    obtain ⟨o, ho⟩ := titled_iff.1 ht
    have hk := hC ho
    obtain ⟨_, _, _, rows, hr, _⟩ := id hk
    rw [hr] at hk
    exact ⟨rows, hr, o, ho, hk⟩
  · intro l ht
    cases hcs : cs.map rowComponent with
    | nil => exact .inl rfl
    | cons c cs' =>
      right
      rintro ⟨rows, hr⟩
      obtain ⟨row, _, hrow⟩ := ((mapM_ok_iff _ _ _).1 hr).mem_left c List.mem_cons_self
      have hrow : componentRow shippedTranslations ml [l] c = .ok row := hrow
      rw [(C104_no_language (by simp) (fun o ho => ht (titled_iff.2 ⟨o, ho⟩)) (.plain .member ⟨"", "", ""⟩ []) c).2] at hrow
      cases hrow

/-! ## C135 -/

section Xml

variable {dateOf : String → Option Date} {float : String → Option Rat} {str : XNode → String} {so : SetOrder} {steps : Nat} {o : OpenedFiling}

/-- C135: one language at a time, the table of report elements of an opened XML filing consists of the tables of the single languages, one below the other, from the language after the
last one that lacks the titles or the label of some element. -/
theorem C135_elements_partial (hv : ValidFiling dateOf float docs) (hT : TypeNames docs) (ho : openXml dateOf float str so steps docs = some (.ok o)) (langs : List String) :
    LanguageBlocks (AllLabelled ml docs) (ElementBlock ml docs) langs (elementTable shippedTranslations ml false langs o.elements o.networks) :=
  have hs := (opened_shows hv ho).2
  elements_by_language hv.schemas hT hs.elements (fun q => hs.labels q) langs

/-- C135 for components: only the titles have to be there. -/
theorem C135_components (hv : ValidFiling dateOf float docs) (ho : openXml dateOf float str so steps docs = some (.ok o)) (langs : List String) :
    LanguageBlocks (Titled ml) (ComponentBlock ml docs) langs (componentTable shippedTranslations ml false langs o.components) :=
  components_by_language (fun h => C130_components hv ho h) langs

end Xml

section Inline

variable {dateOf : String → Option Date} {dig : Char → Option Nat} {flt : String → Option Bool} {validUri : String → Bool} {float : String → Option Rat} {str : XNode → String} {so : SetOrder}
  {fuel : Nat} {fdocs : List FilingDoc}

/-- C135 for inline filings. -/
theorem C135_inline_partial (hv : ValidInlineFiling dateOf dig flt validUri float fdocs) (hfuel : (inlineConts (inlineDocs fdocs)).length < fuel) (hT : TypeNames (fdocs.map (·.doc))) :
    ∃ steps o, (∀ j, openXhtml dateOf dig flt validUri float str so fuel (steps + j) fdocs = some (.ok o)) ∧ ∀ ml langs,
      LanguageBlocks (AllLabelled ml (fdocs.map (·.doc))) (ElementBlock ml (fdocs.map (·.doc))) langs (elementTable shippedTranslations ml false langs o.elements o.networks) ∧
      LanguageBlocks (Titled ml) (ComponentBlock ml (fdocs.map (·.doc))) langs (componentTable shippedTranslations ml false langs o.components) := by
  have hroots : (fdocs.map (·.doc)).map (·.root) = fdocs.map (·.doc.root) := by rw [List.map_map]; rfl
  obtain ⟨steps, o, ho, _, hs⟩ := C110_opens_partial (str := str) (so := so) hv hfuel
  obtain ⟨_, hl, hr, _⟩ := opened_inline hv hfuel (ho 0)
  have hL : ∀ q, StatedLabels (fdocs.map (·.doc)) q (o.networks.labelsOf q) := by
    intro q lab
    rw [hroots]
    exact hs.labels q lab
  have hO := hs.objects
  have hC := hs.components
  rw [← hroots] at hO hC
  refine ⟨steps, o, ho, fun ml langs => ⟨elements_by_language hv.schemas hT hs.elements hL langs, components_by_language (fun h => components_core hO ?_ hC h) langs⟩⟩
  exact fun _ hp _ _ hn hl' => network_shows hr hl.plain hp hn hl'

end Inline

end Brel
