import Verif.Props.FactRow
import Verif.Spec.FactTable
import Verif.Props.Aggregation
import Verif.Props.OpenInline

/-! The table of facts of a filing (C121, C122). -/

namespace Brel
open Spec

variable {ml : Bool} {langs : List String} {o : Option String} {labels members : QName → List Label}

/-! ## The facts that documents state -/

theorem statedChar_aspect {c : Characteristic} (h : StatedChar c) : StatedAspect c.aspect := by
  cases h <;> first | exact Or.inr ⟨rfl, rfl⟩ | exact Or.inl ⟨rfl, by simp⟩

theorem statedChar_prefixed {c : Characteristic} (h : StatedChar c) (hp : PlainChar c) (hc : c.aspect.core = false) : ':' ∈ c.aspect.name.toList := by
  cases h <;> first | exact hp | cases hc

theorem stated_lookup {f : Fact} (h : StatedFact f) {a : Aspect} (ha : a ∈ f.context.getAspects) : ∃ c, f.context.getCharacteristic a = some c ∧ c.aspect = a ∧ StatedChar c ∧ PlainChar c := by
  obtain ⟨i, cs, e, h1, h2⟩ := h
  rw [e] at ha ⊢
  obtain ⟨c, hc, rfl⟩ := (C02_aspects_exact i cs a).1 ha
  exact ⟨c, by rw [C01_first_characteristic_wins]; exact hc, rfl, h1 c (List.mem_of_find?_eq_some hc), h2 c (List.mem_of_find?_eq_some hc)⟩

theorem stated_names {f : Fact} (h : StatedFact f) : (f.context.getAspects.map (·.name)).Nodup := by
  obtain ⟨i, cs, e, _, _⟩ := h
  rw [e]
  refine List.pairwise_map.2 ((C02_aspects_strictly_sorted i cs).imp ?_)
  intro a b hab he
  rw [he] at hab
  exact String.lt_irrefl _ hab

theorem stated_parts {f : Fact} (h : StatedFact f) : StatedParts labels labels f := by
  refine ⟨stated_names h, ?_, ?_, ?_, ?_⟩
  · intro a ha
    obtain ⟨c, _, rfl, h1, _⟩ := stated_lookup h ha
    exact statedChar_aspect h1
  · intro a ha hc
    obtain ⟨c, _, rfl, h1, h2⟩ := stated_lookup h ha
    exact statedChar_prefixed h1 h2 hc
  · intro a ha
    obtain ⟨c, hc, _, _, h2⟩ := stated_lookup h ha
    exact ⟨c, hc, h2⟩
  · intro a ha c d m i hc hv
    obtain ⟨c', hc', _, h1, _⟩ := stated_lookup h ha
    rw [hc] at hc'
    cases hc'
    cases h1 <;> cases hv
    rfl

theorem copied_lookup (f : Fact) (n : Nat) (a : Aspect) : (f.copied n).context.getCharacteristic a = (f.context.getCharacteristic a).map (·.deepcopy n) := by
  show (((f.context.chars.map (fun e => (e.1, e.2.deepcopy n))).find? (fun e => e.1 = a.name)).map (·.2)) = _
  rw [List.find?_map, Option.map_map]
  show _ = ((f.context.chars.find? (fun e => e.1 = a.name)).map (·.2)).map _
  rw [Option.map_map]
  rfl

theorem copied_parts {f : Fact} (h : StatedFact f) (n : Nat) : StatedParts labels (fun _ => []) (f.copied n) := by
  refine ⟨(stated_names h : (f.context.getAspects.map (·.name)).Nodup), (stated_parts (labels := labels) h).aspects, (stated_parts (labels := labels) h).prefixed, ?_, ?_⟩
  · intro a ha
    obtain ⟨c, hc, _, h1, h2⟩ := stated_lookup h ha
    refine ⟨c.deepcopy n, by rw [copied_lookup, hc]; rfl, ?_⟩
    cases h1 <;> exact h2
  · intro a ha c d m i hc hv
    obtain ⟨c', hc', _, h1, _⟩ := stated_lookup h ha
    rw [copied_lookup, hc'] at hc
    cases hc
    cases h1 <;> cases hv
    rfl

/-! ## C121 -/

/-- C121, for facts as documents state them, with prefixed dimensions: if every title and every label is there in one of the languages, the row shows the fact, each aspect in a column of its
own, and nothing else; otherwise there is no row. -/
theorem C121_row_partial {f : Fact} (hf : StatedFact f) (hne : langs ≠ []) (h : TextLanguage ml langs o) :
    (HasTexts ml langs labels labels f → ∃ row, factTableRow shippedTranslations ml labels langs f = .ok row ∧ FactRowShows ml langs o labels labels f row) ∧
    (¬ HasTexts ml langs labels labels f → ∃ e, factTableRow shippedTranslations ml labels langs f = .error e) :=
  row_main (stated_parts hf) hne h

theorem textLanguage_default (h : "" ∈ langs) : ∃ o, TextLanguage ml langs o := by
  induction langs with
  | nil => cases h
  | cons l ls ih =>
    by_cases hl : l = ""
    · subst hl; exact ⟨_, .default⟩
    · by_cases ht : ∃ t ∈ shippedTags, languagesMatch ml l t = true
      · obtain ⟨t, ht, hm⟩ := ht
        exact ⟨_, .tag hl ht hm⟩
      · obtain ⟨o, ho⟩ := ih ((List.mem_cons.1 h).resolve_left (Ne.symm hl))
        refine ⟨o, .skip hl ?_ ho⟩
        intro t htt
        exact Classical.byContradiction fun hm => ht ⟨t, htt, by simpa using hm⟩

theorem shownIn_default (h : "" ∈ langs) (es : List Label) (d : String) : ∃ s, ShownIn ml langs (labelEntries es) d s := by
  obtain ⟨s, hs⟩ := getFromLabels_some (ml := ml) (langs := langs) (ls := es) (dflt := d) ⟨"", h, Or.inl rfl⟩
  exact ⟨s, shownIn_iff.2 hs⟩

theorem hasTexts_default (h : "" ∈ langs) {f : Fact} (hf : ∀ a ∈ f.context.getAspects, StatedAspect a) : HasTexts ml langs labels members f := by
  intro a ha
  refine ⟨?_, ?_⟩
  · obtain ⟨s, hs⟩ := shownIn_default (ml := ml) h a.ownLabels a.name
    exact ⟨s, (shownTitle_iff (hf a ha)).2 (shownIn_iff.1 hs)⟩
  · intro c _
    split
    · exact shownIn_default h _ _
    · exact shownIn_default h _ _
    · trivial

/-- C121: if the default language is among the preferred ones, every fact has its row. -/
theorem C121_default_partial {f : Fact} (hf : StatedFact f) (h : "" ∈ langs) :
    ∃ o row, TextLanguage ml langs o ∧ factTableRow shippedTranslations ml labels langs f = .ok row ∧ FactRowShows ml langs o labels labels f row := by
  obtain ⟨o, ho⟩ := textLanguage_default (ml := ml) h
  obtain ⟨row, h1, h2⟩ := (C121_row_partial (labels := labels) hf (List.ne_nil_of_mem h) ho).1 (hasTexts_default h (stated_parts (labels := labels) hf).aspects)
  exact ⟨o, row, ho, h1, h2⟩

theorem contextRow_fails {t : Translations} {cell : Aspect → Except PyErr String} {f : Fact} {a : Aspect} (ha : a ∈ f.context.getAspects) {e : PyErr}
    (h : getFromLabels ml a.ownLabels a.name langs = .error e) : ∃ e, factRow t ml langs cell f.labelled = .error e := by
  cases hr : factRow t ml langs cell f.labelled with
  | error e => exact ⟨e, rfl⟩
  | ok row =>
    obtain ⟨⟨x, hx⟩, _⟩ := factRow_texts hr { a with labels := a.ownLabels } (List.mem_map.2 ⟨a, ha, rfl⟩)
    rw [h] at hx
    cases hx

/-- C121 fails for every fact with a dimension: the labels of the dimension do not matter; there is a row only if the default language is among the preferred ones. -/
theorem C121_dimension_false (t : Translations) (ml : Bool) {f : Fact} (hf : StatedFact f) (hd : f.isCore = false) (hne : langs ≠ []) (h : "" ∉ langs) (labels : QName → List Label) :
    ∃ e, factTableRow t ml labels langs f = .error e := by
  have : ∃ a ∈ f.context.getAspects, a.core = false := by
    unfold Fact.isCore Context.hasNoncoreDimensions at hd
    simpa [Context.getAspects] using hd
  obtain ⟨a, ha, hc⟩ := this
  unfold factTableRow
  rw [if_neg hne]
  refine contextRow_fails ha (e := .valueError) ?_
  obtain ⟨c, _, rfl, hs, _⟩ := stated_lookup hf ha
  rcases statedChar_aspect hs with ⟨h', _⟩ | ⟨_, hl⟩
  · rw [hc] at h'; cases h'
  · unfold Aspect.ownLabels
    rw [hc, hl]
    apply getFromLabels_fails
    intro l hl
    exact ⟨fun e => h (e ▸ hl), by intro x hx; cases hx⟩

/-- C121 fails for every fact if only Italian is preferred, although there are Italian translations: the core aspects have no Italian titles. -/
theorem C121_italian_false (t : Translations) (ml : Bool) {f : Fact} (hf : StatedFact f) {k : Concept} (hk : f.HasConcept k) (labels : QName → List Label) :
    "it-IT" ∈ shippedTags ∧ ∃ e, factTableRow t ml labels ["it-IT"] f = .error e := by
  refine ⟨by decide, ?_⟩
  obtain ⟨_, hk⟩ := hk
  unfold Context.hasCharacteristic at hk
  obtain ⟨a, ha, he⟩ := List.any_eq_true.1 hk
  have hn : a.name = "concept" := (of_decide_eq_true he).symm
  unfold factTableRow
  rw [if_neg (by decide)]
  refine contextRow_fails (a := a) ha (e := .valueError) ?_
  obtain ⟨c, _, rfl, hs, hp⟩ := stated_lookup hf ha
  cases hs
  case concept =>
    show getFromLabels ml (coreLabels "concept") "concept" ["it-IT"] = .error .valueError
    cases ml <;> decide +kernel
  case explicit => rw [show PlainChar _ = (':' ∈ String.toList _) from rfl] at hp; rw [hn] at hp; exact absurd hp (by decide)
  case typed => rw [show PlainChar _ = (':' ∈ String.toList _) from rfl] at hp; rw [hn] at hp; exact absurd hp (by decide)
  case period => exact absurd hn (show ¬ "period" = "concept" by decide)
  case entity => exact absurd hn (show ¬ "entity" = "concept" by decide)
  case unit => exact absurd hn (show ¬ "unit" = "concept" by decide)

/-- C121: there is no row if no preferred language has translations. -/
theorem C121_no_language (hne : langs ≠ []) (h : ∀ o, ¬ TextLanguage ml langs o) (f : Fact) : ∃ e, factTableRow shippedTranslations ml labels langs f = .error e := by
  unfold factTableRow
  rw [if_neg hne]
  unfold factRow
  cases contextRow ml langs (f.context.localized shippedTranslations ml labels langs) f.labelled.context.getAspects with
  | error e => exact ⟨e, rfl⟩
  | ok r =>
    have : shippedTranslations.get ml ⟨"http://www.brel.com/translations/literal", "", "id"⟩ langs = .error .keyError := by
      refine get_none (kind := "literal") (name := "id") h ?_
      exact ⟨⟨translationBase ++ "literal", "id", "en", "US", "Id"⟩,
        List.mem_flatMap.2 ⟨("literal", textsLiteral), by simp [shippedSections], List.mem_flatMap.2 ⟨("id", ["Id", "ID", "Id", "Id", "Id"]), by simp [textsLiteral],
          List.mem_map.2 ⟨(("en", "US"), "Id"), by simp [shippedLanguages], rfl⟩⟩⟩, rfl, rfl⟩
    refine ⟨.keyError, ?_⟩
    show (do let idLit ← shippedTranslations.get ml ⟨"http://www.brel.com/translations/literal", "", "id"⟩ langs; _) = _
    rw [this]
    rfl

/-! ## Without languages -/

/-- C121 without languages: every aspect, the id and the value have a column of their own, with plain texts. -/
theorem C121_plain_partial (t : Translations) (ml : Bool) {f : Fact} (hf : StatedFact f) : ∃ row, factTableRow t ml labels [] f = .ok row ∧ PlainRowShows f row := by
  have hlab : (f.labelled.context.getAspects.map (·.name)) = f.context.getAspects.map (·.name) := by
    show (f.context.aspects.map _).map _ = _
    rw [List.map_map]
    rfl
  have hclear : ∀ a ∈ f.context.getAspects, a.name ≠ "id" ∧ a.name ≠ "value" := by
    intro a ha
    rcases (stated_parts (labels := labels) hf).aspects a ha with ⟨_, h⟩ | ⟨h, _⟩
    · constructor <;> (rintro e; rw [e] at h; revert h; decide)
    · have := (stated_parts (labels := labels) hf).prefixed a ha h
      constructor <;> (rintro e; rw [e] at this; revert this; decide)
  have hkeys : ((f.context.getAspects.map (·.name)) ++ ["id", "value"]).Nodup := by
    rw [List.nodup_append]
    refine ⟨stated_names hf, by decide, ?_⟩
    intro x hx y hy e
    obtain ⟨a, ha, rfl⟩ := List.mem_map.1 hx
    simp only [List.mem_cons, List.not_mem_nil, or_false] at hy
    rcases hy with rfl | rfl
    · exact (hclear a ha).1 e
    · exact (hclear a ha).2 e
  have hrow : factRowPlain f.context.plainText f.labelled = f.context.getAspects.map (fun a => (a.name, f.context.plainText a)) ++ [("id", f.id.getD ""), ("value", f.value)] := by
    unfold factRowPlain contextRowPlain
    have e : f.labelled.context.getAspects.foldl (fun row a => Dict.set row a.name (f.context.plainText a)) [] = f.context.getAspects.map (fun a => (a.name, f.context.plainText a)) := by
      rw [foldl_set_distinct _ (fun a => a.name) f.context.plainText _ (by rw [hlab]; exact stated_names hf)]
      show (f.context.aspects.map _).map _ = _
      rw [List.map_map]
      rfl
    rw [e]
    have h1 : "id" ∉ Dict.keys (f.context.getAspects.map (fun a => (a.name, f.context.plainText a))) := by
      intro hm
      rw [Dict.keys, List.map_map] at hm
      obtain ⟨a, ha, he⟩ := List.mem_map.1 hm
      exact (hclear a ha).1 he
    have h2 : "value" ∉ Dict.keys (f.context.getAspects.map (fun a => (a.name, f.context.plainText a)) ++ [("id", f.id.getD "")]) := by
      intro hm
      rw [Dict.keys, List.map_append, List.map_map] at hm
      rcases List.mem_append.1 hm with hm | hm
      · obtain ⟨a, ha, he⟩ := List.mem_map.1 hm
        exact (hclear a ha).2 he
      · exact absurd (List.mem_singleton.1 hm) (show ¬ "value" = "id" by decide)
    show Dict.set (Dict.set _ "id" (f.id.getD "")) "value" f.value = _
    rw [Dict.set_of_not_mem _ _ _ h1, Dict.set_of_not_mem _ _ _ h2, List.append_assoc]
    rfl
  refine ⟨_, rfl, ?_⟩
  rw [hrow]
  have hnd : (Dict.keys (f.context.getAspects.map (fun a => (a.name, f.context.plainText a)) ++ [("id", f.id.getD ""), ("value", f.value)])).Nodup := by
    simpa [Dict.keys, Function.comp_def] using hkeys
  refine ⟨?_, ?_, ?_, by simp⟩
  · intro a ha c hc
    refine ⟨f.context.plainText a, Dict.get?_of_mem _ hnd (List.mem_append_left _ (List.mem_map.2 ⟨a, ha, rfl⟩)), ?_⟩
    obtain ⟨c', hc', _, _, hp⟩ := stated_lookup hf ha
    rw [hc] at hc'
    cases hc'
    have e : f.context.plainText a = c.value.plainText := by
      unfold Context.plainText
      rw [hc]
    rw [e]
    obtain ⟨asp, v⟩ := c
    cases v with
    | period p =>
      cases p with
      | instant d => exact iso_spec hp
      | duration x y => exact ⟨x.iso.toList, y.iso.toList, by simp [CharVal.plainText, Period.shown], iso_spec hp.1, iso_spec hp.2⟩
    | _ => rfl
  · exact Dict.get?_of_mem _ hnd (List.mem_append_right _ List.mem_cons_self)
  · exact Dict.get?_of_mem _ hnd (List.mem_append_right _ (List.mem_cons_of_mem _ List.mem_cons_self))

/-! ## Documents -/

theorem statedBy_chars {dateOf : String → Option Date} {re : ElemStore} {contexts units : List XNode} (hp : PlainTexts dateOf contexts units) {cx : XNode} (hcx : cx ∈ contexts) :
    ∀ c ∈ statedBy dateOf re cx, StatedChar c ∧ PlainChar c := by
  intro c hc
  unfold statedBy at hc
  cases hpe : partsOf cx with
  | none => rw [hpe] at hc; cases hc
  | some pe =>
    obtain ⟨p, e⟩ := pe
    rw [hpe] at hc
    have hdate : ∀ x d, dateIn dateOf x = some d → d.Short := by
      intro x d h
      unfold dateIn at h
      obtain ⟨t, _, h⟩ := Option.bind_eq_some_iff.1 h
      split at h
      · cases h
      · exact hp.dates t d h
    simp only [List.mem_append] at hc
    rcases hc with (hc | hc) | hc
    · obtain ⟨q, hq, rfl⟩ := List.mem_map.1 hc
      refine ⟨.period q, ?_⟩
      have hq : periodOf dateOf p = some q := by simpa using hq
      unfold periodOf at hq
      split at hq
      · obtain ⟨d, hd, rfl⟩ := Option.map_eq_some_iff.1 hq
        exact hdate _ _ hd
      · simp only [bind, Option.bind_eq_some_iff] at hq
        obtain ⟨_, _, x, hx, _, _, y, hy, hq⟩ := hq
        split at hq
        · cases hq
          exact ⟨hdate _ _ hx, hdate _ _ hy⟩
        · cases hq
    · obtain ⟨i, _, rfl⟩ := List.mem_map.1 hc
      exact ⟨.entity _ _, trivial⟩
    · obtain ⟨m, hm, hd⟩ := List.mem_filterMap.1 hc
      have hmem : m ∈ membersOf contexts := List.mem_flatMap.2 ⟨cx, hcx, by rw [hpe]; exact hm⟩
      have hax := hp.axes m hmem
      unfold dimensionOf at hd
      simp only [bind, Option.bind_eq_some_iff] at hd
      obtain ⟨t, _, hd⟩ := hd
      split at hd
      · unfold explicitOf at hd
        simp only [bind, Option.bind_eq_some_iff] at hd
        obtain ⟨axis, ha, q, _, dim, _, x, _, hd⟩ := hd
        split at hd
        · cases hd
        · simp only [bind, Option.bind_eq_some_iff] at hd
          obtain ⟨_, _, mem, _, hd⟩ := hd
          cases hd
          exact ⟨.explicit _ _ _ _, hax _ ha⟩
      · split at hd
        · unfold typedOf at hd
          simp only [bind, Option.bind_eq_some_iff] at hd
          obtain ⟨axis, ha, q, _, dim, _, x, _, v, _, hd⟩ := hd
          cases hd
          exact ⟨.typed _ _ _ _, hax _ ha⟩
        · cases hd

theorem unitOf_char {x : XNode} {c : Characteristic} (h : unitOf x = some c) : ∃ id a b, x.attr? "id" = some id ∧ c = .ofUnit id a b := by
  unfold unitOf at h
  split at h
  · next hp =>
    cases h
    obtain ⟨_, _, _, _, hc⟩ := parseUnit_spec hp
    exact hc c rfl
  · cases h

theorem factOf_stated {data : ReportElement → Concept} {dateOf : String → Option Date} {re : ElemStore} {contexts units : List XNode} (hp : PlainTexts dateOf contexts units) {root x : XNode}
    (hc : ∀ y ∈ root.children, y ∈ contexts ∧ y ∈ units) {f : Fact} (h : factOf data dateOf re root x = some f) : StatedFact f := by
  unfold factOf at h
  simp only [bind, Option.bind_eq_some_iff] at h
  obtain ⟨c, _, us, hus, cx, hcx, h⟩ := h
  cases h
  have hcx' : cx ∈ contexts := by
    unfold contextOf at hcx
    simp only [bind, Option.bind_eq_some_iff] at hcx
    obtain ⟨y, ⟨r, _, hy⟩, hcx⟩ := hcx
    split at hcx
    · cases hcx
      exact (hc _ (List.mem_of_find?_eq_some hy)).1
    · cases hcx
  have hus' : ∀ u ∈ us, StatedChar u ∧ PlainChar u := by
    intro u hu
    unfold unitsOf at hus
    split at hus
    · cases hus; cases hu
    · cases hus; cases hu
    · simp only [Option.map_eq_some_iff, Option.bind_eq_some_iff] at hus
      obtain ⟨u', ⟨ux, hux, hu'⟩, rfl⟩ := hus
      rw [List.mem_singleton.1 hu]
      obtain ⟨i, a, b, hi, rfl⟩ := unitOf_char hu'
      exact ⟨.unit _ _ _, hp.units ux (hc _ (List.mem_of_find?_eq_some hux)).2 i hi⟩
  have key : ∀ d ∈ Characteristic.ofConcept c :: us ++ statedBy dateOf re cx, StatedChar d ∧ PlainChar d := by
    intro d hd
    rcases List.mem_append.1 hd with hd | hd
    · rcases List.mem_cons.1 hd with rfl | hd
      · exact ⟨.concept c, trivial⟩
      · exact hus' d hd
    · exact statedBy_chars hp hcx' d hd
  exact ⟨_, _, rfl, fun d hd => (key d hd).1, fun d hd => (key d hd).2⟩

theorem inlineFactOf_stated {data : ReportElement → Concept} {dateOf : String → Option Date} {dig : Char → Option Nat} {flt : String → Option Bool} {re : ElemStore} {contexts units : List XNode}
    (hp : PlainTexts dateOf contexts units) {chainOf : Nat → List Elem} {e : InlineElem} {f : Fact} (h : inlineFactOf data dateOf dig flt re contexts units chainOf e = some f) : StatedFact f := by
  unfold inlineFactOf at h
  simp only [bind, Option.bind_eq_some_iff] at h
  obtain ⟨k, _, c, _, ref, _, cx, hcx, v, _, h⟩ := h
  cases h
  have key : ∀ d ∈ statedBy dateOf re cx ++ Characteristic.ofConcept c :: inlineUnits units e.node, StatedChar d ∧ PlainChar d := by
    intro d hd
    rcases List.mem_append.1 hd with hd | hd
    · exact statedBy_chars hp (List.mem_of_find?_eq_some hcx) d hd
    · rcases List.mem_cons.1 hd with rfl | hd
      · exact ⟨.concept c, trivial⟩
      · unfold inlineUnits at hd
        split at hd
        · cases hd
        · cases hd
        · unfold declaredUnit at hd
          have hd := List.mem_of_getLast? (Option.mem_toList.1 hd)
          obtain ⟨ux, hux, hd⟩ := List.mem_filterMap.1 hd
          split at hd
          · obtain ⟨i, a, b, hi, rfl⟩ := unitOf_char hd
            exact ⟨.unit _ _ _, hp.units ux hux i hi⟩
          · cases hd
  exact ⟨_, _, rfl, fun d hd => (key d hd).1, fun d hd => (key d hd).2⟩

variable {float : String → Option Rat} {str : XNode → String} {so : SetOrder} {steps : Nat}

/-- C121 for a whole filing: the facts of an opened XML filing are those that its documents state, and each has a row that shows it, with the labels that the link bases state. -/
theorem C121_filing_partial {dateOf : String → Option Date} {docs : List SchemaDoc} (hv : ValidFiling dateOf float docs)
    (hp : PlainTexts dateOf ((docs.map (·.root)).flatMap XNode.children) ((docs.map (·.root)).flatMap XNode.children)) {o : OpenedFiling} (ho : openXml dateOf float str so steps docs = some (.ok o))
    (h : "" ∈ langs) :
    o.facts.facts.getAll = statedFacts dateOf docs ∧ ∃ l rows, TextLanguage ml langs l ∧
      generateRows (fun f langs => factTableRow shippedTranslations ml o.networks.labelsOf langs f) true langs o.facts.facts.getAll = .ok rows ∧
      Rel2 (FactRowShows ml langs l o.networks.labelsOf o.networks.labelsOf) (statedFacts dateOf docs) rows := by
  have hf := opened_facts hv ho
  refine ⟨hf, ?_⟩
  obtain ⟨l, hl⟩ := textLanguage_default (ml := ml) h
  rw [hf]
  have hst : ∀ f ∈ statedFacts dateOf docs, StatedFact f := by
    intro f hf
    obtain ⟨p, hp', hf⟩ := List.mem_filterMap.1 hf
    refine factOf_stated hp ?_ hf
    intro y hy
    obtain ⟨r, hr, hp'⟩ := List.mem_flatMap.1 hp'
    obtain ⟨x, _, rfl⟩ := List.mem_map.1 hp'
    exact ⟨List.mem_flatMap.2 ⟨r, hr, hy⟩, List.mem_flatMap.2 ⟨r, hr, hy⟩⟩
  refine ⟨l, ?_⟩
  have key : ∀ fs : List Fact, (∀ f ∈ fs, StatedFact f) → ∃ rows, fs.mapM (fun f => factTableRow shippedTranslations ml o.networks.labelsOf langs f) = .ok rows ∧
      Rel2 (FactRowShows ml langs l o.networks.labelsOf o.networks.labelsOf) fs rows := by
    intro fs
    induction fs with
    | nil => intro _; exact ⟨[], rfl, .nil⟩
    | cons f fs ih =>
      intro hfs
      obtain ⟨rows, h1, h2⟩ := ih (fun g hg => hfs g (List.mem_cons_of_mem _ hg))
      have hff := hfs f List.mem_cons_self
      obtain ⟨row, h3, h4⟩ := (C121_row_partial (labels := o.networks.labelsOf) hff (List.ne_nil_of_mem h) hl).1
        (hasTexts_default h (stated_parts (labels := o.networks.labelsOf) hff).aspects)
      refine ⟨row :: rows, ?_, .cons h4 h2⟩
      rw [List.mapM_cons, h3, h1]
      rfl
  obtain ⟨rows, h1, h2⟩ := key _ hst
  exact ⟨rows, hl, h1, h2⟩

/-! ## Tables in one language -/

theorem renderLoop_fails {ε ρ : Type} {conv : ε → List String → Except PyErr ρ} {lang : String} : ∀ (es : List ε) (data : List ρ), (∃ e ∈ es, ∃ x, conv e [lang] = .error x) →
    renderLoop conv lang data es = [] := by
  intro es
  induction es with
  | nil => intro _ ⟨_, h, _⟩; cases h
  | cons e es ih =>
    intro data ⟨e', he', x, hx⟩
    unfold renderLoop
    cases hc : conv e [lang] with
    | error _ => rfl
    | ok r =>
      refine ih _ ?_
      rcases List.mem_cons.1 he' with rfl | he'
      · rw [hc] at hx; cases hx
      · exact ⟨e', he', x, hx⟩

/-- C121 fails for tables in one language: a single fact with a dimension makes the table empty, whatever labels there are, unless the default language is allowed. -/
theorem C121_table_false (t : Translations) (ml : Bool) (labels : QName → List Label) {fs : List Fact} {f : Fact} (hm : f ∈ fs) (hf : StatedFact f) (hd : f.isCore = false) (h : "" ∉ langs) :
    generateRows (fun f langs => factTableRow t ml labels langs f) false langs fs = .ok [] := by
  have key : ∀ ls : List String, "" ∉ ls → ls.foldl (fun data lang => renderLoop (fun f langs => factTableRow t ml labels langs f) lang data fs) [] = [] := by
    intro ls
    induction ls with
    | nil => intro _; rfl
    | cons l ls ih =>
      intro hl
      rw [List.foldl_cons, renderLoop_fails fs [] ⟨f, hm, C121_dimension_false t ml hf hd (by simp) (fun hh => hl (by rw [List.mem_singleton.1 hh]; simp)) labels⟩]
      exact ih (fun hh => hl (List.mem_cons_of_mem _ hh))
  unfold generateRows
  rw [if_neg (by simp), key langs h]

/-! ## C122: inline filings -/

/-- C122: the labels of members do not matter for the facts of inline filings; only those of concepts do. -/
theorem C122_members_ignored (t : Translations) (ml : Bool) {f : Fact} (hf : StatedFact f) (n : Nat) {labels labels' : QName → List Label}
    (hc : ∀ c, f.getConcept = .ok c → labels c.name = labels' c.name) :
    factTableRow t ml labels langs (f.copied n) = factTableRow t ml labels' langs (f.copied n) := by
  unfold factTableRow
  by_cases hne : langs = []
  · rw [if_pos hne, if_pos hne]
  · rw [if_neg hne, if_neg hne]
    have key : ∀ a ∈ f.context.getAspects, (f.copied n).context.localized t ml labels langs { a with labels := a.ownLabels } = (f.copied n).context.localized t ml labels' langs { a with labels := a.ownLabels } := by
      intro a ha
      obtain ⟨c, h1, h2, h3, _⟩ := stated_lookup hf ha
      have h4 : (f.copied n).context.getCharacteristic { a with labels := a.ownLabels } = some (c.deepcopy n) := by
        rw [copied_lookup]
        show (f.context.getCharacteristic a).map _ = _
        rw [h1]
        rfl
      unfold Context.localized
      rw [h4]
      cases h3 with
      | concept k =>
        show getFromLabels _ _ _ _ = getFromLabels _ _ _ _
        rw [hc k (by unfold Fact.getConcept; rw [show f.context.getCharacteristic .concept = f.context.getCharacteristic a by rw [← h2]; rfl, h1])]
      | _ => rfl
    have hfold : ∀ (as : List Aspect) (g g' : Aspect → Except PyErr String), (∀ a ∈ as, g a = g' a) → contextRow ml langs g as = contextRow ml langs g' as := by
      intro as g g' h
      unfold contextRow
      generalize ([] : Dict String String) = row
      induction as generalizing row with
      | nil => rfl
      | cons a as ih =>
        rw [List.foldlM_cons, List.foldlM_cons, h a List.mem_cons_self]
        congr 1
        funext r
        exact ih (fun b hb => h b (List.mem_cons_of_mem _ hb)) r
    unfold factRow
    rw [hfold (f.copied n).labelled.context.getAspects _ _ ?_]
    intro b hb
    obtain ⟨a, ha, rfl⟩ := List.mem_map.1 hb
    exact key a ha

/-- C122: the row of a fact of an inline filing shows the fact as C121 says, but every member by its local name. -/
theorem C122_row_partial {f : Fact} (hf : StatedFact f) (n : Nat) (hne : langs ≠ []) (h : TextLanguage ml langs o) :
    (HasTexts ml langs labels (fun _ => []) (f.copied n) →
      ∃ row, factTableRow shippedTranslations ml labels langs (f.copied n) = .ok row ∧ FactRowShows ml langs o labels (fun _ => []) (f.copied n) row) ∧
    (¬ HasTexts ml langs labels (fun _ => []) (f.copied n) → ∃ e, factTableRow shippedTranslations ml labels langs (f.copied n) = .error e) :=
  row_main (copied_parts hf n) hne h

/-- C122 for a whole filing: the facts of an opened inline filing each have a row that shows them, members by their local names. -/
theorem C122_filing_partial {dateOf : String → Option Date} {dig : Char → Option Nat} {flt : String → Option Bool} {docs : List FilingDoc} {o : OpenedInline} (hs : ShowsInline dateOf dig flt docs o)
    (hp : PlainTexts dateOf (resourceElems (inlineDocs docs) "xbrli:context") (resourceElems (inlineDocs docs) "xbrli:unit")) (h : "" ∈ langs) {f : Fact} (hf : f ∈ o.facts.facts.getAll) (n : Nat) :
    ∃ l row, TextLanguage ml langs l ∧ factTableRow shippedTranslations ml o.networks.labelsOf langs (f.copied n) = .ok row ∧
      FactRowShows ml langs l o.networks.labelsOf (fun _ => []) (f.copied n) row := by
  have hst : StatedFact f := by
    obtain ⟨e, _, cs, _, hfe⟩ := hs.facts.mem_right f hf
    exact inlineFactOf_stated hp hfe
  obtain ⟨l, hl⟩ := textLanguage_default (ml := ml) h
  obtain ⟨row, h1, h2⟩ := (C122_row_partial (labels := o.networks.labelsOf) hst n (List.ne_nil_of_mem h) hl).1
    (hasTexts_default h (copied_parts (labels := o.networks.labelsOf) hst n).aspects)
  exact ⟨l, row, hl, h1, h2⟩

end Brel
