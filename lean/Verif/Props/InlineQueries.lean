import Verif.Spec.InlineQueries
import Verif.Props.FilingQueries
import Verif.Props.InlineChecks

/-! C133: the queries about the facts of an opened inline filing. -/

namespace Brel
open Spec

theorem Rel2.filter {α β : Type} {R : α → β → Prop} {l : List α} {m : List β} (h : Rel2 R l m) (p : α → Bool) (p' : β → Bool) (hp : ∀ a ∈ l, ∀ b, R a b → p' b = p a) :
    Rel2 R (l.filter p) (m.filter p') := by
  induction h with
  | nil => exact .nil
  | @cons a b l m h1 _ ih =>
    have ih := ih fun c hc => hp c (List.mem_cons_of_mem _ hc)
    rw [List.filter_cons, List.filter_cons, hp a List.mem_cons_self b h1]
    split
    · exact .cons h1 ih
    · exact ih

variable {dateOf : String → Option Date} {dig : Char → Option Nat} {flt : String → Option Bool} {validUri : String → Bool} {float : String → Option Rat} {str : XNode → String} {so : SetOrder}
  {fuel steps : Nat} {docs : List FilingDoc} {o : OpenedInline} {ml : Bool} {langs : List String}

theorem openXhtml_namespaces (h : openXhtml dateOf dig flt validUri float str so fuel steps docs = some (.ok o)) : o.namespaces = registerInlinePrefixes (docs.map (·.doc.root)) := by
  unfold openXhtml at h
  dsimp only at h
  split at h
  · cases h
  · next elements h1 =>
    split at h
    · cases h
    · cases h
    · next facts h2 =>
      split at h
      · cases h
      · cases h
      · split at h
        · cases h
        · next notes h4 =>
          cases h5 : readNetworks elements.store facts.facts float str so steps (docs.map (·.doc.root)) with
          | none => rw [h5] at h; cases h
          | some r =>
            rw [h5] at h
            cases r with
            | error e => cases h
            | ok n =>
              simp only [Option.map_some, Except.bind, Option.some.injEq] at h
              cases h6 : parseComponents n.networks.store (docs.map (·.doc.root)) with
              | error e => rw [h6] at h; cases h
              | ok c => rw [h6] at h; cases h; rfl

theorem inline_data (hv : ValidInlineFiling dateOf dig flt validUri float docs) (ho : openXhtml dateOf dig flt validUri float str so fuel steps docs = some (.ok o)) :
    o.data.elems = ElemStore.run (taxonomy (docs.map (·.doc))) ∧ o.data.ns = NsStore.run (inlinePrefixes docs) := by
  obtain ⟨h1, _, _⟩ := openXhtml_parts ho
  refine ⟨(taxonomy_of h1 hv.schemas.plain).1, (openXhtml_namespaces ho).trans ?_⟩
  unfold registerInlinePrefixes inlinePrefixes boundPrefixes xmlNs
  rw [List.map_map]
  rfl

theorem plain_apart {contexts units : List XNode} (hp : PlainTexts dateOf contexts units) : NamedApart contexts := by
  intro m hm h
  exact absurd (hp.axes m hm _ h) (by decide)

/-- The characteristics of a fact that an inline element states. -/
theorem inline_wellFormed {data : ReportElement → Concept} {re : ElemStore} {contexts units : List XNode} (hp : PlainTexts dateOf contexts units) {chainOf : Nat → List Elem} {e : InlineElem} {f : Fact}
    (h : inlineFactOf data dateOf dig flt re contexts units chainOf e = some f) :
    ∃ c cx ref, inlineConcept data re e.node = some c ∧ e.node.attr? "contextRef" = some ref ∧ declaredContext contexts ref = some cx ∧
      f.context = (statedBy dateOf re cx ++ Characteristic.ofConcept c :: inlineUnits units e.node).foldl Context.add (Context.new ref) ∧ f.getConcept = .ok c ∧
      (∀ u ∈ inlineUnits units e.node, ∃ n a b, u = .ofUnit n a b) ∧ ∀ d ∈ statedBy dateOf re cx ++ Characteristic.ofConcept c :: inlineUnits units e.node, d.WellFormed := by
  unfold inlineFactOf at h
  simp only [bind, Option.bind_eq_some_iff] at h
  obtain ⟨k, _, c, hc, ref, hr, cx, hcx, v, _, h⟩ := h
  cases h
  have hus : ∀ u ∈ inlineUnits units e.node, (∃ n a b, u = .ofUnit n a b) ∧ StatedChar u ∧ PlainChar u := by
    intro d hd
    unfold inlineUnits at hd
    split at hd
    · cases hd
    · cases hd
    · unfold declaredUnit at hd
      have hd := List.mem_of_getLast? (Option.mem_toList.1 hd)
      obtain ⟨ux, hux, hd⟩ := List.mem_filterMap.1 hd
      split at hd
      · obtain ⟨i, a, b, hi, rfl⟩ := unitOf_char hd
        exact ⟨⟨_, _, _, rfl⟩, .unit _ _ _, hp.units ux hux i hi⟩
      · cases hd
  refine ⟨c, cx, ref, hc, hr, hcx, rfl, ?_, fun u hu => (hus u hu).1, ?_⟩
  · unfold Fact.getConcept
    dsimp only
    rw [C01_first_characteristic_wins, List.find?_append]
    have : (statedBy dateOf re cx).find? (fun d => decide (d.aspect.name = Aspect.concept.name)) = none := by
      rw [List.find?_eq_none]
      intro d hd
      rw [decide_eq_true_eq]
      exact (statedBy_stated d hd).2 _ (plain_apart hp) (List.mem_of_find?_eq_some hcx)
    rw [this]
    rfl
  · intro d hd
    rcases List.mem_append.1 hd with hd | hd
    · have := statedBy_chars hp (List.mem_of_find?_eq_some hcx) d hd
      exact stated_wellFormed this.1 this.2
    · rcases List.mem_cons.1 hd with rfl | hd
      · exact Or.inl ⟨c, rfl⟩
      · exact stated_wellFormed (hus d hd).2.1 (hus d hd).2.2

/-- A fact is a core fact exactly if the context of its element has no members. -/
theorem inline_core (hv : ValidInlineFiling dateOf dig flt validUri float docs) (hp : InlineTexts dateOf docs) {e : InlineElem} {f : Fact} (h : InlineStates dateOf dig flt docs e f) :
    f.isCore = (inlineMembers docs e).isEmpty := by
  obtain ⟨cs, _, h⟩ := h
  obtain ⟨c, cx, ref, _, hr, hcx, he, _, hus, hw⟩ := inline_wellFormed hp h
  have hcore := C05_is_core f _ ⟨hw, ref, he⟩
  have hcv := (hv.inline.declarations.contexts cx (List.mem_of_find?_eq_some hcx)).2
  obtain ⟨p, en, hpe, _, _, hm⟩ := hcv.parts
  have hen : cx.find "entity" = some en := by
    unfold partsOf at hpe
    simp only [bind, Option.bind_eq_some_iff] at hpe
    obtain ⟨_, _, e', he', hpe⟩ := hpe
    cases hpe
    exact he'
  have hms : inlineMembers docs e = segmentOf en := by
    unfold inlineMembers
    rw [hr, Option.bind_some, hcx, Option.bind_some, hen]
    simp
  rw [hms, Bool.eq_iff_iff, hcore, List.isEmpty_iff]
  constructor
  · intro hn
    cases hs : segmentOf en with
    | nil => rfl
    | cons m ms =>
      exfalso
      have hmm : m ∈ segmentOf en := by rw [hs]; exact List.mem_cons_self
      obtain ⟨d, hd⟩ := Option.isSome_iff_exists.1 (hm m hmm).1
      refine hn ⟨d, List.mem_append_left _ ?_, dimensionOf_user hd⟩
      unfold statedBy
      rw [hpe]
      exact List.mem_append_right _ (List.mem_filterMap.2 ⟨m, hmm, hd⟩)
  · rintro hs ⟨d, hd, hu⟩
    have hno : ∀ d : Characteristic, (∃ v, d = .ofConcept v) ∨ (∃ v, d = .ofPeriod v) ∨ (∃ v w, d = .ofEntity v w) ∨ (∃ n a b, d = .ofUnit n a b) → ¬ d.IsUserDimension := by
      rintro d (⟨v, rfl⟩ | ⟨v, rfl⟩ | ⟨v, w, rfl⟩ | ⟨n, a, b, rfl⟩) (⟨_, _, _, h⟩ | ⟨_, _, _, h⟩) <;> cases h
    refine hno d ?_ hu
    rcases List.mem_append.1 hd with hd | hd
    · unfold statedBy at hd
      rw [hpe] at hd
      dsimp only at hd
      rw [hs, List.filterMap_nil, List.append_nil] at hd
      rcases List.mem_append.1 hd with hd | hd
      · obtain ⟨v, _, rfl⟩ := List.mem_map.1 hd
        exact Or.inr (Or.inl ⟨v, rfl⟩)
      · obtain ⟨v, _, rfl⟩ := List.mem_map.1 hd
        exact Or.inr (Or.inr (Or.inl ⟨v.1, v.2, rfl⟩))
    · rcases List.mem_cons.1 hd with rfl | hd
      · exact Or.inl ⟨c, rfl⟩
      · exact Or.inr (Or.inr (Or.inr (hus d hd)))

theorem inline_nameOf (hp : InlineTexts dateOf docs) {e : InlineElem} {f : Fact} (h : InlineStates dateOf dig flt docs e f) :
    ∃ c, f.getConcept = .ok c ∧ inlineName docs e = some c.name := by
  obtain ⟨cs, _, h⟩ := h
  obtain ⟨c, cx, ref, hc, _, _, _, hg, _⟩ := inline_wellFormed hp h
  exact ⟨c, hg, by unfold inlineName; rw [hc]; rfl⟩

/-- C133: the core facts of an opened inline filing are the facts of the elements whose contexts have no dimensions, in the order of the documents. -/
theorem C133_core_partial (hv : ValidInlineFiling dateOf dig flt validUri float docs) (hp : InlineTexts dateOf docs) (hs : ShowsInline dateOf dig flt docs o) :
    Rel2 (InlineStates dateOf dig flt docs) (inlineCore docs) o.data.getAllCoreFacts :=
  Rel2.filter hs.facts _ _ fun _ _ _ h => inline_core hv hp h

theorem inline_named (hp : InlineTexts dateOf docs) (hs : ShowsInline dateOf dig flt docs o) (q : QName) :
    Rel2 (InlineStates dateOf dig flt docs) (inlineNamed docs q) (factsNamed o.data.getAllFacts q) := by
  refine Rel2.filter hs.facts _ _ fun e _ f h => ?_
  obtain ⟨c, h1, h2⟩ := inline_nameOf hp h
  rw [h1, h2]
  rfl

theorem inline_concepts (hp : InlineTexts dateOf docs) (hs : ShowsInline dateOf dig flt docs o) : ∀ f ∈ o.data.getAllFacts, ∃ c, f.getConcept = .ok c := by
  intro f hf
  obtain ⟨e, _, h⟩ := hs.facts.mem_right f hf
  obtain ⟨c, h, _⟩ := inline_nameOf hp h
  exact ⟨c, h⟩

/-- C133: asking for the facts of a concept by its name gives the facts of the elements with this name, in the order of the documents; if the name is not that of a declared concept, it is an exception. -/
theorem C133_by_name_partial (hv : ValidInlineFiling dateOf dig flt validUri float docs) (hp : InlineTexts dateOf docs) (ho : openXhtml dateOf dig flt validUri float str so fuel steps docs = some (.ok o))
    (hs : ShowsInline dateOf dig flt docs o) (q : QName) :
    ((∃ e, latest (·.name) (taxonomy (docs.map (·.doc))) q = some e ∧ e.kind = .concept) →
      ∃ fs, o.data.getFactsByConceptName (.qname q) = .ok fs ∧ Rel2 (InlineStates dateOf dig flt docs) (inlineNamed docs q) fs) ∧
    ((¬ ∃ e, latest (·.name) (taxonomy (docs.map (·.doc))) q = some e ∧ e.kind = .concept) → ∃ err, o.data.getFactsByConceptName (.qname q) = .error err) := by
  obtain ⟨h1, _⟩ := inline_data hv ho
  refine ⟨fun hd => ⟨_, (C08_by_qname o.data _ h1 q _).2 ⟨hd, inline_concepts hp hs, rfl⟩, inline_named hp hs q⟩, fun hd => ?_⟩
  cases h : o.data.getFactsByConceptName (.qname q) with
  | error err => exact ⟨err, rfl⟩
  | ok fs => exact absurd ((C08_by_qname o.data _ h1 q fs).1 h).1 hd

/-- C133: asking with a text gives the facts of the only concept that the text denotes; if it denotes none or several, it is an exception. -/
theorem C133_by_text_partial (hv : ValidInlineFiling dateOf dig flt validUri float docs) (hp : InlineTexts dateOf docs) (ho : openXhtml dateOf dig flt validUri float str so fuel steps docs = some (.ok o))
    (hs : ShowsInline dateOf dig flt docs o) (s : String) :
    (∀ e, (∀ e', (FoundBy (inlinePrefixes docs) (taxonomy (docs.map (·.doc))) s e' ∧ e'.kind = .concept) ↔ e' = e) →
      ∃ fs, o.data.getFactsByConceptName (.str s) = .ok fs ∧ Rel2 (InlineStates dateOf dig flt docs) (inlineNamed docs e.name) fs) ∧
    ((¬ ∃ e, ∀ e', (FoundBy (inlinePrefixes docs) (taxonomy (docs.map (·.doc))) s e' ∧ e'.kind = .concept) ↔ e' = e) → ∃ err, o.data.getFactsByConceptName (.str s) = .error err) := by
  obtain ⟨h1, h2⟩ := inline_data hv ho
  refine ⟨fun e hd => ⟨_, (C08_by_text o.data _ _ h2 h1 s _).2 ⟨e, hd, inline_concepts hp hs, rfl⟩, inline_named hp hs e.name⟩, fun hd => ?_⟩
  cases h : o.data.getFactsByConceptName (.str s) with
  | error err => exact ⟨err, rfl⟩
  | ok fs =>
    obtain ⟨e, he, _⟩ := (C08_by_text o.data _ _ h2 h1 s fs).1 h
    exact absurd ⟨e, he⟩ hd

/-- C133: the reported concepts of an opened inline filing are the concepts that elements have as names, each once. -/
theorem C133_reported_partial (hp : InlineTexts dateOf docs) (hs : ShowsInline dateOf dig flt docs o) :
    ∃ R, o.data.getAllReportedConcepts = .ok R ∧ (R.map (·.name)).Nodup ∧ ∀ q, q ∈ R.map (·.name) ↔ inlineNamed docs q ≠ [] := by
  have hg : ∀ f ∈ o.data.getAllFacts, f.getConcept = .ok ((f.getConcept.toOption).getD { name := ⟨"", "", ""⟩ }) := by
    intro f hf
    obtain ⟨c, hc⟩ := inline_concepts hp hs f hf
    rw [hc]
    rfl
  obtain ⟨R, h2, _, h4, h5⟩ := C07_reported_concepts o.data _ hg
  refine ⟨R, h2, h4, fun q => (h5 q).trans ?_⟩
  constructor
  · rintro ⟨f, hf, hq⟩ he
    obtain ⟨e, hem, h⟩ := hs.facts.mem_right f hf
    obtain ⟨c, h1, hn⟩ := inline_nameOf hp h
    rw [h1] at hq
    have : e ∈ inlineNamed docs q := List.mem_filter.2 ⟨hem, decide_eq_true (by rw [hn]; exact congrArg some hq)⟩
    rw [he] at this
    cases this
  · intro hne
    obtain ⟨e, he⟩ := List.exists_mem_of_ne_nil _ hne
    obtain ⟨hem, hq⟩ := List.mem_filter.1 he
    obtain ⟨f, hf, h⟩ := hs.facts.mem_left e hem
    obtain ⟨c, h1, hn⟩ := inline_nameOf hp h
    refine ⟨f, hf, ?_⟩
    rw [hn] at hq
    rw [h1]
    exact Option.some.inj (of_decide_eq_true hq)

/-- C133: the table of core facts has one row for each element whose context has no dimensions, in order, if a preferred language has titles and each concept of these elements has a label in a preferred language. -/
theorem C133_core_table_partial (hv : ValidInlineFiling dateOf dig flt validUri float docs) (hp : InlineTexts dateOf docs) (hs : ShowsInline dateOf dig flt docs o) {t : Option String}
    (htl : TextLanguage ml langs t) (ht : ∃ l ∈ langs, TitleLanguage ml l)
    (hl : ∀ e ∈ inlineCore docs, ∀ q, inlineName docs e = some q → ∃ l ∈ langs, l = "" ∨ ∃ x ∈ o.networks.labelsOf q, languagesMatch ml l x.language = true) :
    ∃ fs rows, Rel2 (InlineStates dateOf dig flt docs) (inlineCore docs) fs ∧ Rel2 (FactRowShows ml langs t o.networks.labelsOf o.networks.labelsOf) fs rows ∧
      o.coreTable shippedTranslations ml true langs = .ok rows ∧ (∀ l, langs = [l] → o.coreTable shippedTranslations ml false langs = .ok rows) := by
  have hcore := C133_core_partial hv hp hs
  have hne : langs ≠ [] := by
    obtain ⟨l, h, _⟩ := ht
    exact List.ne_nil_of_mem h
  have hrow : ∀ f ∈ o.data.getAllCoreFacts, ∃ row, factTableRow shippedTranslations ml o.networks.labelsOf langs f = .ok row ∧ FactRowShows ml langs t o.networks.labelsOf o.networks.labelsOf f row := by
    intro f hf
    obtain ⟨e, he, h⟩ := hcore.mem_right f hf
    have hst : StatedFact f := by
      obtain ⟨cs, _, h⟩ := h
      exact inlineFactOf_stated hp h
    refine (C121_row_partial hst hne htl).1 (core_texts hst (List.mem_filter.1 hf).2 ht ?_)
    intro c hc
    obtain ⟨c', h1, h2⟩ := inline_nameOf hp h
    rw [hc] at h1
    cases h1
    exact hl e he c.name h2
  have key : ∀ fs : List Fact, (∀ f ∈ fs, ∃ row, factTableRow shippedTranslations ml o.networks.labelsOf langs f = .ok row ∧ FactRowShows ml langs t o.networks.labelsOf o.networks.labelsOf f row) →
      ∃ rows, fs.map (fun f => factTableRow shippedTranslations ml o.networks.labelsOf langs f) = rows.map Except.ok ∧ Rel2 (FactRowShows ml langs t o.networks.labelsOf o.networks.labelsOf) fs rows := by
    intro fs
    induction fs with
    | nil => intro _; exact ⟨[], rfl, .nil⟩
    | cons f fs ih =>
      intro h
      obtain ⟨row, h1, h2⟩ := h f List.mem_cons_self
      obtain ⟨rows, h3, h4⟩ := ih fun g hg => h g (List.mem_cons_of_mem _ hg)
      exact ⟨row :: rows, by rw [List.map_cons, List.map_cons, h1, h3], .cons h2 h4⟩
  obtain ⟨rows, h1, h2⟩ := key _ hrow
  refine ⟨_, rows, hcore, h2, (C13_mixed _ _ _ _).2 h1, ?_⟩
  rintro l rfl
  have := (C13_only_last_language_partial (fun f langs => factTableRow shippedTranslations ml o.networks.labelsOf langs f) o.data.getAllCoreFacts [] l (by intro x hx; cases hx)).1 rows h1
  exact this.1

end Brel
