import Verif.Spec.FilingQueries
import Verif.Props.FactTable
import Verif.Props.Filing
import Verif.Props.Output
import Verif.Props.OpenExample

/-! C132: the queries about the facts of an opened filing. -/

namespace Brel
open Spec

theorem stated_wellFormed {c : Characteristic} (h : StatedChar c) (hp : PlainChar c) : c.WellFormed := by
  have key : ∀ name : String, ':' ∈ name.toList → name ∉ ["concept", "period", "entity", "unit"] := by
    intro name hn hm
    simp only [List.mem_cons, List.not_mem_nil, or_false] at hm
    rcases hm with rfl | rfl | rfl | rfl <;> exact absurd hn (by decide)
  cases h with
  | concept c => exact Or.inl ⟨c, rfl⟩
  | period p => exact Or.inr (Or.inl ⟨p, rfl⟩)
  | entity i s => exact Or.inr (Or.inr (Or.inl ⟨i, s, rfl⟩))
  | unit n a b => exact Or.inr (Or.inr (Or.inr (Or.inl ⟨n, a, b, rfl⟩)))
  | explicit name d m i => exact Or.inr (Or.inr (Or.inr (Or.inr ⟨Or.inl ⟨d, m, [i], rfl⟩, rfl, key name hp⟩)))
  | typed name d i v => exact Or.inr (Or.inr (Or.inr (Or.inr ⟨Or.inr ⟨d, [i], v, rfl⟩, rfl, key name hp⟩)))

theorem dimensionOf_user {re : ElemStore} {m : XNode} {c : Characteristic} (h : dimensionOf re m = some c) : c.IsUserDimension := by
  unfold dimensionOf at h
  simp only [bind, Option.bind_eq_some_iff] at h
  obtain ⟨t, _, h⟩ := h
  split at h
  · unfold explicitOf at h
    simp only [bind, Option.bind_eq_some_iff] at h
    obtain ⟨a, _, q, _, d, _, m', _, h⟩ := h
    split at h
    · cases h
    · simp only [Option.bind_eq_some_iff] at h
      obtain ⟨_, _, e, _, h⟩ := h
      cases h
      exact Or.inl ⟨_, _, _, rfl⟩
  · split at h
    · unfold typedOf at h
      simp only [bind, Option.bind_eq_some_iff] at h
      obtain ⟨a, _, q, _, d, _, y, _, v, _, h⟩ := h
      cases h
      exact Or.inr ⟨_, _, _, rfl⟩
    · cases h

/-- The characteristics of a stated fact: those of its concept, its units and its context. -/
theorem factOf_chars {data : ReportElement → Concept} {dateOf : String → Option Date} {re : ElemStore} {contexts units : List XNode} (hp : PlainTexts dateOf contexts units) {root x : XNode}
    (hc : ∀ y ∈ root.children, y ∈ contexts ∧ y ∈ units) {f : Fact} (h : factOf data dateOf re root x = some f) :
    ∃ c us cx i, conceptOf data re x = some c ∧ contextOf root x = some cx ∧ f.context = (Characteristic.ofConcept c :: us ++ statedBy dateOf re cx).foldl Context.add (Context.new i) ∧
      (∀ u ∈ us, ∃ n a b, u = .ofUnit n a b) ∧ ∀ d ∈ Characteristic.ofConcept c :: us ++ statedBy dateOf re cx, d.WellFormed := by
  unfold factOf at h
  simp only [bind, Option.bind_eq_some_iff] at h
  obtain ⟨c, hcc, us, hus, cx, hcx, h⟩ := h
  cases h
  have hcx' : cx ∈ contexts := by
    have hcx := hcx
    unfold contextOf at hcx
    simp only [bind, Option.bind_eq_some_iff] at hcx
    obtain ⟨y, ⟨r, _, hy⟩, hcx⟩ := hcx
    split at hcx
    · cases hcx
      exact (hc _ (List.mem_of_find?_eq_some hy)).1
    · cases hcx
  have hus' : ∀ u ∈ us, (∃ n a b, u = .ofUnit n a b) ∧ StatedChar u ∧ PlainChar u := by
    intro u hu
    unfold unitsOf at hus
    split at hus
    · cases hus; cases hu
    · cases hus; cases hu
    · simp only [Option.map_eq_some_iff, Option.bind_eq_some_iff] at hus
      obtain ⟨u', ⟨ux, hux, hu'⟩, rfl⟩ := hus
      rw [List.mem_singleton.1 hu]
      obtain ⟨i, a, b, hi, rfl⟩ := unitOf_char hu'
      exact ⟨⟨_, _, _, rfl⟩, .unit _ _ _, hp.units ux (hc _ (List.mem_of_find?_eq_some hux)).2 i hi⟩
  refine ⟨c, us, cx, _, hcc, hcx, rfl, fun u hu => (hus' u hu).1, fun d hd => ?_⟩
  rcases List.mem_append.1 hd with hd | hd
  · rcases List.mem_cons.1 hd with rfl | hd
    · exact Or.inl ⟨c, rfl⟩
    · exact stated_wellFormed (hus' d hd).2.1 (hus' d hd).2.2
  · have := statedBy_chars hp hcx' d hd
    exact stated_wellFormed this.1 this.2

/-- A fact is a core fact exactly if the context of its element has no members. -/
theorem factOf_core {data : ReportElement → Concept} {dateOf : String → Option Date} {re : ElemStore} {contexts units : List XNode} (hp : PlainTexts dateOf contexts units) {root x : XNode}
    (hc : ∀ y ∈ root.children, y ∈ contexts ∧ y ∈ units) (hv : ValidFact data dateOf re root x) {f : Fact} (h : factOf data dateOf re root x = some f) :
    f.isCore = (membersStated root x).isEmpty := by
  obtain ⟨c, us, cx, i, _, hcx, he, hus, hw⟩ := factOf_chars hp hc h
  have hcore := C05_is_core f _ ⟨hw, i, he⟩
  obtain ⟨ref, cx', hr, hf, hcv⟩ := hv.context
  have hcx' : cx = cx' := by
    unfold contextOf at hcx
    rw [hr] at hcx
    simp only [bind, Option.bind_some, hf] at hcx
    split at hcx <;> cases hcx
    rfl
  subst hcx'
  obtain ⟨p, e, hpe, _, _, hm⟩ := hcv.parts
  have hen : cx.find "entity" = some e := by
    unfold partsOf at hpe
    simp only [bind, Option.bind_eq_some_iff] at hpe
    obtain ⟨_, _, e', he', hpe⟩ := hpe
    cases hpe
    exact he'
  have hms : membersStated root x = segmentOf e := by
    unfold membersStated
    rw [hcx, Option.bind_some, hen]
    simp
  rw [hms, Bool.eq_iff_iff, hcore, List.isEmpty_iff]
  constructor
  · intro hn
    cases hs : segmentOf e with
    | nil => rfl
    | cons m ms =>
      exfalso
      have hmm : m ∈ segmentOf e := by rw [hs]; exact List.mem_cons_self
      obtain ⟨d, hd⟩ := Option.isSome_iff_exists.1 (hm m hmm).1
      refine hn ⟨d, List.mem_append_right _ ?_, dimensionOf_user hd⟩
      unfold statedBy
      rw [hpe]
      exact List.mem_append_right _ (List.mem_filterMap.2 ⟨m, hmm, hd⟩)
  · rintro hs ⟨d, hd, hu⟩
    have hno : ∀ d : Characteristic, (∃ v, d = .ofConcept v) ∨ (∃ v, d = .ofPeriod v) ∨ (∃ v w, d = .ofEntity v w) ∨ (∃ n a b, d = .ofUnit n a b) → ¬ d.IsUserDimension := by
      rintro d (⟨v, rfl⟩ | ⟨v, rfl⟩ | ⟨v, w, rfl⟩ | ⟨n, a, b, rfl⟩) (⟨_, _, _, h⟩ | ⟨_, _, _, h⟩) <;> cases h
    refine hno d ?_ hu
    rcases List.mem_append.1 hd with hd | hd
    · rcases List.mem_cons.1 hd with rfl | hd
      · exact Or.inl ⟨c, rfl⟩
      · exact Or.inr (Or.inr (Or.inr (hus d hd)))
    · unfold statedBy at hd
      rw [hpe] at hd
      dsimp only at hd
      rw [hs, List.filterMap_nil, List.append_nil] at hd
      rcases List.mem_append.1 hd with hd | hd
      · obtain ⟨v, _, rfl⟩ := List.mem_map.1 hd
        exact Or.inr (Or.inl ⟨v, rfl⟩)
      · obtain ⟨v, _, rfl⟩ := List.mem_map.1 hd
        exact Or.inr (Or.inr (Or.inl ⟨v.1, v.2, rfl⟩))

theorem factOf_concept {data : ReportElement → Concept} {dateOf : String → Option Date} {re : ElemStore} {root x : XNode} {f : Fact} (h : factOf data dateOf re root x = some f) :
    ∃ c, conceptOf data re x = some c ∧ f.getConcept = .ok c := by
  unfold factOf at h
  simp only [bind, Option.bind_eq_some_iff] at h
  obtain ⟨c, hcc, us, _, cx, _, h⟩ := h
  cases h
  refine ⟨c, hcc, ?_⟩
  unfold Fact.getConcept
  dsimp only
  rw [C01_first_characteristic_wins, List.cons_append, List.find?_cons_of_pos (by rfl)]
  rfl

theorem filterMap_filter {α β : Type} {g : α → Option β} {p : β → Bool} {q : α → Bool} : ∀ {l : List α}, (∀ a ∈ l, ∃ b, g a = some b ∧ p b = q a) → ((l.filterMap g).filter p).map some = (l.filter q).map g
  | [], _ => rfl
  | a :: l, h => by
    obtain ⟨b, hb, hp⟩ := h a List.mem_cons_self
    have ih := filterMap_filter (l := l) fun c hc => h c (List.mem_cons_of_mem _ hc)
    rw [List.filterMap_cons_some hb, List.filter_cons, List.filter_cons, hp]
    split
    · rw [List.map_cons, List.map_cons, ih, hb]
    · exact ih

variable {dateOf : String → Option Date} {float : String → Option Rat} {str : XNode → String} {so : SetOrder} {steps : Nat} {docs : List SchemaDoc} {o : OpenedFiling} {ml : Bool} {langs : List String}

theorem stated_some (hv : ValidFiling dateOf float docs) {p : XNode × XNode} (hp : p ∈ elementsOf (docs.map (·.root))) :
    ∃ f, factOf (taxonomyConcept docs) dateOf (taxonomyStore docs) p.1 p.2 = some f := by
  obtain ⟨fs, _, _, _, h, _⟩ := C96_accepted_partial (dateOf := dateOf) hv.instances.texts hv.instances.units hv.instances.concepts hv.instances.facts
  have hm : factOf (taxonomyConcept docs) dateOf (taxonomyStore docs) p.1 p.2 ∈ fs.map some := by
    rw [← h]
    exact List.mem_map.2 ⟨p, hp, rfl⟩
  obtain ⟨f, _, hf⟩ := List.mem_map.1 hm
  exact ⟨f, hf.symm⟩

theorem opened_data (hv : ValidFiling dateOf float docs) (ho : openXml dateOf float str so steps docs = some (.ok o)) :
    o.data.getAllFacts = statedFacts dateOf docs ∧ o.data.elems = ElemStore.run (taxonomy docs) ∧ o.data.ns = NsStore.run (boundPrefixes docs) := by
  obtain ⟨h1, _, _, _, h5⟩ := openXml_parts ho
  exact ⟨opened_facts hv ho, (taxonomy_of h1 hv.schemas.plain).1, h5⟩

/-- C132: the core facts of an opened filing are the facts of the elements whose contexts have no dimensions, in the order of the documents. -/
theorem C132_core_partial (hv : ValidFiling dateOf float docs) (hp : PlainTexts dateOf ((docs.map (·.root)).flatMap XNode.children) ((docs.map (·.root)).flatMap XNode.children))
    (ho : openXml dateOf float str so steps docs = some (.ok o)) : StatedByAll dateOf docs o.data.getAllCoreFacts (coreElements docs) := by
  unfold FilingData.getAllCoreFacts
  rw [(opened_data hv ho).1]
  refine filterMap_filter fun p hpm => ?_
  obtain ⟨f, hf⟩ := stated_some hv hpm
  refine ⟨f, hf, factOf_core hp ?_ (hv.instances.facts p hpm) hf⟩
  intro y hy
  obtain ⟨r, hr, hp'⟩ := List.mem_flatMap.1 hpm
  obtain ⟨x, _, rfl⟩ := List.mem_map.1 hp'
  exact ⟨List.mem_flatMap.2 ⟨r, hr, hy⟩, List.mem_flatMap.2 ⟨r, hr, hy⟩⟩

theorem named_stated (hv : ValidFiling dateOf float docs) (q : QName) : StatedByAll dateOf docs (factsNamed (statedFacts dateOf docs) q) (elementsNamed docs q) := by
  refine filterMap_filter fun p hpm => ?_
  obtain ⟨f, hf⟩ := stated_some hv hpm
  obtain ⟨c, h1, h2⟩ := factOf_concept hf
  refine ⟨f, hf, ?_⟩
  unfold reportedName
  rw [h1, h2]
  rfl

theorem stated_concepts : ∀ f ∈ statedFacts dateOf docs, ∃ c, f.getConcept = .ok c := by
  intro f hf
  obtain ⟨p, _, hf⟩ := List.mem_filterMap.1 hf
  obtain ⟨c, _, h⟩ := factOf_concept hf
  exact ⟨c, h⟩

theorem named_unique {fs gs : List Fact} {ps : List (XNode × XNode)} (h : StatedByAll dateOf docs fs ps) (h' : StatedByAll dateOf docs gs ps) : fs = gs :=
  List.map_injective_iff.2 (fun _ _ h => Option.some.inj h) (h.trans h'.symm)

/-- C132: asking for the facts of a concept by its name gives the facts of the elements that are named after it, in the order of the documents; the name must be that of a declared concept. Each of these elements
has the name as its tag. -/
theorem C132_by_name (hv : ValidFiling dateOf float docs) (ho : openXml dateOf float str so steps docs = some (.ok o)) (q : QName) (fs : List Fact) :
    (o.data.getFactsByConceptName (.qname q) = .ok fs ↔ (∃ e, latest (·.name) (taxonomy docs) q = some e ∧ e.kind = .concept) ∧ StatedByAll dateOf docs fs (elementsNamed docs q)) ∧
    ∀ p ∈ elementsNamed docs q, p.2.tag = some q.clark := by
  obtain ⟨h1, h2, _⟩ := opened_data hv ho
  constructor
  · rw [C08_by_qname o.data (taxonomy docs) h2 q fs, h1]
    have hn := named_stated hv q
    constructor
    · rintro ⟨ha, _, rfl⟩
      exact ⟨ha, hn⟩
    · rintro ⟨ha, hs⟩
      exact ⟨ha, stated_concepts, named_unique hs hn⟩
  · intro p hp
    obtain ⟨hp, hq⟩ := List.mem_filter.1 hp
    obtain ⟨c, hc, ht, _⟩ := (hv.instances.facts p hp).concept
    have hq := of_decide_eq_true hq
    unfold reportedName at hq
    rw [hc] at hq
    rw [ht, ← Option.some.inj hq]

/-- C132: asking with a text gives the facts of the only concept that the text denotes. -/
theorem C132_by_text (hv : ValidFiling dateOf float docs) (ho : openXml dateOf float str so steps docs = some (.ok o)) (s : String) (fs : List Fact) :
    o.data.getFactsByConceptName (.str s) = .ok fs ↔
      ∃ e, (∀ e', (FoundBy (boundPrefixes docs) (taxonomy docs) s e' ∧ e'.kind = .concept) ↔ e' = e) ∧ StatedByAll dateOf docs fs (elementsNamed docs e.name) := by
  obtain ⟨h1, h2, h3⟩ := opened_data hv ho
  rw [C08_by_text o.data (boundPrefixes docs) (taxonomy docs) h3 h2 s fs, h1]
  constructor
  · rintro ⟨e, ha, _, rfl⟩
    exact ⟨e, ha, named_stated hv e.name⟩
  · rintro ⟨e, ha, hs⟩
    exact ⟨e, ha, stated_concepts, named_unique hs (named_stated hv e.name)⟩

/-- C132: the reported concepts of an opened filing are the concepts that fact elements are named after, each once. -/
theorem C132_reported (hv : ValidFiling dateOf float docs) (ho : openXml dateOf float str so steps docs = some (.ok o)) :
    ∃ R, o.data.getAllReportedConcepts = .ok R ∧ (R.map (·.name)).Nodup ∧ ∀ q, q ∈ R.map (·.name) ↔ elementsNamed docs q ≠ [] := by
  obtain ⟨h1, _, _⟩ := opened_data hv ho
  have hg : ∀ f ∈ o.data.getAllFacts, f.getConcept = .ok ((f.getConcept.toOption).getD { name := ⟨"", "", ""⟩ }) := by
    intro f hf
    rw [h1] at hf
    obtain ⟨c, hc⟩ := stated_concepts f hf
    rw [hc]
    rfl
  obtain ⟨R, h2, _, h4, h5⟩ := C07_reported_concepts o.data _ hg
  refine ⟨R, h2, h4, fun q => (h5 q).trans ?_⟩
  rw [h1]
  have hn := named_stated hv q
  constructor
  · rintro ⟨f, hf, hq⟩ he
    rw [he] at hn
    have hm : f ∈ factsNamed (statedFacts dateOf docs) q := by
      refine List.mem_filter.2 ⟨hf, ?_⟩
      obtain ⟨c, hc⟩ := stated_concepts f hf
      rw [hc] at hq ⊢
      exact decide_eq_true (congrArg some hq)
    rw [List.map_eq_nil_iff.1 hn] at hm
    cases hm
  · intro hne
    cases hl : factsNamed (statedFacts dateOf docs) q with
    | nil =>
      rw [hl] at hn
      exact absurd (List.map_eq_nil_iff.1 hn.symm) hne
    | cons f fs =>
      have hm : f ∈ factsNamed (statedFacts dateOf docs) q := by rw [hl]; exact List.mem_cons_self
      obtain ⟨hf, hd⟩ := List.mem_filter.1 hm
      refine ⟨f, hf, ?_⟩
      obtain ⟨c, hc⟩ := stated_concepts f hf
      have hd := of_decide_eq_true hd
      rw [hc] at hd ⊢
      exact Option.some.inj hd

/-! ## The table of core facts -/

theorem core_title {l : String} (hl : TitleLanguage ml l) {n : String} (hn : n ∈ ["concept", "period", "entity", "unit"]) : l = "" ∨ ∃ x ∈ coreLabels n, languagesMatch ml l x.language = true := by
  rcases hl with hl | ⟨t, ht, hm⟩
  · exact Or.inl hl
  · refine Or.inr ?_
    have key : ∀ n ∈ ["concept", "period", "entity", "unit"], ∀ t ∈ ["en-US", "fr-FR", "de-DE", "es-ES"], ∃ x ∈ coreLabels n, x.language = t := by decide +kernel
    obtain ⟨x, hx, rfl⟩ := key n hn t ht
    exact ⟨x, hx, hm⟩

theorem core_texts {f : Fact} (hf : StatedFact f) (hc : f.isCore = true) {labels : QName → List Label} (ht : ∃ l ∈ langs, TitleLanguage ml l)
    (hl : ∀ c, f.getConcept = .ok c → ∃ l ∈ langs, l = "" ∨ ∃ x ∈ labels c.name, languagesMatch ml l x.language = true) : HasTexts ml langs labels labels f := by
  intro a ha
  have hcore : a.core = true := by
    unfold Fact.isCore Context.hasNoncoreDimensions at hc
    cases h : a.core with
    | true => rfl
    | false =>
      have : f.context.aspects.any (fun a => !a.core) = true := List.any_eq_true.2 ⟨a, ha, by rw [h]; rfl⟩
      rw [this] at hc
      cases hc
  have hst := (stated_parts (labels := labels) hf).aspects a ha
  have hname : a.name ∈ ["concept", "period", "entity", "unit"] := by
    rcases hst with ⟨_, h⟩ | ⟨h, _⟩
    · exact h
    · rw [hcore] at h; cases h
  constructor
  · obtain ⟨l, hl, hll⟩ := ht
    have hown : a.ownLabels = coreLabels a.name := by
      unfold Aspect.ownLabels
      rw [hcore, if_pos rfl]
    obtain ⟨s, hs⟩ := getFromLabels_some (ml := ml) (langs := langs) (ls := a.ownLabels) (dflt := a.name) ⟨l, hl, by rw [hown]; exact core_title hll hname⟩
    exact ⟨s, (shownTitle_iff hst).2 hs⟩
  · intro c hcc
    obtain ⟨c', hc', hca, hcs, _⟩ := stated_lookup hf ha
    rw [hcc] at hc'
    cases hc'
    cases hcs with
    | concept k =>
      have : f.getConcept = .ok k := by
        unfold Fact.getConcept
        have hac : f.context.getCharacteristic .concept = f.context.getCharacteristic a := by
          obtain ⟨i, cs, e, _⟩ := hf
          rw [e, C01_first_characteristic_wins, C01_first_characteristic_wins, ← hca]
          rfl
        rw [hac, hcc]
      obtain ⟨s, hs⟩ := getFromLabels_some (ml := ml) (langs := langs) (ls := labels k.name) (dflt := k.name.localName) (hl k this)
      exact ⟨s, shownIn_iff.2 hs⟩
    | explicit => rw [← hca] at hcore; cases hcore
    | _ => trivial

/-- C132: the table of core facts has one row for each fact element whose context has no dimensions, in order, if a preferred language has titles and each concept of these elements has a label in a preferred language.
With several languages they may be mixed; in a single language this holds as well. Elements with dimensions, and labels of other concepts, do not matter. -/
theorem C132_core_table_partial (hv : ValidFiling dateOf float docs) (hp : PlainTexts dateOf ((docs.map (·.root)).flatMap XNode.children) ((docs.map (·.root)).flatMap XNode.children))
    (ho : openXml dateOf float str so steps docs = some (.ok o)) {t : Option String} (htl : TextLanguage ml langs t) (ht : ∃ l ∈ langs, TitleLanguage ml l)
    (hl : ∀ p ∈ coreElements docs, ∀ q, reportedName docs p.2 = some q → ∃ l ∈ langs, l = "" ∨ ∃ x ∈ o.networks.labelsOf q, languagesMatch ml l x.language = true) :
    ∃ fs rows, StatedByAll dateOf docs fs (coreElements docs) ∧ Rel2 (FactRowShows ml langs t o.networks.labelsOf o.networks.labelsOf) fs rows ∧
      o.coreTable shippedTranslations ml true langs = .ok rows ∧ (∀ l, langs = [l] → o.coreTable shippedTranslations ml false langs = .ok rows) := by
  have hcore := C132_core_partial hv hp ho
  have hne : langs ≠ [] := by
    obtain ⟨l, h, _⟩ := ht
    exact List.ne_nil_of_mem h
  have hrow : ∀ f ∈ o.data.getAllCoreFacts, ∃ row, factTableRow shippedTranslations ml o.networks.labelsOf langs f = .ok row ∧ FactRowShows ml langs t o.networks.labelsOf o.networks.labelsOf f row := by
    intro f hf
    have hm : some f ∈ o.data.getAllCoreFacts.map some := List.mem_map.2 ⟨f, hf, rfl⟩
    rw [hcore] at hm
    obtain ⟨p, hpc, hpf⟩ := List.mem_map.1 hm
    have hst : StatedFact f := by
      refine factOf_stated hp ?_ hpf
      intro y hy
      obtain ⟨r, hr, hp'⟩ := List.mem_flatMap.1 (List.mem_filter.1 hpc).1
      obtain ⟨x, _, rfl⟩ := List.mem_map.1 hp'
      exact ⟨List.mem_flatMap.2 ⟨r, hr, hy⟩, List.mem_flatMap.2 ⟨r, hr, hy⟩⟩
    refine (C121_row_partial hst hne htl).1 (core_texts hst (List.mem_filter.1 hf).2 ht ?_)
    intro c hc
    obtain ⟨c', h1, h2⟩ := factOf_concept hpf
    rw [hc] at h2
    cases h2
    exact hl p hpc c.name (by unfold reportedName; rw [h1]; rfl)
  have key : ∀ fs : List Fact, (∀ f ∈ fs, ∃ row, factTableRow shippedTranslations ml o.networks.labelsOf langs f = .ok row ∧ FactRowShows ml langs t o.networks.labelsOf o.networks.labelsOf f row) →
      ∃ rows, fs.map (fun f => factTableRow shippedTranslations ml o.networks.labelsOf langs f) = rows.map Except.ok ∧ Rel2 (FactRowShows ml langs t o.networks.labelsOf o.networks.labelsOf) fs rows := by
    intro fs
    induction fs with
    | nil => intro _; exact ⟨[], rfl, .nil⟩
    | cons f fs ih =>
      intro h
      obtain ⟨row, h1, h2⟩ := h f List.mem_cons_self
      obtain ⟨rows, h3, h4⟩ := ih fun g hg => h g (List.mem_cons_of_mem _ hg)
      exact ⟨row :: rows, by rw [List.map_cons, List.map_cons, h1, h3], .cons h2 h4⟩
  obtain ⟨rows, h1, h2⟩ := key _ hrow
  refine ⟨_, rows, hcore, h2, (C13_mixed _ _ _ _).2 h1, ?_⟩
  rintro l rfl
  have := (C13_only_last_language_partial (fun f langs => factTableRow shippedTranslations ml o.networks.labelsOf langs f) o.data.getAllCoreFacts [] l (by intro x hx; cases hx)).1 rows h1
  exact this.1

theorem no_text {labels : QName → List Label} {data : ReportElement → Concept} {re : ElemStore} {root x : XNode} {f : Fact} (h : factOf data dateOf re root x = some f) {c : Concept}
    (hc : conceptOf data re x = some c) {l : String} (hl : l ≠ "") (hno : ∀ lab ∈ labels c.name, languagesMatch ml l lab.language = false) : ¬ HasTexts ml [l] labels labels f := by
  intro ht
  unfold factOf at h
  simp only [bind, Option.bind_eq_some_iff] at h
  obtain ⟨c', hcc, us, _, cx, _, h⟩ := h
  rw [hc] at hcc
  cases hcc
  cases h
  have hfind : (Characteristic.ofConcept c :: us ++ statedBy dateOf re cx).find? (fun d => d.aspect.name = (Characteristic.ofConcept c).aspect.name) = some (.ofConcept c) := by
    rw [List.cons_append, List.find?_cons_of_pos (by simp)]
  obtain ⟨s, pre, l', post, h1, _, h3⟩ := (ht (Characteristic.ofConcept c).aspect ((C02_aspects_exact _ _ _).2 ⟨_, hfind, rfl⟩)).2 (.ofConcept c) (by dsimp only; rw [C01_first_characteristic_wins]; exact hfind)
  have hl' : l' = l := by
    have hm : l' ∈ [l] := by rw [h1]; simp
    exact List.mem_singleton.1 hm
  subst hl'
  rcases h3 with ⟨he, _⟩ | ⟨_, as, e, bs, he, _, hm, _⟩
  · exact hl he
  · have hme : e ∈ labelEntries (labels c.name) := by rw [he]; simp
    obtain ⟨lab, hlab, rfl⟩ := List.mem_map.1 hme
    rw [hno lab hlab] at hm
    cases hm

/-- C132: in a single language other than the default, a concept without a label in this language that a fact element without dimensions is named after makes the table of core facts empty; if languages may be mixed,
the table is an exception. -/
theorem C132_core_table_false (hv : ValidFiling dateOf float docs) (hp : PlainTexts dateOf ((docs.map (·.root)).flatMap XNode.children) ((docs.map (·.root)).flatMap XNode.children))
    (ho : openXml dateOf float str so steps docs = some (.ok o)) {l : String} (hl : l ≠ "") {p : XNode × XNode} (hpc : p ∈ coreElements docs) {q : QName} (hq : reportedName docs p.2 = some q)
    (hno : ∀ lab ∈ o.networks.labelsOf q, languagesMatch ml l lab.language = false) :
    o.coreTable shippedTranslations ml false [l] = .ok [] ∧ ∃ e, o.coreTable shippedTranslations ml true [l] = .error e := by
  have hcore := C132_core_partial hv hp ho
  obtain ⟨f, hf⟩ := stated_some hv (List.mem_filter.1 hpc).1
  have hfm : f ∈ o.data.getAllCoreFacts := by
    have : some f ∈ o.data.getAllCoreFacts.map some := by
      rw [hcore]
      exact List.mem_map.2 ⟨p, hpc, hf⟩
    obtain ⟨g, hg, he⟩ := List.mem_map.1 this
    exact Option.some.inj he ▸ hg
  obtain ⟨c, hc, rfl⟩ : ∃ c, conceptOf (taxonomyConcept docs) (taxonomyStore docs) p.2 = some c ∧ c.name = q := Option.map_eq_some_iff.1 hq
  have hst : StatedFact f := by
    refine factOf_stated hp ?_ hf
    intro y hy
    obtain ⟨r, hr, hp'⟩ := List.mem_flatMap.1 (List.mem_filter.1 hpc).1
    obtain ⟨x, _, rfl⟩ := List.mem_map.1 hp'
    exact ⟨List.mem_flatMap.2 ⟨r, hr, hy⟩, List.mem_flatMap.2 ⟨r, hr, hy⟩⟩
  have herr : ∃ e, factTableRow shippedTranslations ml o.networks.labelsOf [l] f = .error e := by
    by_cases ht : ∃ t, TextLanguage ml [l] t
    · obtain ⟨t, ht⟩ := ht
      exact (C121_row_partial hst (by simp) ht).2 (no_text hf hc hl hno)
    · exact C121_no_language (by simp) (fun t h => ht ⟨t, h⟩) f
  constructor
  · exact (C13_only_last_language_partial (fun f langs => factTableRow shippedTranslations ml o.networks.labelsOf langs f) o.data.getAllCoreFacts [] l (by intro x hx; cases hx)).2 ⟨f, hfm, herr⟩
  · cases hr : o.coreTable shippedTranslations ml true [l] with
    | error e => exact ⟨e, rfl⟩
    | ok rows =>
      exfalso
      have := (C13_mixed _ _ _ _).1 hr
      have hm : factTableRow shippedTranslations ml o.networks.labelsOf [l] f ∈ rows.map Except.ok := by
        rw [← this]
        exact List.mem_map.2 ⟨f, hfm, rfl⟩
      obtain ⟨row, _, hrow⟩ := List.mem_map.1 hm
      obtain ⟨e, he⟩ := herr
      rw [he] at hrow
      cases hrow

end Brel
