import Verif.Lemmas.Filing
import Verif.Props.Context

/-! C05, C07, C08, C09, C28, C57: the query methods of a filing. -/

namespace Brel

/-! ### C05: core facts -/

/-- C05. A fact built from characteristics is a core fact exactly when none of them is a user-defined dimension. -/
theorem C05_is_core (f : Fact) (cs : List Characteristic) (h : f.BuiltFrom cs) :
    f.isCore = true ↔ ¬ ∃ c ∈ cs, c.IsUserDimension := by
  obtain ⟨hw, i, hi⟩ := h
  unfold Fact.isCore Context.hasNoncoreDimensions
  rw [hi]
  simp only [Bool.not_eq_true', List.any_eq_false, Bool.not_eq_true]
  constructor
  · rintro h ⟨c, hc, hd⟩
    obtain ⟨c', h1, h2, h3⟩ := find?_some_of_mem (fun c' => c'.aspect.name = c.aspect.name) cs c hc (by simp)
    have hn : c'.aspect.name = c.aspect.name := by simpa using h3
    have hd' := wellFormed_same_name c c' (hw c hc) (hw c' h2) hn hd
    have hm := (C02_aspects_exact i cs c'.aspect).2 ⟨c', by simpa only [hn] using h1, rfl⟩
    have := h c'.aspect hm
    rw [(wellFormed_core c' (hw c' h2)).2 hd'] at this
    exact absurd this (by decide)
  · intro h a ha
    obtain ⟨c, h1, h2⟩ := (C02_aspects_exact i cs a).1 ha
    have hc := List.mem_of_find?_eq_some h1
    cases hcore : a.core with
    | true => decide
    | false => exact absurd ⟨c, hc, (wellFormed_core c (hw c hc)).1 (h2 ▸ hcore)⟩ h

/-- C05. The core facts of a filing are, in order, the listed facts without user-defined dimension. -/
theorem C05_core_facts (d : FilingData) (cs : Fact → List Characteristic) (h : ∀ f ∈ d.getAllFacts, f.BuiltFrom (cs f)) :
    d.getAllCoreFacts.Sublist d.getAllFacts ∧
    (∀ f, f ∈ d.getAllCoreFacts ↔ f ∈ d.getAllFacts ∧ ¬ ∃ c ∈ cs f, c.IsUserDimension) ∧
    ∀ f, (¬ ∃ c ∈ cs f, c.IsUserDimension) → d.getAllCoreFacts.count f = d.getAllFacts.count f := by
  refine ⟨List.filter_sublist, ?_, ?_⟩
  · intro f
    unfold FilingData.getAllCoreFacts
    rw [List.mem_filter]
    constructor
    · rintro ⟨h1, h2⟩
      exact ⟨h1, (C05_is_core f (cs f) (h f h1)).1 h2⟩
    · rintro ⟨h1, h2⟩
      exact ⟨h1, (C05_is_core f (cs f) (h f h1)).2 h2⟩
  · intro f hf
    unfold FilingData.getAllCoreFacts
    by_cases hm : f ∈ d.getAllFacts
    · exact List.count_filter ((C05_is_core f (cs f) (h f hm)).2 hf)
    · rw [List.count_eq_zero.2 hm, List.count_eq_zero]
      intro h'
      exact hm (List.mem_filter.1 h').1

/-- A fact with a user-defined dimension and one without. -/
example :
    let dim : Characteristic := ⟨{ name := "p:Axis" }, .explicit ⟨"u", "p", "Axis"⟩ ⟨"u", "p", "M"⟩ [1]⟩
    let c1 := [Characteristic.ofEntity "1" "s", dim]
    let c2 := [Characteristic.ofEntity "1" "s", .ofUnit "usd" [] []]
    let f1 : Fact := ⟨some "f1", c1.foldl Context.add (Context.new "c1"), "1"⟩
    let f2 : Fact := ⟨some "f2", c2.foldl Context.add (Context.new "c2"), "2"⟩
    f1.BuiltFrom c1 ∧ f2.BuiltFrom c2 ∧ ({ facts := FactStore.run [f1, f2] } : FilingData).getAllCoreFacts = [f2] := by
  refine ⟨⟨?_, "c1", rfl⟩, ⟨?_, "c2", rfl⟩, by decide⟩
  · intro c hc
    simp only [List.mem_cons, List.not_mem_nil, or_false] at hc
    rcases hc with rfl | rfl
    · exact Or.inr (Or.inr (Or.inl ⟨_, _, rfl⟩))
    · exact Or.inr (Or.inr (Or.inr (Or.inr ⟨Or.inl ⟨_, _, _, rfl⟩, rfl, by decide⟩)))
  · intro c hc
    simp only [List.mem_cons, List.not_mem_nil, or_false] at hc
    rcases hc with rfl | rfl
    · exact Or.inr (Or.inr (Or.inl ⟨_, _, rfl⟩))
    · exact Or.inr (Or.inr (Or.inr (Or.inl ⟨_, _, _, rfl⟩)))

/-! ### C07: reported concepts -/

/-- C07. If every listed fact has a concept, the reported concepts are the facts' concepts in order of first appearance, one per
name; a concept name is listed if and only if some listed fact reports it. -/
theorem C07_reported_concepts (d : FilingData) (g : Fact → Concept) (h : ∀ f ∈ d.getAllFacts, f.getConcept = .ok (g f)) :
    ∃ R, d.getAllReportedConcepts = .ok R ∧ R = firstByKey (·.name) (d.getAllFacts.map g) ∧ (R.map (·.name)).Nodup ∧
      ∀ q, q ∈ R.map (·.name) ↔ ∃ f ∈ d.getAllFacts, (g f).name = q := by
  refine ⟨_, ?_, rfl, firstByKey_keys_nodup _ _, ?_⟩
  · have := reportedConcepts_from d.getAllFacts g [] h
    unfold FilingData.getAllReportedConcepts reportedConcepts
    rw [this]
    simp
  · intro q
    constructor
    · intro hq
      obtain ⟨c, hc, rfl⟩ := List.mem_map.1 hq
      obtain ⟨pre, post, e, _⟩ := (mem_firstByKey _ _ _).1 hc
      have : c ∈ d.getAllFacts.map g := by rw [e]; simp
      obtain ⟨f, hf, rfl⟩ := List.mem_map.1 this
      exact ⟨f, hf, rfl⟩
    · rintro ⟨f, hf, rfl⟩
      obtain ⟨c, hc, e⟩ := firstByKey_key_mem (·.name) (d.getAllFacts.map g) (g f) (List.mem_map_of_mem hf)
      exact List.mem_map.2 ⟨c, hc, e⟩

/-- C07. A listed fact without a concept makes the call raise `AttributeError`, and nothing else does. -/
theorem C07_reported_concepts_raises (d : FilingData) :
    (∃ e, d.getAllReportedConcepts = .error e) ↔ ∃ f ∈ d.getAllFacts, f.getConcept = .error .attributeError := by
  constructor
  · rintro ⟨e, he⟩
    apply Classical.byContradiction
    intro hn
    have : ∀ f ∈ d.getAllFacts, ∃ c, f.getConcept = .ok c := fun f hf => by
      rcases getConcept_cases f with h | h
      · exact h
      · exact absurd ⟨f, hf, h⟩ hn
    have hg : ∀ f ∈ d.getAllFacts, f.getConcept = .ok (match f.getConcept with | .ok c => c | .error _ => { name := ⟨"", "", ""⟩ }) := by
      intro f hf
      obtain ⟨c, hc⟩ := this f hf
      rw [hc]
    obtain ⟨R, hR, _⟩ := C07_reported_concepts d _ hg
    rw [hR] at he; cases he
  · intro h
    exact ⟨_, reportedConcepts_error d.getAllFacts [] h⟩

example :
    let c (n : String) : Concept := { name := ⟨"u", "p", n⟩ }
    let f (i n : String) : Fact := ⟨some i, [Characteristic.ofConcept (c n)].foldl Context.add (Context.new "c"), "1"⟩
    ({ facts := FactStore.run [f "1" "A", f "2" "B", f "3" "A"] } : FilingData).getAllReportedConcepts = .ok [c "A", c "B"] := by decide

/-! ### C28: search -/

/-- C28. Searching by a text returns without repetition exactly the stored elements whose name the text denotes, as far as the
prefix of a prefixed text is registered for their namespace. -/
theorem C28_search_elements (d : FilingData) (nh : List (String × String)) (hs : List ReportElement)
    (hn : d.ns = NsStore.run nh) (he : d.elems = ElemStore.run hs) (s : String) :
    ∃ R, d.searchElements s = .ok R ∧ R.Nodup ∧ ∀ e, e ∈ R ↔ FoundBy nh hs s e := by
  unfold FilingData.searchElements
  by_cases hx : ∃ p l, IsPrefixed s p l
  · obtain ⟨p, l, h⟩ := hx
    refine ⟨_, by rw [fromString_prefixed s p l h, hn, he]; exact getFuzzy_prefixed _ hs p l h.2.1, ?_⟩
    have := search_spec nh hs s (((NsStore.run nh).getUris p).filterMap (fun u => latest (·.name) hs ⟨u, p, l⟩)) (fun _ => True) ?_ ?_
    · simpa using this
    · intro p' l' h'
      obtain ⟨rfl, rfl⟩ := isPrefixed_unique s p l p' l' h h'
      refine ⟨filterMap_nodup_of_key _ (·.name) _ (fun u => ⟨u, p, l⟩) (fun a b e => (QName.mk.inj e).1) (NsStore.getUris_nodup nh p)
        (fun a b hb => (latest_some _ _ _ _ hb).2), ?_⟩
      intro e
      simp [List.mem_filterMap]
    · intro hx; exact absurd ⟨p, l, h⟩ hx
  · refine ⟨_, by rw [fromString_local s hx, hn, he]; exact getFuzzy_local (NsStore.run nh) hs s, ?_⟩
    have := search_spec nh hs s ((ElemStore.run hs).getAll.filter (fun e => e.name.localName = s)) (fun _ => True) ?_ ?_
    · simpa using this
    · intro p l h; exact absurd ⟨p, l, h⟩ hx
    · intro _
      refine ⟨(ElemStore.getAll_nodup hs).filter _, ?_⟩
      intro e
      rw [List.mem_filter, ElemStore.mem_getAll]
      simp

/-- C28. The same for the search restricted to concepts. -/
theorem C28_search_concepts (d : FilingData) (nh : List (String × String)) (hs : List ReportElement)
    (hn : d.ns = NsStore.run nh) (he : d.elems = ElemStore.run hs) (s : String) :
    ∃ R, d.searchConcepts s = .ok R ∧ R.Nodup ∧ ∀ e, e ∈ R ↔ FoundBy nh hs s e ∧ e.kind = .concept := by
  unfold FilingData.searchConcepts
  by_cases hx : ∃ p l, IsPrefixed s p l
  · obtain ⟨p, l, h⟩ := hx
    refine ⟨_, by rw [fromString_prefixed s p l h, hn, he]; exact getFuzzyTyped_prefixed _ hs .concept p l h.2.1, ?_⟩
    refine search_spec nh hs s (((NsStore.run nh).getUris p).filterMap (fun u => latestTyped hs .concept ⟨u, p, l⟩)) (fun e => e.kind = .concept) ?_ ?_
    · intro p' l' h'
      obtain ⟨rfl, rfl⟩ := isPrefixed_unique s p l p' l' h h'
      refine ⟨filterMap_nodup_of_key _ (·.name) _ (fun u => ⟨u, p, l⟩) (fun a b e => (QName.mk.inj e).1) (NsStore.getUris_nodup nh p)
        (fun a b hb => (latest_some _ _ _ _ ((latestTyped_some _ _ _ _).1 hb).1).2), ?_⟩
      intro e
      simp [List.mem_filterMap, latestTyped_some]
    · intro hx; exact absurd ⟨p, l, h⟩ hx
  · refine ⟨_, by rw [fromString_local s hx, hn, he]; exact getFuzzyTyped_local (NsStore.run nh) hs .concept s, ?_⟩
    refine search_spec nh hs s (((ElemStore.run hs).getAllTyped .concept).filter (fun e => e.name.localName = s)) (fun e => e.kind = .concept) ?_ ?_
    · intro p l h; exact absurd ⟨p, l, h⟩ hx
    · intro _
      refine ⟨((ElemStore.getAll_nodup hs).filter _).filter _, ?_⟩
      intro e
      rw [List.mem_filter]
      unfold ElemStore.getAllTyped
      rw [List.mem_filter, ElemStore.mem_getAll]
      simp only [decide_eq_true_eq]
      constructor
      · rintro ⟨⟨a, b⟩, c⟩; exact ⟨a, c, b⟩
      · rintro ⟨a, c, b⟩; exact ⟨⟨a, b⟩, c⟩

/-- C28, completeness as far as it holds: if the prefix and namespace of every stored element are registered, the search finds
exactly the stored elements whose name the text denotes. -/
theorem C28_search_complete_partial (d : FilingData) (nh : List (String × String)) (hs : List ReportElement)
    (hn : d.ns = NsStore.run nh) (he : d.elems = ElemStore.run hs) (hreg : ∀ e ∈ hs, (e.name.pfx, e.name.uri) ∈ nh) (s : String) :
    ∃ R, d.searchElements s = .ok R ∧ R.Nodup ∧ ∀ e, e ∈ R ↔ latest (·.name) hs e.name = some e ∧ Denotes s e.name := by
  obtain ⟨R, h1, h2, h3⟩ := C28_search_elements d nh hs hn he s
  refine ⟨R, h1, h2, fun e => ?_⟩
  rw [h3]
  unfold FoundBy
  constructor
  · rintro ⟨a, b, _⟩; exact ⟨a, b⟩
  · rintro ⟨a, b⟩; exact ⟨a, b, fun _ => hreg e (latest_some _ _ _ _ a).1⟩

/-- C28. The hypothesis of `C28_search_complete_partial` is met by elements of schemas that bind a prefix to their target namespace:
the prefix of such an element is registered for its namespace. -/
theorem C28_schema_names_registered (maps : List NsMap) (ns : NsMap) (hns : ns ∈ maps) (target name : String) (q : QName)
    (hq : schemaElementName target name ns = .ok q) (hc : IsClark target name)
    (hb : ∃ p, (some p, target) ∈ ns) (hd : ∀ p u, (p, u) ∈ ns → u = target → p ≠ none) (hx : target ≠ xmlNs) :
    q.uri = target ∧ q.localName = name ∧ (q.pfx, q.uri) ∈ registeredNamespaces maps := by
  obtain ⟨e1, e2, e3⟩ := schemaElementName_spec target name ns q hc hq hx
  refine ⟨e1, e2, ?_⟩
  obtain ⟨p0, hp0⟩ := hb
  obtain ⟨p, hp, hpe⟩ := invertNs_bound ns target (some p0) hp0
  cases p with
  | none => exact absurd rfl (hd none target hp rfl)
  | some p =>
    rw [e3, hpe, e1]
    show (p, target) ∈ _
    unfold registeredNamespaces
    apply List.mem_cons_of_mem
    rw [List.mem_flatMap]
    exact ⟨ns, hns, List.mem_filterMap.2 ⟨(some p, target), hp, rfl⟩⟩

/-- C28 is false: an element of a schema whose target namespace is the default namespace gets the prefix "None", which is never
registered, so no prefixed text finds it. -/
theorem C28_search_complete_false :
    ∃ (ns : NsMap) (q : QName) (e : ReportElement) (d : FilingData) (s : String),
      schemaElementName "http://a" "Assets" ns = .ok q ∧ e.name = q ∧ s = q.prefixLocal ∧ Denotes s e.name ∧
      d.ns = NsStore.run (registeredNamespaces [ns]) ∧ d.elems = ElemStore.run [e] ∧ d.searchElements s = .ok [] := by
  refine ⟨[(none, "http://a"), (some "xs", "http://www.w3.org/2001/XMLSchema")], ⟨"http://a", "None", "Assets"⟩,
    ⟨.concept, ⟨"http://a", "None", "Assets"⟩, none, [], 0⟩,
    { ns := NsStore.run (registeredNamespaces [[(none, "http://a"), (some "xs", "http://www.w3.org/2001/XMLSchema")]]),
      elems := ElemStore.run [⟨.concept, ⟨"http://a", "None", "Assets"⟩, none, [], 0⟩] }, "None:Assets",
    by decide, rfl, by decide, ?_, rfl, rfl, by decide⟩
  exact Or.inl ⟨"None", "Assets", ⟨by decide, by decide, by decide, by decide, by decide⟩, rfl, rfl⟩

/-- C28. A text in Clark notation finds nothing unless some local name or prefix itself starts with a brace: the text is read as a
prefixed name or as a local name. -/
theorem C28_clark_search_finds_nothing (d : FilingData) (nh : List (String × String)) (hs : List ReportElement)
    (hn : d.ns = NsStore.run nh) (he : d.elems = ElemStore.run hs) (uri loc : String)
    (hb : ∀ e ∈ hs, '{' ∉ e.name.pfx.toList ∧ '{' ∉ e.name.localName.toList) :
    d.searchElements ("{" ++ uri ++ "}" ++ loc) = .ok [] := by
  obtain ⟨R, h1, _, h3⟩ := C28_search_elements d nh hs hn he ("{" ++ uri ++ "}" ++ loc)
  rw [h1]
  have : R = [] := by
    rw [List.eq_nil_iff_forall_not_mem]
    intro e hm
    obtain ⟨ha, hd, _⟩ := (h3 e).1 hm
    obtain ⟨hb1, hb2⟩ := hb e (latest_some _ _ _ _ ha).1
    rcases hd with ⟨p, l, ⟨h, hp, _⟩, e1, e2⟩ | ⟨_, e2⟩
    · rw [e1] at hb1
      apply hb1
      have h := congrArg String.toList h
      simp only [String.toList_append] at h
      have hp' := (ne_empty_iff p).1 hp
      cases hl : p.toList with
      | nil => exact absurd hl hp'
      | cons c cs =>
        rw [hl] at h
        have h := (List.cons.inj h).1
        rw [← h]
        exact List.mem_cons_self
    · rw [e2] at hb2
      apply hb2
      simp [String.toList_append]
  rw [this]

example :
    let e (u p l : String) (k : ElemKind) (t : Nat) : ReportElement := ⟨k, ⟨u, p, l⟩, none, [], t⟩
    let hs := [e "u1" "p" "A" .concept 0, e "u2" "p" "A" .abstract 1, e "u2" "q" "A" .concept 2, e "u1" "p" "A" .concept 3]
    let d : FilingData := { ns := NsStore.run [("p", "u1"), ("p", "u2"), ("q", "u2")], elems := ElemStore.run hs }
    (∀ x ∈ hs, (x.name.pfx, x.name.uri) ∈ [("p", "u1"), ("p", "u2"), ("q", "u2")]) ∧
    d.searchElements "p:A" = .ok [e "u1" "p" "A" .concept 3, e "u2" "p" "A" .abstract 1] ∧
    d.searchConcepts "p:A" = .ok [e "u1" "p" "A" .concept 3] ∧
    d.searchConcepts "A" = .ok [e "u1" "p" "A" .concept 3, e "u2" "q" "A" .concept 2] := by decide

/-! ### C57: lookup of one element by name -/

theorem exactlyOne_spec {α : Type} (R : List α) (P : α → Prop) (hn : R.Nodup) (h : ∀ x, x ∈ R ↔ P x) :
    (∀ x, exactlyOne R = .ok x ↔ ∀ y, P y ↔ y = x) ∧ (exactlyOne R = .error .valueError ↔ ¬ ∃ x, ∀ y, P y ↔ y = x) := by
  match R, hn, h with
  | [], _, h =>
    have : ∀ x, ¬ ∀ y, P y ↔ y = x := fun x hx => by
      have := (h x).2 ((hx x).2 rfl); cases this
    constructor
    · intro x
      simp only [exactlyOne, reduceCtorEq, false_iff]
      exact this x
    · simp only [exactlyOne, true_iff]
      rintro ⟨x, hx⟩; exact this x hx
  | [a], _, h =>
    have ha : ∀ y, P y ↔ y = a := fun y => by rw [← h y]; simp
    constructor
    · intro x
      simp only [exactlyOne, Except.ok.injEq]
      constructor
      · rintro rfl; exact ha
      · intro hx; exact (hx a).1 ((ha a).2 rfl)
    · simp only [exactlyOne, reduceCtorEq, false_iff, Classical.not_not]
      exact ⟨a, ha⟩
  | a :: b :: t, hn, h =>
    have : ∀ x, ¬ ∀ y, P y ↔ y = x := fun x hx => by
      have h1 := (hx a).1 ((h a).1 (by simp))
      have h2 := (hx b).1 ((h b).1 (by simp))
      have := (List.nodup_cons.1 hn).1
      exact this (by rw [h1, ← h2]; simp)
    constructor
    · intro x
      simp only [exactlyOne, reduceCtorEq, false_iff]
      exact this x
    · simp only [exactlyOne, true_iff]
      rintro ⟨x, hx⟩; exact this x hx

/-- C57. Lookup by text returns the only element found by the text, and raises `ValueError` exactly when there is not exactly one. -/
theorem C57_element_by_text (d : FilingData) (nh : List (String × String)) (hs : List ReportElement)
    (hn : d.ns = NsStore.run nh) (he : d.elems = ElemStore.run hs) (s : String) :
    (∀ e, d.getReportElementByName (.str s) = .ok e ↔ ∀ e', FoundBy nh hs s e' ↔ e' = e) ∧
    (d.getReportElementByName (.str s) = .error .valueError ↔ ¬ ∃ e, ∀ e', FoundBy nh hs s e' ↔ e' = e) := by
  obtain ⟨R, h1, h2, h3⟩ := C28_search_elements d nh hs hn he s
  have : d.getReportElementByName (.str s) = exactlyOne R := by
    show (d.searchElements s >>= exactlyOne) = _
    rw [h1]; rfl
  rw [this]
  exact exactlyOne_spec R _ h2 h3

/-- C57. The same for concepts. -/
theorem C57_concept_by_text (d : FilingData) (nh : List (String × String)) (hs : List ReportElement)
    (hn : d.ns = NsStore.run nh) (he : d.elems = ElemStore.run hs) (s : String) :
    (∀ e, d.getConceptByName (.str s) = .ok e ↔ ∀ e', (FoundBy nh hs s e' ∧ e'.kind = .concept) ↔ e' = e) ∧
    (d.getConceptByName (.str s) = .error .valueError ↔ ¬ ∃ e, ∀ e', (FoundBy nh hs s e' ∧ e'.kind = .concept) ↔ e' = e) := by
  obtain ⟨R, h1, h2, h3⟩ := C28_search_concepts d nh hs hn he s
  have : d.getConceptByName (.str s) = exactlyOne R := by
    show (d.searchConcepts s >>= exactlyOne) = _
    rw [h1]; rfl
  rw [this]
  exact exactlyOne_spec R _ h2 h3

/-- C57 is false: the documentation promises no exception for a missing element, but a name that finds nothing always raises. -/
theorem C57_missing_is_none_false (d : FilingData) (nh : List (String × String)) (hs : List ReportElement)
    (hn : d.ns = NsStore.run nh) (he : d.elems = ElemStore.run hs) :
    (∀ s, (∀ e, ¬ FoundBy nh hs s e) → d.getReportElementByName (.str s) = .error .valueError ∧
      d.getConceptByName (.str s) = .error .valueError) ∧
    (∀ q, (∀ e ∈ hs, e.name ≠ q) → d.getReportElementByName (.qname q) = .error .keyError ∧
      d.getConceptByName (.qname q) = .error .keyError) := by
  constructor
  · intro s h
    constructor
    · rw [(C57_element_by_text d nh hs hn he s).2]
      rintro ⟨e, h'⟩
      exact h e ((h' e).2 rfl)
    · rw [(C57_concept_by_text d nh hs hn he s).2]
      rintro ⟨e, h'⟩
      exact h e ((h' e).2 rfl).1
  · intro q h
    have := (latest_none (fun e : ReportElement => e.name) hs q).2 h
    constructor
    · show d.elems.getByQName q = _
      rw [he, ElemStore.getByQName_eq, ElemStore.run_get?_name, this]
    · show d.elems.getTypedByQName q _ = _
      rw [he, getTypedByQName_eq, this]

/-! ### C08: facts of a concept -/

/-- The facts whose concept has the name. -/
def factsNamed (facts : List Fact) (q : QName) : List Fact :=
  facts.filter (fun f => decide (f.getConcept.toOption.map (·.name) = some q))

/-- C08. Once a concept is found, its facts are the listed facts that report it, in order; the call raises `AttributeError`
exactly when some listed fact has no concept. -/
theorem C08_facts_of_concept (facts : List Fact) (q : QName) :
    ((∀ f ∈ facts, ∃ c, f.getConcept = .ok c) → factsOfConcept facts q = .ok (factsNamed facts q)) ∧
    ((∃ f ∈ facts, f.getConcept = .error .attributeError) → factsOfConcept facts q = .error .attributeError) := by
  constructor
  · intro h
    unfold factsOfConcept factsNamed
    apply filterM_except_ok
    intro f hf
    obtain ⟨c, hc⟩ := h f hf
    rw [hc]
    simp [bind, Except.bind, pure, Except.pure, Except.toOption]
  · rintro ⟨f, hf, he⟩
    apply filterM_except_error
    · intro a _
      rcases getConcept_cases a with ⟨c, hc⟩ | hc
      · rw [hc]; exact Or.inl ⟨_, rfl⟩
      · rw [hc]; exact Or.inr rfl
    · exact ⟨f, hf, by rw [he]; rfl⟩

/-- C08. By QName: a fact list is returned exactly when the name is currently that of a concept and all listed facts have a concept;
it consists of the facts reporting that name. -/
theorem C08_by_qname (d : FilingData) (hs : List ReportElement) (he : d.elems = ElemStore.run hs) (q : QName) (fs : List Fact) :
    d.getFactsByConceptName (.qname q) = .ok fs ↔
      (∃ e, latest (·.name) hs q = some e ∧ e.kind = .concept) ∧ (∀ f ∈ d.getAllFacts, ∃ c, f.getConcept = .ok c) ∧
      fs = factsNamed d.getAllFacts q := by
  have hc : ∀ q', (∃ fs, factsOfConcept d.getAllFacts q' = .ok fs) → ∀ f ∈ d.getAllFacts, ∃ c, f.getConcept = .ok c := by
    rintro q' ⟨fs, h⟩ f hf
    rcases getConcept_cases f with h' | h'
    · exact h'
    · rw [(C08_facts_of_concept _ q').2 ⟨f, hf, h'⟩] at h; cases h
  show (d.elems.getTypedByQName q .concept >>= fun e => factsOfConcept d.getAllFacts e.name) = _ ↔ _
  rw [he, getTypedByQName_eq]
  cases hl : latest (fun e : ReportElement => e.name) hs q with
  | none => simp [bind, Except.bind]
  | some e =>
    have hn := (latest_some _ _ _ _ hl).2
    by_cases hk : e.kind = .concept
    · simp only [hk, if_true, bind, Except.bind, Option.some.injEq, exists_eq_left', true_and]
      rw [hn]
      constructor
      · intro h
        have h2 := hc q ⟨fs, h⟩
        rw [(C08_facts_of_concept _ q).1 h2] at h
        exact ⟨h2, (Except.ok.inj h).symm⟩
      · rintro ⟨h1, rfl⟩
        exact (C08_facts_of_concept _ q).1 h1
    · simp [hk, bind, Except.bind]

/-- C08. By text: the same, when the text finds exactly one concept. -/
theorem C08_by_text (d : FilingData) (nh : List (String × String)) (hs : List ReportElement)
    (hn : d.ns = NsStore.run nh) (he : d.elems = ElemStore.run hs) (s : String) (fs : List Fact) :
    d.getFactsByConceptName (.str s) = .ok fs ↔
      ∃ e, (∀ e', (FoundBy nh hs s e' ∧ e'.kind = .concept) ↔ e' = e) ∧ (∀ f ∈ d.getAllFacts, ∃ c, f.getConcept = .ok c) ∧
      fs = factsNamed d.getAllFacts e.name := by
  obtain ⟨h1, h2⟩ := C57_concept_by_text d nh hs hn he s
  unfold FilingData.getFactsByConceptName
  cases hr : d.getConceptByName (.str s) with
  | error x =>
    simp only [bind, Except.bind, reduceCtorEq, false_iff]
    rintro ⟨e, h, _⟩
    rw [(h1 e).2 h] at hr; cases hr
  | ok e =>
    have hu := (h1 e).1 hr
    simp only [bind, Except.bind]
    constructor
    · intro h
      have hc : ∀ f ∈ d.getAllFacts, ∃ c, f.getConcept = .ok c := by
        intro f hf
        rcases getConcept_cases f with h' | h'
        · exact h'
        · rw [(C08_facts_of_concept _ _).2 ⟨f, hf, h'⟩] at h; cases h
      rw [(C08_facts_of_concept _ _).1 hc] at h
      exact ⟨e, hu, hc, (Except.ok.inj h).symm⟩
    · rintro ⟨e', hu', hc, rfl⟩
      have : e' = e := (hu e').1 ((hu' e').2 rfl)
      rw [this]
      exact (C08_facts_of_concept _ _).1 hc

example :
    let f (i n : String) : Fact := ⟨some i, [Characteristic.ofConcept { name := ⟨"u", "p", n⟩ }].foldl Context.add (Context.new "c"), i⟩
    let e (l : String) (k : ElemKind) : ReportElement := ⟨k, ⟨"u", "p", l⟩, none, [], 0⟩
    let d : FilingData := { ns := NsStore.run [("p", "u")], elems := ElemStore.run [e "A" .concept, e "B" .concept, e "C" .abstract],
                            facts := FactStore.run [f "1" "A", f "2" "B", f "3" "A"] }
    d.getFactsByConceptName (.str "p:A") = .ok [f "1" "A", f "3" "A"] ∧ d.getFactsByConceptName (.qname ⟨"u", "p", "B"⟩) = .ok [f "2" "B"] ∧
    d.getFactsByConceptName (.str "p:C") = .error .valueError := by decide

/-! ### C09: components -/

/-- C09. The component found is the first with the URI; `ValueError` exactly when no component has it. -/
theorem C09_get_component (d : FilingData) (uri : String) :
    (∀ c, d.getComponent uri = .ok c ↔
      ∃ pre post, d.components = pre ++ c :: post ∧ c.uri = uri ∧ ∀ c' ∈ pre, c'.uri ≠ uri) ∧
    (d.getComponent uri = .error .valueError ↔ uri ∉ d.getAllComponentUris) ∧
    d.getAllComponentUris = d.components.map (fun c => c.uri) := by
  unfold FilingData.getComponent firstMatch
  refine ⟨?_, ?_, rfl⟩
  · intro c
    cases h : d.components.find? (fun c => decide (c.uri = uri)) with
    | none =>
      simp only [reduceCtorEq, false_iff]
      rintro ⟨pre, post, e, hu, _⟩
      have := List.find?_eq_none.1 h c (by rw [e]; simp)
      simp [hu] at this
    | some x =>
      obtain ⟨hx, as, bs, e, hb⟩ := List.find?_eq_some_iff_append.1 h
      simp only [Except.ok.injEq]
      constructor
      · rintro rfl
        exact ⟨as, bs, e, by simpa using hx, fun c' hc' => by simpa using hb c' hc'⟩
      · rintro ⟨pre, post, e', hu, hp⟩
        have : d.components.find? (fun c => decide (c.uri = uri)) = some c :=
          List.find?_eq_some_iff_append.2 ⟨by simpa using hu, pre, post, e', fun c' hc' => by simpa using hp c' hc'⟩
        rw [h] at this
        exact Option.some.inj this
  · unfold FilingData.getAllComponentUris
    cases h : d.components.find? (fun c => decide (c.uri = uri)) with
    | none =>
      simp only [true_iff]
      intro hm
      obtain ⟨c, hc, e⟩ := List.mem_map.1 hm
      have := List.find?_eq_none.1 h c hc
      simp [e] at this
    | some x =>
      simp only [reduceCtorEq, false_iff, Classical.not_not]
      have := List.find?_some h
      exact List.mem_map.2 ⟨x, List.mem_of_find?_eq_some h, by simpa using this⟩

example : let d : FilingData := { components := [⟨0, "a", "", none, none, none⟩, ⟨1, "b", "x", none, none, none⟩, ⟨2, "b", "y", none, none, none⟩] }
    d.getComponent "b" = .ok ⟨1, "b", "x", none, none, none⟩ ∧ d.getComponent "c" = .error .valueError := by decide

end Brel
