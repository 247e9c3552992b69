import Verif.Lemmas.Repos
import Verif.Lemmas.Names
import Verif.Lemmas.Context
import Verif.Model.Filing
import Verif.Spec.Filing

/-! Lemmas for the filing queries. -/

namespace Brel

theorem find?_some_of_mem {α : Type} (p : α → Bool) (l : List α) (x : α) (hx : x ∈ l) (hp : p x = true) :
    ∃ y, l.find? p = some y ∧ y ∈ l ∧ p y = true := by
  cases h : l.find? p with
  | none => exact absurd hp (by simpa using List.find?_eq_none.1 h x hx)
  | some y => exact ⟨y, rfl, List.mem_of_find?_eq_some h, List.find?_some h⟩

/-- A well-formed characteristic is a user dimension exactly when its aspect is not core. -/
theorem wellFormed_core (c : Characteristic) (h : c.WellFormed) : c.aspect.core = false ↔ c.IsUserDimension := by
  rcases h with ⟨x, rfl⟩ | ⟨x, rfl⟩ | ⟨i, s, rfl⟩ | ⟨n, a, b, rfl⟩ | ⟨h1, h2, h3⟩
  · simp [Characteristic.ofConcept, Aspect.concept, Characteristic.IsUserDimension]
  · simp [Characteristic.ofPeriod, Aspect.period, Characteristic.IsUserDimension]
  · simp [Characteristic.ofEntity, Aspect.entity, Characteristic.IsUserDimension]
  · simp [Characteristic.ofUnit, Aspect.unit, Characteristic.IsUserDimension]
  · simp [h1, h2]

/-- Well-formed characteristics that share their aspect's name agree on being a user dimension. -/
theorem wellFormed_same_name (c c' : Characteristic) (h : c.WellFormed) (h' : c'.WellFormed)
    (hn : c'.aspect.name = c.aspect.name) (hd : c.IsUserDimension) : c'.IsUserDimension := by
  have hc : c.aspect.name ∉ ["concept", "period", "entity", "unit"] := by
    rcases h with ⟨x, rfl⟩ | ⟨x, rfl⟩ | ⟨i, s, rfl⟩ | ⟨n, a, b, rfl⟩ | ⟨_, _, h3⟩
    · simp [Characteristic.ofConcept, Characteristic.IsUserDimension] at hd
    · simp [Characteristic.ofPeriod, Characteristic.IsUserDimension] at hd
    · simp [Characteristic.ofEntity, Characteristic.IsUserDimension] at hd
    · simp [Characteristic.ofUnit, Characteristic.IsUserDimension] at hd
    · exact h3
  rw [← hn] at hc
  rcases h' with ⟨x, rfl⟩ | ⟨x, rfl⟩ | ⟨i, s, rfl⟩ | ⟨n, a, b, rfl⟩ | ⟨h1, _, _⟩
  · simp [Characteristic.ofConcept, Aspect.concept] at hc
  · simp [Characteristic.ofPeriod, Aspect.period] at hc
  · simp [Characteristic.ofEntity, Aspect.entity] at hc
  · simp [Characteristic.ofUnit, Aspect.unit] at hc
  · exact h1

theorem mapM_filter_ok {α β : Type} (has : α → Bool) (get : α → Except PyErr β) (o : α → Option β)
    (h1 : ∀ a, has a = true ↔ (o a).isSome) (h2 : ∀ a b, o a = some b → get a = .ok b) (L : List α) :
    (L.filter has).mapM get = .ok (L.filterMap o) := by
  induction L with
  | nil => rfl
  | cons a L ih =>
    cases ho : o a with
    | none =>
      have : has a = false := by
        cases hh : has a with
        | false => rfl
        | true => rw [h1, ho] at hh; cases hh
      simp only [List.filter_cons, this, Bool.false_eq_true, if_false, List.filterMap_cons, ho]
      exact ih
    | some b =>
      have : has a = true := by rw [h1, ho]; rfl
      simp only [List.filter_cons, this, if_true, List.filterMap_cons, ho, List.mapM_cons, h2 a b ho, ih]
      rfl

theorem mapM_except_ok {α β : Type} (f : α → Except PyErr β) (g : α → β) (L : List α) (h : ∀ a ∈ L, f a = .ok (g a)) :
    L.mapM f = .ok (L.map g) := by
  induction L with
  | nil => rfl
  | cons a L ih =>
    simp only [List.mapM_cons, h a List.mem_cons_self, ih (fun x hx => h x (List.mem_cons_of_mem _ hx)), List.map_cons]
    rfl

/-- The text search with the stores unfolded: candidates with a prefix, or all elements. -/
theorem getFuzzy_prefixed (ns : NsStore) (hs : List ReportElement) (p l : String) (hp : p ≠ "") :
    getFuzzy ns (ElemStore.run hs) { localName := l, uri := none, pfx := some p } =
      .ok ((ns.getUris p).filterMap (fun u => latest (·.name) hs ⟨u, p, l⟩)) := by
  unfold getFuzzy searchCandidates
  simp only [strTruthy, strCandidates, hp, ne_eq, not_false_eq_true, decide_true, Option.getD_some, Bool.not_true, Bool.and_false,
    Bool.false_eq_true, if_false, Bool.not_false, Bool.and_true, if_true, List.isEmpty_cons, Bool.or_true]
  rw [mapM_filter_ok _ _ (fun q => latest (·.name) hs q)]
  · unfold candidateNames
    congr 1
    show List.filterMap _ ((ns.getUris p).flatMap (fun u => [(⟨u, p, l⟩ : QName)])) = _
    rw [← List.map_eq_flatMap, List.filterMap_map]
    rfl
  · intro q
    unfold ElemStore.hasQName
    rw [Dict.has_eq, ElemStore.run_get?_name]
  · intro q e h
    rw [ElemStore.getByQName_eq, ElemStore.run_get?_name, h]

theorem getFuzzy_local (ns : NsStore) (hs : List ReportElement) (l : String) :
    getFuzzy ns (ElemStore.run hs) { localName := l, uri := none, pfx := none } =
      .ok ((ElemStore.run hs).getAll.filter (fun e => e.name.localName = l)) := by
  unfold getFuzzy searchCandidates
  simp [strTruthy, strCandidates]

/-- The latest element of the name if it has the kind. -/
def latestTyped (hs : List ReportElement) (k : ElemKind) (q : QName) : Option ReportElement :=
  (latest (·.name) hs q).filter (fun e => e.kind = k)

theorem latestTyped_some (hs : List ReportElement) (k : ElemKind) (q : QName) (e : ReportElement) :
    latestTyped hs k q = some e ↔ latest (·.name) hs q = some e ∧ e.kind = k := by
  unfold latestTyped
  rw [Option.filter_eq_some_iff]
  simp

theorem getTypedByQName_eq (hs : List ReportElement) (q : QName) (k : ElemKind) :
    (ElemStore.run hs).getTypedByQName q k = match latest (·.name) hs q with
      | some e => if e.kind = k then .ok e else .error .valueError
      | none => .error .keyError := by
  unfold ElemStore.getTypedByQName
  rw [ElemStore.getByQName_eq, ElemStore.run_get?_name]
  cases latest (fun e : ReportElement => e.name) hs q with
  | none => rfl
  | some e => by_cases h : e.kind = k <;> simp [h, bind, Except.bind, pure, Except.pure, throw, throwThe, MonadExceptOf.throw]

theorem getFuzzyTyped_prefixed (ns : NsStore) (hs : List ReportElement) (k : ElemKind) (p l : String) (hp : p ≠ "") :
    getFuzzyTyped ns (ElemStore.run hs) { localName := l, uri := none, pfx := some p } k =
      .ok ((ns.getUris p).filterMap (fun u => latestTyped hs k ⟨u, p, l⟩)) := by
  unfold getFuzzyTyped searchCandidates
  simp only [strTruthy, strCandidates, hp, ne_eq, not_false_eq_true, decide_true, Option.getD_some, Bool.not_true, Bool.and_false,
    Bool.false_eq_true, if_false, Bool.not_false, Bool.and_true, if_true, List.isEmpty_cons, Bool.or_true]
  rw [mapM_filter_ok _ _ (fun q => latestTyped hs k q)]
  · unfold candidateNames
    congr 1
    show List.filterMap _ ((ns.getUris p).flatMap (fun u => [(⟨u, p, l⟩ : QName)])) = _
    rw [← List.map_eq_flatMap, List.filterMap_map]
    rfl
  · intro q
    unfold ElemStore.hasTypedQName
    rw [getTypedByQName_eq]
    unfold latestTyped
    cases latest (fun e : ReportElement => e.name) hs q with
    | none => simp
    | some e => by_cases h : e.kind = k <;> simp [h]
  · intro q e h
    rw [latestTyped_some] at h
    rw [getTypedByQName_eq, h.1]
    simp [h.2]

theorem getFuzzyTyped_local (ns : NsStore) (hs : List ReportElement) (k : ElemKind) (l : String) :
    getFuzzyTyped ns (ElemStore.run hs) { localName := l, uri := none, pfx := none } k =
      .ok (((ElemStore.run hs).getAllTyped k).filter (fun e => e.name.localName = l)) := by
  unfold getFuzzyTyped searchCandidates
  simp [strTruthy, strCandidates]

theorem fromString_prefixed (s p l : String) (h : IsPrefixed s p l) :
    SearchParams.fromString s = .ok { localName := l, uri := none, pfx := some p } := by
  have := (matchColon_iff s p l).2 h
  unfold SearchParams.fromString SearchParams.isPrefixLocal SearchParams.fromPrefixLocal
  rw [this]; rfl

theorem fromString_local (s : String) (h : ¬ ∃ p l, IsPrefixed s p l) :
    SearchParams.fromString s = .ok { localName := s, uri := none, pfx := none } := by
  have := (matchColon_none_iff s).2 h
  unfold SearchParams.fromString SearchParams.isPrefixLocal
  rw [this]; rfl

/-- A list of optional results keyed injectively has no duplicates. -/
theorem filterMap_nodup_of_key {α β γ : Type} (o : α → Option β) (key : β → γ) (L : List α) (f : α → γ) (hinj : ∀ a b, f a = f b → a = b)
    (hL : L.Nodup) (h : ∀ a b, o a = some b → key b = f a) : (L.filterMap o).Nodup := by
  refine List.Pairwise.filterMap (R := (· ≠ ·)) o ?_ hL
  intro a a' hne b hb b' hb' e
  subst e
  exact hne (hinj _ _ ((h _ _ hb).symm.trans (h _ _ hb')))

theorem ElemStore.getAll_nodup (hs : List ReportElement) : ((ElemStore.run hs).getAll).Nodup := by
  rw [ElemStore.getAll_eq]
  exact filterMap_nodup_of_key _ (·.name) _ id (fun _ _ h => h) (firstOccurrences_nodup _) (fun _ _ h => (latest_some _ _ _ _ h).2)

theorem ElemStore.mem_getAll (hs : List ReportElement) (e : ReportElement) :
    e ∈ (ElemStore.run hs).getAll ↔ latest (·.name) hs e.name = some e := by
  rw [ElemStore.getAll_eq, List.mem_filterMap]
  constructor
  · rintro ⟨q, _, h⟩
    rw [(latest_some _ _ _ _ h).2]; exact h
  · intro h
    refine ⟨e.name, ?_, h⟩
    rw [mem_firstOccurrences, List.mem_map]
    exact ⟨e, (latest_some _ _ _ _ h).1, rfl⟩

theorem isPrefixed_unique (s p l p' l' : String) (h : IsPrefixed s p l) (h' : IsPrefixed s p' l') : p = p' ∧ l = l' := by
  have := ((matchColon_iff s p l).2 h).symm.trans ((matchColon_iff s p' l').2 h')
  simpa using this

/-- The result of the search for elements of an optional kind. -/
theorem search_spec (nh : List (String × String)) (hs : List ReportElement) (s : String) (R : List ReportElement) (keep : ReportElement → Prop)
    (hpre : ∀ p l, IsPrefixed s p l → R.Nodup ∧ ∀ e, e ∈ R ↔ ∃ u ∈ (NsStore.run nh).getUris p, latest (·.name) hs ⟨u, p, l⟩ = some e ∧ keep e)
    (hloc : (¬ ∃ p l, IsPrefixed s p l) → R.Nodup ∧ ∀ e, e ∈ R ↔ latest (·.name) hs e.name = some e ∧ e.name.localName = s ∧ keep e) :
    R.Nodup ∧ ∀ e, e ∈ R ↔ (FoundBy nh hs s e ∧ keep e) := by
  unfold FoundBy
  by_cases hx : ∃ p l, IsPrefixed s p l
  · obtain ⟨p, l, h⟩ := hx
    obtain ⟨h1, h2⟩ := hpre p l h
    refine ⟨h1, fun e => ?_⟩
    rw [h2 e]
    constructor
    · rintro ⟨u, hu, hl, hk⟩
      have hn := (latest_some _ _ _ _ hl).2
      have hu' : (p, u) ∈ nh := by
        have := (NsStore.mem_uris nh {} p u).1 hu
        simpa [NsStore.getUris, Dict.get?] using this
      refine ⟨⟨by rw [hn]; exact hl, Or.inl ⟨p, l, h, by rw [hn], by rw [hn]⟩, fun _ => by rw [hn]; exact hu'⟩, hk⟩
    · rintro ⟨⟨hl, hd, hr⟩, hk⟩
      have hr := hr ⟨p, l, h⟩
      rcases hd with ⟨p', l', h', e1, e2⟩ | ⟨hn, _⟩
      · obtain ⟨rfl, rfl⟩ := isPrefixed_unique s p l p' l' h h'
        refine ⟨e.name.uri, ?_, ?_, hk⟩
        · have : (p, e.name.uri) ∈ nh := by rw [← e1]; exact hr
          exact (NsStore.mem_uris nh {} p e.name.uri).2 (Or.inr this)
        · have : (⟨e.name.uri, p, l⟩ : QName) = e.name := by rw [← e1, ← e2]
          rw [this]; exact hl
      · exact absurd ⟨p, l, h⟩ hn
  · obtain ⟨h1, h2⟩ := hloc hx
    refine ⟨h1, fun e => ?_⟩
    rw [h2 e]
    constructor
    · rintro ⟨hl, hn, hk⟩
      exact ⟨⟨hl, Or.inr ⟨hx, hn⟩, fun h => absurd h hx⟩, hk⟩
    · rintro ⟨⟨hl, hd, _⟩, hk⟩
      rcases hd with ⟨p, l, h, _⟩ | ⟨_, hn⟩
      · exact absurd ⟨p, l, h⟩ hx
      · exact ⟨hl, hn, hk⟩

theorem NsStore.getUris_nodup (nh : List (String × String)) (p : String) : ((NsStore.run nh).getUris p).Nodup :=
  (NsStore.nodup nh {} (by intro p; simp [NsStore.getUris, Dict.get?]) (by intro p; simp [NsStore.getPrefixes, Dict.get?])).1 p

/-- The loop of `get_all_reported_concepts`. -/
theorem reportedConcepts_from (facts : List Fact) (g : Fact → Concept) (acc : List Concept)
    (h : ∀ f ∈ facts, f.getConcept = .ok (g f)) :
    facts.foldlM (fun acc f => do
      let c ← f.getConcept
      if acc.any (fun d => d.eq c) then return acc else return acc ++ [c]) acc =
    (.ok (acc ++ (firstByKey (·.name) (facts.map g)).filter (fun c => c.name ∉ acc.map (·.name))) : Except PyErr _) := by
  induction facts generalizing acc with
  | nil => simp [firstByKey]; rfl
  | cons f facts ih =>
    have hf := h f List.mem_cons_self
    have hr := fun x hx => h x (List.mem_cons_of_mem _ hx)
    rw [List.foldlM_cons, hf]
    simp only [List.map_cons, firstByKey]
    by_cases hin : (g f).name ∈ acc.map (·.name)
    · have : (acc.any fun d => d.eq (g f)) = true := by
        obtain ⟨d, hd, e⟩ := List.mem_map.1 hin
        exact List.any_eq_true.2 ⟨d, hd, by simpa [Concept.eq] using e⟩
      simp only [bind, Except.bind, this, if_true, pure, Except.pure]
      have := ih acc hr
      simp only [bind, Except.bind, pure, Except.pure] at this
      rw [this, List.filter_cons_of_neg (by simpa using hin), List.filter_filter]
      congr 2
      apply List.filter_congr
      intro c _
      by_cases hc : c.name ∈ acc.map (·.name)
      · simp [hc]
      · have : c.name ≠ (g f).name := fun e => hc (e ▸ hin)
        simp [hc, this]
    · have : (acc.any fun d => d.eq (g f)) = false := by
        rw [List.any_eq_false]
        intro d hd e
        exact hin (List.mem_map.2 ⟨d, hd, by simpa [Concept.eq] using e⟩)
      simp only [bind, Except.bind, this, Bool.false_eq_true, if_false, pure, Except.pure]
      have := ih (acc ++ [g f]) hr
      simp only [bind, Except.bind, pure, Except.pure] at this
      rw [this, List.filter_cons_of_pos (by simpa using hin), List.filter_filter, List.append_assoc, List.singleton_append]
      congr 3
      apply List.filter_congr
      intro c _
      rw [Bool.eq_iff_iff]
      simp only [List.map_append, List.mem_append, Bool.and_eq_true, decide_eq_true_eq, List.map_cons, List.map_nil, List.mem_singleton, not_or]

theorem reportedConcepts_error (facts : List Fact) (acc : List Concept)
    (h : ∃ f ∈ facts, f.getConcept = .error .attributeError) :
    facts.foldlM (fun acc f => do
      let c ← f.getConcept
      if acc.any (fun d => d.eq c) then return acc else return acc ++ [c]) acc = (.error .attributeError : Except PyErr _) := by
  induction facts generalizing acc with
  | nil => obtain ⟨f, hf, _⟩ := h; cases hf
  | cons f facts ih =>
    rw [List.foldlM_cons]
    cases hc : f.getConcept with
    | error e =>
      have : e = .attributeError := by
        unfold Fact.getConcept at hc
        split at hc <;> simp_all
      rw [this]; rfl
    | ok c =>
      have : ∃ f ∈ facts, f.getConcept = .error .attributeError := by
        obtain ⟨f', hf', he⟩ := h
        rcases List.mem_cons.1 hf' with rfl | hm
        · rw [hc] at he; cases he
        · exact ⟨f', hm, he⟩
      have := fun acc => ih acc this
      simp only [bind, Except.bind, pure, Except.pure] at this ⊢
      split <;> rename_i heq
      · split at heq <;> cases heq
      · exact this _

theorem getConcept_cases (f : Fact) : (∃ c, f.getConcept = .ok c) ∨ f.getConcept = .error .attributeError := by
  unfold Fact.getConcept
  split
  · exact Or.inl ⟨_, rfl⟩
  · exact Or.inr rfl

theorem filterM_except_ok {α : Type} (p : α → Except PyErr Bool) (g : α → Bool) (L : List α) (h : ∀ a ∈ L, p a = .ok (g a)) :
    L.filterM p = .ok (L.filter g) := by
  suffices H : ∀ acc : List α, List.filterAuxM p L acc = .ok ((L.filter g).reverse ++ acc) by
    unfold List.filterM
    rw [H []]
    simp [bind, Except.bind, pure, Except.pure]
  induction L with
  | nil => intro acc; rfl
  | cons a L ih =>
    intro acc
    unfold List.filterAuxM
    rw [h a List.mem_cons_self]
    simp only [bind, Except.bind]
    rw [ih (fun x hx => h x (List.mem_cons_of_mem _ hx))]
    cases hg : g a <;> simp [hg]

theorem filterM_except_error {α : Type} (p : α → Except PyErr Bool) (e0 : PyErr) (L : List α) (hall : ∀ a ∈ L, (∃ b, p a = .ok b) ∨ p a = .error e0)
    (h : ∃ a ∈ L, p a = .error e0) : L.filterM p = .error e0 := by
  suffices H : ∀ acc : List α, List.filterAuxM p L acc = .error e0 by
    unfold List.filterM
    rw [H []]
    simp [bind, Except.bind]
  induction L with
  | nil => obtain ⟨a, ha, _⟩ := h; cases ha
  | cons a L ih =>
    intro acc
    unfold List.filterAuxM
    rcases hall a List.mem_cons_self with ⟨b, hb⟩ | hb
    · have h' : ∃ a ∈ L, p a = .error e0 := by
        obtain ⟨x, hx, he⟩ := h
        rcases List.mem_cons.1 hx with rfl | hm
        · rw [hb] at he; cases he
        · exact ⟨x, hm, he⟩
      rw [hb]
      exact ih (fun x hx => hall x (List.mem_cons_of_mem _ hx)) h' _
    · rw [hb]; rfl

theorem schemaElementName_spec (target name : String) (ns : NsMap) (q : QName) (hc : IsClark target name)
    (h : schemaElementName target name ns = .ok q) (hx : target ≠ xmlNs) :
    q.uri = target ∧ q.localName = name ∧ q.pfx = strOpt ((invertNs ns).get? target).join := by
  unfold schemaElementName at h
  rw [qnameFromStr_clark target name ns hc, if_neg hx] at h
  cases h
  exact ⟨rfl, rfl, rfl⟩

end Brel
