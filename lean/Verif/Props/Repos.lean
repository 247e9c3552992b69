import Verif.Lemmas.Repos

/-! C06, C22, C23, C24, C52, C53, C54: the in-memory repositories. -/

namespace Brel

/-! ### C06: facts -/

/-- C06. Lookup by id returns the latest fact stored under that id, and raises `KeyError` exactly when there is none. -/
theorem C06_get_by_id (hs : List Fact) (i : String) :
    (FactStore.run hs).getByIdOptional i = latest (·.id) hs (some i) ∧
    ((FactStore.run hs).getById i = .error .keyError ↔ ∀ f ∈ hs, f.id ≠ some i) ∧
    ((FactStore.run hs).hasId i = true ↔ ∃ f ∈ hs, f.id = some i) := by
  unfold FactStore.getByIdOptional FactStore.getById FactStore.hasId Dict.get
  rw [Dict.has_eq, FactStore.run_get?]
  have hn := latest_none (fun f : Fact => f.id) hs (some i)
  refine ⟨?_, ?_, ?_⟩
  · cases latest (fun f : Fact => f.id) hs (some i) <;> rfl
  · rw [← hn]
    cases latest (fun f : Fact => f.id) hs (some i) <;> simp
  · cases h : latest (fun f : Fact => f.id) hs (some i) with
    | none =>
      have := hn.1 h
      simp only [Option.isSome_none, Bool.false_eq_true, false_iff]
      rintro ⟨f, hf, e⟩
      exact this f hf e
    | some f =>
      have := latest_some _ _ _ _ h
      simp only [Option.isSome_some, true_iff]
      exact ⟨f, this.1, this.2⟩

/-- C06, the part that holds: the list of all facts is, for the ids in order of first appearance, the latest fact of each id.
Missing: facts without id. -/
theorem C06_get_all_partial (hs : List Fact) :
    (FactStore.run hs).getAll = (firstOccurrences (hs.filterMap (·.id))).filterMap (fun i => latest (·.id) hs (some i)) ∧
    ∀ f, f.id ≠ none → (f ∈ (FactStore.run hs).getAll ↔ latest (·.id) hs f.id = some f) := by
  have e : (FactStore.run hs).getAll =
      (firstOccurrences (hs.filterMap (·.id))).filterMap (fun i => latest (·.id) hs (some i)) := by
    unfold FactStore.getAll
    rw [values_eq, FactStore.run_keys]
    · congr 1
      funext i
      exact FactStore.run_get? hs i
    · rw [FactStore.run_keys]; exact firstOccurrences_nodup _
  refine ⟨e, ?_⟩
  intro f hf
  rw [e, List.mem_filterMap]
  constructor
  · rintro ⟨i, _, h⟩
    have := (latest_some _ _ _ _ h).2
    rw [this]; exact h
  · intro h
    cases hi : f.id with
    | none => exact absurd hi hf
    | some i =>
      rw [hi] at h
      refine ⟨i, ?_, h⟩
      rw [mem_firstOccurrences, List.mem_filterMap]
      exact ⟨f, (latest_some _ _ _ _ h).1, hi⟩

/-- C06 is false: a stored fact without id is never listed, whatever else is stored. -/
theorem C06_facts_without_id_lost (hs : List Fact) (f : Fact) (h : f.id = none) : f ∉ (FactStore.run hs).getAll := by
  rw [(C06_get_all_partial hs).1, List.mem_filterMap]
  rintro ⟨i, _, hl⟩
  have := (latest_some _ _ _ _ hl).2
  rw [h] at this
  cases this

/-- C06 is false, with a witness: the only stored fact is not listed. -/
theorem C06_every_stored_fact_listed_false :
    ∃ hs : List Fact, ∃ f ∈ hs, (∀ g ∈ hs, g.id = f.id → g = f) ∧ f ∉ (FactStore.run hs).getAll := by
  refine ⟨[⟨none, Context.new "c", "1"⟩], _, List.mem_cons_self, ?_, C06_facts_without_id_lost _ _ rfl⟩
  intro g hg _
  simpa using hg

example : (FactStore.run [⟨some "a", Context.new "c", "1"⟩, ⟨some "b", Context.new "c", "2"⟩, ⟨some "a", Context.new "c", "3"⟩]).getAll
    = [⟨some "a", Context.new "c", "3"⟩, ⟨some "b", Context.new "c", "2"⟩] := by decide

/-! ### C22: report elements -/

/-- C22. Lookup by name returns the latest element stored under the name; `KeyError` exactly when there is none. -/
theorem C22_by_name (hs : List ReportElement) (q : QName) :
    (∀ e, (ElemStore.run hs).getByQName q = .ok e ↔ latest (·.name) hs q = some e) ∧
    ((ElemStore.run hs).getByQName q = .error .keyError ↔ ∀ e ∈ hs, e.name ≠ q) ∧
    ((ElemStore.run hs).hasQName q = true ↔ ∃ e ∈ hs, e.name = q) := by
  rw [ElemStore.getByQName_eq, ElemStore.run_get?_name]
  have hn := latest_none (fun e : ReportElement => e.name) hs q
  refine ⟨?_, ?_, ?_⟩
  · intro e
    cases latest (fun e : ReportElement => e.name) hs q <;> simp
  · rw [← hn]
    cases latest (fun e : ReportElement => e.name) hs q <;> simp
  · unfold ElemStore.hasQName
    rw [Dict.has_eq, ElemStore.run_get?_name]
    cases h : latest (fun e : ReportElement => e.name) hs q with
    | none =>
      have := hn.1 h
      simp only [Option.isSome_none, Bool.false_eq_true, false_iff]
      rintro ⟨f, hf, e⟩
      exact this f hf e
    | some f =>
      have := latest_some _ _ _ _ h
      simp only [Option.isSome_some, true_iff]
      exact ⟨f, this.1, this.2⟩

/-- C22. Typed lookup succeeds exactly when the latest element of that name has the requested kind; `ValueError` exactly when it
has another kind, `KeyError` exactly when there is no element. -/
theorem C22_typed_by_name (hs : List ReportElement) (q : QName) (k : ElemKind) :
    (∀ e, (ElemStore.run hs).getTypedByQName q k = .ok e ↔ (latest (·.name) hs q = some e ∧ e.kind = k)) ∧
    ((ElemStore.run hs).getTypedByQName q k = .error .valueError ↔ ∃ e, latest (·.name) hs q = some e ∧ e.kind ≠ k) ∧
    ((ElemStore.run hs).getTypedByQName q k = .error .keyError ↔ ∀ e ∈ hs, e.name ≠ q) ∧
    ((ElemStore.run hs).hasTypedQName q k = true ↔ ∃ e, latest (·.name) hs q = some e ∧ e.kind = k) := by
  have hn := latest_none (fun e : ReportElement => e.name) hs q
  have key : (ElemStore.run hs).getTypedByQName q k = match latest (·.name) hs q with
      | some e => if e.kind = k then .ok e else .error .valueError
      | none => .error .keyError := by
    unfold ElemStore.getTypedByQName
    rw [ElemStore.getByQName_eq, ElemStore.run_get?_name]
    cases latest (fun e : ReportElement => e.name) hs q with
    | none => rfl
    | some e => by_cases h : e.kind = k <;> simp [h, bind, Except.bind, pure, Except.pure, throw, throwThe, MonadExceptOf.throw]
  rw [← hn]
  unfold ElemStore.hasTypedQName
  rw [key]
  cases latest (fun e : ReportElement => e.name) hs q with
  | none => simp
  | some e =>
    by_cases h : e.kind = k
    · simp only [h, if_true, Option.some.injEq, Except.ok.injEq, reduceCtorEq, false_iff, true_iff]
      refine ⟨?_, ?_, trivial, ⟨e, rfl, h⟩⟩
      · intro e'
        exact ⟨fun h' => ⟨h', h' ▸ h⟩, And.left⟩
      · rintro ⟨e', rfl, h'⟩
        exact h' h
    · simp only [h, if_false, Option.some.injEq, reduceCtorEq, false_iff, true_iff, Except.error.injEq]
      refine ⟨?_, ⟨e, rfl, h⟩, trivial, ?_⟩
      · rintro e' ⟨rfl, h'⟩
        exact h h'
      · rintro ⟨e', rfl, h'⟩
        exact h h'

/-- C22. All elements: for the names in order of first appearance, the latest element of each name; typed listing keeps those of
the kind. -/
theorem C22_all (hs : List ReportElement) (k : ElemKind) :
    (ElemStore.run hs).getAll = (firstOccurrences (hs.map (·.name))).filterMap (latest (·.name) hs) ∧
    (∀ e, e ∈ (ElemStore.run hs).getAll ↔ latest (·.name) hs e.name = some e) ∧
    (ElemStore.run hs).getAllTyped k = (ElemStore.run hs).getAll.filter (fun e => e.kind = k) := by
  refine ⟨ElemStore.getAll_eq hs, ?_, rfl⟩
  intro e
  rw [ElemStore.getAll_eq, List.mem_filterMap]
  constructor
  · rintro ⟨q, _, h⟩
    rw [(latest_some _ _ _ _ h).2]; exact h
  · intro h
    refine ⟨e.name, ?_, h⟩
    rw [mem_firstOccurrences, List.mem_map]
    exact ⟨e, (latest_some _ _ _ _ h).1, rfl⟩

/-- C22. Lookup by id returns the latest element that was stored with that id. -/
theorem C22_by_id (hs : List ReportElement) (i : String) :
    (∀ e, (ElemStore.run hs).getById i = .ok e ↔ latest (·.id) hs (some i) = some e) ∧
    ((ElemStore.run hs).getById i = .error .keyError ↔ ∀ e ∈ hs, e.id ≠ some i) := by
  rw [ElemStore.getById_eq, ElemStore.run_get?_id, ← latest_none (fun e : ReportElement => e.id) hs (some i)]
  cases latest (fun e : ReportElement => e.id) hs (some i) <;> simp

/-- C22 is false for ids: an element found by id need not be in the repository any more. -/
theorem C22_by_id_is_current_false :
    ∃ (hs : List ReportElement) (i : String) (e : ReportElement),
      (ElemStore.run hs).getById i = .ok e ∧ e ∉ (ElemStore.run hs).getAll :=
  ⟨[⟨.abstract, ⟨"u", "p", "a"⟩, some "i1", [], 0⟩, ⟨.lineItems, ⟨"u", "p", "a"⟩, some "i2", [], 1⟩], "i1",
    ⟨.abstract, ⟨"u", "p", "a"⟩, some "i1", [], 0⟩, by decide, by decide⟩

/-- C22, the part that holds for ids: when names and ids correspond one to one in the history, the element found by id is the one
currently stored under its name. -/
theorem C22_by_id_partial (hs : List ReportElement) (h : ∀ a ∈ hs, ∀ b ∈ hs, a.name = b.name ↔ a.id = b.id)
    (i : String) (e : ReportElement) (he : (ElemStore.run hs).getById i = .ok e) :
    (ElemStore.run hs).getByQName e.name = .ok e ∧ e ∈ (ElemStore.run hs).getAll := by
  have h1 := ((C22_by_id hs i).1 e).1 he
  obtain ⟨pre, post, eq, hid, hlast⟩ := (latest_eq_some_iff _ _ _ _).1 h1
  have hm : e ∈ hs := by rw [eq]; simp
  have h2 : latest (·.name) hs e.name = some e := by
    rw [latest_eq_some_iff]
    refine ⟨pre, post, eq, rfl, ?_⟩
    intro y hy hn
    have : y ∈ hs := by rw [eq]; simp [hy]
    exact hlast y hy (((h y this e hm).1 hn).trans hid)
  exact ⟨((C22_by_name hs e.name).1 e).2 h2, ((C22_all hs .concept).2.1 e).2 h2⟩

/-- Two elements, one of them replaced by a promoted version with the same name and id, meet the hypothesis of `C22_by_id_partial`. -/
example : let hs : List ReportElement :=
      [⟨.abstract, ⟨"u", "p", "a"⟩, some "i1", [], 0⟩, ⟨.concept, ⟨"u", "p", "b"⟩, some "i2", [], 1⟩,
       ⟨.lineItems, ⟨"u", "p", "a"⟩, some "i1", [], 2⟩]
    (∀ a ∈ hs, ∀ b ∈ hs, a.name = b.name ↔ a.id = b.id) ∧
    (ElemStore.run hs).getById "i1" = .ok ⟨.lineItems, ⟨"u", "p", "a"⟩, some "i1", [], 2⟩ := by decide

/-! ### C23: namespaces -/

/-- C23. After any history of registrations the two directions agree with each other and with the history, without duplicates. -/
theorem C23_consistent (hs : List (String × String)) (p u : String) :
    (u ∈ (NsStore.run hs).getUris p ↔ p ∈ (NsStore.run hs).getPrefixes u) ∧
    (u ∈ (NsStore.run hs).getUris p ↔ (p, u) ∈ hs) ∧
    ((NsStore.run hs).getUris p).Nodup ∧ ((NsStore.run hs).getPrefixes u).Nodup := by
  have a := NsStore.mem_uris hs {} p u
  have b := NsStore.mem_prefixes hs {} p u
  have e1 : (({} : NsStore).getUris p) = [] := rfl
  have e2 : (({} : NsStore).getPrefixes u) = [] := rfl
  rw [e1] at a
  rw [e2] at b
  simp only [List.not_mem_nil, false_or] at a b
  have n := NsStore.nodup hs {} (fun _ => List.nodup_nil) (fun _ => List.nodup_nil)
  exact ⟨a.trans b.symm, a, n.1 p, n.2 u⟩

example : (NsStore.run [("a", "u"), ("b", "u"), ("a", "v"), ("a", "u")]).getUris "a" = ["u", "v"] ∧
    (NsStore.run [("a", "u"), ("b", "u"), ("a", "v"), ("a", "u")]).getPrefixes "u" = ["a", "b"] := by decide

/-! ### C24: URI rewriting -/

/-- C24. Rewriting applies a rule in force to the start of the URI and keeps the rest; without a matching rule nothing changes. -/
theorem C24_rewrites_prefix (ops : List RewriteOp) (uri : List Char) :
    (∃ o r rest, currentRule ops o = some r ∧ uri = o ++ rest ∧ (Rewrites.run ops).rewrite uri = r ++ rest) ∨
    ((¬ ∃ o r, MatchingRule ops uri o r) ∧ (Rewrites.run ops).rewrite uri = uri) := by
  rcases Rewrites.rewrite_spec (Rewrites.run ops) uri with ⟨pre, o, r, rest, post, h1, h2, h3, _⟩ | ⟨h1, h2⟩
  · refine Or.inl ⟨o, r, rest, ?_, h2, h3⟩
    rw [← Rewrites.run_get?]
    exact Dict.get?_of_mem _ (Rewrites.run_nodup ops) (by rw [h1]; simp)
  · refine Or.inr ⟨?_, h2⟩
    rintro ⟨o, r, hr, hp⟩
    rw [← Rewrites.run_get?] at hr
    exact h1 (o, r) (Dict.mem_get? _ hr) hp

/-- C24. When exactly one rule in force matches, that rule is applied. -/
theorem C24_unique_rule (ops : List RewriteOp) (o r rest : List Char) (h : currentRule ops o = some r)
    (hu : ∀ o' r', MatchingRule ops (o ++ rest) o' r' → o' = o) : (Rewrites.run ops).rewrite (o ++ rest) = r ++ rest := by
  rcases C24_rewrites_prefix ops (o ++ rest) with ⟨o', r', rest', h1, h2, h3⟩ | ⟨h1, _⟩
  · have := hu o' r' ⟨h1, rest', h2⟩
    subst this
    rw [h] at h1
    cases h1
    rw [h3, List.append_cancel_left h2]
  · exact absurd ⟨o, r, h, rest, rfl⟩ h1

/-- C24 is false for the choice of rule: a shorter start string wins when it was inserted first. -/
theorem C24_longest_rule_false :
    ∃ (ops : List RewriteOp) (uri o r rest : List Char), currentRule ops o = some r ∧ uri = o ++ rest ∧
      (∀ o' r', MatchingRule ops uri o' r' → o'.length ≤ o.length) ∧ (Rewrites.run ops).rewrite uri ≠ r ++ rest := by
  refine ⟨[.upsert ['h'] ['a'], .upsert ['h', 't'] ['b']], ['h', 't', 'x'], ['h', 't'], ['b'], ['x'], by decide, rfl, ?_, by decide⟩
  rintro o' r' ⟨h, _⟩
  rw [← Rewrites.run_get?] at h
  have := Dict.mem_get? _ h
  have hb : ∀ e ∈ Rewrites.run [.upsert ['h'] ['a'], .upsert ['h', 't'] ['b']], e.1.length ≤ 2 := by decide
  exact hb _ this

/-- C24. Which rule is used: the matching one that was inserted first (deleting and inserting again moves it to the end). -/
theorem C24_first_inserted_rule (ops : List RewriteOp) (uri : List Char) (pre post : Rewrites) (o r rest : List Char)
    (hd : Rewrites.run ops = pre ++ (o, r) :: post) (hu : uri = o ++ rest) (hpre : ∀ e ∈ pre, ¬ ∃ rest, uri = e.1 ++ rest) :
    (Rewrites.run ops).rewrite uri = r ++ rest := by
  rw [hd]
  clear hd
  induction pre with
  | nil =>
    simp only [List.nil_append, Rewrites.rewrite, startsWith]
    have : o.isPrefixOf uri = true := by rw [hu]; exact List.isPrefixOf_iff_prefix.2 (List.prefix_append _ _)
    simp [hu]
  | cons e pre ih =>
    obtain ⟨o', r'⟩ := e
    have hn : ¬ startsWith uri o' = true := by
      intro h
      obtain ⟨rest', h'⟩ := List.isPrefixOf_iff_prefix.1 h
      exact hpre (o', r') List.mem_cons_self ⟨rest', h'.symm⟩
    simp only [List.cons_append, Rewrites.rewrite, if_neg hn]
    exact ih (fun e he => hpre e (List.mem_cons_of_mem _ he))

example : (Rewrites.run [.upsert ['a'] ['x', 'y'], .delete ['q'], .upsert ['b'] ['z'], .delete ['a'], .upsert ['b'] ['w']]).rewrite
    ['b', 'c'] = ['w', 'c'] := by decide

/-! ### C52: tables -/

/-- C52 is false: storing any table in a fresh repository raises `TypeError`, so a filing with a table cannot be read. -/
theorem C52_tables_stored_false {ν : Type} (role : ν → String) (ts : List ν) (h : ts ≠ []) :
    TableStore.run role ts = .error .typeError := by
  cases ts with
  | nil => exact absurd rfl h
  | cons t ts => rfl

/-- C52, the part that holds: with no table at all the repository is usable and empty. -/
theorem C52_tables_partial {ν : Type} (role : ν → String) (s : TableStore ν) (ts : List ν) (h : TableStore.run role ts = .ok s) :
    ts = [] ∧ s.getAll = [] ∧ ∀ r, s.getWithLinkrole r = [] := by
  cases ts with
  | nil => cases h; exact ⟨rfl, rfl, fun _ => rfl⟩
  | cons t ts => cases h

/-! ### C53: networks -/

/-- C53. After any history the repository lists exactly the stored networks (as a permutation), the networks of a class are the
stored ones of that class in order, and the networks of a link role are exactly the stored ones with that role. -/
theorem C53_networks {τ ν : Type} [DecidableEq τ] (ty : ν → τ) (role : ν → String) (hs : List ν) :
    ((hs.foldl (NetStore.upsert ty) []).getAll).Perm hs ∧
    (∀ t, (hs.foldl (NetStore.upsert ty) []).getByType t = hs.filter (fun n => ty n = t)) ∧
    (∀ r, ((hs.foldl (NetStore.upsert ty) []).getByLinkrole role r).Perm (hs.filter (fun n => role n = r))) := by
  have hk : Dict.keys (hs.foldl (NetStore.upsert ty) []) = firstOccurrences (hs.map ty) := by
    rw [NetStore.run_keys]; exact foldl_appendNew_nil _
  have nd : (Dict.keys (hs.foldl (NetStore.upsert ty) [])).Nodup := by rw [hk]; exact firstOccurrences_nodup _
  have ht : ∀ t, (hs.foldl (NetStore.upsert ty) []).getByType t = hs.filter (fun n => ty n = t) := by
    intro t
    rw [NetStore.run_getByType]
    simp [NetStore.getByType, Dict.get?]
  have hmem : ∀ n ∈ hs, ty n ∈ firstOccurrences (hs.map ty) := fun n hn => by
    rw [mem_firstOccurrences]; exact List.mem_map_of_mem hn
  have hall : ((hs.foldl (NetStore.upsert ty) []).getAll).Perm hs := by
    unfold NetStore.getAll
    rw [flatMap_dict _ (fun l => l) nd, hk]
    have : (fun t => (Dict.get? (hs.foldl (NetStore.upsert ty) []) t).getD []) = fun t => hs.filter (fun n => ty n = t) := by
      funext t; exact ht t
    rw [this]
    exact group_perm ty _ (firstOccurrences_nodup _) hs hmem
  refine ⟨hall, ht, ?_⟩
  intro r
  have e : (hs.foldl (NetStore.upsert ty) []).getByLinkrole role r =
      ((hs.foldl (NetStore.upsert ty) []).getAll).filter (fun n => role n = r) := by
    unfold NetStore.getByLinkrole NetStore.getAll
    rw [List.filter_flatMap]
  rw [e]
  exact hall.filter _

example : ([(1, "a"), (2, "b"), (1, "c")].foldl (NetStore.upsert (·.1)) ([] : NetStore Nat (Nat × String))).getAll
    = [(1, "a"), (1, "c"), (2, "b")] := by decide

/-! ### C54: characteristics -/

/-- C54. Looking up a characteristic returns the latest one stored under that id and class, and `ValueError` exactly when there is
none; entries of other ids or classes are never returned. -/
theorem C54_lookup (hs : List (String × Characteristic)) (i : String) (k : CharKind) :
    let s := hs.foldl (fun s x => CharStore.upsert s x.1 x.2) []
    (∀ c, s.lookup i k = .ok c ↔ latest (fun x => (x.1, x.2.kind)) hs (i, k) = some (i, c)) ∧
    (s.lookup i k = .error .valueError ↔ ∀ x ∈ hs, ¬ (x.1 = i ∧ x.2.kind = k)) ∧
    (s.hasKey i k = true ↔ ∃ x ∈ hs, x.1 = i ∧ x.2.kind = k) := by
  intro s
  have hg : Dict.get? s (i, k) = (latest (fun x => (x.1, x.2.kind)) hs (i, k)).map (·.2) := by
    have := foldl_set_get? (fun x : String × Characteristic => (x.1, x.2.kind)) (fun x => x.2) hs [] (i, k)
    show Dict.get? (hs.foldl (fun d x => Dict.set d (x.1, x.2.kind) x.2) []) (i, k) = _
    rw [this]
    cases latest (fun x : String × Characteristic => (x.1, x.2.kind)) hs (i, k) <;> rfl
  have hn := latest_none (fun x : String × Characteristic => (x.1, x.2.kind)) hs (i, k)
  have hn' : latest (fun x : String × Characteristic => (x.1, x.2.kind)) hs (i, k) = none ↔ ∀ x ∈ hs, ¬ (x.1 = i ∧ x.2.kind = k) := by
    rw [hn]; simp
  unfold CharStore.lookup CharStore.hasKey
  rw [Dict.has_eq, hg, ← hn']
  cases h : latest (fun x : String × Characteristic => (x.1, x.2.kind)) hs (i, k) with
  | none =>
    have := hn'.1 h
    simp only [Option.map_none]
    refine ⟨fun c => by simp, by simp, ?_⟩
    simp only [Option.isSome_none, Bool.false_eq_true, false_iff]
    rintro ⟨x, hx, hh⟩
    exact this x hx hh
  | some x =>
    obtain ⟨hx, hkey⟩ := latest_some _ _ _ _ h
    simp only [Prod.mk.injEq] at hkey
    obtain ⟨h1, h2⟩ := hkey
    obtain ⟨a, c⟩ := x
    simp only at h1 h2
    subst h1
    simp only [Option.map_some, h2, if_true]
    refine ⟨fun c' => ?_, by simp, ?_⟩
    · simp
    · simp only [Option.isSome_some, true_iff]
      exact ⟨_, hx, rfl, h2⟩

example : let s : CharStore := ([("a", Characteristic.ofEntity "1" "s"), ("a", Characteristic.ofUnit "usd" [] []),
      ("a", Characteristic.ofEntity "2" "s")] : List (String × Characteristic)).foldl (fun s x => CharStore.upsert s x.1 x.2) []
    s.lookup "a" .entity = .ok (Characteristic.ofEntity "2" "s") ∧ s.lookup "a" .unit = .ok (Characteristic.ofUnit "usd" [] []) ∧
    s.lookup "a" .period = .error .valueError := by decide

end Brel
