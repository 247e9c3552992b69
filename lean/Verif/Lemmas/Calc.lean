import Verif.Spec.Calc
import Verif.Lemmas.Filing

namespace Brel
variable {F : Type}

theorem CalcTree.ind {P : CalcTree F → Prop} (h : ∀ c w chs, (∀ t ∈ chs, P t) → P (.node c w chs)) : ∀ t, P t :=
  CalcTree.rec (motive_1 := P) (motive_2 := fun l => ∀ t ∈ l, P t)
    (fun c w chs ih => h c w chs ih) (fun _ h => nomatch h)
    (fun _ _ h1 h2 t ht => (List.mem_cons.1 ht).elim (fun e => e ▸ h1) (h2 t))

theorem InForest.mono {ts us : List (CalcTree F)} (h : ∀ t ∈ ts, InForest us t) {n : CalcTree F} (hn : InForest ts n) : InForest us n := by
  induction hn with
  | root ht => exact h _ ht
  | child _ hm ih => exact .child ih hm

theorem inForest_cons (t : CalcTree F) (ts : List (CalcTree F)) (n : CalcTree F) :
    InForest (t :: ts) n ↔ InForest [t] n ∨ InForest ts n := by
  constructor
  · intro h
    induction h with
    | root ht =>
      rcases List.mem_cons.1 ht with rfl | ht
      · exact Or.inl (.root (by simp))
      · exact Or.inr (.root ht)
    | child _ hm ih => exact ih.imp (fun h => .child h hm) (fun h => .child h hm)
  · rintro (h | h)
    · exact h.mono (fun x hx => .root (by simp at hx; simp [hx]))
    · exact h.mono (fun x hx => .root (List.mem_cons_of_mem _ hx))

theorem inForest_single (t : CalcTree F) (n : CalcTree F) : InForest [t] n ↔ n = t ∨ InForest t.children n := by
  constructor
  · intro h
    induction h with
    | root ht => exact Or.inl (by simpa using ht)
    | child _ hm ih =>
      rcases ih with rfl | ih
      · exact Or.inr (.root hm)
      · exact Or.inr (.child ih hm)
  · rintro (rfl | h)
    · exact .root (by simp)
    · exact h.mono (fun x hx => .child (.root (by simp)) hx)

/-- The condition on one parent and its children. -/
def BalanceOk (ops : FloatOps F) (n : CalcTree F) : Prop :=
  ∃ b, n.concept.balance = some b ∧ ∀ m ∈ n.children, ∃ b', m.concept.balance = some b' ∧
    (b = b' → ops.lt m.weight ops.zero = false) ∧ (b ≠ b' → ops.lt ops.zero m.weight = false)

theorem balanceConflict_false (ops : FloatOps F) (b : String) (m : CalcTree F) : balanceConflict ops b m = false ↔
    ∃ b', m.concept.balance = some b' ∧ (b = b' → ops.lt m.weight ops.zero = false) ∧ (b ≠ b' → ops.lt ops.zero m.weight = false) := by
  unfold balanceConflict
  cases m.concept.balance with
  | none => simp
  | some b' =>
    by_cases h : b = b'
    · subst h; simp
    · simp [h]

theorem subtreeBalance_iff (ops : FloatOps F) (t : CalcTree F) :
    subtreeBalance ops t = true ↔ ∀ n, InForest [t] n → BalanceOk ops n := by
  induction t using CalcTree.ind with
  | h c w chs ih =>
    have hc : ∀ b (l : List (CalcTree F)), (∀ t ∈ l, t ∈ chs) → (childrenBalance ops b l = true ↔
        (∀ m ∈ l, balanceConflict ops b m = false) ∧ ∀ n, InForest l n → BalanceOk ops n) := by
      intro b l hl
      induction l with
      | nil =>
        simp only [childrenBalance, List.not_mem_nil, false_implies, implies_true, true_and, true_iff]
        intro n hn
        exfalso
        induction hn with
        | root h => cases h
        | child _ _ ih => exact ih
      | cons m l ihl =>
        have i1 := ih m (hl m List.mem_cons_self)
        have i2 := ihl (fun t ht => hl t (List.mem_cons_of_mem _ ht))
        rw [childrenBalance]
        constructor
        · intro h
          split at h
          · cases h
          · rename_i h1
            split at h
            · cases h
            · rename_i h2
              have h2 : subtreeBalance ops m = true := by simpa using h2
              obtain ⟨a1, a2⟩ := i2.1 h
              refine ⟨?_, ?_⟩
              · intro x hx
                rcases List.mem_cons.1 hx with rfl | hx
                · simpa using h1
                · exact a1 x hx
              · intro n hn
                rcases (inForest_cons m l n).1 hn with hn | hn
                · exact i1.1 h2 n hn
                · exact a2 n hn
        · rintro ⟨h1, h2⟩
          have h3 : subtreeBalance ops m = true := i1.2 (fun n hn => h2 n ((inForest_cons m l n).2 (Or.inl hn)))
          have h4 := i2.2 ⟨fun x hx => h1 x (List.mem_cons_of_mem _ hx), fun n hn => h2 n ((inForest_cons m l n).2 (Or.inr hn))⟩
          simp [h1 m List.mem_cons_self, h3, h4]
    rw [subtreeBalance]
    cases hb : c.balance with
    | none =>
      simp only [Bool.false_eq_true, false_iff]
      intro h
      obtain ⟨b, e, _⟩ := h (.node c w chs) (.root (by simp))
      simp [CalcTree.concept, hb] at e
    | some b =>
      simp only
      rw [hc b chs (fun _ h => h)]
      constructor
      · rintro ⟨h1, h2⟩ n hn
        rcases (inForest_single _ n).1 hn with rfl | hn
        · exact ⟨b, hb, fun m hm => (balanceConflict_false ops b m).1 (h1 m hm)⟩
        · exact h2 n hn
      · intro h
        refine ⟨?_, fun n hn => h n ((inForest_single _ n).2 (Or.inr hn))⟩
        intro m hm
        obtain ⟨b', e, h'⟩ := h (.node c w chs) (.root (by simp))
        have : b = b' := by simpa [CalcTree.concept, hb] using e
        subst this
        exact (balanceConflict_false ops b m).2 (h' m hm)

/-! ### Aggregation -/

theorem filterM_bind_ok (cands : List Fact) (p : Fact → Bool) (g : Fact → Except PyErr Bool) (h : ∀ f ∈ cands, g f = .ok (p f)) :
    cands.filterM g = .ok (cands.filter p) := filterM_except_ok g p cands h

/-- One step of the filter keeps exactly this. -/
def keepAspect (f : Fact) (c : Concept) (a : Aspect) (g : Fact) : Bool :=
  if a.name = "concept" then (match g.getConcept with | .ok k => decide (k.name = c.name) | .error _ => false)
  else optCharEq (g.context.getCharacteristic a) (f.context.getCharacteristic a)

theorem filterAspect_ok (f : Fact) (c : Concept) (a : Aspect) (cands : List Fact) (h : ∀ g ∈ cands, ∃ k, g.getConcept = .ok k) :
    filterAspect f c cands a = .ok (cands.filter (keepAspect f c a)) := by
  unfold filterAspect
  by_cases ha : a.name = "concept"
  · rw [if_pos (by simp [Aspect.eq, Aspect.concept, ha])]
    apply filterM_bind_ok
    intro g hg
    obtain ⟨k, hk⟩ := h g hg
    simp [keepAspect, ha, hk, bind, Except.bind, pure, Except.pure, Concept.eq]
  · rw [if_neg (by simp [Aspect.eq, Aspect.concept, ha])]
    congr 1
    apply List.filter_congr
    intro g _
    simp [keepAspect, ha]

theorem foldlM_filterAspect (f : Fact) (c : Concept) (as : List Aspect) : ∀ cands : List Fact,
    (∀ g ∈ cands, ∃ k, g.getConcept = .ok k) →
    as.foldlM (filterAspect f c) cands = .ok (cands.filter (fun g => as.all (fun a => keepAspect f c a g))) := by
  induction as with
  | nil =>
    intro cands _
    have : cands.filter (fun _ => true) = cands := List.filter_eq_self.2 (fun _ _ => rfl)
    simp [pure, Except.pure, this]
  | cons a as ih =>
    intro cands h
    rw [List.foldlM_cons, filterAspect_ok f c a cands h]
    show as.foldlM (filterAspect f c) (cands.filter (keepAspect f c a)) = _
    rw [ih _ (fun g hg => h g (List.mem_filter.1 hg).1), List.filter_filter]
    congr 1
    apply List.filter_congr
    intro g _
    simp [Bool.and_comm]

/-- Every fact of the list has a concept. -/
def HaveConcepts (facts : List Fact) : Prop := ∀ f ∈ facts, ∃ k, f.HasConcept k

theorem keepAll_iff (f : Fact) (c : Concept) (g : Fact) (hf : ∃ k, f.HasConcept k) :
    f.context.getAspects.all (fun a => keepAspect f c a g) = true ↔ Matches f c g := by
  obtain ⟨kf, _, hfa⟩ := hf
  have : ∃ a ∈ f.context.getAspects, a.name = "concept" := by
    unfold Context.hasCharacteristic at hfa
    obtain ⟨b, hb, e⟩ := List.any_eq_true.1 hfa
    refine ⟨b, hb, ?_⟩
    exact (of_decide_eq_true e).symm
  obtain ⟨a0, ha0, hn0⟩ := this
  rw [List.all_eq_true]
  unfold Matches
  constructor
  · intro h
    constructor
    · have := h a0 ha0
      unfold keepAspect at this
      rw [if_pos hn0] at this
      cases hg : g.getConcept with
      | error e => rw [hg] at this; cases this
      | ok k => rw [hg] at this; exact ⟨k, rfl, by simpa using this⟩
    · intro a ha hn
      have := h a ha
      unfold keepAspect at this
      rwa [if_neg hn] at this
  · rintro ⟨⟨k, hk, hkn⟩, h⟩ a ha
    unfold keepAspect
    by_cases hn : a.name = "concept"
    · rw [if_pos hn, hk]; simpa using hkn
    · rw [if_neg hn]; exact h a ha hn

theorem filter_eq_singleton {α : Type} (p : α → Bool) (l : List α) (x : α) :
    l.filter p = [x] ↔ ∃ pre post, l = pre ++ x :: post ∧ p x = true ∧ ∀ y ∈ pre ++ post, p y = false := by
  induction l with
  | nil => simp
  | cons a l ih =>
    by_cases h : p a = true
    · rw [List.filter_cons_of_pos h]
      constructor
      · intro e
        obtain ⟨rfl, e⟩ := List.cons.inj e
        exact ⟨[], l, rfl, h, by simpa using e⟩
      · rintro ⟨pre, post, e, hx, hy⟩
        cases pre with
        | nil =>
          obtain ⟨rfl, rfl⟩ := List.cons.inj e
          congr 1
          rw [List.filter_eq_nil_iff]
          intro y hy'
          simpa using hy y hy'
        | cons b pre =>
          obtain ⟨rfl, _⟩ := List.cons.inj e
          have := hy a (by simp)
          rw [h] at this; cases this
    · rw [List.filter_cons_of_neg h, ih]
      constructor
      · rintro ⟨pre, post, rfl, hx, hy⟩
        refine ⟨a :: pre, post, rfl, hx, ?_⟩
        intro y hy'
        rcases List.mem_cons.1 hy' with rfl | hy'
        · simpa using h
        · exact hy y hy'
      · rintro ⟨pre, post, e, hx, hy⟩
        cases pre with
        | nil =>
          obtain ⟨rfl, rfl⟩ := List.cons.inj e
          exact absurd hx h
        | cons b pre =>
          obtain ⟨rfl, rfl⟩ := List.cons.inj e
          exact ⟨pre, post, rfl, hx, fun y hy' => hy y (List.mem_cons_of_mem _ hy')⟩

theorem childFact_iff (facts : List Fact) (hall : HaveConcepts facts) (f : Fact) (hf : ∃ k, f.HasConcept k) (c : Concept) (g : Fact) :
    childFact facts f c = .ok g ↔ UniqueMatch facts f c g := by
  unfold childFact
  rw [foldlM_filterAspect f c _ facts (fun g hg => ⟨(hall g hg).choose, (hall g hg).choose_spec.1⟩)]
  have hmatch : ∀ g, (f.context.getAspects.all (fun a => keepAspect f c a g) = true) ↔ Matches f c g := fun g => keepAll_iff f c g hf
  have hcongr : facts.filter (fun g => f.context.getAspects.all (fun a => keepAspect f c a g)) = [g] ↔ UniqueMatch facts f c g := by
    rw [filter_eq_singleton]
    unfold UniqueMatch
    simp only [hmatch, ← Bool.not_eq_true]
  rw [← hcongr]
  simp only [bind, Except.bind]
  generalize facts.filter (fun g => f.context.getAspects.all (fun a => keepAspect f c a g)) = l
  match l with
  | [] => simp [throw, throwThe, MonadExceptOf.throw]
  | [x] => simp [pure, Except.pure]
  | x :: y :: l => simp [throw, throwThe, MonadExceptOf.throw]

theorem childFact_error (facts : List Fact) (hall : HaveConcepts facts) (f : Fact) (c : Concept) (e : PyErr)
    (h : childFact facts f c = .error e) : e = .valueError := by
  unfold childFact at h
  rw [foldlM_filterAspect f c _ facts (fun g hg => ⟨(hall g hg).choose, (hall g hg).choose_spec.1⟩)] at h
  revert h
  simp only [bind, Except.bind]
  generalize facts.filter (fun g => f.context.getAspects.all (fun a => keepAspect f c a g)) = l
  match l with
  | [] => intro h; simp [throw, throwThe, MonadExceptOf.throw] at h; exact h.symm
  | [x] => intro h; simp [pure, Except.pure] at h
  | x :: y :: l => intro h; simp [throw, throwThe, MonadExceptOf.throw] at h; exact h.symm

theorem toFloat_iff (ops : FloatOps F) (f : Fact) (x : F) : f.toFloat ops.ofStr = .ok x ↔ ops.ofStr f.value = some x := by
  unfold Fact.toFloat
  cases ops.ofStr f.value <;> simp

theorem childrenSum_iff (ops : FloatOps F) (facts : List Fact) (hall : HaveConcepts facts) (f : Fact) (hf : ∃ k, f.HasConcept k)
    (chs : List (CalcTree F)) : ∀ acc s, childrenSum ops facts f acc chs = .ok s ↔ WeightedSum ops facts f acc chs s := by
  induction chs with
  | nil =>
    intro acc s
    simp only [childrenSum, Except.ok.injEq]
    constructor
    · rintro rfl; exact .nil _
    · intro h; cases h; rfl
  | cons ch chs ih =>
    intro acc s
    rw [childrenSum]
    constructor
    · intro h
      cases hc : childFact facts f ch.concept with
      | error e => rw [hc] at h; cases h
      | ok g =>
        rw [hc] at h
        change (g.toFloat ops.ofStr >>= fun x => childrenSum ops facts f (ops.add acc (ops.mul x ch.weight)) chs) = _ at h
        cases hx : g.toFloat ops.ofStr with
        | error e => rw [hx] at h; cases h
        | ok x =>
          rw [hx] at h
          exact .cons ((childFact_iff facts hall f hf _ g).1 hc) ((toFloat_iff ops g x).1 hx) ((ih _ s).1 h)
    · intro h
      cases h with
      | cons hu hx hs =>
        rw [(childFact_iff facts hall f hf _ _).2 hu]
        show ((Fact.toFloat _ _) >>= _) = _
        rw [(toFloat_iff ops _ _).2 hx]
        exact (ih _ s).2 hs

/-- The loop over the facts of a node succeeds with `True` exactly when every sum holds and, if there is a fact, the children
are consistent. -/
theorem nodeFactsLoop_true (ops : FloatOps F) (facts : List Fact) (chs : List (CalcTree F)) (rest : Except PyErr Bool) (fs : List Fact) :
    nodeFactsLoop ops facts chs rest fs = .ok true ↔
      (∀ f ∈ fs, ∃ v s, f.toFloat ops.ofStr = .ok v ∧ childrenSum ops facts f ops.zero chs = .ok s ∧ ops.eq v s = true) ∧
      (fs ≠ [] → rest = .ok true) := by
  induction fs with
  | nil => simp [nodeFactsLoop]
  | cons f fs ih =>
    rw [nodeFactsLoop]
    cases hv : f.toFloat ops.ofStr with
    | error e => simp [hv, bind, Except.bind]
    | ok v =>
      cases hs : childrenSum ops facts f ops.zero chs with
      | error e => simp [hs, bind, Except.bind]
      | ok s =>
        cases he : ops.eq v s with
        | false => simp [hv, hs, he, bind, Except.bind, pure, Except.pure]
        | true =>
          cases rest with
          | error e => simp [he, bind, Except.bind]
          | ok r =>
            cases r with
            | false => simp [he, bind, Except.bind, pure, Except.pure]
            | true =>
              simp only [bind, Except.bind, Bool.not_true, he, Bool.false_eq_true, if_false]
              rw [ih]
              simp [hv, hs, he]

theorem childrenAgg_true (ops : FloatOps F) (facts : List Fact) (chs : List (CalcTree F)) :
    childrenAgg ops facts chs = .ok true ↔ ∀ t ∈ chs, subtreeAgg ops facts t = .ok true := by
  induction chs with
  | nil => simp [childrenAgg]
  | cons t chs ih =>
    rw [childrenAgg]
    cases h : subtreeAgg ops facts t with
    | error e => simp [h, bind, Except.bind]
    | ok r =>
      cases r with
      | false => simp [h, bind, Except.bind, pure, Except.pure]
      | true => simp [h, bind, Except.bind, ih]

theorem factsOfConcept_ok (facts : List Fact) (hall : HaveConcepts facts) (q : QName) :
    ∃ l, factsOfConcept facts q = .ok l ∧ ∀ f, f ∈ l ↔ f ∈ facts ∧ ∃ k, f.HasConcept k ∧ k.name = q := by
  have h : ∀ f ∈ facts, (do let c ← f.getConcept; return decide (c.name = q) : Except PyErr Bool) =
      .ok (match f.getConcept with | .ok c => decide (c.name = q) | .error _ => false) := by
    intro f hf
    obtain ⟨k, hk, _⟩ := hall f hf
    rw [hk]; rfl
  refine ⟨_, filterM_except_ok _ _ facts h, ?_⟩
  intro f
  rw [List.mem_filter]
  constructor
  · rintro ⟨hf, h⟩
    obtain ⟨k, hk⟩ := hall f hf
    rw [hk.1] at h
    exact ⟨hf, k, hk, by simpa using h⟩
  · rintro ⟨hf, k, hk, e⟩
    refine ⟨hf, ?_⟩
    rw [hk.1]; simpa using e

/-- The condition the code checks on a subtree. -/
theorem subtreeAgg_true (ops : FloatOps F) (facts : List Fact) (hall : HaveConcepts facts) (t : CalcTree F) :
    subtreeAgg ops facts t = .ok true ↔ SumsHold ops facts t ∧ (Reported facts t → ∀ m ∈ t.children, subtreeAgg ops facts m = .ok true) := by
  cases t with
  | node c w chs =>
    rw [subtreeAgg]
    unfold SumsHold Reported
    simp only [CalcTree.children, CalcTree.concept]
    cases hc : chs.isEmpty with
    | true =>
      have : chs = [] := by simpa using hc
      subst this
      simp
    | false =>
      have hne : chs ≠ [] := by rintro rfl; simp at hc
      obtain ⟨l, hl, hm⟩ := factsOfConcept_ok facts hall c.name
      simp only [Bool.false_eq_true, if_false, hl, bind, Except.bind, ne_eq, hne, not_false_eq_true, true_implies]
      rw [nodeFactsLoop_true, childrenAgg_true]
      constructor
      · rintro ⟨h1, h2⟩
        constructor
        · intro f hf hk
          obtain ⟨v, s, hv, hs, he⟩ := h1 f ((hm f).2 ⟨hf, hk⟩)
          exact ⟨v, s, (toFloat_iff ops f v).1 hv, (childrenSum_iff ops facts hall f (hall f hf) chs _ s).1 hs, he⟩
        · rintro ⟨f, hf, hk⟩
          exact h2 (List.ne_nil_of_mem ((hm f).2 ⟨hf, hk⟩))
      · rintro ⟨h1, h2⟩
        constructor
        · intro f hfl
          obtain ⟨hf, hk⟩ := (hm f).1 hfl
          obtain ⟨v, s, hv, hs, he⟩ := h1 f hf hk
          exact ⟨v, s, (toFloat_iff ops f v).2 hv, (childrenSum_iff ops facts hall f (hall f hf) chs _ s).2 hs, he⟩
        · intro hl
          obtain ⟨f, hfl⟩ := List.exists_mem_of_ne_nil _ hl
          obtain ⟨hf, hk⟩ := (hm f).1 hfl
          exact h2 ⟨f, hf, hk⟩

theorem isAgg_true (ops : FloatOps F) (facts : List Fact) (ts : List (CalcTree F)) :
    isAggregationConsistent ops facts ts = .ok true ↔ ∀ t ∈ ts, subtreeAgg ops facts t = .ok true := by
  induction ts with
  | nil => simp [isAggregationConsistent]
  | cons t ts ih =>
    rw [isAggregationConsistent]
    cases h : subtreeAgg ops facts t with
    | error e => simp [h, bind, Except.bind]
    | ok r =>
      cases r with
      | false => simp [h, bind, Except.bind, pure, Except.pure]
      | true => simp [h, bind, Except.bind, ih]

theorem reached_subtree (ops : FloatOps F) (facts : List Fact) (hall : HaveConcepts facts) (ts : List (CalcTree F))
    (h : ∀ t ∈ ts, subtreeAgg ops facts t = .ok true) (n : CalcTree F) (hn : ReachedThroughReported facts ts n) :
    subtreeAgg ops facts n = .ok true := by
  induction hn with
  | root ht => exact h _ ht
  | child _ hr hm ih => exact ((subtreeAgg_true ops facts hall _).1 ih).2 hr _ hm

theorem subtree_of_reached (ops : FloatOps F) (facts : List Fact) (hall : HaveConcepts facts) (t : CalcTree F) :
    ∀ ts, ReachedThroughReported facts ts t → (∀ n, ReachedThroughReported facts ts n → SumsHold ops facts n) →
    subtreeAgg ops facts t = .ok true := by
  induction t using CalcTree.ind with
  | h c w chs ih =>
    intro ts ht h
    rw [subtreeAgg_true ops facts hall]
    refine ⟨h _ ht, ?_⟩
    intro hr m hm
    exact ih m hm ts (.child ht hr hm) h

/-! ### Facts that play no role -/

theorem childFact_insert (l1 l2 : List Fact) (g : Fact) (hall : HaveConcepts (l1 ++ g :: l2)) (f : Fact) (hf : ∃ k, f.HasConcept k) (c : Concept)
    (h : ¬ Matches f c g) : childFact (l1 ++ g :: l2) f c = childFact (l1 ++ l2) f c := by
  have hall' : HaveConcepts (l1 ++ l2) := fun x hx => hall x (by simp at hx ⊢; rcases hx with hx | hx <;> simp [hx])
  unfold childFact
  rw [foldlM_filterAspect f c _ _ (fun g hg => ⟨(hall g hg).choose, (hall g hg).choose_spec.1⟩),
    foldlM_filterAspect f c _ _ (fun g hg => ⟨(hall' g hg).choose, (hall' g hg).choose_spec.1⟩)]
  have : ¬ (f.context.getAspects.all (fun a => keepAspect f c a g)) = true := by
    rw [keepAll_iff f c g hf]; exact h
  rw [List.filter_append, List.filter_cons_of_neg (p := fun g => f.context.getAspects.all (fun a => keepAspect f c a g)) this,
    ← List.filter_append]

theorem childrenSum_insert (ops : FloatOps F) (l1 l2 : List Fact) (g : Fact) (hall : HaveConcepts (l1 ++ g :: l2)) (f : Fact)
    (hf : ∃ k, f.HasConcept k) (chs : List (CalcTree F)) (h : ∀ ch ∈ chs, ¬ Matches f ch.concept g) :
    ∀ acc, childrenSum ops (l1 ++ g :: l2) f acc chs = childrenSum ops (l1 ++ l2) f acc chs := by
  induction chs with
  | nil => intro acc; rfl
  | cons ch chs ih =>
    intro acc
    rw [childrenSum, childrenSum, childFact_insert l1 l2 g hall f hf ch.concept (h ch List.mem_cons_self)]
    congr 1
    funext x
    congr 1
    funext y
    exact ih (fun ch hch => h ch (List.mem_cons_of_mem _ hch)) _

theorem nodeFactsLoop_congr (ops : FloatOps F) (facts facts' : List Fact) (chs : List (CalcTree F)) (rest rest' : Except PyErr Bool)
    (hr : rest = rest') (fs : List Fact) (h : ∀ f ∈ fs, childrenSum ops facts f ops.zero chs = childrenSum ops facts' f ops.zero chs) :
    nodeFactsLoop ops facts chs rest fs = nodeFactsLoop ops facts' chs rest' fs := by
  subst hr
  induction fs with
  | nil => rfl
  | cons f fs ih =>
    rw [nodeFactsLoop, nodeFactsLoop, h f List.mem_cons_self, ih (fun f hf => h f (List.mem_cons_of_mem _ hf))]

theorem factsOfConcept_insert (l1 l2 : List Fact) (g : Fact) (hall : HaveConcepts (l1 ++ g :: l2)) (q : QName)
    (h : ∀ k, g.HasConcept k → k.name ≠ q) : factsOfConcept (l1 ++ g :: l2) q = factsOfConcept (l1 ++ l2) q := by
  have hp : ∀ l : List Fact, HaveConcepts l → factsOfConcept l q =
      .ok (l.filter (fun f => match f.getConcept with | .ok c => decide (c.name = q) | .error _ => false)) := by
    intro l hl
    apply filterM_except_ok
    intro f hf
    obtain ⟨k, hk, _⟩ := hl f hf
    rw [hk]; rfl
  rw [hp _ hall, hp (l1 ++ l2) (fun x hx => hall x (by simp at hx ⊢; rcases hx with hx | hx <;> simp [hx]))]
  obtain ⟨k, hk⟩ := hall g (by simp)
  have := h k hk
  rw [List.filter_append, List.filter_cons_of_neg (by rw [hk.1]; simpa using this), ← List.filter_append]

/-- A fact that matches no child of an inner node and is not of an inner node's concept changes nothing. -/
theorem subtreeAgg_insert (ops : FloatOps F) (l1 l2 : List Fact) (g : Fact) (hall : HaveConcepts (l1 ++ g :: l2)) (t : CalcTree F) :
    (∀ n, InForest [t] n → n.children ≠ [] → (∀ k, g.HasConcept k → k.name ≠ n.concept.name) ∧
      ∀ f ∈ l1 ++ l2, (∃ k, f.HasConcept k ∧ k.name = n.concept.name) → ∀ ch ∈ n.children, ¬ Matches f ch.concept g) →
    subtreeAgg ops (l1 ++ g :: l2) t = subtreeAgg ops (l1 ++ l2) t := by
  have hall' : HaveConcepts (l1 ++ l2) := fun x hx => hall x (by simp at hx ⊢; rcases hx with hx | hx <;> simp [hx])
  induction t using CalcTree.ind with
  | h c w chs ih =>
    intro hirr
    have hch : ∀ l : List (CalcTree F), (∀ t ∈ l, t ∈ chs) → childrenAgg ops (l1 ++ g :: l2) l = childrenAgg ops (l1 ++ l2) l := by
      intro l hl
      induction l with
      | nil => simp [childrenAgg]
      | cons m l ihl =>
        rw [childrenAgg, childrenAgg, ihl (fun t ht => hl t (List.mem_cons_of_mem _ ht)),
          ih m (hl m List.mem_cons_self) (fun n hn => hirr n (hn.mono (fun x hx => by
            simp only [List.mem_singleton] at hx
            subst hx
            exact .child (n := .node c w chs) (.root (by simp)) (hl x List.mem_cons_self))))]
    rw [subtreeAgg, subtreeAgg]
    cases hc : chs.isEmpty with
    | true => rfl
    | false =>
      have hne : chs ≠ [] := by rintro rfl; simp at hc
      obtain ⟨h1, h2⟩ := hirr (.node c w chs) (.root (by simp)) hne
      simp only [Bool.false_eq_true, if_false]
      rw [factsOfConcept_insert l1 l2 g hall c.name h1]
      obtain ⟨l, hl, hm⟩ := factsOfConcept_ok (l1 ++ l2) hall' c.name
      rw [hl]
      show nodeFactsLoop _ _ _ _ l = nodeFactsLoop _ _ _ _ l
      apply nodeFactsLoop_congr _ _ _ _ _ _ (hch chs (fun _ h => h))
      intro f hf
      obtain ⟨hf, hk⟩ := (hm f).1 hf
      exact childrenSum_insert ops l1 l2 g hall f (hall' f hf) chs (h2 f hf hk) _

end Brel
