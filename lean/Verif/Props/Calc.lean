import Verif.Lemmas.Calc

/-! C16, C17, C55: the checks on calculation networks. -/

namespace Brel
variable {F : Type}

/-! ### C16: balance consistency -/

/-- C16. The network is balance consistent exactly when every concept in it has a balance and, for every parent and child, equal
balances have a weight that is not negative and different balances a weight that is not positive. -/
theorem C16_balance (ops : FloatOps F) (ts : List (CalcTree F)) :
    isBalanceConsistent ops ts = true ↔
      (∀ n, InForest ts n → n.concept.balance ≠ none) ∧
      (∀ n m, InForest ts n → m ∈ n.children →
        (n.concept.balance = m.concept.balance → ops.lt m.weight ops.zero = false) ∧
        (n.concept.balance ≠ m.concept.balance → ops.lt ops.zero m.weight = false)) := by
  have h1 : isBalanceConsistent ops ts = true ↔ ∀ n, InForest ts n → BalanceOk ops n := by
    induction ts with
    | nil =>
      simp only [isBalanceConsistent, true_iff]
      intro n hn
      exfalso
      induction hn with
      | root h => cases h
      | child _ _ ih => exact ih
    | cons t ts ih =>
      rw [isBalanceConsistent]
      have hs := subtreeBalance_iff ops t
      cases hb : subtreeBalance ops t with
      | true =>
        simp only [Bool.not_true, Bool.false_eq_true, if_false, ih]
        constructor
        · intro h n hn
          rcases (inForest_cons t ts n).1 hn with hn | hn
          · exact hs.1 hb n hn
          · exact h n hn
        · intro h n hn
          exact h n ((inForest_cons t ts n).2 (Or.inr hn))
      | false =>
        simp only [Bool.not_false, if_true, Bool.false_eq_true, false_iff]
        intro h
        have := hs.2 (fun n hn => h n ((inForest_cons t ts n).2 (Or.inl hn)))
        rw [hb] at this; cases this
  rw [h1]
  constructor
  · intro h
    constructor
    · intro n hn e
      obtain ⟨b, hb, _⟩ := h n hn
      rw [hb] at e; cases e
    · intro n m hn hm
      obtain ⟨b, hb, h2⟩ := h n hn
      obtain ⟨b', hb', h3, h4⟩ := h2 m hm
      rw [hb, hb']
      refine ⟨fun e => h3 (Option.some.inj e), fun e => h4 (fun e' => e (by rw [e']))⟩
  · rintro ⟨h2, h3⟩ n hn
    cases hb : n.concept.balance with
    | none => exact absurd hb (h2 n hn)
    | some b =>
      refine ⟨b, hb, ?_⟩
      intro m hm
      cases hb' : m.concept.balance with
      | none => exact absurd hb' (h2 m (.child hn hm))
      | some b' =>
        obtain ⟨h4, h5⟩ := h3 n m hn hm
        rw [hb, hb'] at h4 h5
        exact ⟨b', rfl, fun e => h4 (by rw [e]), fun e => h5 (fun e' => e (Option.some.inj e'))⟩

/-- Integer arithmetic stands in for floats in the examples. -/
def intOps : FloatOps Int where
  ofStr s := if s = "8" then some 8 else if s = "5" then some 5 else if s = "3" then some 3 else none
  zero := 0
  add := (· + ·)
  mul := (· * ·)
  eq a b := decide (a = b)
  lt a b := decide (a < b)

/-- A three level network that is balance consistent, and one that fails at the lowest level. -/
example :
    let c (n b : String) : Concept := { name := ⟨"u", "p", n⟩, balance := some b }
    isBalanceConsistent intOps [.node (c "A" "debit") 1 [.node (c "B" "credit") (-1) [.node (c "C" "credit") 1 []], .node (c "D" "debit") 1 []]] = true ∧
    isBalanceConsistent intOps [.node (c "A" "debit") 1 [.node (c "B" "credit") (-1) [.node (c "C" "debit") 1 []], .node (c "D" "debit") 1 []]] = false := by
  decide

/-! ### C17: aggregation consistency -/

/-- C17, what the check decides: it returns `True` exactly when the sums hold at every node that is reached from a root through
nodes with at least one fact. -/
theorem C17_aggregation_exact (ops : FloatOps F) (facts : List Fact) (hall : ∀ f ∈ facts, ∃ k, f.HasConcept k) (ts : List (CalcTree F)) :
    isAggregationConsistent ops facts ts = .ok true ↔ ∀ n, ReachedThroughReported facts ts n → SumsHold ops facts n := by
  rw [isAgg_true]
  constructor
  · intro h n hn
    exact ((subtreeAgg_true ops facts hall n).1 (reached_subtree ops facts hall ts h n hn)).1
  · intro h t ht
    exact subtree_of_reached ops facts hall t ts (.root ht) h

/-- C17, the part that holds: if every inner node that has a grandchild is reported, `True` means that every sum in the network
holds. -/
theorem C17_all_sums_checked_partial (ops : FloatOps F) (facts : List Fact) (hall : ∀ f ∈ facts, ∃ k, f.HasConcept k) (ts : List (CalcTree F))
    (hrep : ∀ n m, InForest ts n → m ∈ n.children → m.children ≠ [] → Reported facts n) :
    isAggregationConsistent ops facts ts = .ok true ↔ ∀ n, InForest ts n → SumsHold ops facts n := by
  rw [C17_aggregation_exact ops facts hall]
  have key : ∀ n, InForest ts n → n.children ≠ [] → ReachedThroughReported facts ts n := by
    intro n hn
    induction hn with
    | root ht => exact fun _ => .root ht
    | @child n m hn hm ih =>
      intro hc
      exact .child (ih (List.ne_nil_of_mem hm)) (hrep n m hn hm hc) hm
  constructor
  · intro h n hn hne
    exact h n (key n hn hne) hne
  · intro h n hn
    refine h n ?_
    clear h
    induction hn with
    | root ht => exact .root ht
    | child _ _ hm ih => exact .child ih hm

/-- A fact of a concept in period `y`, with an optional typed dimension. -/
def exFact (n value : String) (y : Nat) (dim : Option String := none) : Fact :=
  { id := some n, value := value, context := ([Characteristic.ofConcept { name := ⟨"u", "p", n⟩ }, Characteristic.ofPeriod (.instant ⟨y, 12, 31⟩)] ++
      (dim.toList.map (fun v => (⟨{ name := "p:Axis" }, .typed ⟨"u", "p", "Axis"⟩ [7] v⟩ : Characteristic)))).foldl Context.add (Context.new n) }

/-- A node without labels. -/
def exNode (n : String) (w : Int) (chs : List (CalcTree Int)) : CalcTree Int := .node { name := ⟨"u", "p", n⟩ } w chs

/-- C17 is false: below a total that is not reported, a wrong sum goes unnoticed. -/
theorem C17_aggregation_false :
    ∃ (facts : List Fact) (ts : List (CalcTree Int)), (∀ f ∈ facts, ∃ k, f.HasConcept k) ∧
      isAggregationConsistent intOps facts ts = .ok true ∧ ∃ n, InForest ts n ∧ ¬ SumsHold intOps facts n := by
  refine ⟨[exFact "B" "8" 2020, exFact "C" "5" 2020], [exNode "A" 1 [exNode "B" 1 [exNode "C" 1 []]]], ?_, by decide, exNode "B" 1 [exNode "C" 1 []], ?_, ?_⟩
  · intro f hf
    rcases List.mem_cons.1 hf with rfl | hf
    · exact ⟨{ name := ⟨"u", "p", "B"⟩ }, by decide, by decide⟩
    · rw [List.mem_singleton] at hf
      subst hf
      exact ⟨{ name := ⟨"u", "p", "C"⟩ }, by decide, by decide⟩
  · exact .child (.root List.mem_cons_self) List.mem_cons_self
  · have hall : ∀ f ∈ [exFact "B" "8" 2020, exFact "C" "5" 2020], ∃ k, f.HasConcept k := by
      intro f hf
      rcases List.mem_cons.1 hf with rfl | hf
      · exact ⟨{ name := ⟨"u", "p", "B"⟩ }, by decide, by decide⟩
      · rw [List.mem_singleton] at hf
        subst hf
        exact ⟨{ name := ⟨"u", "p", "C"⟩ }, by decide, by decide⟩
    intro h
    have : subtreeAgg intOps [exFact "B" "8" 2020, exFact "C" "5" 2020] (exNode "B" 1 [exNode "C" 1 []]) = .ok true := by
      rw [subtreeAgg_true _ _ hall]
      refine ⟨h, ?_⟩
      intro _ m hm
      have : m = exNode "C" 1 [] := by simpa [exNode, CalcTree.children] using hm
      subst this
      decide
    revert this
    decide

/-- A consistent network over two periods with facts for every node, and the same network with one wrong value in one period. -/
example :
    let ts := [exNode "A" 1 [exNode "B" 1 [], exNode "C" (-1) []]]
    let facts v := [exFact "A" "5" 2020, exFact "B" "8" 2020, exFact "C" "3" 2020, exFact "A" v 2021, exFact "B" "8" 2021, exFact "C" "5" 2021]
    isAggregationConsistent intOps (facts "3") ts = .ok true ∧ isAggregationConsistent intOps (facts "8") ts = .ok false := by
  decide

/-- C17. A missing or ambiguous child fact is never passed over: for every fact of a root whose value is a number, if the first child
has no unique matching fact then the check raises `ValueError`, unless an earlier fact already decides. Here for a single total. -/
theorem C17_missing_child_raises (ops : FloatOps F) (facts : List Fact) (hall : ∀ f ∈ facts, ∃ k, f.HasConcept k)
    (c : Concept) (w : F) (ch : CalcTree F) (chs ts : List (CalcTree F)) (f : Fact) (fs : List Fact) (v : F)
    (hfs : factsOfConcept facts c.name = .ok (f :: fs)) (hv : ops.ofStr f.value = some v) (h : ¬ ∃ g, UniqueMatch facts f ch.concept g) :
    isAggregationConsistent ops facts (.node c w (ch :: chs) :: ts) = .error .valueError := by
  have hf : ∃ k, f.HasConcept k := by
    obtain ⟨l, hl, hm⟩ := factsOfConcept_ok facts hall c.name
    rw [hfs] at hl
    cases hl
    exact hall f ((hm f).1 List.mem_cons_self).1
  have hcf : childFact facts f ch.concept = .error .valueError := by
    cases hc : childFact facts f ch.concept with
    | ok g => exact absurd ⟨g, (childFact_iff facts hall f hf _ g).1 hc⟩ h
    | error e => rw [childFact_error facts hall f _ e hc]
  rw [isAggregationConsistent, subtreeAgg]
  simp only [List.isEmpty_cons, Bool.false_eq_true, if_false, hfs, bind, Except.bind, nodeFactsLoop, (toFloat_iff ops f v).2 hv, childrenSum, hcf]

/-! ### C55: facts that should not matter -/

/-- C55, the part that holds: a fact that is neither of an inner node's concept nor matches a fact of an inner node at one of its
children does not change the outcome, wherever it stands in the list. -/
theorem C55_irrelevant_fact_partial (ops : FloatOps F) (l1 l2 : List Fact) (g : Fact) (hall : ∀ f ∈ l1 ++ g :: l2, ∃ k, f.HasConcept k)
    (ts : List (CalcTree F))
    (h : ∀ n, InForest ts n → n.children ≠ [] → (∀ k, g.HasConcept k → k.name ≠ n.concept.name) ∧
      ∀ f ∈ l1 ++ l2, (∃ k, f.HasConcept k ∧ k.name = n.concept.name) → ∀ ch ∈ n.children, ¬ Matches f ch.concept g) :
    isAggregationConsistent ops (l1 ++ g :: l2) ts = isAggregationConsistent ops (l1 ++ l2) ts := by
  induction ts with
  | nil => rfl
  | cons t ts ih =>
    rw [isAggregationConsistent, isAggregationConsistent,
      subtreeAgg_insert ops l1 l2 g hall t (fun n hn => h n ((inForest_cons t ts n).2 (Or.inl hn))),
      ih (fun n hn => h n ((inForest_cons t ts n).2 (Or.inr hn)))]

/-- C55. In particular a fact of a concept outside the network does not matter. -/
theorem C55_foreign_concept (ops : FloatOps F) (l1 l2 : List Fact) (g : Fact) (hall : ∀ f ∈ l1 ++ g :: l2, ∃ k, f.HasConcept k)
    (ts : List (CalcTree F)) (h : ∀ n, InForest ts n → ∀ k, g.HasConcept k → k.name ≠ n.concept.name) :
    isAggregationConsistent ops (l1 ++ g :: l2) ts = isAggregationConsistent ops (l1 ++ l2) ts := by
  apply C55_irrelevant_fact_partial ops l1 l2 g hall ts
  intro n hn _
  refine ⟨h n hn, ?_⟩
  rintro f _ _ ch hch ⟨⟨k, hk, hkn⟩, _⟩
  obtain ⟨k', hk'⟩ := hall g (by simp)
  rw [hk'.1] at hk
  cases hk
  exact h ch (.child hn hch) _ hk' hkn

/-- C55 is false: reporting a child additionally for a member of a dimension, which the total does not have, makes the check of the
undimensioned total raise an error, although the matching undimensioned facts add up. -/
theorem C55_breakdown_does_not_matter_false :
    ∃ (facts : List Fact) (g : Fact) (ts : List (CalcTree Int)),
      (∀ f ∈ facts ++ [g], ∃ k, f.HasConcept k) ∧ g.isCore = false ∧ (∀ f ∈ facts, f.isCore = true) ∧
      isAggregationConsistent intOps facts ts = .ok true ∧ isAggregationConsistent intOps (facts ++ [g]) ts = .error .valueError := by
  refine ⟨[exFact "A" "8" 2020, exFact "B" "8" 2020], exFact "B" "5" 2020 (some "north"), [exNode "A" 1 [exNode "B" 1 []]], ?_, by decide, by decide,
    by decide, by decide⟩
  intro f hf
  simp only [List.cons_append, List.nil_append, List.mem_cons, List.not_mem_nil, or_false] at hf
  rcases hf with rfl | rfl | rfl
  · exact ⟨{ name := ⟨"u", "p", "A"⟩ }, by decide, by decide⟩
  · exact ⟨{ name := ⟨"u", "p", "B"⟩ }, by decide, by decide⟩
  · exact ⟨{ name := ⟨"u", "p", "B"⟩ }, by decide, by decide⟩

end Brel
