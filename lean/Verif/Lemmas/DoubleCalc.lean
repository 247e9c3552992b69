import Verif.Lemmas.FloatText
import Verif.Lemmas.Calc
import Verif.Model.CalcNetwork

/-! The aggregation check with floats and with exact numbers. -/

namespace Brel
open Spec
variable {dig : Char → Option Nat}

theorem isDouble_small {m k : Int} (hm : |m| < 2 ^ 53) (hk : -1074 ≤ k ∧ k ≤ 971) : IsDouble (m * (2 : ℚ) ^ k) := ⟨m, k, hm, hk.1, hk.2, rfl⟩

theorem CalcTree.mapWeights_eq {F G : Type} (g : F → G) (l : List (CalcTree F)) : CalcTree.mapWeights g l = l.map (CalcTree.mapWeight g) := by
  induction l with
  | nil => rfl
  | cons t l ih => simp [CalcTree.mapWeights, ih]

theorem CalcTree.mapWeight_concept {F G : Type} (g : F → G) (t : CalcTree F) : (t.mapWeight g).concept = t.concept := by cases t; rfl
theorem CalcTree.mapWeight_weight {F G : Type} (g : F → G) (t : CalcTree F) : (t.mapWeight g).weight = g t.weight := by cases t; rfl

/-- A fact is read as the same number by both. -/
theorem toFloat_fin (T : FloatDigitTable dig) {k B W : Int} {facts : List Fact} {ts : List (CalcTree ℚ)} (h : SmallNumbers dig k B W facts ts) {f : Fact} (hf : f ∈ facts) :
    (f.toFloat (pyDouble dig) = .error .valueError ∧ f.toFloat (doubleOf dig) = .error .valueError) ∨
    ∃ n : Int, |n| ≤ B ∧ f.toFloat (pyDouble dig) = .ok (.fin (n * (2 : ℚ) ^ k)) ∧ f.toFloat (doubleOf dig) = .ok (n * (2 : ℚ) ^ k) := by
  cases hp : pyFloat dig f.value.toList with
  | none => left; simp [Fact.toFloat, doubleOf, pyDouble, hp]
  | some r =>
    obtain ⟨n, hn, rfl⟩ := h.values f hf r ((pyFloat_iff T _ _).mp hp)
    right
    refine ⟨n, hn, ?_⟩
    have := rnd_of_double (isDouble_small (lt_of_le_of_lt hn h.bound) h.place)
    simp [Fact.toFloat, doubleOf, pyDouble, hp, FloatReading.toDbl, this, Dbl.number?]

theorem childFact_mem {facts : List Fact} (hall : HaveConcepts facts) {f : Fact} (hf : ∃ k, f.HasConcept k) {c : Concept} {g : Fact} (h : childFact facts f c = .ok g) : g ∈ facts := by
  obtain ⟨pre, post, e, _⟩ := (childFact_iff facts hall f hf c g).mp h
  rw [e]; simp

theorem childrenSum_fin (T : FloatDigitTable dig) {k B W : Int} {facts : List Fact} {ts : List (CalcTree ℚ)} (h : SmallNumbers dig k B W facts ts) (hall : HaveConcepts facts)
    {f : Fact} (hf : ∃ k, f.HasConcept k) : ∀ (chs : List (CalcTree ℚ)) (m : Int), (∀ c ∈ chs, ∃ w : Int, |w| ≤ W ∧ c.weight = w) → |m| + (chs.length : Int) * (B * W) < 2 ^ 53 →
    childrenSum (dblOps dig) facts f (.fin (m * (2 : ℚ) ^ k)) (chs.map (CalcTree.mapWeight Dbl.fin)) =
      (childrenSum (ratOps (doubleOf dig)) facts f (m * (2 : ℚ) ^ k) chs).map Dbl.fin := by
  intro chs
  induction chs with
  | nil => intro m _ _; rfl
  | cons c chs ih =>
    intro m hw hroom
    rw [List.map_cons, childrenSum, childrenSum, CalcTree.mapWeight_concept, CalcTree.mapWeight_weight]
    cases hc : childFact facts f c.concept with
    | error e => rfl
    | ok g =>
      simp only [bind, Except.bind]
      rcases toFloat_fin T h (childFact_mem hall hf hc) with ⟨h1, h2⟩ | ⟨n, hn, h1, h2⟩
      · simp only [dblOps, ratOps, h1, h2]; rfl
      · obtain ⟨w, hw1, hw2⟩ := hw c List.mem_cons_self
        have hnw : |n * w| ≤ B * W := by
          rw [abs_mul]; exact mul_le_mul hn hw1 (abs_nonneg _) (le_trans (abs_nonneg _) hn)
        have hlen : ((c :: chs).length : Int) * (B * W) = chs.length * (B * W) + B * W := by
          rw [List.length_cons]; push_cast; ring
        rw [hlen] at hroom
        have hBW : 0 ≤ B * W := le_trans (abs_nonneg _) hnw
        have hl0 : 0 ≤ (chs.length : Int) * (B * W) := mul_nonneg (by positivity) hBW
        have hm0 := abs_nonneg m
        have hsum : |m + n * w| ≤ |m| + B * W := le_trans (abs_add_le _ _) (by linarith)
        have d1 : rnd (n * (2 : ℚ) ^ k * w) = .fin ((n * w : Int) * (2 : ℚ) ^ k) := by
          rw [show (n * (2 : ℚ) ^ k * w) = ((n * w : Int) : ℚ) * 2 ^ k by push_cast; ring]
          exact rnd_of_double (isDouble_small (by linarith) h.place)
        have d2 : rnd (m * (2 : ℚ) ^ k + (n * w : Int) * (2 : ℚ) ^ k) = .fin ((m + n * w : Int) * (2 : ℚ) ^ k) := by
          rw [show (m * (2 : ℚ) ^ k + (n * w : Int) * (2 : ℚ) ^ k) = ((m + n * w : Int) : ℚ) * 2 ^ k by push_cast; ring]
          exact rnd_of_double (isDouble_small (by linarith) h.place)
        have e : (m * (2 : ℚ) ^ k + n * (2 : ℚ) ^ k * w) = ((m + n * w : Int) : ℚ) * 2 ^ k := by push_cast; ring
        have ih' := ih (m + n * w) (fun c hc => hw c (List.mem_cons_of_mem _ hc)) (by linarith)
        simp only [dblOps, ratOps, h1, h2, Dbl.mul, Dbl.add, hw2, d1, d2, e] at ih' ⊢
        exact ih'

theorem nodeFactsLoop_fin {facts : List Fact} {chs : List (CalcTree ℚ)} {chs' : List (CalcTree Dbl)} {rest : Except PyErr Bool} : ∀ fs : List Fact,
    (∀ f ∈ fs, f.toFloat (pyDouble dig) = (f.toFloat (doubleOf dig)).map Dbl.fin) →
    (∀ f ∈ fs, childrenSum (dblOps dig) facts f (.fin 0) chs' = (childrenSum (ratOps (doubleOf dig)) facts f 0 chs).map Dbl.fin) →
    nodeFactsLoop (dblOps dig) facts chs' rest fs = nodeFactsLoop (ratOps (doubleOf dig)) facts chs rest fs := by
  intro fs
  induction fs with
  | nil => intro _ _; rfl
  | cons f fs ih =>
    intro h1 h2
    have ih' := ih (fun f hf => h1 f (List.mem_cons_of_mem _ hf)) (fun f hf => h2 f (List.mem_cons_of_mem _ hf))
    rw [nodeFactsLoop, nodeFactsLoop, ih']
    have a := h1 f List.mem_cons_self
    have b := h2 f List.mem_cons_self
    show ((f.toFloat (pyDouble dig)).bind fun v => (childrenSum (dblOps dig) facts f (.fin 0) chs').bind _) = ((f.toFloat (doubleOf dig)).bind fun v => (childrenSum (ratOps (doubleOf dig)) facts f 0 chs).bind _)
    rw [a, b]
    cases f.toFloat (doubleOf dig) with
    | error e => rfl
    | ok v =>
      cases childrenSum (ratOps (doubleOf dig)) facts f 0 chs with
      | error e => rfl
      | ok s => rfl

theorem subtreeAgg_fin (T : FloatDigitTable dig) {k B W : Int} {facts : List Fact} {ts : List (CalcTree ℚ)} (h : SmallNumbers dig k B W facts ts) (hall : HaveConcepts facts) (t : CalcTree ℚ) :
    InForest ts t → subtreeAgg (dblOps dig) facts (t.mapWeight Dbl.fin) = subtreeAgg (ratOps (doubleOf dig)) facts t := by
  induction t using CalcTree.ind with
  | h c w chs ih =>
    intro ht
    rw [CalcTree.mapWeight, CalcTree.mapWeights_eq, subtreeAgg, subtreeAgg]
    have hchild : ∀ l : List (CalcTree ℚ), (∀ t ∈ l, t ∈ chs) → childrenAgg (dblOps dig) facts (l.map (CalcTree.mapWeight Dbl.fin)) = childrenAgg (ratOps (doubleOf dig)) facts l := by
      intro l
      induction l with
      | nil => intro _; rfl
      | cons t l ihl =>
        intro hl
        rw [List.map_cons, childrenAgg, childrenAgg, ih t (hl t List.mem_cons_self) (.child ht (hl t List.mem_cons_self)), ihl (fun t ht => hl t (List.mem_cons_of_mem _ ht))]
    rw [hchild chs (fun _ h => h)]
    by_cases he : chs = []
    · subst he; rfl
    · rw [if_neg (by simp [he]), if_neg (by simp [he])]
      obtain ⟨l, hl, hmem⟩ := factsOfConcept_ok facts hall c.name
      rw [hl]
      show nodeFactsLoop _ _ _ _ l = nodeFactsLoop _ _ _ _ l
      apply nodeFactsLoop_fin
      · intro f hf
        rcases toFloat_fin T h ((hmem f).mp hf).1 with ⟨h1, h2⟩ | ⟨n, _, h1, h2⟩ <;> rw [h1, h2] <;> rfl
      · intro f hf
        obtain ⟨k', hk', _⟩ := ((hmem f).mp hf).2
        have := childrenSum_fin T h hall ⟨k', hk'⟩ chs 0 (h.weights _ ht) (by simpa [CalcTree.children] using h.room _ ht)
        simpa using this

theorem isAgg_fin (T : FloatDigitTable dig) {k B W : Int} {facts : List Fact} {ts : List (CalcTree ℚ)} (h : SmallNumbers dig k B W facts ts) (hall : HaveConcepts facts) :
    isAggregationConsistent (dblOps dig) facts (CalcTree.mapWeights Dbl.fin ts) = isAggregationConsistent (ratOps (doubleOf dig)) facts ts := by
  rw [CalcTree.mapWeights_eq]
  have : ∀ l : List (CalcTree ℚ), (∀ t ∈ l, t ∈ ts) → isAggregationConsistent (dblOps dig) facts (l.map (CalcTree.mapWeight Dbl.fin)) = isAggregationConsistent (ratOps (doubleOf dig)) facts l := by
    intro l
    induction l with
    | nil => intro _; rfl
    | cons t l ih =>
      intro hl
      rw [List.map_cons, isAggregationConsistent, isAggregationConsistent, subtreeAgg_fin T h hall t (.root (hl t List.mem_cons_self)), ih (fun t ht => hl t (List.mem_cons_of_mem _ ht))]
  exact this ts (fun _ h => h)

end Brel
