import Verif.Lemmas.DoubleError
import Verif.Model.DoubleNetwork
import Verif.Props.Calc
import Verif.Props.FactValue
import Verif.Props.AggregationExample

/-!
C123: the numbers that `float` reads from the texts of facts. C124: the aggregation check with the arithmetic of floats.
-/

namespace Brel
open Spec
variable {dig : Char → Option Nat}

/-! ### C123: reading -/

/-- The ASCII digits are a table of digits. -/
theorem asciiFloatDigits : FloatDigitTable asciiDigit := by
  have h : ∀ c d, asciiDigit c = some d → 48 ≤ c.toNat ∧ c.toNat ≤ 57 ∧ d = c.toNat - 48 := by
    intro c d h
    unfold asciiDigit at h
    split at h
    · rename_i hc
      cases h
      exact ⟨UInt32.le_iff_toNat_le.mp hc.1, UInt32.le_iff_toNat_le.mp hc.2, rfl⟩
    · cases h
  have hne : ∀ c d, asciiDigit c = some d → ∀ x : Char, ¬ (48 ≤ x.toNat ∧ x.toNat ≤ 57) → c ≠ x := by
    rintro c d hc x hx rfl; exact hx ⟨(h c d hc).1, (h c d hc).2.1⟩
  have hlow : ∀ c d, asciiDigit c = some d → c.toLower = c := by
    intro c d hc
    have := h c d hc
    unfold Char.toLower
    split
    · rename_i hu
      have : 65 ≤ c.toNat := UInt32.le_iff_toNat_le.mp hu.1
      omega
    · rfl
  refine ⟨⟨?_, ?_, ?_⟩, ?_, ?_⟩
  · intro c d hc
    have := h c d hc
    unfold pySpace
    simp only [Bool.or_eq_false_iff, Bool.and_eq_false_iff, decide_eq_false_iff_not]
    omega
  · exact fun c d hc => ⟨hne c d hc _ (by decide), hne c d hc _ (by decide), hne c d hc _ (by decide)⟩
  · intro c d hc; have := h c d hc; omega
  · exact fun c d hc => ⟨hne c d hc _ (by decide), hne c d hc _ (by decide), hne c d hc _ (by decide)⟩
  · intro c d hc; rw [hlow c d hc]; exact ⟨hne c d hc _ (by decide), hne c d hc _ (by decide)⟩

/-- C123. `float(fact)` is the double nearest to the number that the text denotes, or the infinity or NaN that it names. -/
theorem C123_float (T : FloatDigitTable dig) (f : Fact) (x : Dbl) : f.toFloat (pyDouble dig) = .ok x ↔
    (∃ q, FloatText dig f.value.toList (.num q) ∧ NearestDouble q x) ∨ (∃ s, FloatText dig f.value.toList (.inf s) ∧ x = .inf s) ∨
      (FloatText dig f.value.toList .nan ∧ x = .nan) := by
  have e : f.toFloat (pyDouble dig) = .ok x ↔ ∃ r, FloatText dig f.value.toList r ∧ x = r.toDbl := by
    unfold Fact.toFloat pyDouble
    constructor
    · intro h
      cases hp : pyFloat dig f.value.toList with
      | none => rw [hp] at h; cases h
      | some r => rw [hp] at h; cases h; exact ⟨r, (pyFloat_iff T _ _).mp hp, rfl⟩
    · rintro ⟨r, hr, rfl⟩
      rw [(pyFloat_iff T _ _).mpr hr]; rfl
  rw [e]
  constructor
  · rintro ⟨r, hr, rfl⟩
    cases r with
    | num q => exact .inl ⟨q, hr, rnd_nearest q⟩
    | inf s => exact .inr (.inl ⟨s, hr, rfl⟩)
    | nan => exact .inr (.inr ⟨hr, rfl⟩)
  · rintro (⟨q, hq, hn⟩ | ⟨s, hs, rfl⟩ | ⟨hn, rfl⟩)
    · exact ⟨_, hq, (nearest_iff q x).mp hn⟩
    · exact ⟨_, hs, rfl⟩
    · exact ⟨_, hn, rfl⟩

/-- C123. `ValueError` exactly when the text denotes nothing. -/
theorem C123_float_error (T : FloatDigitTable dig) (f : Fact) : f.toFloat (pyDouble dig) = .error .valueError ↔ ¬ ∃ r, FloatText dig f.value.toList r := by
  unfold Fact.toFloat pyDouble
  cases hp : pyFloat dig f.value.toList with
  | none =>
    refine ⟨fun _ ⟨r, hr⟩ => ?_, fun _ => rfl⟩
    rw [(pyFloat_iff T _ _).mpr hr] at hp
    cases hp
  | some r =>
    refine ⟨fun h => ?_, fun h => absurd ⟨r, (pyFloat_iff T _ _).mp hp⟩ h⟩
    cases h

/-- C123. A text denotes at most one thing, so the result is determined by the text. -/
theorem C123_unique (T : FloatDigitTable dig) {s : List Char} {r r' : FloatReading} (h : FloatText dig s r) (h' : FloatText dig s r') : r = r' := by
  have := (pyFloat_iff T s r).mpr h
  rw [(pyFloat_iff T s r').mpr h'] at this
  exact (Option.some.inj this).symm

/-- C123 for `get_value()`: the value of a fact with a numeric concept that is not integer. -/
theorem C123_value (T : FloatDigitTable dig) (f : Fact) (c : Concept) (hc : f.getConcept = .ok c) (hi : c.isInteger = false) (h : c.isNumeric = true) (x : Dbl) :
    f.getValue dig (pyDouble dig) = .ok (.float x) ↔
    (∃ q, FloatText dig f.value.toList (.num q) ∧ NearestDouble q x) ∨ (∃ s, FloatText dig f.value.toList (.inf s) ∧ x = .inf s) ∨
      (FloatText dig f.value.toList .nan ∧ x = .nan) := by
  rw [(C04_numeric f c hc hi h).1 x, ← C123_float T f x]
  unfold Fact.toFloat
  cases pyDouble dig f.value <;> simp

/-- C123. A number that is a double is read without error: among others all multiples of a power of two with at most 53 binary digits. -/
theorem C123_exact_partial (T : FloatDigitTable dig) (f : Fact) {q : ℚ} (hq : FloatText dig f.value.toList (.num q)) (hd : IsDouble q) : f.toFloat (pyDouble dig) = .ok (.fin q) := by
  rw [C123_float T]
  exact .inl ⟨q, hq, by rw [nearest_iff]; exact (rnd_of_double hd).symm⟩

/-- C123. In general the number that is read is not the number that the text denotes: "0.1". -/
theorem C123_exact_false : ∃ f : Fact, FloatText asciiDigit f.value.toList (.num (1 / 10)) ∧ f.toFloat (pyDouble asciiDigit) ≠ .ok (.fin (1 / 10)) :=
  ⟨exFact "A" "0.1" 2020, (pyFloat_iff asciiFloatDigits _ _).mp (by decide +kernel), by decide +kernel⟩

/-- Texts of every form. -/
example : (exFact "A" " -1_00.5e2 " 2020).toFloat (pyDouble asciiDigit) = .ok (.fin (-10050)) ∧ (exFact "A" "1e999" 2020).toFloat (pyDouble asciiDigit) = .ok (.inf false) ∧
    (exFact "A" "-Infinity" 2020).toFloat (pyDouble asciiDigit) = .ok (.inf true) ∧ (exFact "A" "nan" 2020).toFloat (pyDouble asciiDigit) = .ok .nan ∧
    (exFact "A" ".5" 2020).toFloat (pyDouble asciiDigit) = .ok (.fin (1 / 2)) ∧ (exFact "A" "5." 2020).toFloat (pyDouble asciiDigit) = .ok (.fin 5) ∧
    (exFact "A" "5e-324" 2020).toFloat (pyDouble asciiDigit) = .ok (.fin (pow2 (-1074))) ∧ (exFact "A" "2e-324" 2020).toFloat (pyDouble asciiDigit) = .ok (.fin 0) ∧
    (exFact "A" "1,000" 2020).toFloat (pyDouble asciiDigit) = .error .valueError ∧ (exFact "A" "." 2020).toFloat (pyDouble asciiDigit) = .error .valueError ∧
    (exFact "A" "9007199254740993" 2020).toFloat (pyDouble asciiDigit) = .ok (.fin 9007199254740992) := by decide +kernel

/-! ### C124: the aggregation check -/

/-- What the exact sums are computed from: the numbers that the texts denote. -/
theorem exactOf_iff (T : FloatDigitTable dig) (s : String) (q : ℚ) : exactOf dig s = some q ↔ FloatText dig s.toList (.num q) := by
  unfold exactOf
  rw [← pyFloat_iff T]
  cases h : pyFloat dig s.toList with
  | none => simp
  | some r => cases r <;> simp

/-- C124. With integers (or multiples of another power of two) and integer weights the check with floats gives what the check with exact numbers gives, as long as the sums
have at most 53 binary digits. -/
theorem C124_exact_partial (T : FloatDigitTable dig) {k B W : Int} {facts : List Fact} (hall : ∀ f ∈ facts, ∃ k, f.HasConcept k) {ts : List (CalcTree ℚ)} (h : SmallNumbers dig k B W facts ts) :
    isAggregationConsistent (dblOps dig) facts (CalcTree.mapWeights Dbl.fin ts) = .ok true ↔
      ∀ n, ReachedThroughReported facts ts n → SumsHold (ratOps (exactOf dig)) facts n := by
  rw [isAgg_fin T h hall, C17_aggregation_exact _ _ hall]
  have hval : ∀ f ∈ facts, doubleOf dig f.value = exactOf dig f.value := by
    intro f hf
    unfold doubleOf pyDouble exactOf
    cases hp : pyFloat dig f.value.toList with
    | none => rfl
    | some r =>
      obtain ⟨n, hn, rfl⟩ := h.values f hf r ((pyFloat_iff T _ _).mp hp)
      have := rnd_of_double (isDouble_small (lt_of_le_of_lt hn h.bound) h.place)
      simp [FloatReading.toDbl, this, Dbl.number?]
  have hsum : ∀ {float float' : String → Option ℚ}, (∀ f ∈ facts, float f.value = float' f.value) → ∀ {f : Fact} {chs : List (CalcTree ℚ)} {acc s : ℚ},
      WeightedSum (ratOps float) facts f acc chs s → WeightedSum (ratOps float') facts f acc chs s := by
    intro float float' he f chs acc s hs
    induction hs with
    | nil acc => exact .nil acc
    | @cons _ _ _ g _ _ hu hx _ ih =>
      refine .cons hu ?_ ih
      obtain ⟨pre, post, e, _⟩ := id hu
      have := he g (by rw [e]; simp)
      show float' _ = _
      rw [← this]; exact hx
  have hone : ∀ {float float' : String → Option ℚ}, (∀ f ∈ facts, float f.value = float' f.value) → ∀ n, SumsHold (ratOps float) facts n → SumsHold (ratOps float') facts n := by
    intro float float' he n hn hne f hf hk
    obtain ⟨v, s, h1, h2, h3⟩ := hn hne f hf hk
    refine ⟨v, s, ?_, hsum he h2, h3⟩
    show float' _ = _
    rw [← he f hf]; exact h1
  exact ⟨fun h n hn => hone hval n (h n hn), fun h n hn => hone (fun f hf => (hval f hf).symm) n (h n hn)⟩

/-- Numbers of ordinary size: values of at most `X`, weights of at most `W`. -/
structure ModerateNumbers (dig : Char → Option Nat) (X W : ℚ) (facts : List Fact) (ts : List (CalcTree ℚ)) : Prop where
  valueBound : 1 ≤ X ∧ X ≤ 2 ^ (400 : Int)
  weightBound : 1 ≤ W ∧ W ≤ 2 ^ (400 : Int)
  values : ∀ f ∈ facts, ∀ r, FloatText dig f.value.toList r → ∃ x, r = .num x ∧ |x| ≤ X
  weights : ∀ t, InForest ts t → ∀ c ∈ t.children, |c.weight| ≤ W
  room : ∀ t, InForest ts t → t.children.length ≤ 2 ^ 40

/-- A total that is accepted differs from the exact sum by at most this. -/
def sumTolerance (X W : ℚ) (n : Nat) : ℚ := (X + 5 * (n : ℚ) ^ 2 * (X * W)) / 2 ^ 53 + 2 ^ (-1075 : Int)

/-- C124. If the check with floats succeeds, every total it meets differs from the exact weighted sum of its summands by no more than the tolerance: larger differences are found. -/
theorem C124_tolerance_partial (T : FloatDigitTable dig) {X W : ℚ} {facts : List Fact} (hall : ∀ f ∈ facts, ∃ k, f.HasConcept k) {ts : List (CalcTree ℚ)} (h : ModerateNumbers dig X W facts ts)
    (hok : isAggregationConsistent (dblOps dig) facts (CalcTree.mapWeights Dbl.fin ts) = .ok true) :
    ∀ n, ReachedThroughReported facts ts n → n.children ≠ [] → ∀ f ∈ facts, (∃ k, f.HasConcept k ∧ k.name = n.concept.name) →
      ∃ v S, exactOf dig f.value = some v ∧ WeightedSum (ratOps (exactOf dig)) facts f 0 n.children S ∧ |v - S| ≤ sumTolerance X W n.children.length := by
  rw [C17_aggregation_exact _ _ hall] at hok
  intro n hn hne f hf hk
  have hreach : ReachedThroughReported facts (CalcTree.mapWeights Dbl.fin ts) (n.mapWeight Dbl.fin) := by
    clear hne hk
    induction hn with
    | root ht => rw [CalcTree.mapWeights_eq]; exact .root (List.mem_map_of_mem ht)
    | @child n m _ hrep hm ih =>
      refine .child ih ?_ ?_
      · obtain ⟨f, hf, k, hk, hkn⟩ := hrep
        exact ⟨f, hf, k, hk, by rw [CalcTree.mapWeight_concept]; exact hkn⟩
      · cases n with
        | node c w chs => rw [CalcTree.mapWeight, CalcTree.mapWeights_eq]; exact List.mem_map_of_mem hm
  have hin : InForest ts n := by
    clear hne hk hreach
    induction hn with
    | root ht => exact .root ht
    | child _ _ hm ih => exact .child ih hm
  have hchs : (n.mapWeight Dbl.fin).children = n.children.map (CalcTree.mapWeight Dbl.fin) := by
    cases n; rw [CalcTree.mapWeight, CalcTree.mapWeights_eq]; rfl
  have hs := hok _ hreach
  unfold SumsHold at hs
  rw [hchs, CalcTree.mapWeight_concept] at hs
  obtain ⟨v, s, h1, h2, h3⟩ := hs (by simpa using hne) f hf hk
  have hval : ∀ g ∈ facts, ∀ r, pyFloat dig g.value.toList = some r → ∃ x, r = .num x ∧ |x| ≤ X := fun g hg r hr => h.values g hg r ((pyFloat_iff T _ _).mp hr)
  obtain ⟨S, s', g1, g2, g3⟩ := weightedSum_error h.valueBound h.weightBound hval n.children 0 0 0 s (h.weights n hin) (by have := h.room n hin; omega) (by simp) (by simp) h2
  obtain ⟨r, hr, hrv⟩ := Option.map_eq_some_iff.mp h1
  obtain ⟨x, rfl, hx⟩ := hval f hf r hr
  have hG : (1 : ℚ) ≤ 2 ^ (400 : Int) := one_le_zpow₀ (by norm_num) (by norm_num)
  obtain ⟨v', hv1, hv2⟩ := rnd_error (q := x) (lt_overflow (G := 2 ^ (400 : Int)) rfl (by
    have := h.valueBound.2
    generalize (2 : ℚ) ^ (400 : Int) = G at *
    nlinarith))
  refine ⟨x, S, by unfold exactOf; rw [hr]; rfl, g1, ?_⟩
  have hve : v = .fin v' := by rw [← hrv]; exact hv1
  rw [hve, g2] at h3
  have h4 : v' = s' := by simpa [dblOps, Dbl.eq] using h3
  have h5 : |x - S| ≤ |x - v'| + |v' - S| := abs_sub_le _ _ _
  rw [abs_sub_comm x v', h4] at h5
  rw [h4] at hv2
  rw [Nat.zero_add] at g3
  unfold sumTolerance
  have h6 : |x| / 2 ^ 53 ≤ X / 2 ^ 53 := by gcongr
  have h7 : (X + 5 * (n.children.length : ℚ) ^ 2 * (X * W)) / 2 ^ 53 = X / 2 ^ 53 + 5 * (n.children.length : ℚ) ^ 2 * (X * W) / 2 ^ 53 := by ring
  rw [h7]
  generalize (2 : ℚ) ^ (-1075 : Int) = δ at *
  linarith

/-- C124. A total that reads "NaN" never passes the check. -/
theorem C124_nan (T : FloatDigitTable dig) {facts : List Fact} (hall : ∀ f ∈ facts, ∃ k, f.HasConcept k) {ts : List (CalcTree Dbl)} {n : CalcTree Dbl}
    (hn : ReachedThroughReported facts ts n) (hne : n.children ≠ []) {f : Fact} (hf : f ∈ facts) (hk : ∃ k, f.HasConcept k ∧ k.name = n.concept.name) (hnan : FloatText dig f.value.toList .nan) :
    isAggregationConsistent (dblOps dig) facts ts ≠ .ok true := by
  intro h
  rw [C17_aggregation_exact _ _ hall] at h
  obtain ⟨v, s, h1, _, h3⟩ := h n hn hne f hf hk
  have : pyDouble dig f.value = some .nan := by unfold pyDouble; rw [(pyFloat_iff T _ _).mpr hnan]; rfl
  rw [show (dblOps dig).ofStr f.value = pyDouble dig f.value from rfl, this] at h1
  cases h1
  cases h3

theorem rnd_ne_nan (q : ℚ) : rnd q ≠ .nan := by
  unfold rnd; split
  · simp
  · dsimp only; split <;> simp

/-- C124. Sums and products are NaN exactly if a part is, if infinities of different sign are added, or if zero and infinity are multiplied. -/
theorem C124_nan_arithmetic (x y : Dbl) :
    (x.add y = .nan ↔ x = .nan ∨ y = .nan ∨ ∃ s, x = .inf s ∧ y = .inf (!s)) ∧
    (x.mul y = .nan ↔ x = .nan ∨ y = .nan ∨ (x = .fin 0 ∧ ∃ s, y = .inf s) ∨ ((∃ s, x = .inf s) ∧ y = .fin 0)) := by
  constructor
  · cases x <;> cases y <;> simp [Dbl.add, rnd_ne_nan]
    rename_i a b; cases a <;> cases b <;> simp
  · cases x <;> cases y <;> simp [Dbl.mul, rnd_ne_nan]

/-- C124. Infinities: a number does not change one by addition, and multiplication follows the signs. -/
theorem C124_infinite_arithmetic (q : ℚ) (s t : Bool) :
    (Dbl.fin q).add (.inf s) = .inf s ∧ (Dbl.inf s).add (.fin q) = .inf s ∧ (Dbl.inf s).add (.inf s) = .inf s ∧ (Dbl.inf s).mul (.inf t) = .inf (s != t) ∧
    (0 < q → (Dbl.fin q).mul (.inf s) = .inf s ∧ (Dbl.inf s).mul (.fin q) = .inf s) ∧ (q < 0 → (Dbl.fin q).mul (.inf s) = .inf (!s) ∧ (Dbl.inf s).mul (.fin q) = .inf (!s)) := by
  refine ⟨by cases s <;> rfl, by cases s <;> rfl, by cases s <;> rfl, by cases s <;> cases t <;> rfl, ?_, ?_⟩
  · intro h
    have h1 : q ≠ 0 := ne_of_gt h
    have h2 : ¬ q < 0 := not_lt.mpr h.le
    cases s <;> simp [Dbl.mul, h1, h2]
  · intro h
    have h1 : q ≠ 0 := ne_of_lt h
    cases s <;> simp [Dbl.mul, h1, h]

/-- A node with rational weight. -/
def ratNode (n : String) (w : ℚ) (chs : List (CalcTree ℚ)) : CalcTree ℚ := .node { name := ⟨"u", "p", n⟩ } w chs

/-- A total with two summands. -/
def exTotal : List (CalcTree ℚ) := [ratNode "A" 1 [ratNode "B" 1 [], ratNode "C" 1 []]]
/-- Its facts. -/
def exTotalFacts (a b c : String) : List Fact := [exFact "A" a 2020, exFact "B" b 2020, exFact "C" c 2020]

theorem exTotalFacts_concepts (a b c : String) : ∀ f ∈ exTotalFacts a b c, ∃ k, f.HasConcept k := by
  intro f hf
  simp only [exTotalFacts, List.mem_cons, List.not_mem_nil, or_false] at hf
  rcases hf with rfl | rfl | rfl <;> exact ⟨_, rfl, rfl⟩

/-- Infinities: added to a number they stay, times zero and added with the other sign they are NaN. -/
example :
    let check := fun w a b c => isAggregationConsistent (dblOps asciiDigit) (exTotalFacts a b c) (CalcTree.mapWeights Dbl.fin [ratNode "A" 1 [ratNode "B" 1 [], ratNode "C" w []]])
    check 1 "inf" "inf" "5" = .ok true ∧ check (-1) "inf" "5" "-inf" = .ok true ∧ check 0 "5" "5" "inf" = .ok false ∧ check 0 "inf" "5" "inf" = .ok false ∧ check 0 "nan" "5" "inf" = .ok false ∧
    check (-1) "inf" "inf" "inf" = .ok false ∧ check 1 "inf" "inf" "inf" = .ok true ∧ check 1 "inf" "5" "nan" = .ok false ∧ check 1 "-inf" "1" "inf" = .ok false ∧ check (-2) "-inf" "1" "inf" = .ok true ∧
    check 1 "1e308" "1e308" "1e308" = .ok false ∧ check 1 "inf" "1e308" "1e308" = .ok true := by decide +kernel

/-- C124 fails: the sum of 0.1 and 0.2 is refused when 0.3 is reported, although it is right. -/
theorem C124_right_total_refused_false : ∃ (facts : List Fact) (ts : List (CalcTree ℚ)), (∀ f ∈ facts, ∃ k, f.HasConcept k) ∧
    (∀ n, ReachedThroughReported facts ts n → SumsHold (ratOps (exactOf asciiDigit)) facts n) ∧
    isAggregationConsistent (dblOps asciiDigit) facts (CalcTree.mapWeights Dbl.fin ts) = .ok false := by
  refine ⟨exTotalFacts "0.3" "0.1" "0.2", exTotal, exTotalFacts_concepts _ _ _, ?_, by decide +kernel⟩
  rw [← C17_aggregation_exact _ _ (exTotalFacts_concepts _ _ _)]
  decide +kernel

/-- C124 fails: a total that is one too small is accepted when the numbers have more than 53 binary digits. -/
theorem C124_wrong_total_accepted_false : ∃ (facts : List Fact) (ts : List (CalcTree ℚ)), (∀ f ∈ facts, ∃ k, f.HasConcept k) ∧
    isAggregationConsistent (dblOps asciiDigit) facts (CalcTree.mapWeights Dbl.fin ts) = .ok true ∧
    ¬ ∀ n, ReachedThroughReported facts ts n → SumsHold (ratOps (exactOf asciiDigit)) facts n := by
  refine ⟨exTotalFacts "9007199254740992" "9007199254740992" "1", exTotal, exTotalFacts_concepts _ _ _, by decide +kernel, ?_⟩
  rw [← C17_aggregation_exact _ _ (exTotalFacts_concepts _ _ _)]
  decide +kernel

theorem exTotal_nodes {t : CalcTree ℚ} (h : InForest exTotal t) : t = ratNode "A" 1 [ratNode "B" 1 [], ratNode "C" 1 []] ∨ t = ratNode "B" 1 [] ∨ t = ratNode "C" 1 [] := by
  induction h with
  | root ht => left; simpa [exTotal] using ht
  | child _ hm ih => rcases ih with rfl | rfl | rfl <;> simp [ratNode, CalcTree.children] at hm ⊢ <;> tauto

/-- The conditions are met by whole numbers, and the check then finds a difference of one. -/
example : SmallNumbers asciiDigit 0 1000000 1 (exTotalFacts "300000" "100000" "200000") exTotal ∧
    isAggregationConsistent (dblOps asciiDigit) (exTotalFacts "300000" "100000" "200000") (CalcTree.mapWeights Dbl.fin exTotal) = .ok true ∧
    isAggregationConsistent (dblOps asciiDigit) (exTotalFacts "300001" "100000" "200000") (CalcTree.mapWeights Dbl.fin exTotal) = .ok false := by
  refine ⟨⟨by decide, by decide, ?_, ?_, ?_⟩, by decide +kernel, by decide +kernel⟩
  · intro f hf r hr
    have hr := (pyFloat_iff asciiFloatDigits _ _).mpr hr
    simp only [exTotalFacts, List.mem_cons, List.not_mem_nil, or_false] at hf
    rcases hf with rfl | rfl | rfl
    · have : pyFloat asciiDigit (exFact "A" "300000" 2020).value.toList = some (.num 300000) := by decide +kernel
      rw [this] at hr; cases hr; exact ⟨300000, by decide, by norm_num⟩
    · have : pyFloat asciiDigit (exFact "B" "100000" 2020).value.toList = some (.num 100000) := by decide +kernel
      rw [this] at hr; cases hr; exact ⟨100000, by decide, by norm_num⟩
    · have : pyFloat asciiDigit (exFact "C" "200000" 2020).value.toList = some (.num 200000) := by decide +kernel
      rw [this] at hr; cases hr; exact ⟨200000, by decide, by norm_num⟩
  · intro t ht c hc
    rcases exTotal_nodes ht with rfl | rfl | rfl <;> simp [ratNode, CalcTree.children] at hc
    rcases hc with rfl | rfl <;> exact ⟨1, by decide, by simp [CalcTree.weight]⟩
  · intro t ht
    rcases exTotal_nodes ht with rfl | rfl | rfl <;> simp [ratNode, CalcTree.children]

/-- The numbers of the refused total are moderate. -/
example : ModerateNumbers asciiDigit 1 1 (exTotalFacts "0.3" "0.1" "0.2") exTotal := by
  have hG : (1 : ℚ) ≤ 2 ^ (400 : Int) := one_le_zpow₀ (by norm_num) (by norm_num)
  refine ⟨⟨le_refl _, hG⟩, ⟨le_refl _, hG⟩, ?_, ?_, ?_⟩
  · intro f hf r hr
    have hr := (pyFloat_iff asciiFloatDigits _ _).mpr hr
    simp only [exTotalFacts, List.mem_cons, List.not_mem_nil, or_false] at hf
    rcases hf with rfl | rfl | rfl
    · have : pyFloat asciiDigit (exFact "A" "0.3" 2020).value.toList = some (.num (3 / 10)) := by decide +kernel
      rw [this] at hr; cases hr; exact ⟨_, rfl, by norm_num [abs_le]⟩
    · have : pyFloat asciiDigit (exFact "B" "0.1" 2020).value.toList = some (.num (1 / 10)) := by decide +kernel
      rw [this] at hr; cases hr; exact ⟨_, rfl, by norm_num [abs_le]⟩
    · have : pyFloat asciiDigit (exFact "C" "0.2" 2020).value.toList = some (.num (2 / 10)) := by decide +kernel
      rw [this] at hr; cases hr; exact ⟨_, rfl, by norm_num [abs_le]⟩
  · intro t ht c hc
    rcases exTotal_nodes ht with rfl | rfl | rfl <;> simp [ratNode, CalcTree.children] at hc
    rcases hc with rfl | rfl <;> simp [CalcTree.weight]
  · intro t ht
    rcases exTotal_nodes ht with rfl | rfl | rfl <;> simp [ratNode, CalcTree.children]

section
variable {str : XNode → String} {so : SetOrder} {steps : Nat}

theorem smallFiling_forest {o : OpenedFiling} {k B W : Int} {facts : List Fact} (h : SmallFiling dig k B W facts o.networks.networks.heap) {net : Network} {depth : Nat} {ts : List (CalcTree Rat)}
    (hts : o.calcForest depth net = some ts) : SmallNumbers dig k B W facts ts := by
  have htr : Rel2 (TreeOf o.conceptNamed o.networks.networks.heap) net.roots ts := (mapM_option_iff.1 hts).imp (fun _ _ _ hc => ⟨_, hc⟩)
  have hchild : ∀ {l : List Nat} {us : List (CalcTree Rat)}, Rel2 (TreeOf o.conceptNamed o.networks.networks.heap) l us → l.length = us.length ∧
      ∀ u ∈ us, ∃ w : Int, |w| ≤ W ∧ u.weight = w := by
    intro l us hr
    induction hr with
    | nil => exact ⟨rfl, by simp⟩
    | cons h1 _ ih =>
      refine ⟨by simp [ih.1], ?_⟩
      intro u hu
      rcases List.mem_cons.mp hu with rfl | hu
      · obtain ⟨n, _, _, g1, _, _, g2, _⟩ := h1.data
        rw [g2]
        exact h.weights n (List.mem_of_getElem? g1)
      · exact ih.2 u hu
  refine ⟨h.place, h.bound, h.values, ?_, ?_⟩
  · intro t ht c hc
    obtain ⟨i, _, hi⟩ := inForest_node htr ht
    obtain ⟨n, _, _, _, _, _, _, g⟩ := hi.data
    exact (hchild g).2 c hc
  · intro t ht
    obtain ⟨i, _, hi⟩ := inForest_node htr ht
    obtain ⟨n, _, _, g1, _, _, _, g⟩ := hi.data
    rw [← (hchild g).1]
    exact h.room n (List.mem_of_getElem? g1)

/-- C124 for the networks of an opened filing: with whole numbers the check with floats decides whether the totals that the calculation link states hold for the facts that the
instance documents state. -/
theorem C124_own_facts_partial (T : FloatDigitTable dig) {k B W : Int} {dateOf : String → Option Date} {docs : List SchemaDoc} (hv : ValidFiling dateOf (doubleOf dig) docs) {o : OpenedFiling}
    (ho : openXml dateOf (doubleOf dig) str so steps docs = some (.ok o)) {role : String} {link : XNode} (hone : linksOfRole (docs.map (·.root)) "calculationLink" role = [link])
    (hag : AgreeOn link "weight") {net : Network} (hn : net ∈ o.networks.networks.store.getByType .calculation) (hl : net.logicalOf role .calculation = true)
    (hsmall : SmallFiling dig k B W (statedFacts dateOf docs) o.networks.networks.heap) :
    ∃ depth, ∀ j, ∃ r, o.isAggregationConsistentFloat dig (depth + j) o.facts.facts.getAll net = some r ∧
      (r = .ok true ↔ ∀ l q, Met (taxonomyStore docs) (statedFacts dateOf docs) link l q → TotalsHold (taxonomyStore docs) (doubleOf dig) (statedFacts dateOf docs) link l q) := by
  obtain ⟨depth, h⟩ := C120_own_facts_partial hv ho hone hag hn hl
  refine ⟨depth, fun j => ?_⟩
  obtain ⟨r, h1, h2⟩ := h j
  refine ⟨r, ?_, h2⟩
  rw [← h1]
  unfold OpenedFiling.isAggregationConsistentFloat OpenedFiling.isAggregationConsistent
  cases hts : o.calcForest (depth + j) net with
  | none => rfl
  | some ts =>
    simp only [Option.map_some]
    rw [isAgg_fin T (by rw [opened_facts hv ho]; exact smallFiling_forest hsmall hts) (by rw [opened_facts hv ho]; exact stated_concept)]

end

namespace DoubleExample
open CalcExample LinkbaseExample AggregationExample

/-- The sample filing with a right and with a wrong total, read with the floats of Python. -/
theorem right_valid : ValidFiling sampleDates (doubleOf asciiDigit) right :=
  filing_valid (by decide) (by decide) (by decide) (plainLinks_of (by decide +kernel)) (by decide +kernel) (checkRoles (by decide +kernel)) (by decide +kernel) (by decide +kernel)

def opened (docs : List SchemaDoc) : Option OpenedFiling := (openXml sampleDates (doubleOf asciiDigit) str .insertion 20 docs).bind (fun r => match r with | .ok s => some s | .error _ => none)

def checked (o : OpenedFiling) : List (Option (Except PyErr Bool)) :=
  (o.networks.networks.store.getByType .calculation).map (o.isAggregationConsistentFloat asciiDigit 5 o.facts.facts.getAll)

example : (opened right).map checked = some [some (.ok true)] := by decide +kernel
example : (opened wrong).map checked = some [some (.ok false)] := by decide +kernel

/-- The nodes and facts of the sample filing have small numbers. -/
example : ∃ o, opened right = some o ∧ SmallFiling asciiDigit 0 1000 1 (statedFacts sampleDates right) o.networks.networks.heap := by
  have h : (opened right).map (fun o => o.networks.networks.heap.all (fun n => (decide (n.weight = 1) || decide (n.weight = -1) || decide (n.weight = 0)) && decide (n.children.length < 10))) = some true := by decide +kernel
  obtain ⟨o, ho, h1⟩ := Option.map_eq_some_iff.1 h
  rw [List.all_eq_true] at h1
  refine ⟨o, ho, by decide, by decide, ?_, ?_, ?_⟩
  · have hv : (statedFacts sampleDates right).all (fun f => decide (f.value = "70") || decide (f.value = "100") || decide (f.value = "30")) = true := by decide +kernel
    rw [List.all_eq_true] at hv
    intro f hf r hr
    have hr := (pyFloat_iff asciiFloatDigits _ _).mpr hr
    have := hv f hf
    simp only [Bool.or_eq_true, decide_eq_true_eq] at this
    rcases this with (h | h) | h <;> rw [h] at hr
    · have : pyFloat asciiDigit "70".toList = some (.num 70) := by decide +kernel
      rw [this] at hr; cases hr; exact ⟨70, by decide, by norm_num⟩
    · have : pyFloat asciiDigit "100".toList = some (.num 100) := by decide +kernel
      rw [this] at hr; cases hr; exact ⟨100, by decide, by norm_num⟩
    · have : pyFloat asciiDigit "30".toList = some (.num 30) := by decide +kernel
      rw [this] at hr; cases hr; exact ⟨30, by decide, by norm_num⟩
  · intro n hn
    have := h1 n hn
    simp only [Bool.and_eq_true, Bool.or_eq_true, decide_eq_true_eq] at this
    rcases this.1 with (h | h) | h <;> rw [h]
    · exact ⟨1, by decide, by norm_num⟩
    · exact ⟨-1, by decide, by norm_num⟩
    · exact ⟨0, by decide, by norm_num⟩
  · intro n hn
    have := h1 n hn
    simp only [Bool.and_eq_true, decide_eq_true_eq] at this
    have := this.2
    omega

end DoubleExample

end Brel
