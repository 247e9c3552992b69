import Verif.Lemmas.DoubleCalc

/-! How far sums of doubles are from the exact sums. -/

namespace Brel
open Spec
variable {dig : Char → Option Nat}

/-- The error of one rounding. -/
theorem rnd_error {q : ℚ} (h : |q| < overflowBound) : ∃ v, rnd q = .fin v ∧ |v - q| ≤ |q| / 2 ^ 53 + 2 ^ (-1075 : Int) := by
  by_cases hq : q = 0
  · refine ⟨0, by simp [rnd, hq], ?_⟩
    rw [hq]; simp only [sub_self, abs_zero, zero_div, zero_add]; exact le_of_lt (two_zpow_pos _)
  rw [rnd_eq q hq, if_pos ((rndVal_overflow hq).mpr h)]
  refine ⟨_, rfl, ?_⟩
  have hp := two_zpow_pos (lastPlace q)
  have h1 : |rndVal q - q| ≤ 2 ^ (lastPlace q) / 2 := by
    have key : |rndVal q - q| = |(roundEven (q / 2 ^ (lastPlace q)) : ℚ) - q / 2 ^ (lastPlace q)| * 2 ^ (lastPlace q) := by
      unfold rndVal
      rw [← abs_of_pos hp, ← abs_mul, abs_of_pos hp]
      congr 1
      field_simp
    rw [key]
    have := roundEven_half (q / 2 ^ (lastPlace q))
    nlinarith
  refine le_trans h1 ?_
  have hd := two_zpow_pos (-1075)
  rcases le_or_gt (lastPlace q) (-1074) with h2 | h2
  · have : lastPlace q = -1075 + 1 := le_antisymm h2 (lastPlace_ge q)
    rw [this, two_zpow_add]
    have : 0 ≤ |q| / 2 ^ 53 := by positivity
    rw [zpow_one, mul_div_assoc, div_self (by norm_num), mul_one]
    linarith
  · have hL := lastPlace_of_gt h2
    have e : (2 : ℚ) ^ (lastPlace q) / 2 = 2 ^ (binaryLog q) / 2 ^ 53 := by
      rw [hL, zpow_sub₀ (by norm_num)]
      rw [show (2 : ℚ) ^ (52 : Int) = 2 ^ 52 by norm_num, div_div]
      norm_num
    rw [e]
    have := (binaryLog_spec hq).1
    have : (2 : ℚ) ^ (binaryLog q) / 2 ^ 53 ≤ |q| / 2 ^ 53 := by gcongr
    linarith

/-- Numbers far below the largest double. -/
theorem lt_overflow {q : ℚ} {G : ℚ} (hG : G = 2 ^ (400 : Int)) (h : |q| ≤ 2 ^ 50 * (G * G)) : |q| < overflowBound := by
  refine lt_of_le_of_lt h ?_
  rw [overflowBound_eq _ rfl, hG]
  have e : (2 : ℚ) ^ 50 * (2 ^ (400 : Int) * 2 ^ (400 : Int)) = 2 ^ (850 : Int) := by
    rw [← two_zpow_add, show (2 : ℚ) ^ 50 = 2 ^ (50 : Int) by norm_num, ← two_zpow_add]; norm_num
  rw [e]
  have h1 : (2 : ℚ) ^ (850 : Int) < 2 ^ (970 : Int) := two_zpow_lt.mpr (by norm_num)
  have h2 := two_zpow_pos (970 : Int)
  generalize (2 : ℚ) ^ (970 : Int) = U at *
  generalize (2 : ℚ) ^ (850 : Int) = V at *
  nlinarith

/-- One step of the sum: the term is read, multiplied and added. -/
theorem step_error {X W M i a a' x w : ℚ} {G : ℚ} (hG : G = 2 ^ (400 : Int)) (hX : 1 ≤ X ∧ X ≤ G) (hW : 1 ≤ W ∧ W ≤ G) (hM : M = X * W) (hi : 0 ≤ i) (hi' : i ≤ 2 ^ 40)
    (hint : i = 0 ∨ 1 ≤ i) (ha : |a| ≤ i * M) (he : |a' - a| ≤ 5 * i ^ 2 * M / 2 ^ 53) (hx : |x| ≤ X) (hw : |w| ≤ W) :
    ∃ x' s, rnd x = .fin x' ∧ Dbl.add (.fin a') (Dbl.mul (.fin x') (.fin w)) = .fin s ∧ |a + x * w| ≤ (i + 1) * M ∧ |s - (a + x * w)| ≤ 5 * (i + 1) ^ 2 * M / 2 ^ 53 := by
  obtain ⟨δ, hδ⟩ : ∃ δ : ℚ, δ = 2 ^ (-1075 : Int) := ⟨_, rfl⟩
  have hδ0 : 0 < δ := by rw [hδ]; exact two_zpow_pos _
  have hG1 : 1 ≤ G := by rw [hG]; exact one_le_zpow₀ (by norm_num) (by norm_num)
  have hδG : δ * G ≤ 1 / 2 ^ 100 := by
    rw [hδ, hG, ← two_zpow_add, show (1 / 2 ^ 100 : ℚ) = 2 ^ (-100 : Int) by norm_num]; exact two_zpow_le.mpr (by norm_num)
  have ovf : ∀ q : ℚ, |q| ≤ 2 ^ 50 * (G * G) → |q| < overflowBound := fun q h => lt_overflow hG h
  have err : ∀ q : ℚ, |q| ≤ 2 ^ 50 * (G * G) → ∃ v, rnd q = .fin v ∧ |v - q| ≤ |q| / 2 ^ 53 + δ := by
    intro q h; obtain ⟨v, h1, h2⟩ := rnd_error (ovf q h); exact ⟨v, h1, by rw [hδ]; exact h2⟩
  clear ovf hδ hG
  have hM1 : 1 ≤ M := by rw [hM]; nlinarith [hX.1, hW.1]
  have hMG : M ≤ G * G := by rw [hM]; exact mul_le_mul hX.2 hW.2 (by linarith) (by linarith)
  have hXM : X ≤ M := by rw [hM]; nlinarith [hX.1, hW.1]
  have hδW : δ * W ≤ 1 / 2 ^ 100 := le_trans (by have := hW.2; gcongr) hδG
  have hδ1 : δ ≤ 1 / 2 ^ 100 := le_trans (by nlinarith) hδG
  have hGG : 1 ≤ G * G := by nlinarith
  -- reading
  obtain ⟨x', hx1, hx2⟩ := err x (by linarith)
  have hx3 : |x' - x| ≤ X / 2 ^ 53 + δ := le_trans hx2 (by gcongr)
  -- multiplying
  have ht : |x * w| ≤ M := by rw [abs_mul, hM]; exact mul_le_mul hx hw (abs_nonneg _) (by linarith [hX.1])
  have hp1 : |x' * w - x * w| ≤ M / 2 ^ 53 + 1 / 2 ^ 100 := by
    rw [← sub_mul, abs_mul]
    calc |x' - x| * |w| ≤ (X / 2 ^ 53 + δ) * W := mul_le_mul hx3 hw (abs_nonneg _) (by have := hX.1; positivity)
      _ = M / 2 ^ 53 + δ * W := by rw [hM]; ring
      _ ≤ _ := by linarith
  have hp2 : |x' * w| ≤ M + M / 2 ^ 53 + 1 / 2 ^ 100 := by
    have := abs_sub_abs_le_abs_sub (x' * w) (x * w); linarith
  obtain ⟨p, hp3, hp4⟩ := err (x' * w) (by linarith)
  have hp5 : |p - x * w| ≤ 3 * M / 2 ^ 53 := by
    have h1 : |p - x * w| ≤ |p - x' * w| + |x' * w - x * w| := abs_sub_le _ _ _
    linarith
  -- adding
  have hz : |a' + p - (a + x * w)| ≤ 5 * i ^ 2 * M / 2 ^ 53 + 3 * M / 2 ^ 53 := by
    rw [show a' + p - (a + x * w) = (a' - a) + (p - x * w) by ring]
    exact le_trans (abs_add_le _ _) (by linarith)
  have hs : |a + x * w| ≤ (i + 1) * M := le_trans (abs_add_le _ _) (by linarith)
  have hi2 : i ^ 2 ≤ 2 ^ 40 * i := by rw [pow_two]; gcongr
  have hiM : 0 ≤ i * M := by positivity
  have hi2M : i ^ 2 * M ≤ 2 ^ 40 * (i * M) := by rw [← mul_assoc]; gcongr
  have hz2 : |a' + p| ≤ (i + 1) * M + (5 * i ^ 2 * M / 2 ^ 53 + 3 * M / 2 ^ 53) := by
    have := abs_sub_abs_le_abs_sub (a' + p) (a + x * w); linarith
  have hiMG : i * M ≤ 2 ^ 40 * (G * G) := by
    have : i * M ≤ 2 ^ 40 * M := by gcongr
    linarith
  obtain ⟨s, hs1, hs2⟩ := err (a' + p) (by linarith)
  refine ⟨x', s, hx1, by simp only [Dbl.mul, hp3, Dbl.add, hs1], hs, ?_⟩
  have h1 : |s - (a + x * w)| ≤ |s - (a' + p)| + |a' + p - (a + x * w)| := abs_sub_le _ _ _
  have e : 5 * (i + 1) ^ 2 * M / 2 ^ 53 = 5 * i ^ 2 * M / 2 ^ 53 + 10 * (i * M) / 2 ^ 53 + 5 * M / 2 ^ 53 := by ring
  rw [e]
  linarith

/-- `float(text)` before rounding, as a number. -/
theorem weightedSum_error {facts : List Fact} {f : Fact} {X W : ℚ} (hX : 1 ≤ X ∧ X ≤ 2 ^ (400 : Int)) (hW : 1 ≤ W ∧ W ≤ 2 ^ (400 : Int))
    (hval : ∀ g ∈ facts, ∀ r, pyFloat dig g.value.toList = some r → ∃ x, r = .num x ∧ |x| ≤ X) :
    ∀ (chs : List (CalcTree ℚ)) (i : Nat) (a a' : ℚ) (s : Dbl), (∀ c ∈ chs, |c.weight| ≤ W) → i + chs.length ≤ 2 ^ 40 → |a| ≤ i * (X * W) → |a' - a| ≤ 5 * (i : ℚ) ^ 2 * (X * W) / 2 ^ 53 →
    WeightedSum (dblOps dig) facts f (.fin a') (chs.map (CalcTree.mapWeight Dbl.fin)) s →
    ∃ S s', WeightedSum (ratOps (exactOf dig)) facts f a chs S ∧ s = .fin s' ∧ |s' - S| ≤ 5 * ((i + chs.length : Nat) : ℚ) ^ 2 * (X * W) / 2 ^ 53 := by
  intro chs
  induction chs with
  | nil =>
    intro i a a' s _ _ _ he h
    cases h
    exact ⟨a, a', .nil _, rfl, by simpa using he⟩
  | cons c chs ih =>
    intro i a a' s hw hlen ha he h
    rw [List.map_cons] at h
    rw [List.length_cons] at hlen
    cases h with
    | @cons _ _ _ g x _ hu hx hrest =>
      rw [CalcTree.mapWeight_concept] at hu
      rw [CalcTree.mapWeight_weight] at hrest
      have hg : g ∈ facts := by obtain ⟨pre, post, e, _⟩ := hu; rw [e]; simp
      obtain ⟨r, hr, hrx⟩ := Option.map_eq_some_iff.mp hx
      obtain ⟨x0, rfl, hx0⟩ := hval g hg r hr
      have hi : (i : ℚ) ≤ 2 ^ 40 := by exact_mod_cast (by omega : i ≤ 2 ^ 40)
      have hint : (i : ℚ) = 0 ∨ 1 ≤ (i : ℚ) := by
        rcases Nat.eq_zero_or_pos i with h | h
        · left; simp [h]
        · right; exact_mod_cast h
      obtain ⟨x', t, h1, h2, h3, h4⟩ := step_error (G := 2 ^ (400 : Int)) rfl hX hW rfl (by positivity) hi hint ha he hx0 (hw c List.mem_cons_self)
      have : x = .fin x' := by rw [← hrx]; exact h1
      subst this
      have hrest' : WeightedSum (dblOps dig) facts f (.fin t) (chs.map (CalcTree.mapWeight Dbl.fin)) s := by
        have : (dblOps dig).add (.fin a') ((dblOps dig).mul (.fin x') (.fin c.weight)) = .fin t := h2
        rw [this] at hrest; exact hrest
      obtain ⟨S, s', g1, g2, g3⟩ := ih (i + 1) (a + x0 * c.weight) t s (fun c hc => hw c (List.mem_cons_of_mem _ hc)) (by omega) (by push_cast; exact h3) (by push_cast; exact h4) hrest'
      refine ⟨S, s', ?_, g2, ?_⟩
      · refine .cons hu ?_ g1
        show exactOf dig g.value = some x0
        unfold exactOf; rw [hr]; rfl
      · rw [List.length_cons, show i + (chs.length + 1) = i + 1 + chs.length by omega]; exact g3

end Brel
