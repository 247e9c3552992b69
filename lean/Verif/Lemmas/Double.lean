import Mathlib.Tactic.Linarith
import Mathlib.Tactic.NormNum
import Mathlib.Tactic.Ring
import Mathlib.Tactic.FieldSimp
import Mathlib.Tactic.Positivity
import Mathlib.Algebra.Order.Field.Power
import Mathlib.Algebra.Order.Floor.Ring
import Mathlib.Data.Rat.Floor
import Verif.Spec.Double

namespace Brel
open Spec

theorem pow2_eq (e : Int) : pow2 e = (2 : ℚ) ^ e := by
  cases e with
  | ofNat n => simp [pow2]
  | negSucc n => simp [pow2, Rat.mkRat_eq_div, zpow_negSucc]

theorem pow10_eq (e : Int) : pow10 e = (10 : ℚ) ^ e := by
  cases e with
  | ofNat n => simp [pow10]
  | negSucc n => simp [pow10, Rat.mkRat_eq_div, zpow_negSucc]

theorem two_zpow_pos (e : Int) : (0 : ℚ) < 2 ^ e := by positivity

theorem two_zpow_le {a b : Int} : (2 : ℚ) ^ a ≤ 2 ^ b ↔ a ≤ b := zpow_le_zpow_iff_right₀ (by norm_num)

theorem two_zpow_lt {a b : Int} : (2 : ℚ) ^ a < 2 ^ b ↔ a < b := zpow_lt_zpow_iff_right₀ (by norm_num)

theorem two_zpow_add (a b : Int) : (2 : ℚ) ^ (a + b) = 2 ^ a * 2 ^ b := zpow_add₀ (by norm_num) a b

theorem abs_eq_div (q : ℚ) : |q| = (q.num.natAbs : ℚ) / (q.den : ℚ) := by
  conv_lhs => rw [← Rat.num_div_den q]
  rw [abs_div, Nat.abs_cast, Nat.cast_natAbs]
  simp

theorem binaryLog_spec {q : ℚ} (h : q ≠ 0) : (2 : ℚ) ^ (binaryLog q) ≤ |q| ∧ |q| < 2 ^ (binaryLog q + 1) := by
  have hn : q.num.natAbs ≠ 0 := by simpa using h
  have hd : q.den ≠ 0 := q.den_nz
  have n1 : (2 : ℚ) ^ (Nat.log2 q.num.natAbs : Int) ≤ q.num.natAbs := by
    rw [zpow_natCast]; exact_mod_cast Nat.log2_self_le hn
  have n2 : (q.num.natAbs : ℚ) < 2 ^ ((Nat.log2 q.num.natAbs : Int) + 1) := by
    have := Nat.lt_log2_self (n := q.num.natAbs)
    rw [show ((Nat.log2 q.num.natAbs : Int) + 1) = ((Nat.log2 q.num.natAbs + 1 : Nat) : Int) by push_cast; rfl, zpow_natCast]
    exact_mod_cast this
  have d1 : (2 : ℚ) ^ (Nat.log2 q.den : Int) ≤ q.den := by
    rw [zpow_natCast]; exact_mod_cast Nat.log2_self_le hd
  have d2 : (q.den : ℚ) < 2 ^ ((Nat.log2 q.den : Int) + 1) := by
    have := Nat.lt_log2_self (n := q.den)
    rw [show ((Nat.log2 q.den : Int) + 1) = ((Nat.log2 q.den + 1 : Nat) : Int) by push_cast; rfl, zpow_natCast]
    exact_mod_cast this
  have hdp : (0 : ℚ) < q.den := by exact_mod_cast Nat.pos_of_ne_zero hd
  generalize hA : (Nat.log2 q.num.natAbs : Int) = A at *
  generalize hB : (Nat.log2 q.den : Int) = B at *
  have up : |q| < 2 ^ (A - B + 1) := by
    rw [abs_eq_div, div_lt_iff₀ hdp]
    calc (q.num.natAbs : ℚ) < 2 ^ (A + 1) := n2
      _ = 2 ^ (A - B + 1) * 2 ^ B := by rw [← two_zpow_add]; congr 1; ring
      _ ≤ 2 ^ (A - B + 1) * q.den := by have := two_zpow_pos (A - B + 1); gcongr
  have lo : (2 : ℚ) ^ (A - B - 1) ≤ |q| := by
    rw [abs_eq_div, le_div_iff₀ hdp]
    calc (2 : ℚ) ^ (A - B - 1) * q.den ≤ 2 ^ (A - B - 1) * 2 ^ (B + 1) := by
          have := two_zpow_pos (A - B - 1); gcongr
      _ = 2 ^ A := by rw [← two_zpow_add]; congr 1; ring
      _ ≤ _ := n1
  unfold binaryLog
  rw [hA, hB]
  dsimp only
  rw [pow2_eq]
  split
  · rename_i h1; exact ⟨h1, up⟩
  · rename_i h1
    refine ⟨lo, ?_⟩
    rw [show A - B - 1 + 1 = A - B by ring]
    exact not_le.mp h1

theorem roundEven_cases (x : ℚ) :
    (roundEven x = x.floor ∧ x - x.floor ≤ 1 / 2 ∧ (x - x.floor = 1 / 2 → x.floor % 2 = 0)) ∨
    (roundEven x = x.floor + 1 ∧ 1 / 2 ≤ x - x.floor ∧ (x - x.floor = 1 / 2 → (x.floor + 1) % 2 = 0)) := by
  unfold roundEven
  dsimp only
  split
  · rename_i h; exact .inl ⟨rfl, le_of_lt h, fun h' => absurd h' (ne_of_lt h)⟩
  · split
    · rename_i h; exact .inr ⟨rfl, le_of_lt h, fun h' => absurd h' (ne_of_gt h)⟩
    · rename_i h1 h2
      split
      · rename_i h3; exact .inl ⟨rfl, not_lt.mp h2, fun _ => h3⟩
      · rename_i h3; exact .inr ⟨rfl, not_lt.mp h1, fun _ => by omega⟩

theorem ratFloor_le (x : ℚ) : (x.floor : ℚ) ≤ x := Rat.floor_le x
theorem lt_ratFloor (x : ℚ) : x < (x.floor : ℚ) + 1 := by have := @Rat.lt_floor x; linarith

theorem roundEven_near (x : ℚ) (n : Int) : |(roundEven x : ℚ) - x| ≤ |(n : ℚ) - x| := by
  have a := ratFloor_le x
  have b := lt_ratFloor x
  rcases le_or_gt n x.floor with h | h
  · have h' : (n : ℚ) ≤ x.floor := by exact_mod_cast h
    rw [abs_of_nonpos (show (n : ℚ) - x ≤ 0 by linarith)]
    rcases roundEven_cases x with ⟨e, h1, _⟩ | ⟨e, h1, _⟩
    · rw [e, abs_of_nonpos (by linarith)]; linarith
    · rw [e]; push_cast; rw [abs_of_nonneg (by linarith)]; linarith
  · have h' : (x.floor : ℚ) + 1 ≤ n := by exact_mod_cast h
    rw [abs_of_nonneg (show 0 ≤ (n : ℚ) - x by linarith)]
    rcases roundEven_cases x with ⟨e, h1, _⟩ | ⟨e, h1, _⟩
    · rw [e, abs_of_nonpos (by linarith)]; linarith
    · rw [e]; push_cast; rw [abs_of_nonneg (by linarith)]; linarith

theorem roundEven_half (x : ℚ) : |(roundEven x : ℚ) - x| ≤ 1 / 2 := by
  have a := ratFloor_le x
  have b := lt_ratFloor x
  rcases roundEven_cases x with ⟨e, h1, _⟩ | ⟨e, h1, _⟩
  · rw [e, abs_of_nonpos (by linarith)]; linarith
  · rw [e]; push_cast; rw [abs_of_nonneg (by linarith)]; linarith

theorem roundEven_tie (x : ℚ) (n : Int) (hn : n ≠ roundEven x) (h : |(n : ℚ) - x| = |(roundEven x : ℚ) - x|) :
    roundEven x % 2 = 0 := by
  have a := ratFloor_le x
  have b := lt_ratFloor x
  rcases roundEven_cases x with ⟨e, h1, h2⟩ | ⟨e, h1, h2⟩
  · rw [e] at h hn ⊢
    rw [abs_of_nonpos (show (x.floor : ℚ) - x ≤ 0 by linarith)] at h
    apply h2
    rcases lt_or_gt_of_ne hn with hlt | hgt
    · have : (n : ℚ) + 1 ≤ x.floor := by exact_mod_cast hlt
      rw [abs_of_nonpos (by linarith)] at h; linarith
    · have : (x.floor : ℚ) + 1 ≤ n := by exact_mod_cast hgt
      rw [abs_of_nonneg (by linarith)] at h; linarith
  · rw [e] at h hn ⊢
    push_cast at h
    rw [abs_of_nonneg (show 0 ≤ (x.floor : ℚ) + 1 - x by linarith)] at h
    apply h2
    rcases lt_or_gt_of_ne hn with hlt | hgt
    · have : (n : ℚ) ≤ x.floor := by exact_mod_cast Int.lt_add_one_iff.mp hlt
      rw [abs_of_nonpos (by linarith)] at h; linarith
    · have : (x.floor : ℚ) + 1 + 1 ≤ n := by exact_mod_cast hgt
      rw [abs_of_nonneg (by linarith)] at h; linarith

theorem roundEven_int (n : Int) : roundEven (n : ℚ) = n := by
  have := roundEven_near (n : ℚ) n
  simp only [sub_self, abs_zero] at this
  have h0 := abs_nonpos_iff.mp this
  have : ((roundEven (n : ℚ) : Int) : ℚ) = n := by linarith
  exact_mod_cast this

/-- The value before the check for overflow. -/
def rndVal (q : ℚ) : ℚ := roundEven (q / 2 ^ (lastPlace q)) * 2 ^ (lastPlace q)

theorem rnd_eq (q : ℚ) (h : q ≠ 0) : rnd q = if |rndVal q| < 2 ^ (1024 : Int) then .fin (rndVal q) else .inf (decide (q < 0)) := by
  unfold rnd rndVal
  rw [if_neg h, pow2_eq, pow2_eq]

theorem rndVal_near_multiple (q : ℚ) (n : Int) : |rndVal q - q| ≤ |(n : ℚ) * 2 ^ (lastPlace q) - q| := by
  have hp := two_zpow_pos (lastPlace q)
  have key : ∀ y : ℚ, |y * 2 ^ (lastPlace q) - q| = |y - q / 2 ^ (lastPlace q)| * 2 ^ (lastPlace q) := by
    intro y
    rw [← abs_of_pos hp, ← abs_mul, abs_of_pos hp]
    congr 1
    field_simp
  unfold rndVal
  rw [key, key]
  have := roundEven_near (q / 2 ^ (lastPlace q)) n
  gcongr

theorem lastPlace_ge (q : ℚ) : -1074 ≤ lastPlace q := le_max_right _ _

theorem binaryLog_le_lastPlace (q : ℚ) : binaryLog q ≤ lastPlace q + 52 := by
  have := le_max_left (binaryLog q - 52) (-1074); unfold lastPlace; omega

theorem lastPlace_of_gt {q : ℚ} (h : -1074 < lastPlace q) : lastPlace q = binaryLog q - 52 := by
  unfold lastPlace at *; omega

/-- A double is a multiple of the last place of `q`, or it is nearer to 0 than the power of two below `q`. -/
theorem double_multiple_or_small {q d : ℚ} (hd : IsDouble d) :
    (∃ n : Int, d = n * 2 ^ (lastPlace q)) ∨ (-1074 < lastPlace q ∧ |d| < 2 ^ (binaryLog q)) := by
  obtain ⟨m, e, hm, h1, h2, rfl⟩ := hd
  rcases le_or_gt (lastPlace q) e with h | h
  · left
    refine ⟨m * 2 ^ (e - lastPlace q).toNat, ?_⟩
    push_cast
    rw [mul_assoc, ← zpow_natCast, ← two_zpow_add]
    congr 2
    omega
  · right
    have hgt : -1074 < lastPlace q := by omega
    refine ⟨hgt, ?_⟩
    rw [abs_mul, abs_of_pos (two_zpow_pos e)]
    have hm' : |(m : ℚ)| < 2 ^ (53 : Int) := by exact_mod_cast hm
    have := two_zpow_pos e
    calc |(m : ℚ)| * 2 ^ e < 2 ^ (53 : Int) * 2 ^ e := by gcongr
      _ = 2 ^ (53 + e) := by rw [two_zpow_add]
      _ ≤ 2 ^ (binaryLog q) := by
        rw [two_zpow_le]; have := lastPlace_of_gt hgt; omega

theorem sign_pow_multiple {q : ℚ} (h : -1074 < lastPlace q) (hq : q ≠ 0) :
    ∃ n : Int, |(n : ℚ) * 2 ^ (lastPlace q) - q| = |q| - 2 ^ (binaryLog q) := by
  have hL := lastPlace_of_gt h
  have e : (2 : ℚ) ^ (binaryLog q) = 2 ^ (52 : Nat) * 2 ^ (lastPlace q) := by
    rw [← zpow_natCast, ← two_zpow_add]; congr 1; push_cast; omega
  have sp := (binaryLog_spec hq).1
  rcases lt_or_gt_of_ne hq with hneg | hpos
  · refine ⟨-(2 ^ 52), ?_⟩
    rw [abs_of_neg hneg] at *
    rw [Int.cast_neg, Int.cast_pow, Int.cast_ofNat, neg_mul, ← e, abs_of_nonneg (by linarith)]; ring
  · refine ⟨2 ^ 52, ?_⟩
    rw [abs_of_pos hpos] at *
    rw [Int.cast_pow, Int.cast_ofNat, ← e, abs_of_nonpos (by linarith)]; ring

theorem rndVal_near {q d : ℚ} (hq : q ≠ 0) (hd : IsDouble d) : |rndVal q - q| ≤ |d - q| := by
  rcases double_multiple_or_small (q := q) hd with ⟨n, rfl⟩ | ⟨h, hs⟩
  · exact rndVal_near_multiple q n
  · obtain ⟨n, hn⟩ := sign_pow_multiple h hq
    have h1 := rndVal_near_multiple q n
    have h2 : |q| - |d| ≤ |d - q| := by
      have := abs_sub_abs_le_abs_sub q d; rwa [abs_sub_comm q d] at this
    linarith

theorem abs_roundEven_le {x : ℚ} {n : Int} (h : |x| ≤ n) : |roundEven x| ≤ n := by
  have a := roundEven_near x n
  have b := roundEven_near x (-n)
  have ha := abs_le.mp h
  have : |(roundEven x : ℚ)| ≤ n := by
    rw [abs_le]
    rw [abs_of_nonneg (show 0 ≤ (n : ℚ) - x by linarith)] at a
    push_cast at b
    rw [abs_of_nonpos (show -(n : ℚ) - x ≤ 0 by linarith)] at b
    have ha' := abs_le.mp a
    have hb' := abs_le.mp b
    constructor <;> linarith
  exact_mod_cast this

theorem le_abs_roundEven {x : ℚ} {n : Int} (h : (n : ℚ) ≤ |x|) : n ≤ |roundEven x| := by
  have a := roundEven_near x n
  have b := roundEven_near x (-n)
  have : (n : ℚ) ≤ |(roundEven x : ℚ)| := by
    rcases le_or_gt 0 x with h0 | h0
    · rw [abs_of_nonneg h0] at h
      rw [abs_of_nonpos (show (n : ℚ) - x ≤ 0 by linarith)] at a
      have := abs_le.mp a
      have := le_abs_self (roundEven x : ℚ)
      linarith
    · rw [abs_of_neg h0] at h
      push_cast at b
      rw [abs_of_nonneg (show 0 ≤ -(n : ℚ) - x by linarith)] at b
      have := abs_le.mp b
      have := neg_abs_le (roundEven x : ℚ)
      linarith
  exact_mod_cast this

theorem abs_div_lastPlace {q : ℚ} (hq : q ≠ 0) : |q / 2 ^ (lastPlace q)| < 2 ^ 53 := by
  rw [abs_div, abs_of_pos (two_zpow_pos _), div_lt_iff₀ (two_zpow_pos _)]
  calc |q| < 2 ^ (binaryLog q + 1) := (binaryLog_spec hq).2
    _ ≤ 2 ^ (53 + lastPlace q) := by rw [two_zpow_le]; have := binaryLog_le_lastPlace q; omega
    _ = 2 ^ 53 * 2 ^ (lastPlace q) := by rw [two_zpow_add]; norm_num

theorem roundEven_le_two53 {q : ℚ} (hq : q ≠ 0) : |roundEven (q / 2 ^ (lastPlace q))| ≤ 2 ^ 53 := by
  apply abs_roundEven_le; push_cast; exact le_of_lt (abs_div_lastPlace hq)

/-- With no overflow the rounded value is a double. -/
theorem rndVal_isDouble {q : ℚ} (hq : q ≠ 0) (h : |rndVal q| < 2 ^ (1024 : Int)) : IsDouble (rndVal q) := by
  have hR := roundEven_le_two53 hq
  have hE := lastPlace_ge q
  rcases lt_or_eq_of_le hR with hlt | heq
  · refine ⟨_, _, hlt, hE, ?_, rfl⟩
    by_contra hc
    have hL := lastPlace_of_gt (q := q) (by omega)
    have h52 : (((2 ^ 52 : Int)) : ℚ) ≤ |q / 2 ^ (lastPlace q)| := by
      rw [abs_div, abs_of_pos (two_zpow_pos _), le_div_iff₀ (two_zpow_pos _)]
      refine le_trans (le_of_eq ?_) (binaryLog_spec hq).1
      rw [show ((2 ^ 52 : Int) : ℚ) = 2 ^ (52 : Int) by norm_num, ← two_zpow_add]; congr 1; omega
    have := le_abs_roundEven h52
    have h' : (2 : ℚ) ^ (52 : Int) ≤ |(roundEven (q / 2 ^ (lastPlace q)) : ℚ)| := by exact_mod_cast this
    unfold rndVal at h
    rw [abs_mul, abs_of_pos (two_zpow_pos _)] at h
    have h2 : (2 : ℚ) ^ (972 : Int) ≤ 2 ^ (lastPlace q) := two_zpow_le.mpr (by omega)
    have : (2 : ℚ) ^ (1024 : Int) ≤ |(roundEven (q / 2 ^ (lastPlace q)) : ℚ)| * 2 ^ (lastPlace q) := by
      calc (2 : ℚ) ^ (1024 : Int) = 2 ^ (52 : Int) * 2 ^ (972 : Int) := by rw [← two_zpow_add]; norm_num
        _ ≤ _ := by gcongr
    linarith
  · have hv : |rndVal q| = 2 ^ (53 + lastPlace q) := by
      unfold rndVal
      rw [abs_mul, abs_of_pos (two_zpow_pos _), two_zpow_add]
      congr 1
      exact_mod_cast heq
    rw [hv, two_zpow_lt] at h
    have hs : roundEven (q / 2 ^ (lastPlace q)) = 2 ^ 53 ∨ roundEven (q / 2 ^ (lastPlace q)) = -(2 ^ 53) := by
      rcases abs_eq (by norm_num) |>.mp heq with h | h <;> simp [h]
    have e : (2 : ℚ) ^ 53 * 2 ^ (lastPlace q) = 2 ^ 52 * 2 ^ (lastPlace q + 1) := by
      rw [two_zpow_add]; ring
    rcases hs with hs | hs
    · refine ⟨2 ^ 52, lastPlace q + 1, by norm_num, by omega, by omega, ?_⟩
      unfold rndVal; rw [hs]; push_cast; exact e
    · refine ⟨-(2 ^ 52), lastPlace q + 1, by norm_num, by omega, by omega, ?_⟩
      unfold rndVal; rw [hs]; push_cast; norm_num at e ⊢; exact e

theorem rndVal_tie {q d : ℚ} (hq : q ≠ 0) (hd : IsDouble d) (hne : d ≠ rndVal q) (h : |d - q| = |rndVal q - q|) :
    LastDigitZero (rndVal q) := by
  rcases double_multiple_or_small (q := q) hd with ⟨n, rfl⟩ | ⟨hgt, hs⟩
  · have hp := two_zpow_pos (lastPlace q)
    have key : ∀ y : ℚ, |y * 2 ^ (lastPlace q) - q| = |y - q / 2 ^ (lastPlace q)| * 2 ^ (lastPlace q) := by
      intro y
      rw [← abs_of_pos hp, ← abs_mul, abs_of_pos hp]
      congr 1
      field_simp
    unfold rndVal at h
    rw [key, key] at h
    have h' := mul_right_cancel₀ (ne_of_gt hp) h
    have hne' : n ≠ roundEven (q / 2 ^ (lastPlace q)) := by
      intro he; apply hne; unfold rndVal; rw [← he]
    have hev := roundEven_tie _ _ hne' h'
    have hR := roundEven_le_two53 hq
    obtain ⟨k, hk⟩ : ∃ k, roundEven (q / 2 ^ (lastPlace q)) = 2 * k := ⟨_, (Int.mul_ediv_cancel' (Int.dvd_of_emod_eq_zero hev)).symm⟩
    have hk52 : |k| ≤ 2 ^ 52 := by
      rw [hk, abs_mul] at hR; norm_num at hR ⊢; omega
    have hE := lastPlace_ge q
    have hv : rndVal q = k * 2 ^ (lastPlace q + 1) := by
      unfold rndVal; rw [hk, two_zpow_add]; push_cast; ring
    rcases lt_or_eq_of_le hk52 with hlt | heq
    · exact ⟨k, _, hlt, by omega, hv⟩
    · have e : (2 : ℚ) ^ 52 * 2 ^ (lastPlace q + 1) = 2 ^ (lastPlace q + 53) := by
        rw [show lastPlace q + 53 = 52 + (lastPlace q + 1) by ring, two_zpow_add 52]; norm_num
      rcases abs_eq (by norm_num) |>.mp heq with h1 | h1
      · exact ⟨1, lastPlace q + 53, by norm_num, by omega, by rw [hv, h1]; push_cast; rw [← e]; ring⟩
      · exact ⟨-1, lastPlace q + 53, by norm_num, by omega, by rw [hv, h1]; push_cast; rw [← e]; ring⟩
  · exfalso
    obtain ⟨n, hn⟩ := sign_pow_multiple hgt hq
    have h1 := rndVal_near_multiple q n
    have h2 : |q| - |d| ≤ |d - q| := by
      have := abs_sub_abs_le_abs_sub q d; rwa [abs_sub_comm q d] at this
    linarith

/-- A double is not changed by rounding. -/
theorem rnd_of_double {q : ℚ} (h : IsDouble q) : rnd q = .fin q := by
  by_cases hq : q = 0
  · simp [rnd, hq]
  have hn := rndVal_near hq h
  simp only [sub_self, abs_zero] at hn
  have hv : rndVal q = q := by have := abs_nonpos_iff.mp hn; linarith
  rw [rnd_eq q hq, hv, if_pos]
  obtain ⟨m, e, hm, h1, h2, rfl⟩ := h
  rw [abs_mul, abs_of_pos (two_zpow_pos e)]
  have hm' : |(m : ℚ)| < 2 ^ (53 : Int) := by exact_mod_cast hm
  have := two_zpow_pos e
  calc |(m : ℚ)| * 2 ^ e < 2 ^ (53 : Int) * 2 ^ e := by gcongr
    _ = 2 ^ (53 + e) := by rw [two_zpow_add]
    _ ≤ 2 ^ (1024 : Int) := by rw [two_zpow_le]; omega

theorem overflowBound_eq (U : ℚ) (hU : U = 2 ^ (970 : Int)) : overflowBound = (2 ^ 54 - 1) * U := by
  rw [hU]; rfl

/-- Overflow happens exactly from the bound on. -/
theorem rndVal_overflow {q : ℚ} (hq : q ≠ 0) : |rndVal q| < 2 ^ (1024 : Int) ↔ |q| < overflowBound := by
  obtain ⟨U, hU⟩ : ∃ U : ℚ, U = 2 ^ (970 : Int) := ⟨_, rfl⟩
  have hUp : 0 < U := by rw [hU]; exact two_zpow_pos _
  have pw : ∀ k : Nat, (2 : ℚ) ^ ((k : Int) + 970) = 2 ^ k * U := by intro k; rw [two_zpow_add, ← hU, zpow_natCast]
  have p1024 : (2 : ℚ) ^ (1024 : Int) = 2 ^ 54 * U := pw 54
  have p1023 : (2 : ℚ) ^ (1023 : Int) = 2 ^ 53 * U := pw 53
  have p972 : (2 : ℚ) ^ (972 : Int) = 2 ^ 2 * U := pw 2
  have p971 : (2 : ℚ) ^ (971 : Int) = 2 * U := by have := pw 1; simpa using this
  rw [overflowBound_eq U hU, p1024]
  rcases lt_trichotomy (binaryLog q) 1023 with hlt | heq | hgt
  · -- far below
    have hs := (binaryLog_spec hq).2
    have h1 : |q| < 2 ^ (1023 : Int) := lt_of_lt_of_le hs (two_zpow_le.mpr (by omega))
    rw [p1023] at h1
    refine ⟨fun _ => by clear p1024 p1023 p972 p971 pw hU; nlinarith, fun _ => ?_⟩
    have hR := roundEven_le_two53 hq
    unfold rndVal
    rw [abs_mul, abs_of_pos (two_zpow_pos _)]
    have hR' : |(roundEven (q / 2 ^ (lastPlace q)) : ℚ)| ≤ 2 ^ (53 : Int) := by exact_mod_cast hR
    have hp := two_zpow_pos (lastPlace q)
    calc |(roundEven (q / 2 ^ (lastPlace q)) : ℚ)| * 2 ^ (lastPlace q) ≤ 2 ^ (53 : Int) * 2 ^ (lastPlace q) := by gcongr
      _ = 2 ^ (53 + lastPlace q) := by rw [two_zpow_add]
      _ < 2 ^ (1024 : Int) := by rw [two_zpow_lt]; unfold lastPlace; omega
      _ = 2 ^ 54 * U := p1024
  · have hE : lastPlace q = 971 := by unfold lastPlace; omega
    have hp : (0 : ℚ) < 2 * U := mul_pos (by norm_num) hUp
    have hx := abs_div_lastPlace hq
    rw [hE, p971] at hx
    unfold rndVal
    rw [hE, p971, abs_mul, abs_of_pos hp]
    obtain ⟨x, hxdef⟩ : ∃ x, x = q / (2 * U) := ⟨_, rfl⟩
    rw [← hxdef] at hx ⊢
    have hqx : |q| = |x| * (2 * U) := by
      rw [hxdef, abs_div, abs_of_pos hp]; field_simp
    rw [hqx, show (2 ^ 54 * U : ℚ) = 2 ^ 53 * (2 * U) by ring, show ((2 ^ 54 - 1) * U : ℚ) = (2 ^ 53 - 1 / 2) * (2 * U) by ring,
      mul_lt_mul_iff_left₀ hp, mul_lt_mul_iff_left₀ hp]
    clear p1024 p1023 p972 p971 pw hU
    have hc := roundEven_half x
    have hc' := abs_le.mp hc
    constructor
    · intro h
      have hi : |roundEven x| < 2 ^ 53 := by exact_mod_cast h
      by_contra hc2
      have hge : 2 ^ 53 - 1 / 2 ≤ |x| := not_lt.mp hc2
      have hi1 : |(roundEven x : ℚ)| ≤ 2 ^ 53 - 1 := by
        have : |roundEven x| ≤ 2 ^ 53 - 1 := by omega
        exact_mod_cast this
      have hi2 := abs_le.mp hi1
      rcases le_or_gt 0 x with h0 | h0
      · rw [abs_of_nonneg h0] at hge hx
        have hR : (roundEven x : ℚ) = 2 ^ 53 - 1 := by linarith
        have hxe : x = 2 ^ 53 - 1 / 2 := by linarith
        have hev := roundEven_tie x (2 ^ 53) (by intro h'; rw [← h'] at hi; norm_num at hi)
          (by rw [hR, hxe]; norm_num)
        have : roundEven x = 2 ^ 53 - 1 := by exact_mod_cast hR
        omega
      · rw [abs_of_neg h0] at hge hx
        have hR : (roundEven x : ℚ) = -(2 ^ 53 - 1) := by linarith
        have hxe : x = -(2 ^ 53 - 1 / 2) := by linarith
        have hev := roundEven_tie x (-(2 ^ 53)) (by intro h'; rw [← h'] at hi; norm_num at hi)
          (by rw [hR, hxe]; norm_num)
        have : roundEven x = -(2 ^ 53 - 1) := by exact_mod_cast hR
        omega
    · intro h
      have h' := abs_lt.mp h
      rw [abs_lt]
      constructor <;> linarith
  · -- far above
    have hs := (binaryLog_spec hq).1
    have h1 : (2 : ℚ) ^ (1024 : Int) ≤ |q| := le_trans (two_zpow_le.mpr (by omega)) hs
    rw [p1024] at h1
    refine ⟨fun h => ?_, fun h => ?_⟩
    · exfalso
      have hL : lastPlace q = binaryLog q - 52 := by unfold lastPlace; omega
      have h52 : (((2 ^ 52 : Int)) : ℚ) ≤ |q / 2 ^ (lastPlace q)| := by
        rw [abs_div, abs_of_pos (two_zpow_pos _), le_div_iff₀ (two_zpow_pos _)]
        refine le_trans (le_of_eq ?_) hs
        rw [show ((2 ^ 52 : Int) : ℚ) = 2 ^ (52 : Int) by norm_num, ← two_zpow_add]; congr 1; omega
      have h' : (2 : ℚ) ^ 52 ≤ |(roundEven (q / 2 ^ (lastPlace q)) : ℚ)| := by exact_mod_cast le_abs_roundEven h52
      unfold rndVal at h
      rw [abs_mul, abs_of_pos (two_zpow_pos _)] at h
      have h2 : (2 : ℚ) ^ (972 : Int) ≤ 2 ^ (lastPlace q) := two_zpow_le.mpr (by omega)
      rw [p972] at h2
      have : (2 : ℚ) ^ 52 * (2 ^ 2 * U) ≤ |(roundEven (q / 2 ^ (lastPlace q)) : ℚ)| * 2 ^ (lastPlace q) := by gcongr
      clear p1024 p1023 p972 p971 pw hU
      linarith
    · clear p1024 p1023 p972 p971 pw hU
      linarith

theorem overflowBound_pos : 0 < overflowBound := by
  rw [overflowBound_eq _ rfl]; exact mul_pos (by norm_num) (two_zpow_pos _)

theorem isDouble_zero : IsDouble 0 := ⟨0, 0, by norm_num, by norm_num, by norm_num, by norm_num⟩

/-- Rounding is correct. -/
theorem rnd_nearest (q : ℚ) : NearestDouble q (rnd q) := by
  by_cases hq : q = 0
  · subst hq
    refine .inl ⟨by simpa using overflowBound_pos, 0, by simp [rnd], isDouble_zero, fun d _ => by simp, fun d _ hne h => ?_⟩
    simp only [sub_zero, abs_zero, abs_eq_zero] at h
    exact absurd h hne
  · rw [rnd_eq q hq]
    by_cases h : |rndVal q| < 2 ^ (1024 : Int)
    · rw [if_pos h]
      exact .inl ⟨(rndVal_overflow hq).mp h, _, rfl, rndVal_isDouble hq h, fun d hd => rndVal_near hq hd,
        fun d hd hne he => rndVal_tie hq hd hne he⟩
    · rw [if_neg h]
      have hb := not_lt.mp (fun h' => h ((rndVal_overflow hq).mpr h'))
      have hp := overflowBound_pos
      rcases lt_or_gt_of_ne hq with hneg | hpos
      · rw [abs_of_neg hneg] at hb
        exact .inr (.inr ⟨by linarith, by simp [hneg]⟩)
      · rw [abs_of_pos hpos] at hb
        exact .inr (.inl ⟨hb, by simp [le_of_lt hpos]⟩)

/-- There is only one correctly rounded value. -/
theorem nearest_fin_unique {q v : ℚ} (hq : q ≠ 0) (hv : IsDouble v) (hnear : |v - q| = |rndVal q - q|) (hz : v ≠ rndVal q → LastDigitZero v) : v = rndVal q := by
  by_contra hne
  rcases double_multiple_or_small (q := q) hv with ⟨n, rfl⟩ | ⟨hgt, hs⟩
  · have hp := two_zpow_pos (lastPlace q)
    have key : ∀ y : ℚ, |y * 2 ^ (lastPlace q) - q| = |y - q / 2 ^ (lastPlace q)| * 2 ^ (lastPlace q) := by
      intro y
      rw [← abs_of_pos hp, ← abs_mul, abs_of_pos hp]
      congr 1
      field_simp
    unfold rndVal at hnear
    rw [key, key] at hnear
    have hd := mul_right_cancel₀ (ne_of_gt hp) hnear
    obtain ⟨x, hx⟩ : ∃ x, x = q / 2 ^ (lastPlace q) := ⟨_, rfl⟩
    rw [← hx] at hd
    have hne' : n ≠ roundEven x := by rintro rfl; exact hne (by unfold rndVal; rw [← hx])
    have hev := roundEven_tie x n hne' hd
    have hhalf := roundEven_half x
    have hodd : n % 2 = 1 := by
      have h1 : |(n : ℚ) - roundEven x| ≤ 1 := by
        calc |(n : ℚ) - roundEven x| ≤ |(n : ℚ) - x| + |x - roundEven x| := abs_sub_le _ _ _
          _ = |(n : ℚ) - x| + |(roundEven x : ℚ) - x| := by rw [abs_sub_comm x]
          _ ≤ 1 := by linarith
      have h2 : |n - roundEven x| ≤ 1 := by exact_mod_cast h1
      have := abs_le.mp h2
      omega
    obtain ⟨m, e, hm, he, hme⟩ := hz hne
    have hE := lastPlace_ge q
    rcases lt_or_ge (lastPlace q) e with hlt | hge
    · -- then `n` would be even
      have : (n : ℚ) = m * 2 ^ (e - lastPlace q).toNat := by
        have h1 : (2 : ℚ) ^ e = 2 ^ (e - lastPlace q).toNat * 2 ^ (lastPlace q) := by
          rw [← zpow_natCast, ← two_zpow_add]; congr 1; omega
        rw [h1, ← mul_assoc] at hme
        exact mul_right_cancel₀ (ne_of_gt hp) hme
      have h2 : n = m * 2 ^ (e - lastPlace q).toNat := by exact_mod_cast this
      obtain ⟨j, hj⟩ : ∃ j, (e - lastPlace q).toNat = j + 1 := ⟨(e - lastPlace q).toNat - 1, by omega⟩
      rw [hj, pow_succ, ← mul_assoc] at h2
      omega
    · have hgt : -1074 < lastPlace q := by omega
      have hL := lastPlace_of_gt hgt
      have h52 : (2 : ℚ) ^ 52 ≤ |x| := by
        rw [hx, abs_div, abs_of_pos hp, le_div_iff₀ hp]
        refine le_trans (le_of_eq ?_) (binaryLog_spec hq).1
        rw [show (2 : ℚ) ^ 52 = 2 ^ (52 : Int) by norm_num, ← two_zpow_add]; congr 1; omega
      have hn : |(n : ℚ)| ≤ |(m : ℚ)| := by
        have h1 : |(n : ℚ)| * 2 ^ (lastPlace q) = |(m : ℚ)| * 2 ^ e := by
          have := congrArg (fun y => |y|) hme
          simpa [abs_mul, abs_of_pos hp, abs_of_pos (two_zpow_pos e)] using this
        have h2 : (2 : ℚ) ^ e ≤ 2 ^ (lastPlace q) := two_zpow_le.mpr hge
        have h3 : |(n : ℚ)| * 2 ^ (lastPlace q) ≤ |(m : ℚ)| * 2 ^ (lastPlace q) := by rw [h1]; gcongr
        exact le_of_mul_le_mul_right h3 hp
      have hm' : |(m : ℚ)| ≤ 2 ^ 52 - 1 := by
        have : |m| ≤ 2 ^ 52 - 1 := by omega
        exact_mod_cast this
      have h4 : |x| - |(n : ℚ)| ≤ |(n : ℚ) - x| := by
        have := abs_sub_abs_le_abs_sub x (n : ℚ); rwa [abs_sub_comm x] at this
      linarith
  · obtain ⟨n, hn⟩ := sign_pow_multiple hgt hq
    have h1 := rndVal_near_multiple q n
    have h2 : |q| - |v| ≤ |v - q| := by
      have := abs_sub_abs_le_abs_sub q v; rwa [abs_sub_comm q v] at this
    linarith

/-- Correct rounding determines the result. -/
theorem nearest_iff (q : ℚ) (x : Dbl) : NearestDouble q x ↔ x = rnd q := by
  refine ⟨?_, fun h => h ▸ rnd_nearest q⟩
  have hp := overflowBound_pos
  rintro (⟨hb, v, rfl, hv, hnear, htie⟩ | ⟨hb, rfl⟩ | ⟨hb, rfl⟩)
  · by_cases hq : q = 0
    · subst hq
      have := hnear 0 isDouble_zero
      simp only [sub_zero, abs_zero, abs_nonpos_iff] at this
      simp [rnd, this]
    · have hfin := (rndVal_overflow hq).mpr hb
      rw [rnd_eq q hq, if_pos hfin]
      congr 1
      have h1 := hnear _ (rndVal_isDouble hq hfin)
      have h2 := rndVal_near hq hv
      exact nearest_fin_unique hq hv (le_antisymm h1 h2) (fun hne => htie _ (rndVal_isDouble hq hfin) (Ne.symm hne) (le_antisymm h2 h1))
  · have hq : 0 < q := lt_of_lt_of_le hp hb
    rw [rnd_eq q (ne_of_gt hq), if_neg]
    · simp [le_of_lt hq]
    · rw [rndVal_overflow (ne_of_gt hq), abs_of_pos hq]; exact not_lt.mpr hb
  · have hq : q < 0 := by linarith
    rw [rnd_eq q (ne_of_lt hq), if_neg]
    · simp [hq]
    · rw [rndVal_overflow (ne_of_lt hq), abs_of_neg hq]; exact not_lt.mpr (by linarith)

end Brel
