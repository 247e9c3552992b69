import Mathlib.Tactic.Ring
import Mathlib.Tactic.FieldSimp
import Mathlib.Tactic.Linarith
import Mathlib.Tactic.Positivity
import Verif.Model.Numeric
import Verif.Spec.Numeric
import Verif.Lemmas.Regex

namespace Brel
open Spec

theorem char_eq {c d : Char} (h : c.toNat = d.toNat) : c = d := by
  apply Char.ext
  exact UInt32.toNat_inj.1 h

/-! ## Digits -/

theorem natOf_nil : natOf [] = 0 := rfl

theorem foldl_natOf (ds : List Nat) : ∀ a, ds.foldl (fun n d => 10 * n + d) a = a * 10 ^ ds.length + natOf ds := by
  induction ds with
  | nil => intro a; simp [natOf]
  | cons d ds ih =>
    intro a
    simp only [List.foldl_cons, natOf, List.length_cons]
    rw [ih, ih (10 * 0 + d)]
    ring

theorem natOf_append (a b : List Nat) : natOf (a ++ b) = natOf a * 10 ^ b.length + natOf b := by
  rw [natOf, List.foldl_append, foldl_natOf]; rfl

theorem natOf_cons (d : Nat) (b : List Nat) : natOf (d :: b) = d * 10 ^ b.length + natOf b := by
  have := natOf_append [d] b
  simpa [natOf] using this

theorem natOf_zeros (n : Nat) : natOf (List.replicate n 0) = 0 := by
  induction n with
  | zero => rfl
  | succ n ih => rw [List.replicate_succ, natOf_cons, ih]; simp

theorem natOf_eq_zero {ds : List Nat} : natOf ds = 0 ↔ ∀ d ∈ ds, d = 0 := by
  induction ds with
  | nil => simp [natOf]
  | cons d ds ih =>
    rw [natOf_cons]
    have : 0 < 10 ^ ds.length := Nat.pow_pos (by decide)
    constructor
    · intro h
      have h1 := Nat.eq_zero_of_add_eq_zero_right h
      have h2 := Nat.eq_zero_of_add_eq_zero_left h
      have h1 : d = 0 := by
        rcases Nat.mul_eq_zero.1 h1 with h | h
        · exact h
        · omega
      intro x hx
      rcases List.mem_cons.1 hx with rfl | hx
      · exact h1
      · exact ih.1 h2 x hx
    · intro h
      rw [h d (by simp), ih.2 (fun x hx => h x (by simp [hx]))]
      simp

theorem decimalNumber_eq (w f : List Nat) : decimalNumber w f = (natOf (w ++ f) : ℚ) / 10 ^ f.length := by
  rw [decimalNumber, natOf_append]
  push_cast
  field_simp

theorem digitsOf_append (a b : List Char) : digitsOf (a ++ b) = digitsOf a ++ digitsOf b := List.filterMap_append ..

theorem digitsOf_cons_none {c : Char} (s : List Char) (h : digitValue c = none) : digitsOf (c :: s) = digitsOf s := by
  simp [digitsOf, h]

theorem digitsOf_eq_nil {s : List Char} (h : ∀ c ∈ s, digitValue c = none) : digitsOf s = [] := by
  simp only [digitsOf, List.filterMap_eq_nil_iff]; exact h

theorem digitsOf_length {s : List Char} (h : ∀ c ∈ s, (digitValue c).isSome) : (digitsOf s).length = s.length := by
  induction s with
  | nil => rfl
  | cons c s ih =>
    obtain ⟨d, hd⟩ := Option.isSome_iff_exists.1 (h c (by simp))
    have := ih (fun x hx => h x (by simp [hx]))
    simp only [digitsOf] at this
    simp [digitsOf, hd, this]

theorem digitValue_ascii {c : Char} (h : IsAsciiDigit c) : digitValue c = some (c.toNat - 0x30) := by
  simp only [digitValue]; rw [if_pos (show 0x30 ≤ c.toNat ∧ c.toNat ≤ 0x39 from h)]

theorem asciiDigit_isSome {c : Char} (h : IsAsciiDigit c) : (digitValue c).isSome := by rw [digitValue_ascii h]; rfl

theorem digitValue_zero : digitValue '0' = some 0 := by decide

theorem digitsOf_zeros (n : Nat) : digitsOf (List.replicate n '0') = List.replicate n 0 := by
  induction n with
  | zero => rfl
  | succ n ih => 
    simp only [digitsOf] at ih
    simp [List.replicate_succ, digitsOf, digitValue_zero, ih]

theorem digitValue_eq_zero {c : Char} (h : IsAsciiDigit c) (h0 : digitValue c = some 0) : c = '0' := by
  rw [digitValue_ascii h] at h0
  apply char_eq
  have := h.1
  simp at h0
  have e : ('0' : Char).toNat = 0x30 := rfl
  omega

theorem char_of_toNat {c : Char} {n : Nat} (h : c.toNat = n) (d : Char) (hd : d.toNat = n) : c = d := char_eq (by rw [h, hd])

/-- Normalising a digit keeps its value and makes it ASCII. -/
theorem normalizeDigit_digit {c : Char} (h : (digitValue c).isSome) :
    IsAsciiDigit (normalizeDigit c) ∧ digitValue (normalizeDigit c) = digitValue c := by
  have key : (0x30 ≤ c.toNat ∧ c.toNat ≤ 0x39) ∨ (0xFF10 ≤ c.toNat ∧ c.toNat ≤ 0xFF19) := by
    simp only [digitValue] at h
    split at h
    · exact .inl ‹_›
    · split at h
      · exact .inr ‹_›
      · exact absurd h (by simp)
  have cases10 : ∀ (a n : Nat), a ≤ n → n ≤ a + 9 → n = a ∨ n = a + 1 ∨ n = a + 2 ∨ n = a + 3 ∨ n = a + 4 ∨ n = a + 5 ∨ n = a + 6 ∨
      n = a + 7 ∨ n = a + 8 ∨ n = a + 9 := by omega
  rcases key with ⟨h1, h2⟩ | ⟨h1, h2⟩
  · rcases cases10 _ _ h1 h2 with e | e | e | e | e | e | e | e | e | e
    · rw [char_of_toNat e '0' rfl]; decide
    · rw [char_of_toNat e '1' rfl]; decide
    · rw [char_of_toNat e '2' rfl]; decide
    · rw [char_of_toNat e '3' rfl]; decide
    · rw [char_of_toNat e '4' rfl]; decide
    · rw [char_of_toNat e '5' rfl]; decide
    · rw [char_of_toNat e '6' rfl]; decide
    · rw [char_of_toNat e '7' rfl]; decide
    · rw [char_of_toNat e '8' rfl]; decide
    · rw [char_of_toNat e '9' rfl]; decide
  · rcases cases10 _ _ h1 h2 with e | e | e | e | e | e | e | e | e | e
    · rw [char_of_toNat e '０' rfl]; decide
    · rw [char_of_toNat e '１' rfl]; decide
    · rw [char_of_toNat e '２' rfl]; decide
    · rw [char_of_toNat e '３' rfl]; decide
    · rw [char_of_toNat e '４' rfl]; decide
    · rw [char_of_toNat e '５' rfl]; decide
    · rw [char_of_toNat e '６' rfl]; decide
    · rw [char_of_toNat e '７' rfl]; decide
    · rw [char_of_toNat e '８' rfl]; decide
    · rw [char_of_toNat e '９' rfl]; decide

/-! ## Scaling -/

theorem applyScale_spec (whole decimal : List Char) (scale : Int) :
    ∃ a b, (applyScale whole decimal scale).1 ++ (applyScale whole decimal scale).2 =
      List.replicate a '0' ++ whole ++ decimal ++ List.replicate b '0' ∧
      ((applyScale whole decimal scale).2.length : Int) + scale = decimal.length + b := by
  unfold applyScale
  by_cases h : scale < 0
  · simp only [h, if_true, pyUpto, pyFrom]
    refine ⟨if (whole.length : Int) < -scale then ((-scale) - whole.length).toNat else 0, 0, ?_, ?_⟩
    · rw [← List.append_assoc, List.take_append_drop]
      split <;> simp
    · split
      · simp; omega
      · simp; omega
  · simp only [h, if_false, pyUpto, pyFrom]
    refine ⟨0, if (decimal.length : Int) < scale then (scale - decimal.length).toNat else 0, ?_, ?_⟩
    · rw [List.append_assoc, List.take_append_drop]
      split <;> simp
    · split
      · simp; omega
      · simp; omega

theorem applyScale_digits {P : Char → Prop} (h0 : P '0') {whole decimal : List Char} (hw : ∀ c ∈ whole, P c) (hd : ∀ c ∈ decimal, P c)
    (scale : Int) : (∀ c ∈ (applyScale whole decimal scale).1, P c) ∧ ∀ c ∈ (applyScale whole decimal scale).2, P c := by
  obtain ⟨a, b, e, -⟩ := applyScale_spec whole decimal scale
  have key : ∀ c ∈ List.replicate a '0' ++ whole ++ decimal ++ List.replicate b '0', P c := by
    intro c hc
    simp only [List.mem_append, List.mem_replicate] at hc
    rcases hc with ((⟨_, rfl⟩ | h) | h) | ⟨_, rfl⟩
    · exact h0
    · exact hw c h
    · exact hd c h
    · exact h0
  rw [← e] at key
  exact ⟨fun c hc => key c (List.mem_append_left _ hc), fun c hc => key c (List.mem_append_right _ hc)⟩

theorem applyScale_value {whole decimal : List Char} (hw : ∀ c ∈ whole, (digitValue c).isSome) (hd : ∀ c ∈ decimal, (digitValue c).isSome)
    (scale : Int) :
    decimalNumber (digitsOf (applyScale whole decimal scale).1) (digitsOf (applyScale whole decimal scale).2) =
      decimalNumber (digitsOf whole) (digitsOf decimal) * (10 : ℚ) ^ scale := by
  obtain ⟨a, b, e, hl⟩ := applyScale_spec whole decimal scale
  have hdig := applyScale_digits (P := fun c => (digitValue c).isSome) (by decide) hw hd scale
  rw [decimalNumber_eq, decimalNumber_eq, ← digitsOf_append, e, digitsOf_length hdig.2]
  simp only [digitsOf_append, digitsOf_zeros, natOf_append, natOf_zeros, digitsOf_length hd, List.length_replicate]
  have hs : scale = (decimal.length : Int) + b - (applyScale whole decimal scale).2.length := by omega
  generalize (applyScale whole decimal scale).2.length = n at *
  have h10 : (10 : ℚ) ≠ 0 := by norm_num
  rw [hs, zpow_sub₀ h10, zpow_add₀ h10, zpow_natCast, zpow_natCast, zpow_natCast]
  push_cast
  field_simp
  ring

/-! ## Stripping zeros -/

theorem takeWhile_holds {α : Type} {p : α → Bool} {l : List α} {x : α} (h : x ∈ l.takeWhile p) : p x = true := by
  induction l with
  | nil => simp at h
  | cons y l ih =>
    rw [List.takeWhile_cons] at h
    split at h
    · rcases List.mem_cons.1 h with rfl | h
      · assumption
      · exact ih h
    · simp at h

theorem rstrip_decomp (s : List Char) : ∃ t k, s = t ++ List.replicate k '0' ∧ t.getLast? ≠ some '0' ∧ rstripZeros s = t := by
  refine ⟨rstripZeros s, (s.reverse.takeWhile (· = '0')).length, ?_, ?_, rfl⟩
  · have h : s.reverse = s.reverse.takeWhile (· = '0') ++ s.reverse.dropWhile (· = '0') := List.takeWhile_append_dropWhile.symm
    have hr : s.reverse.takeWhile (· = '0') = List.replicate (s.reverse.takeWhile (· = '0')).length '0' := by
      apply List.eq_replicate_iff.2
      refine ⟨rfl, fun c hc => ?_⟩
      simpa using takeWhile_holds hc
    have := congrArg List.reverse h
    rw [List.reverse_reverse, List.reverse_append, hr, List.reverse_replicate] at this
    simpa [rstripZeros] using this
  · unfold rstripZeros
    rw [List.getLast?_reverse]
    intro h
    have := List.head?_dropWhile_not (p := fun c : Char => decide (c = '0')) (l := s.reverse)
    rw [h] at this
    simp at this

theorem lstrip_decomp (s : List Char) : ∃ t k, s = List.replicate k '0' ++ t ∧ t.head? ≠ some '0' ∧ lstripZeros s = t := by
  refine ⟨lstripZeros s, (s.takeWhile (· = '0')).length, ?_, ?_, rfl⟩
  · have hr : s.takeWhile (· = '0') = List.replicate (s.takeWhile (· = '0')).length '0' := by
      apply List.eq_replicate_iff.2
      refine ⟨rfl, fun c hc => ?_⟩
      simpa using takeWhile_holds hc
    rw [← hr]
    exact List.takeWhile_append_dropWhile.symm
  · unfold lstripZeros
    intro h
    have := List.head?_dropWhile_not (p := fun c : Char => decide (c = '0')) (l := s)
    rw [h] at this
    simp at this

theorem rstrip_append_zeros (s : List Char) (k : Nat) : rstripZeros (s ++ List.replicate k '0') = rstripZeros s := by
  simp only [rstripZeros, List.reverse_append, List.reverse_replicate]
  congr 1
  induction k with
  | zero => rfl
  | succ k ih => simpa [List.replicate_succ] using ih

theorem rstrip_self {s : List Char} (h : s.getLast? ≠ some '0') : rstripZeros s = s := by
  obtain ⟨t, k, e, -, hr⟩ := rstrip_decomp s
  cases k with
  | zero => simpa [hr] using e.symm
  | succ k =>
    rw [List.replicate_succ', ← List.append_assoc] at e
    rw [e] at h
    simp at h

theorem lstrip_zeros_append (s : List Char) (k : Nat) : lstripZeros (List.replicate k '0' ++ s) = lstripZeros s := by
  induction k with
  | zero => rfl
  | succ k ih => simpa [List.replicate_succ, lstripZeros] using ih

theorem lstrip_self {s : List Char} (h : s.head? ≠ some '0') : lstripZeros s = s := by
  cases s with
  | nil => rfl
  | cons c s =>
    have : c ≠ '0' := by simpa using h
    simp [lstripZeros, this]

/-! ## The stored numeral -/

theorem normalizeDigits_append (a b : List Char) : normalizeDigits (a ++ b) = normalizeDigits a ++ normalizeDigits b :=
  List.map_append ..

theorem normalizeDigits_ascii {s : List Char} (h : ∀ c ∈ s, (digitValue c).isSome) : ∀ c ∈ normalizeDigits s, IsAsciiDigit c := by
  intro c hc
  obtain ⟨x, hx, rfl⟩ := List.mem_map.1 hc
  exact (normalizeDigit_digit (h x hx)).1

theorem digitsOf_normalizeDigits {s : List Char} (h : ∀ c ∈ s, (digitValue c).isSome) : digitsOf (normalizeDigits s) = digitsOf s := by
  induction s with
  | nil => rfl
  | cons c s ih =>
    have h1 := (normalizeDigit_digit (h c (by simp))).2
    have h2 := ih (fun x hx => h x (by simp [hx]))
    simp only [digitsOf, normalizeDigits] at h2
    simp only [digitsOf, normalizeDigits, List.map_cons, List.filterMap_cons, h1, h2]

theorem not_digit_dot : ¬ IsAsciiDigit '.' := by decide

theorem digits_zero {s : List Char} (h : ∀ c ∈ s, IsAsciiDigit c) : natOf (digitsOf s) = 0 ↔ ∀ c ∈ s, c = '0' := by
  rw [natOf_eq_zero]
  constructor
  · intro hz c hc
    apply digitValue_eq_zero (h c hc)
    obtain ⟨d, hd⟩ := Option.isSome_iff_exists.1 (asciiDigit_isSome (h c hc))
    rw [hd, hz d (List.mem_filterMap.2 ⟨c, hc, hd⟩)]
  · intro hz d hd
    obtain ⟨c, hc, hd⟩ := List.mem_filterMap.1 hd
    rw [hz c hc, digitValue_zero] at hd
    exact (Option.some.inj hd).symm

theorem endsWith_dot (s : List Char) (c : Char) : endsWith (s ++ [c]) ['.'] = decide ('.' = c) := by
  simp only [endsWith, List.reverse_append, List.reverse_cons, List.reverse_nil, List.nil_append, List.cons_append, List.isPrefixOf,
    Bool.and_true]
  rfl

/-- What the normalisation of a numeral `W.D` gives. -/
theorem normalizeNumeric_spec {W D : List Char} (hW : ∀ c ∈ W, (digitValue c).isSome) (hD : ∀ c ∈ D, (digitValue c).isSome) :
    (decimalNumber (digitsOf W) (digitsOf D) = 0 → normalizeNumeric (W ++ '.' :: D) = []) ∧
    (decimalNumber (digitsOf W) (digitsOf D) ≠ 0 →
      Canonical (normalizeNumeric (W ++ '.' :: D)) ∧
      Denotes (normalizeNumeric (W ++ '.' :: D)) (decimalNumber (digitsOf W) (digitsOf D))) := by
  rw [← digitsOf_normalizeDigits hW, ← digitsOf_normalizeDigits hD]
  have hWa := normalizeDigits_ascii hW
  have hDa := normalizeDigits_ascii hD
  have hn : normalizeDigits (W ++ '.' :: D) = normalizeDigits W ++ '.' :: normalizeDigits D := by
    rw [normalizeDigits_append]; rfl
  unfold normalizeNumeric
  rw [hn]
  generalize normalizeDigits W = W at *
  generalize normalizeDigits D = D at *
  obtain ⟨D', k, hDe, hDl, -⟩ := rstrip_decomp D
  obtain ⟨W', j, hWe, hWl, -⟩ := lstrip_decomp W
  have hD'a : ∀ c ∈ D', IsAsciiDigit c := fun c hc => hDa c (by rw [hDe]; exact List.mem_append_left _ hc)
  have hW'a : ∀ c ∈ W', IsAsciiDigit c := fun c hc => hWa c (by rw [hWe]; exact List.mem_append_right _ hc)
  have hr : rstripZeros (W ++ '.' :: D) = W ++ '.' :: D' := by
    rw [hDe, ← List.cons_append, ← List.append_assoc, rstrip_append_zeros]
    apply rstrip_self
    rw [List.getLast?_append, List.getLast?_cons]
    cases h : D'.getLast? with
    | none => simp
    | some c => rw [h] at hDl; simpa using hDl
  have hval : decimalNumber (digitsOf W) (digitsOf D) = decimalNumber (digitsOf W') (digitsOf D') := by
    rw [decimalNumber, decimalNumber, hWe, hDe, digitsOf_append, digitsOf_append, natOf_append, natOf_append, digitsOf_zeros, digitsOf_zeros,
      natOf_zeros, natOf_zeros, List.length_append, List.length_replicate]
    push_cast
    have : (10 : ℚ) ^ k ≠ 0 := pow_ne_zero _ (by norm_num)
    rw [pow_add]
    field_simp
    ring
  have hpos : decimalNumber (digitsOf W') (digitsOf D') = 0 ↔ W' = [] ∧ D' = [] := by
    constructor
    · intro h
      have h1 : (0 : ℚ) ≤ natOf (digitsOf W') := Nat.cast_nonneg _
      have h2 : (0 : ℚ) ≤ (natOf (digitsOf D') : ℚ) / 10 ^ (digitsOf D').length := by positivity
      rw [decimalNumber] at h
      have e1 : (natOf (digitsOf W') : ℚ) = 0 := by linarith
      have e2 : (natOf (digitsOf D') : ℚ) / 10 ^ (digitsOf D').length = 0 := by linarith
      have e2 : (natOf (digitsOf D') : ℚ) = 0 := by
        rcases div_eq_zero_iff.1 e2 with h | h
        · exact h
        · exact absurd h (pow_ne_zero _ (by norm_num))
      have z1 := (digits_zero hW'a).1 (by exact_mod_cast e1)
      have z2 := (digits_zero hD'a).1 (by exact_mod_cast e2)
      constructor
      · cases W' with
        | nil => rfl
        | cons c W' => exact absurd (by simp [z1 c (by simp)]) hWl
      · cases hh : D'.getLast? with
        | none => exact List.getLast?_eq_none_iff.1 hh
        | some c => exact absurd (by rw [hh, z2 c (List.mem_of_getLast? hh)]) hDl
    · rintro ⟨rfl, rfl⟩; simp [decimalNumber, digitsOf, natOf]
  rw [hr, hval, Ne, hpos]
  have hstart : ∀ x ∈ W'.head?, startsWith (W' ++ '.' :: D') ['.'] = false ∧ startsWith W' ['.'] = false := by
    intro x hx
    cases W' with
    | nil => simp at hx
    | cons y W' =>
      have : '.' ≠ y := fun e => not_digit_dot (by rw [e]; exact hW'a y (by simp))
      simp [startsWith, List.isPrefixOf, this]
  by_cases hD0 : D' = []
  · subst hD0
    have he : endsWith (W ++ ['.']) ['.'] = true := by rw [endsWith_dot]; rfl
    have hl : lstripZeros W = W' := by rw [hWe, lstrip_zeros_append, lstrip_self hWl]
    simp only [he, if_true, List.dropLast_concat, hl]
    cases W' with
    | nil => simp [startsWith]
    | cons x W' =>
      have hs := (hstart x rfl).2
      simp only [hs, reduceCtorEq, false_and, false_implies, true_and, Bool.false_eq_true, if_false, not_false_eq_true, true_implies]
      have hN : Numeral (x :: W') (x :: W') [] := ⟨by simp, hW'a, by simp, .inl ⟨rfl, rfl⟩⟩
      exact ⟨⟨_, _, hN, .inr hWl, by simp⟩, ⟨_, _, hN, rfl⟩⟩
  · have he : endsWith (W ++ '.' :: D') ['.'] = false := by
      obtain ⟨D'', c, rfl⟩ : ∃ D'' c, D' = D'' ++ [c] := ⟨_, _, (List.dropLast_append_getLast hD0).symm⟩
      rw [← List.cons_append, ← List.append_assoc, endsWith_dot]
      have : IsAsciiDigit c := hD'a c (by simp)
      simp only [decide_eq_false_iff_not]
      rintro rfl
      exact not_digit_dot this
    have hl : lstripZeros (W ++ '.' :: D') = W' ++ '.' :: D' := by
      rw [hWe, List.append_assoc, lstrip_zeros_append]
      apply lstrip_self
      cases W' with
      | nil => simp
      | cons x W' => simpa using hWl
    simp only [he, Bool.false_eq_true, if_false, hl, hD0, and_false, false_implies, true_and, not_false_eq_true, true_implies]
    cases W' with
    | nil =>
      have hs : startsWith ([] ++ '.' :: D') ['.'] = true := by simp [startsWith, List.isPrefixOf]
      simp only [hs, if_true, List.nil_append]
      have hN : Numeral ('0' :: '.' :: D') ['0'] D' := ⟨by simp, by intro c hc; rw [List.mem_singleton.1 hc]; decide, hD'a, .inr ⟨hD0, rfl⟩⟩
      refine ⟨⟨_, _, hN, .inl rfl, hDl⟩, ⟨_, _, hN, ?_⟩⟩
      simp [decimalNumber, digitsOf, digitValue_zero, natOf]
    | cons x W' =>
      have hs := (hstart x rfl).1
      simp only [hs, Bool.false_eq_true, if_false]
      have hN : Numeral (x :: W' ++ '.' :: D') (x :: W') D' := ⟨by simp, hW'a, hD'a, .inr ⟨hD0, rfl⟩⟩
      exact ⟨⟨_, _, hN, .inr hWl, hDl⟩, ⟨_, _, hN, rfl⟩⟩

/-! ## The parts of a number -/

theorem foldl_filter (seps : List Char) (s : List Char) :
    seps.foldl (fun s sep => s.filter (· ≠ sep)) s = s.filter (fun c => decide (c ∉ seps)) := by
  induction seps generalizing s with
  | nil => simp
  | cons x seps ih =>
    rw [List.foldl_cons, ih, List.filter_filter]
    congr 1
    funext c
    simp [not_or, Bool.and_comm]

theorem digitsOf_filter_seps (s : List Char) : digitsOf (s.filter (fun c => decide (c ∉ separators))) = digitsOf s := by
  induction s with
  | nil => rfl
  | cons c s ih =>
    by_cases h : c ∈ separators
    · have hn : digitValue c = none := by
        simp only [separators, List.mem_cons, List.not_mem_nil, or_false] at h
        rcases h with rfl | rfl | rfl | rfl | rfl | rfl | rfl | rfl | rfl | rfl <;> decide
      rw [List.filter_cons_of_neg (by simpa using h), ih, digitsOf_cons_none _ hn]
    · rw [List.filter_cons_of_pos (by simpa using h)]
      simp only [digitsOf, List.filterMap_cons] at ih ⊢
      rw [ih]

/-- A captured part: digits and separators. -/
def PartOk (p : Option (List Char)) : Prop := ∀ s, p = some s → ∀ c ∈ s, (digitValue c).isSome ∨ c ∈ separators

theorem processNumberPart_digits {p : Option (List Char)} (h : PartOk p) : ∀ c ∈ processNumberPart p, (digitValue c).isSome := by
  intro c hc
  unfold processNumberPart at hc
  dsimp only at hc
  rw [foldl_filter] at hc
  obtain ⟨hc, hs⟩ := List.mem_filter.1 hc
  match p, h with
  | none, _ => simp at hc; rw [hc]; decide
  | some [], _ => simp at hc; rw [hc]; decide
  | some (x :: s), h =>
    rcases h _ rfl c hc with h | h
    · exact h
    · exact absurd h (by simpa using hs)

theorem decimalNumber_zero_left (f : List Nat) : decimalNumber [0] f = decimalNumber [] f := by simp [decimalNumber, natOf]

theorem decimalNumber_zero_right (w : List Nat) : decimalNumber w [0] = decimalNumber w [] := by simp [decimalNumber, natOf]

theorem processNumberPart_digitsOf (p : Option (List Char)) :
    digitsOf (processNumberPart p) = digitsOf (p.getD []) ∨ (digitsOf (processNumberPart p) = [0] ∧ digitsOf (p.getD []) = []) := by
  unfold processNumberPart
  dsimp only
  rw [foldl_filter, digitsOf_filter_seps]
  match p with
  | none => exact .inr ⟨by decide, rfl⟩
  | some [] => exact .inr ⟨by decide, rfl⟩
  | some (x :: s) => exact .inl rfl

theorem processNumberPart_number (p q : Option (List Char)) :
    decimalNumber (digitsOf (processNumberPart p)) (digitsOf (processNumberPart q)) = decimalNumber (digitsOf (p.getD [])) (digitsOf (q.getD [])) := by
  rcases processNumberPart_digitsOf p with hp | ⟨hp, hp'⟩ <;> rcases processNumberPart_digitsOf q with hq | ⟨hq, hq'⟩
  · rw [hp, hq]
  · rw [hp, hq, hq', decimalNumber_zero_right]
  · rw [hp, hp', hq, decimalNumber_zero_left]
  · rw [hp, hp', hq, hq', decimalNumber_zero_left, decimalNumber_zero_right]

/-- Value and form of a number whose parts were captured, with the scale applied. -/
theorem processNumeric_spec (dig : Char → Option Nat) {m : Caps} (h1 : PartOk (m.group 1)) (h2 : PartOk (m.group 2)) (scale : List Char) (n : Int)
    (hn : n = (pyInt dig scale).getD 0) (x : ℚ) (hx : x = decimalNumber (digitsOf ((m.group 1).getD [])) (digitsOf ((m.group 2).getD []))) :
    (processNumeric dig m scale).2 = (if (pyInt dig scale).isSome then [] else ["INVALID_SCALE_ATTRIBUTE_VALUE"]) ∧
    (x = 0 → normalizeNumeric (processNumeric dig m scale).1 = []) ∧
    (x ≠ 0 → Canonical (normalizeNumeric (processNumeric dig m scale).1) ∧ Denotes (normalizeNumeric (processNumeric dig m scale).1) (x * (10 : ℚ) ^ n)) := by
  have hd1 := processNumberPart_digits h1
  have hd2 := processNumberPart_digits h2
  have hval := applyScale_value hd1 hd2 n
  have hdig := applyScale_digits (P := fun c => (digitValue c).isSome) (by decide) hd1 hd2 n
  have hsp := normalizeNumeric_spec hdig.1 hdig.2
  rw [hval, processNumberPart_number, ← hx] at hsp
  have hform : (processNumeric dig m scale).1 = (applyScale (processNumberPart (m.group 1)) (processNumberPart (m.group 2)) n).1 ++
      '.' :: (applyScale (processNumberPart (m.group 1)) (processNumberPart (m.group 2)) n).2 := by
    unfold processNumeric
    subst hn
    cases pyInt dig scale <;> rfl
  have h10 : (10 : ℚ) ^ n ≠ 0 := zpow_ne_zero _ (by norm_num)
  refine ⟨?_, ?_, ?_⟩
  · unfold processNumeric
    cases pyInt dig scale <;> rfl
  · intro h0
    rw [hform]
    exact hsp.1 (by rw [h0, zero_mul])
  · intro h0
    rw [hform]
    exact hsp.2 (mul_ne_zero h0 h10)

/-! ## What the patterns capture -/

theorem char_eq_iff (c d : Char) : c = d ↔ c.toNat = d.toNat := ⟨fun h => by rw [h], char_eq⟩

/-- The pattern of the formats with a decimal mark. -/
def decimalRe (c : Cls) (mark : List Char) : Re := .seq (.grp 1 (.rep c 0 none)) (.opt (.grp 2 (.seq (.lits [mark]) (.rep Rx.fracDigits 1 none))))

/-- The pattern of the formats with a unit. -/
def unitRe (c nc : Cls) : Re :=
  .seq (.grp 1 (.rep c 1 none)) (.seq (.rep nc 1 (some 1)) (.seq (.rep Rx.notWideDigit 0 none) (.seq (.grp 2 (.rep Rx.wideDigit 1 (some 2))) (.rep Rx.notWideDigit 0 none))))

theorem has_fracDigits (x : Char) : Rx.fracDigits.has x = true ↔ IsAsciiDigit x ∨ x = ' ' := by
  simp only [Cls.has, Rx.fracDigits, List.any_cons, List.any_nil, Bool.or_false, Bool.bne_false, Bool.or_eq_true, Bool.and_eq_true,
    decide_eq_true_eq, IsAsciiDigit, char_eq_iff x]
  have : (' ' : Char).toNat = 32 := rfl
  omega

theorem digitValue_isSome (c : Char) : (digitValue c).isSome = true ↔ (0x30 ≤ c.toNat ∧ c.toNat ≤ 0x39) ∨ (0xFF10 ≤ c.toNat ∧ c.toNat ≤ 0xFF19) := by
  unfold digitValue
  split
  · simp [*]
  · split <;> simp_all

theorem has_wideDigit (x : Char) : Rx.wideDigit.has x = true ↔ (digitValue x).isSome = true := by
  rw [digitValue_isSome]
  simp [Cls.has, Rx.wideDigit]

theorem has_notWideDigit (x : Char) : Rx.notWideDigit.has x = true ↔ digitValue x = none := by
  rw [← Option.not_isSome_iff_eq_none, digitValue_isSome]
  simp [Cls.has, Rx.notWideDigit]
  omega

theorem consumes_decimal {c : Cls} {mark : Char} {w : List Char} {caps : Caps} (h : Consumes (decimalRe c [mark]) w [] caps) :
    ∃ a f, w = a ++ f ∧ (∀ x ∈ a, c.has x = true) ∧ caps.group 1 = some a ∧
      ((f = [] ∧ caps.group 2 = none) ∨ ∃ g, f = mark :: g ∧ g ≠ [] ∧ (∀ x ∈ g, IsAsciiDigit x ∨ x = ' ') ∧ caps.group 2 = some f) := by
  simp only [decimalRe, consumes_seq, consumes_grp, consumes_rep, consumes_opt, consumes_lits] at h
  obtain ⟨a, f, _, rfl, ⟨_, rfl, rfl, ha, -⟩, h⟩ := h
  rcases h with ⟨_, rfl, m, g, _, rfl, ⟨rfl, l, hl, rfl⟩, rfl, hg, hlo, -⟩ | ⟨rfl, rfl⟩
  · rw [List.mem_singleton] at hl
    subst hl
    refine ⟨a, _, rfl, ha, by simp [Caps.group], .inr ⟨g, rfl, ?_, fun x hx => (has_fracDigits x).1 (hg x hx), by simp [Caps.group]⟩⟩
    rintro rfl
    simp at hlo
  · exact ⟨a, [], by simp, ha, by simp [Caps.group], .inl ⟨rfl, by simp [Caps.group]⟩⟩

theorem decimal_consumes {c : Cls} {mark : Char} {a f : List Char} (ha : ∀ x ∈ a, c.has x = true)
    (hf : f = [] ∨ ∃ g, f = mark :: g ∧ g ≠ [] ∧ ∀ x ∈ g, IsAsciiDigit x ∨ x = ' ') :
    ∃ caps, Consumes (decimalRe c [mark]) (a ++ f) [] caps := by
  rcases hf with rfl | ⟨g, rfl, hg, hg'⟩
  · exact ⟨_, .seq (.grp (.rep ha (Nat.zero_le _) (by simp))) .optNone⟩
  · have h1 : Consumes (.lits [[mark]]) [mark] [(1, a)] [(1, a)] := .lits (by simp)
    refine ⟨_, .seq (.grp (.rep ha (Nat.zero_le _) (by simp))) (.optSome (.grp (.seq h1 (.rep (fun x hx => (has_fracDigits x).2 (hg' x hx)) ?_ (by simp)))))⟩
    exact List.length_pos_iff.2 hg

theorem consumes_unit {c nc : Cls} {w : List Char} {caps : Caps} (h : Consumes (unitRe c nc) w [] caps) :
    ∃ a x u m r, w = a ++ x :: u ++ m ++ r ∧ a ≠ [] ∧ (∀ y ∈ a, c.has y = true) ∧ nc.has x = true ∧ (∀ y ∈ u, digitValue y = none) ∧
      (m.length = 1 ∨ m.length = 2) ∧ (∀ y ∈ m, (digitValue y).isSome) ∧ (∀ y ∈ r, digitValue y = none) ∧
      caps.group 1 = some a ∧ caps.group 2 = some m := by
  simp only [unitRe, consumes_seq, consumes_grp, consumes_rep] at h
  obtain ⟨a, v, _, rfl, ⟨_, rfl, rfl, ha, hlo, -⟩, xs, v, _, rfl, ⟨rfl, hx, hxlo, hxhi⟩, u, v, _, rfl, ⟨rfl, hu, -⟩,
    m, r, _, rfl, ⟨_, rfl, rfl, hm, hmlo, hmhi⟩, rfl, hr, -⟩ := h
  have hl := hxhi 1 rfl
  obtain ⟨x, rfl⟩ : ∃ x, xs = [x] := List.length_eq_one_iff.1 (by omega)
  have hm2 := hmhi 2 rfl
  refine ⟨a, x, u, m, r, by simp, ?_, ha, hx x (by simp), fun y hy => (has_notWideDigit y).1 (hu y hy), by omega,
    fun y hy => (has_wideDigit y).1 (hm y hy), fun y hy => (has_notWideDigit y).1 (hr y hy), by simp [Caps.group], by simp [Caps.group]⟩
  rintro rfl
  simp at hlo

theorem unit_consumes {c nc : Cls} {a u m r : List Char} {x : Char} (ha0 : a ≠ []) (ha : ∀ y ∈ a, c.has y = true) (hx : nc.has x = true)
    (hu : ∀ y ∈ u, digitValue y = none) (hml : m.length = 1 ∨ m.length = 2) (hm : ∀ y ∈ m, (digitValue y).isSome) (hr : ∀ y ∈ r, digitValue y = none) :
    ∃ caps, Consumes (unitRe c nc) (a ++ x :: u ++ m ++ r) [] caps := by
  have e : a ++ x :: u ++ m ++ r = a ++ ([x] ++ (u ++ (m ++ r))) := by simp
  rw [e]
  exact ⟨_, .seq (.grp (.rep ha (List.length_pos_iff.2 ha0) (by simp))) (.seq (.rep (by simpa using hx) (by simp) (by simp))
    (.seq (.rep (fun y hy => (has_notWideDigit y).2 (hu y hy)) (Nat.zero_le _) (by simp))
      (.seq (.grp (.rep (fun y hy => (has_wideDigit y).2 (hm y hy)) (by omega) (by simp; omega))) (.rep (fun y hy => (has_notWideDigit y).2 (hr y hy)) (Nat.zero_le _) (by simp)))))⟩

/-! ## The stripped text -/

theorem pyStrip_last (s : List Char) : (pyStrip s).getLast? ≠ some '\n' := by
  unfold pyStrip
  rw [List.getLast?_reverse]
  intro h
  have := List.head?_dropWhile_not (p := pySpace) (l := (s.dropWhile pySpace).reverse)
  rw [h] at this
  exact absurd this (by decide)

theorem matchesFully_strip {r : Re} {s : List Char} {caps : Caps} (h : MatchesFully r (pyStrip s) caps) : Consumes r (pyStrip s) [] caps := by
  obtain ⟨w, rest, e, hrest, hc⟩ := h
  rcases hrest with rfl | rfl
  · rw [e, List.append_nil]; exact hc
  · exact absurd (by rw [e]; simp) (pyStrip_last s)

theorem consumes_matchesFully {r : Re} {s : List Char} {caps : Caps} (h : Consumes r s [] caps) : MatchesFully r s caps :=
  ⟨s, [], by simp, .inl rfl, h⟩

end Brel
