import Verif.Lemmas.DateEval

/-! Numbers in dates: how they are read, and how they are written. -/

namespace Brel
open Spec

variable {dig : Char → Option Nat}

theorem dateDigit_isSome (c : Char) : (dateDigit c).isSome = true ↔
    (0x30 ≤ c.toNat ∧ c.toNat ≤ 0x39) ∨ (0xFF10 ≤ c.toNat ∧ c.toNat ≤ 0xFF19) ∨ (0x966 ≤ c.toNat ∧ c.toNat ≤ 0x96F) := by
  unfold dateDigit
  split
  · simp [*]
  · split
    · simp_all
    · split <;> simp_all

theorem normalizeDigit_date {c : Char} (h : (dateDigit c).isSome) :
    IsAsciiDigit (normalizeDigit c) ∧ digitValue (normalizeDigit c) = dateDigit c := by
  rw [dateDigit_isSome] at h
  have main : (digitValue c).isSome → IsAsciiDigit (normalizeDigit c) ∧ digitValue (normalizeDigit c) = dateDigit c := by
    intro h'
    refine ⟨(normalizeDigit_digit h').1, ?_⟩
    rw [(normalizeDigit_digit h').2]
    rw [digitValue_isSome] at h'
    unfold digitValue dateDigit
    rcases h' with h' | h'
    · rw [if_pos h', if_pos h']
    · rw [if_neg (by omega), if_pos h', if_neg (by omega), if_pos h']
  rcases h with h | h | ⟨h1, h2⟩
  · exact main ((digitValue_isSome c).2 (.inl h))
  · exact main ((digitValue_isSome c).2 (.inr h))
  · have cases10 : ∀ (a n : Nat), a ≤ n → n ≤ a + 9 → n = a ∨ n = a + 1 ∨ n = a + 2 ∨ n = a + 3 ∨ n = a + 4 ∨ n = a + 5 ∨ n = a + 6 ∨
        n = a + 7 ∨ n = a + 8 ∨ n = a + 9 := by omega
    rcases cases10 _ _ h1 h2 with e | e | e | e | e | e | e | e | e | e
    · rw [char_of_toNat e '०' rfl]; decide
    · rw [char_of_toNat e '१' rfl]; decide
    · rw [char_of_toNat e '२' rfl]; decide
    · rw [char_of_toNat e '३' rfl]; decide
    · rw [char_of_toNat e '४' rfl]; decide
    · rw [char_of_toNat e '५' rfl]; decide
    · rw [char_of_toNat e '६' rfl]; decide
    · rw [char_of_toNat e '७' rfl]; decide
    · rw [char_of_toNat e '८' rfl]; decide
    · rw [char_of_toNat e '९' rfl]; decide

theorem normalizeDigits_date {s : List Char} (h : ∀ c ∈ s, (dateDigit c).isSome) :
    (∀ c ∈ normalizeDigits s, IsAsciiDigit c) ∧ digitsOf (normalizeDigits s) = s.filterMap dateDigit ∧ (normalizeDigits s).length = s.length := by
  refine ⟨?_, ?_, by simp [normalizeDigits]⟩
  · intro c hc
    obtain ⟨x, hx, rfl⟩ := List.mem_map.1 hc
    exact (normalizeDigit_date (h x hx)).1
  · induction s with
    | nil => rfl
    | cons c s ih =>
      have h1 := (normalizeDigit_date (h c (by simp))).2
      have h2 := ih (fun x hx => h x (List.mem_cons_of_mem _ hx))
      simp only [digitsOf, normalizeDigits] at h2
      simp only [digitsOf, normalizeDigits, List.map_cons, List.filterMap_cons, h1, h2]

theorem digitsIn_dateDigit {fmt : String} {s : List Char} (h : DigitsIn fmt s) : ∀ c ∈ s, (dateDigit c).isSome := by
  intro c hc
  rw [dateDigit_isSome]
  rcases h with h | ⟨-, h⟩ | ⟨-, h⟩
  · exact .inl (h c hc)
  · exact .inr (.inl (h c hc))
  · exact .inr (.inr (h c hc))

/-- `int()` reads the number. -/
theorem intOf_digits (T : DigitTable dig) (hdig : ∀ c, IsAsciiDigit c → dig c = some (c.toNat - 48)) {s : List Char} (h : ∀ c ∈ s, (dateDigit c).isSome)
    (hne : s ≠ []) (hlen : s.length ≤ 4) : intOf dig (normalizeDigits s) = .ok (dateNumber s) := by
  obtain ⟨h1, h2, h3⟩ := normalizeDigits_date h
  have hne' : normalizeDigits s ≠ [] := by rw [← List.length_pos_iff, h3]; exact List.length_pos_iff.2 hne
  have : pyInt dig (normalizeDigits s) = some ((dateNumber s : Nat) : Int) := by
    rw [pyInt_iff T]
    refine ⟨[], [], normalizeDigits s, [], digitsOf (normalizeDigits s), by simp, by simp, by simp, digitText_ascii hdig hne' h1, ?_,
      .inl ⟨rfl, by rw [← natOf_eq_decimalValue, h2]; rfl⟩⟩
    rw [digitsOf_length (fun c hc => asciiDigit_isSome (h1 c hc)), h3]
    omega
  simp [intOf, this]

theorem pad2_twoDigits {n : Nat} (h : n < 100) : pad2 n = twoDigits n := by
  have : ∀ k : Fin 100, pad2 k.1 = twoDigits k.1 := by decide +kernel
  exact this ⟨n, h⟩

theorem digitChar_toNat (n : Nat) : (digitChar n).toNat = 0x30 + n % 10 := by
  have : ∀ k : Fin 10, (Char.ofNat (0x30 + k.1)).toNat = 0x30 + k.1 := by decide
  exact this ⟨n % 10, by omega⟩

theorem digitChar_of {c : Char} (h : IsAsciiDigit c) {v : Nat} (hv : v % 10 = c.toNat - 0x30) : c = digitChar v := by
  apply char_eq
  rw [digitChar_toNat]
  have := h.1
  omega

theorem digits_four {s : List Char} (h : ∀ c ∈ s, IsAsciiDigit c) (hl : s.length = 4) : s = fourDigits (natOf (digitsOf s)) ∧ natOf (digitsOf s) < 10000 := by
  match s, hl with
  | [a, b, c, d], _ =>
    have ha := h a (by simp)
    have hb := h b (by simp)
    have hc := h c (by simp)
    have hd := h d (by simp)
    have e : natOf (digitsOf [a, b, c, d]) = (a.toNat - 48) * 1000 + (b.toNat - 48) * 100 + (c.toNat - 48) * 10 + (d.toNat - 48) := by
      simp only [digitsOf, List.filterMap_cons, List.filterMap_nil, digitValue_ascii ha, digitValue_ascii hb, digitValue_ascii hc, digitValue_ascii hd, natOf, List.foldl]
      omega
    have := ha.1; have := ha.2; have := hb.1; have := hb.2; have := hc.1; have := hc.2; have := hd.1; have := hd.2
    rw [e]
    refine ⟨?_, by omega⟩
    unfold fourDigits
    exact List.cons_eq_cons.2 ⟨digitChar_of ha (by omega), List.cons_eq_cons.2 ⟨digitChar_of hb (by omega),
      List.cons_eq_cons.2 ⟨digitChar_of hc (by omega), List.cons_eq_cons.2 ⟨digitChar_of hd (by omega), rfl⟩⟩⟩⟩

theorem digits_two {s : List Char} (h : ∀ c ∈ s, IsAsciiDigit c) (hl : s.length = 2) :
    "20".toList ++ s = fourDigits (2000 + natOf (digitsOf s)) ∧ natOf (digitsOf s) < 100 := by
  match s, hl with
  | [c, d], _ =>
    have hc := h c (by simp)
    have hd := h d (by simp)
    have e : natOf (digitsOf [c, d]) = (c.toNat - 48) * 10 + (d.toNat - 48) := by
      simp only [digitsOf, List.filterMap_cons, List.filterMap_nil, digitValue_ascii hc, digitValue_ascii hd, natOf, List.foldl]
      omega
    have := hc.1; have := hc.2; have := hd.1; have := hd.2
    rw [e]
    refine ⟨?_, by omega⟩
    unfold fourDigits
    rw [show "20".toList ++ [c, d] = ['2', '0', c, d] from rfl]
    have e2 : ('2' : Char).toNat = 50 := rfl
    have e0 : ('0' : Char).toNat = 48 := rfl
    exact List.cons_eq_cons.2 ⟨digitChar_of (by decide) (by omega), List.cons_eq_cons.2 ⟨digitChar_of (by decide) (by omega),
      List.cons_eq_cons.2 ⟨digitChar_of hc (by omega), List.cons_eq_cons.2 ⟨digitChar_of hd (by omega), rfl⟩⟩⟩⟩

theorem dateNumber_lt {s : List Char} (h : ∀ c ∈ s, (dateDigit c).isSome) (hl : s.length = 1 ∨ s.length = 2) : dateNumber s < 100 := by
  obtain ⟨h1, h2, h3⟩ := normalizeDigits_date h
  unfold dateNumber
  rw [← h2]
  rcases hl with hl | hl
  · generalize hn : normalizeDigits s = n at *
    match n, h3.trans hl with
    | [c], _ =>
      have hc := h1 c (by simp)
      have e : natOf (digitsOf [c]) = (c.toNat - 48) := by
        simp only [digitsOf, List.filterMap_cons, List.filterMap_nil, digitValue_ascii hc, natOf, List.foldl]
        omega
      have := hc.2
      omega
  · exact (digits_two h1 (h3.trans hl)).2

/-- The year text that is returned has four digits. -/
theorem yearText_four {fmt : String} {s : List Char} {y : Nat} (h : YearNumber fmt s y) : yearText (normalizeDigits s) = fourDigits y ∧ y < 10000 := by
  obtain ⟨h1, h2, h3⟩ := normalizeDigits_date (digitsIn_dateDigit h.1)
  rcases h.2 with ⟨hl, rfl⟩ | ⟨hl, rfl⟩
  · have := digits_four h1 (h3.trans hl)
    unfold dateNumber
    rw [← h2]
    refine ⟨?_, this.2⟩
    rw [yearText, if_neg (by omega), if_neg (by omega)]
    exact this.1
  · have := digits_two h1 (h3.trans hl)
    unfold dateNumber
    rw [← h2]
    refine ⟨?_, by omega⟩
    rw [yearText, if_pos (by omega)]
    exact this.1

theorem digitsNat_two {n : Nat} (h : n < 100) : digitsNat (twoDigits n) = some n := by
  have : ∀ k : Fin 100, digitsNat (twoDigits k.1) = some k.1 := by decide +kernel
  exact this ⟨n, h⟩

theorem digitsNat_four {n : Nat} (h : n < 10000) : digitsNat (fourDigits n) = some n := by
  unfold digitsNat fourDigits
  simp only [List.all_cons, List.all_nil, digitChar_toNat, List.map_cons, List.map_nil, digitsVal, List.foldl]
  rw [if_pos]
  · congr 1; omega
  · simp
    omega

theorem daysInMonth_iff {y m d : Nat} (hm1 : 1 ≤ m) (hm2 : m ≤ 12) : (1 ≤ d ∧ d ≤ daysInMonth y m) ↔ DayExists y m d := by
  have hl : (y % 4 = 0 ∧ (y % 100 ≠ 0 ∨ y % 400 = 0)) ↔ Leap y := by
    unfold Leap
    omega
  unfold DayExists daysInMonth
  simp only [List.mem_cons, List.not_mem_nil, or_false]
  by_cases h2 : m = 2
  · rw [if_pos h2]
    by_cases hy : Leap y
    · rw [if_pos (hl.2 hy)]
      have : d ≤ 29 ↔ d ≤ 28 ∨ d = 29 := by omega
      constructor
      · rintro ⟨a, b⟩
        exact ⟨a, .inr (.inr ⟨h2, by rcases this.1 b with h | h <;> simp [h, hy]⟩)⟩
      · rintro ⟨a, b | b | ⟨-, b⟩⟩
        · omega
        · omega
        · exact ⟨a, by omega⟩
    · rw [if_neg (fun h => hy (hl.1 h))]
      constructor
      · rintro ⟨a, b⟩
        exact ⟨a, .inr (.inr ⟨h2, .inl b⟩)⟩
      · rintro ⟨a, b | b | ⟨-, b | ⟨-, b⟩⟩⟩
        · omega
        · omega
        · exact ⟨a, b⟩
        · exact absurd b hy
  · rw [if_neg h2]
    split
    · omega
    · omega

/-- The date check accepts exactly the dates of the Gregorian calendar. -/
theorem isoDateOk_iff {y m d : Nat} (hy : y < 10000) (hm : m < 100) (hd : d < 100) :
    isoDateOk (fourDigits y) (twoDigits m) (twoDigits d) = true ↔ 1 ≤ y ∧ 1 ≤ m ∧ m ≤ 12 ∧ DayExists y m d := by
  unfold isoDateOk
  rw [digitsNat_four hy, digitsNat_two hm, digitsNat_two hd]
  simp only [fourDigits, twoDigits, List.length_cons, List.length_nil, Bool.and_eq_true, decide_eq_true_eq]
  constructor
  · rintro ⟨⟨⟨⟨⟨-, h1⟩, h2⟩, h3⟩, h4⟩, h5⟩
    exact ⟨h1, h2, h3, (daysInMonth_iff h2 h3).1 ⟨h4, h5⟩⟩
  · rintro ⟨h1, h2, h3, h4⟩
    obtain ⟨h4, h5⟩ := (daysInMonth_iff h2 h3).2 h4
    simp [h1, h2, h3, h4, h5]

end Brel
