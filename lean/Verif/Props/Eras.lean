import Verif.Props.Dates
import Verif.Spec.Eras

/-! C32, C72: dates of the Japanese and the Indian calendar. -/

namespace Brel
open Spec Rx

theorem runRep_longest {α : Type} (c : Cls) (k : List Char → Option α) {s : List Char} {a : α} (hk : k s = some a) : ∀ (w : List Char) (lo : Nat) (hi : Option Nat), (∀ x ∈ w, c.has x = true) →
    lo ≤ w.length → (∀ n, hi = some n → w.length ≤ n) → (∀ x ∈ s.head?, c.has x = false) → runRep c k lo hi (w ++ s) = some a := by
  intro w
  induction w with
  | nil =>
    intro lo hi _ hlo _ hs
    have hlo' : lo = 0 := by simpa using hlo
    subst hlo'
    rw [List.nil_append]
    cases s with
    | nil => simpa [runRep] using hk
    | cons x s =>
      have := hs x (by simp)
      simp [runRep, this, hk]
  | cons x w ih =>
    intro lo hi hw hlo hhi hs
    have h1 : hi ≠ some 0 := fun h => by have := hhi 0 h; simp at this
    rw [List.cons_append, runRep, if_neg h1, if_pos (hw x (by simp)), ih (lo - 1) _ (fun y hy => hw y (List.mem_cons_of_mem _ hy)) (by rw [List.length_cons] at hlo; omega) ?_ hs]
    · rfl
    · intro n hn
      cases hi with
      | none => cases hn
      | some m =>
        have := hhi m rfl
        rw [List.length_cons] at this
        cases hn
        show w.length ≤ m - 1
        omega

section run
variable {α : Type} {k : List Char → Caps → Option α} {s : List Char} {caps : Caps} {a : α}

theorem run_rep {c : Cls} {lo : Nat} {hi : Option Nat} (w : List Char) (hk : k s caps = some a) (hw : ∀ x ∈ w, c.has x = true) (hlo : lo ≤ w.length) (hhi : ∀ n, hi = some n → w.length ≤ n)
    (hs : ∀ x ∈ s.head?, c.has x = false) : (Re.rep c lo hi).run k (w ++ s) caps = some a :=
  runRep_longest c _ hk w lo hi hw hlo hhi hs

theorem dropLit_self (l s : List Char) : dropLit l (l ++ s) = some s := dropLit_some.2 rfl

theorem run_lit (l : List Char) (hk : k s caps = some a) : (Re.lits [l]).run k (l ++ s) caps = some a := by
  simp [Re.run, dropLit_self, hk]

/-- A group captures what its pattern takes. -/
theorem run_grp {i : Nat} {r : Re} {w : List Char} (h : r.run (fun s' c' => k s' ((i, (w ++ s).take ((w ++ s).length - s'.length)) :: c')) (w ++ s) caps = some a) :
    (Re.grp i r).run k (w ++ s) caps = some a := h

end run

theorem blank_facts : ∀ c ∈ [' ', '\t', '\r', '\n', '\u00a0', '\u3000'], reSpace.has c = true ∧ wideDigit.has c = false := by decide +kernel

theorem Spec.Blanks.space {s : List Char} (h : Blanks s) : ∀ c ∈ s, reSpace.has c = true := fun c hc => (blank_facts c (h c hc)).1

theorem Spec.EraNumber.wide {s : List Char} {n : Nat} (h : EraNumber s n) : ∀ c ∈ s, wideDigit.has c = true := by
  intro c hc
  unfold wideDigit Cls.has
  rcases h.1 with h1 | h1
  · have := h1 c hc
    unfold IsAsciiDigit at this
    simp [this]
  · have := h1 c hc
    simp [this]

theorem wide_not_space {c : Char} (h : wideDigit.has c = true) : reSpace.has c = false := by
  unfold wideDigit Cls.has at h
  unfold reSpace Cls.has
  simp only [List.any_cons, List.any_nil, Bool.or_false, Bool.bne_false, Bool.or_eq_true, Bool.and_eq_true, decide_eq_true_eq] at h
  simp only [List.any_cons, List.any_nil, Bool.or_false, Bool.bne_false, Bool.or_eq_false_iff, Bool.and_eq_false_iff, decide_eq_false_iff_not]
  omega

theorem head_append {P : Char → Prop} {a b : List Char} (ha : ∀ c ∈ a, P c) (hb : ∀ c ∈ b.head?, P c) : ∀ c ∈ (a ++ b).head?, P c := by
  intro c hc
  cases a with
  | nil => exact hb c hc
  | cons x a =>
    have : x = c := by simpa using hc
    subst this
    exact ha x (by simp)

theorem Spec.EraNumber.ne {s : List Char} {n : Nat} (h : EraNumber s n) : s ≠ [] := by rintro rfl; simpa using h.2.1

theorem take_cap (w s : List Char) : (w ++ s).take ((w ++ s).length - s.length) = w := by
  rw [List.length_append, Nat.add_sub_cancel, List.take_left]

/-- The parts of the pattern between the signs. -/
theorem run_number {α : Type} {k : List Char → Caps → Option α} {s : List Char} {caps : Caps} {a : α} {i n : Nat} {w b1 b2 : List Char} {sign : Char} (hw : EraNumber w n) (h1 : Blanks b1) (h2 : Blanks b2)
    (hsg : wideDigit.has sign = false) (hsg' : reSpace.has sign = false) (hk : k s ((i, w) :: caps) = some a) :
    (Re.rep reSpace 0 none).run (fun s c => (Re.grp i (.rep wideDigit 1 (some 2))).run (fun s c => (Re.rep reSpace 0 none).run (fun s c => (Re.lits [[sign]]).run k s c) s c) s c)
      (b1 ++ (w ++ (b2 ++ ([sign] ++ s)))) caps = some a := by
  refine run_rep b1 ?_ h1.space (Nat.zero_le _) (fun n h => by cases h) ?_
  · refine run_grp (run_rep w ?_ hw.wide (by have := hw.2.1; omega) (fun n h => by cases h; have := hw.2.1; omega) ?_)
    · refine run_rep b2 ?_ h2.space (Nat.zero_le _) (fun n h => by cases h) ?_
      · refine run_lit [sign] ?_
        rw [take_cap]
        exact hk
      · intro x hx; cases hx; exact hsg'
    · exact head_append (fun c hc => (blank_facts c (h2 c hc)).2) (fun x hx => by cases hx; exact hsg)
  · intro c hc
    cases w with
    | nil => exact absurd rfl hw.ne
    | cons x w =>
      have : x = c := by simpa using hc
      subst this
      exact wide_not_space (hw.wide x (by simp))

theorem run_year {α : Type} {k : List Char → Caps → Option α} {s : List Char} {caps : Caps} {a : α} {n : Nat} {w b1 b2 : List Char} (hw : EraYear w n) (h1 : Blanks b1) (h2 : Blanks b2)
    (hk : k s ((2, w) :: caps) = some a) :
    (Re.rep reSpace 0 none).run (fun s c => (Re.grp 2 (.alt (.rep wideDigit 1 (some 2)) (.lits [chars! "元"]))).run (fun s c => (Re.rep reSpace 0 none).run (fun s c => (Re.lits [chars! "年"]).run k s c) s c) s c)
      (b1 ++ (w ++ (b2 ++ (chars! "年" ++ s)))) caps = some a := by
  rcases hw with ⟨rfl, -⟩ | ⟨hw, -⟩
  · refine run_rep b1 ?_ h1.space (Nat.zero_le _) (fun n h => by cases h) ?_
    · refine run_grp (r := .alt _ _) ?_
      rw [Re.run]
      have hn : ∀ k' : List Char → Caps → Option α, (Re.rep wideDigit 1 (some 2)).run k' (['元'] ++ (b2 ++ (chars! "年" ++ s))) caps = none := by
        intro k'
        rw [Re.run]
        simp [runRep, show wideDigit.has '元' = false by decide]
      rw [hn, Option.none_or]
      refine run_lit (s := b2 ++ (['年'] ++ s)) ['元'] (run_rep b2 ?_ h2.space (Nat.zero_le _) (fun n h => by cases h) ?_)
      · refine run_lit ['年'] ?_
        rw [take_cap]
        exact hk
      · intro x hx; cases hx; decide
    · intro c hc; cases hc; decide
  · refine run_rep b1 ?_ h1.space (Nat.zero_le _) (fun n h => by cases h) ?_
    · refine run_grp (r := .alt _ _) ?_
      rw [Re.run, run_rep w (a := a) ?_ hw.wide (by have := hw.2.1; omega) (fun n h => by cases h; have := hw.2.1; omega) ?_]
      · rfl
      · refine run_rep b2 ?_ h2.space (Nat.zero_le _) (fun n h => by cases h) ?_
        · refine run_lit ['年'] ?_
          rw [take_cap]
          exact hk
        · intro x hx; cases hx; decide
      · exact head_append (fun c hc => (blank_facts c (h2 c hc)).2) (fun x hx => by cases hx; decide)
    · intro c hc
      cases w with
      | nil => exact absurd rfl hw.ne
      | cons x w =>
      have : x = c := by simpa using hc
      subst this
      exact wide_not_space (hw.wide x (by simp))

def eraTexts : List (List Char) := [chars! "明治", chars! "明", chars! "大正", chars! "大", chars! "昭和", chars! "昭", chars! "平成", chars! "平", chars! "令和", chars! "令"]

theorem run_era {α : Type} {k : List Char → Caps → Option α} {s : List Char} {caps : Caps} {a : α} {name : List Char} (hn : name ∈ eraTexts)
    (hs : ∀ c ∈ s.head?, c ∉ ['治', '正', '和', '成']) (hk : k s ((1, name) :: caps) = some a) : (Re.grp 1 (.lits eraTexts)).run k (name ++ s) caps = some a := by
  refine run_grp ?_
  rw [Re.run]
  simp only [eraTexts, List.mem_cons, List.not_mem_nil, or_false] at hn
  cases s with
  | nil =>
    rcases hn with rfl | rfl | rfl | rfl | rfl | rfl | rfl | rfl | rfl | rfl <;>
      simp [eraTexts, List.findSome?_cons, dropLit, List.isPrefixOf, hk]
  | cons c s =>
    have hc := hs c (by simp)
    simp only [List.mem_cons, List.not_mem_nil, or_false, not_or] at hc
    obtain ⟨h1, h2, h3, h4⟩ := hc
    rcases hn with rfl | rfl | rfl | rfl | rfl | rfl | rfl | rfl | rfl | rfl <;>
      simp [eraTexts, List.findSome?_cons, dropLit, List.isPrefixOf, Ne.symm h1, Ne.symm h2, Ne.symm h3, Ne.symm h4, hk]

/-! ## The captures -/

theorem era_text : ∀ e ∈ eras, ∀ name ∈ e.names, name ∈ eraTexts := by decide +kernel

theorem not_era_char {c : Char} (h : wideDigit.has c = true ∨ reSpace.has c = true ∨ c = '元') : c ∉ ['治', '正', '和', '成'] := by
  have : ∀ c ∈ ['治', '正', '和', '成'], wideDigit.has c = false ∧ reSpace.has c = false ∧ c ≠ '元' := by decide +kernel
  intro hc
  obtain ⟨h1, h2, h3⟩ := this c hc
  simp [h1, h2, h3] at h

theorem Spec.EraYear.head {w b s : List Char} {n : Nat} (hb : Blanks b) (hw : EraYear w n) : ∀ c ∈ (b ++ (w ++ s)).head?, c ∉ ['治', '正', '和', '成'] := by
  refine head_append (fun c hc => not_era_char (Or.inr (Or.inl (hb.space c hc)))) ?_
  rcases hw with ⟨rfl, -⟩ | ⟨hw, -⟩
  · intro c hc
    have : '元' = c := by simpa using hc
    subst this
    exact not_era_char (Or.inr (Or.inr rfl))
  · intro c hc
    cases w with
    | nil => exact absurd rfl hw.ne
    | cons x w =>
      have : x = c := by simpa using hc
      subst this
      exact not_era_char (Or.inl (hw.wide x (by simp)))

theorem match_month {t : List Char} {e : Era} (he : e ∈ eras) {n m : Nat} (h : EraMonth t e n m) :
    ∃ r name year month, dateFormats.get? "ixt:date-jpn-era-year-month" = some r ∧ 3 ≤ r.groups ∧ name ∈ e.names ∧ EraYear year n ∧ EraNumber month m ∧
      r.fullMatch t = some [(3, month), (2, year), (1, name)] := by
  obtain ⟨name, s1, year, s2, s3, month, s4, hn, hy, hm, h1, h2, h3, h4, rfl⟩ := h
  refine ⟨_, name, year, month, rfl, by decide +kernel, hn, hy, hm, ?_⟩
  simp only [List.append_assoc]
  exact run_era (era_text e he name hn) (hy.head h1) (run_year hy h1 h2 (run_number (s := []) hm h3 h4 (by decide) (by decide) rfl))

theorem match_day {t : List Char} {e : Era} (he : e ∈ eras) {n m d : Nat} (h : EraDay t e n m d) :
    ∃ r name year month day, dateFormats.get? "ixt:date-jpn-era-year-month-day" = some r ∧ 4 ≤ r.groups ∧ name ∈ e.names ∧ EraYear year n ∧ EraNumber month m ∧ EraNumber day d ∧
      r.fullMatch t = some [(4, day), (3, month), (2, year), (1, name)] := by
  obtain ⟨_, s5, day, s6, ⟨name, s1, year, s2, s3, month, s4, hn, hy, hm, h1, h2, h3, h4, rfl⟩, hd, h5, h6, rfl⟩ := h
  refine ⟨_, name, year, month, day, rfl, by decide +kernel, hn, hy, hm, hd, ?_⟩
  simp only [List.append_assoc]
  exact run_era (era_text e he name hn) (hy.head h1) (run_year hy h1 h2 (run_number hm h3 h4 (by decide) (by decide) (run_number (s := []) hd h5 h6 (by decide) (by decide) rfl)))

/-! ## The value -/

section
variable {dig : Char → Option Nat}

theorem year_text {y : Nat} (h1 : 1800 ≤ y) (h2 : y < 2200) : (toString y).toList = fourDigits y := by
  have : ∀ k : Fin 400, (toString (1800 + k.1)).toList = fourDigits (1800 + k.1) := by decide +kernel
  have h := this ⟨y - 1800, by omega⟩
  simp only [show 1800 + (y - 1800) = y by omega] at h
  exact h

theorem era_period : ∀ e ∈ eras, ∀ name ∈ e.names, normalizeDigits name = name ∧ (∃ p, japaneseEras.get? (String.ofList name) = some p ∧ p.1.1 = e.first.1) ∧ 1868 ≤ e.first.1 ∧ e.first.1 ≤ 2019 := by
  have : ∀ e ∈ eras, ∀ name ∈ e.names, normalizeDigits name = name ∧ (japaneseEras.get? (String.ofList name)).map (·.1.1) = some e.first.1 ∧ 1868 ≤ e.first.1 ∧ e.first.1 ≤ 2019 := by decide +kernel
  intro e he name hn
  obtain ⟨h1, h2, h3⟩ := this e he name hn
  exact ⟨h1, Option.map_eq_some_iff.1 h2, h3⟩

theorem Spec.EraNumber.short {s : List Char} {n : Nat} (h : EraNumber s n) : ShortNumber "ixt:date-year-month" s n :=
  ⟨h.1.elim Or.inl (fun h => Or.inr (Or.inl ⟨by decide, h⟩)), h.2.1, h.2.2⟩

theorem Spec.EraNumber.lt {s : List Char} {n : Nat} (h : EraNumber s n) : n < 100 := by
  have := dateNumber_lt (digitsIn_dateDigit h.short.1) h.2.1
  rwa [h.2.2] at this

theorem Spec.EraNumber.int (T : DigitTable dig) (hdig : ∀ c, IsAsciiDigit c → dig c = some (c.toNat - 48)) {s : List Char} {n : Nat} (h : EraNumber s n) : intOf dig (normalizeDigits s) = .ok n := by
  rw [intOf_digits T hdig (digitsIn_dateDigit h.short.1) h.ne (by have := h.2.1; omega), h.2.2]

/-- The year of the era, as it is computed. -/
theorem era_offset (T : DigitTable dig) (hdig : ∀ c, IsAsciiDigit c → dig c = some (c.toNat - 48)) {s : List Char} {n : Nat} (h : EraYear s n) :
    (if normalizeDigits s = ['元'] then Except.ok 1 else intOf dig (normalizeDigits s)) = .ok n ∧ 1 ≤ n ∧ n < 100 := by
  rcases h with ⟨rfl, rfl⟩ | ⟨h, h1⟩
  · exact ⟨by rw [if_pos (by decide +kernel)], by omega, by omega⟩
  · refine ⟨?_, h1, h.lt⟩
    rw [if_neg, h.int T hdig]
    intro he
    have h3 := (normalizeDigits_date (digitsIn_dateDigit h.short.1)).1 '元' (by rw [he]; simp)
    exact absurd h3 (by decide)

theorem convert_era {name Y Z : List Char} {rest : Dict DatePart (List Char)} {p : (Nat × Nat × Nat) × (Nat × Nat × Nat)} {n : Nat} (e2 : japaneseEras.get? (String.ofList name) = some p)
    (o1 : (if Y = ['元'] then Except.ok 1 else intOf dig Y) = .ok n) (hyear : (toString (p.1.1 + n - 1)).toList = Z) :
    convertJapanese dig ((.era, name) :: (.year, Y) :: rest) = .ok ((.era, name) :: (.year, Z) :: rest) := by
  unfold convertJapanese
  simp only [Dict.get?_cons, reduceCtorEq, if_false, if_true, Option.elim, bind, Except.bind, e2]
  by_cases hz : Y = ['元']
  · rw [if_pos hz] at o1 ⊢
    cases o1
    simp only [Dict.set, reduceCtorEq, if_false, if_true, hyear]
  · rw [if_neg hz] at o1 ⊢
    rw [o1]
    simp only [Dict.set, reduceCtorEq, if_false, if_true, hyear]

/-- C32, C72 for the Japanese calendar, with a day: every text that writes a date with an era, with a month from 1 to 12, is returned as the ISO text of the Gregorian date; an error
is reported exactly when no such date exists. -/
theorem C32_japanese_day (T : DigitTable dig) (hdig : ∀ c, IsAsciiDigit c → dig c = some (c.toNat - 48)) {text t : List Char} (ht : Trimmed text t) {e : Era} (he : e ∈ eras) {n m d : Nat}
    (h : EraDay t e n m d) (hm1 : 1 ≤ m) (hm2 : m ≤ 12) :
    ∃ errs, parseDate dig text "ixt:date-jpn-era-year-month-day" = .ok (isoText "ixt:date-jpn-era-year-month-day" (e.gregorian n) m d, errs) ∧
      (errs = [] ↔ DayExists (e.gregorian n) m d) := by
  obtain ⟨r, name, year, month, day, hr, hg, hn, hy, hm, hd, hmatch⟩ := match_day he h
  obtain ⟨e1, ⟨p, e2, e3⟩, e4, e5⟩ := era_period e he name hn
  obtain ⟨o1, o2, o3⟩ := era_offset T hdig hy
  obtain ⟨names, hnames, hidx⟩ := monthIndex_number hm.short hm1 hm2
  have hyear : (toString (p.1.1 + n - 1)).toList = fourDigits (e.gregorian n) := by
    rw [e3]
    exact year_text (by omega) (by omega)
  have hlt : e.gregorian n < 10000 := by unfold Era.gregorian; omega
  have hparts : parseDateMatch r [(4, day), (3, month), (2, year), (1, name)] [.era, .year, .month, .day] = .ok [(.era, some name), (.year, some year), (.month, some month), (.day, some day)] := by
    refine parseDateMatch_eq (F := fun | .era => name | .year => year | .month => month | .day => day) ?_ hg (by decide)
    intro i q hq
    match i with
    | 0 => cases hq; rfl
    | 1 => cases hq; rfl
    | 2 => cases hq; rfl
    | 3 => cases hq; rfl
    | i + 4 => cases hq
  have hnorm : normalizeDateParts dig [(.era, some name), (.year, some year), (.month, some month), (.day, some day)] "ixt:date-jpn-era-year-month-day" = .ok [(.day, twoDigits d), (.month, twoDigits m), (.year, fourDigits (e.gregorian n))] := by
    unfold normalizeDateParts
    have hmap : ([(.era, some name), (.year, some year), (.month, some month), (.day, some day)] : List (DatePart × Option (List Char))).mapM normalizePart = .ok [(.era, name), (.year, normalizeDigits year), (.month, normalizeDigits month), (.day, normalizeDigits day)] := by
      have := mapM_parts (F := fun | .era => name | .year => year | .month => month | .day => day) [.era, .year, .month, .day]
      simp only [List.map_cons, List.map_nil, e1] at this
      exact this
    rw [hmap]
    have hj : isInfix "jpn".toList "ixt:date-jpn-era-year-month-day".toList = true := by decide +kernel
    have hc : monthCountry "ixt:date-jpn-era-year-month-day" = none := by decide +kernel
    have hl : (fourDigits (e.gregorian n)).length = 4 := rfl
    simp only [bind, Except.bind, hj, if_true, convert_era e2 o1 hyear, Dict.get?_cons, Dict.get?_nil, reduceCtorEq, if_false, hd.int T hdig, Except.map, hc, hnames, hidx, hl, Dict.set]
    rw [if_neg (by decide)]
    simp [show m - 1 + 1 = m by omega, pad2_twoDigits (show m < 100 by omega), pad2_twoDigits hd.lt]
  have hday : isInfix "day".toList "ixt:date-jpn-era-year-month-day".toList = true := by decide +kernel
  have hyr : isInfix "year".toList "ixt:date-jpn-era-year-month-day".toList = true := by decide +kernel
  have hord : dateOrder "ixt:date-jpn-era-year-month-day" false true = [.era, .year, .month, .day] := by decide +kernel
  have hlay : layout "ixt:date-jpn-era-year-month-day" = [.year, .month, .day] := by decide +kernel
  refine ⟨if isoDateOk (fourDigits (e.gregorian n)) (twoDigits m) (twoDigits d) then [] else ["INVALID_GREGORIAN_DATE"], ?_, ?_⟩
  · unfold parseDate
    simp only [trimmed_strip ht, hr, hmatch, hday, hyr, Bool.and_self, Bool.not_true, Bool.and_false, hord, hparts, hnorm, bind, Except.bind]
    simp [validateDate, datePart, Dict.get?, Dict.has, bind, Except.bind, isoText, hlay]
  · have := isoDateOk_iff hlt (show m < 100 by omega) hd.lt
    have hb : 1 ≤ e.gregorian n := by unfold Era.gregorian; omega
    by_cases hok : isoDateOk (fourDigits (e.gregorian n)) (twoDigits m) (twoDigits d) = true
    · rw [if_pos hok]
      exact ⟨fun _ => (this.1 hok).2.2.2, fun _ => rfl⟩
    · rw [if_neg hok]
      exact ⟨fun hx => by simp at hx, fun hx => absurd (this.2 ⟨hb, hm1, hm2, hx⟩) hok⟩

/-- C32, C72 for the Japanese calendar, without a day: the Gregorian year and month are returned, and nothing is reported. -/
theorem C32_japanese_month (T : DigitTable dig) (hdig : ∀ c, IsAsciiDigit c → dig c = some (c.toNat - 48)) {text t : List Char} (ht : Trimmed text t) {e : Era} (he : e ∈ eras) {n m : Nat}
    (h : EraMonth t e n m) (hm1 : 1 ≤ m) (hm2 : m ≤ 12) :
    parseDate dig text "ixt:date-jpn-era-year-month" = .ok (isoText "ixt:date-jpn-era-year-month" (e.gregorian n) m 1, []) := by
  obtain ⟨r, name, year, month, hr, hg, hn, hy, hm, hmatch⟩ := match_month he h
  obtain ⟨e1, ⟨p, e2, e3⟩, e4, e5⟩ := era_period e he name hn
  obtain ⟨o1, o2, o3⟩ := era_offset T hdig hy
  obtain ⟨names, hnames, hidx⟩ := monthIndex_number hm.short hm1 hm2
  have hyear : (toString (p.1.1 + n - 1)).toList = fourDigits (e.gregorian n) := by
    rw [e3]
    exact year_text (by omega) (by omega)
  have hlt : e.gregorian n < 10000 := by unfold Era.gregorian; omega
  have hparts : parseDateMatch r [(3, month), (2, year), (1, name)] [.era, .year, .month] = .ok [(.era, some name), (.year, some year), (.month, some month)] := by
    refine parseDateMatch_eq (F := fun | .era => name | .year => year | .month => month | .day => []) ?_ hg (by decide)
    intro i q hq
    match i with
    | 0 => cases hq; rfl
    | 1 => cases hq; rfl
    | 2 => cases hq; rfl
    | i + 3 => cases hq
  have hnorm : normalizeDateParts dig [(.era, some name), (.year, some year), (.month, some month)] "ixt:date-jpn-era-year-month" = .ok [(.month, twoDigits m), (.year, fourDigits (e.gregorian n))] := by
    unfold normalizeDateParts
    have hmap : ([(.era, some name), (.year, some year), (.month, some month)] : List (DatePart × Option (List Char))).mapM normalizePart = .ok [(.era, name), (.year, normalizeDigits year), (.month, normalizeDigits month)] := by
      have := mapM_parts (F := fun | .era => name | .year => year | .month => month | .day => []) [.era, .year, .month]
      simp only [List.map_cons, List.map_nil, e1] at this
      exact this
    rw [hmap]
    have hj : isInfix "jpn".toList "ixt:date-jpn-era-year-month".toList = true := by decide +kernel
    have hc : monthCountry "ixt:date-jpn-era-year-month" = none := by decide +kernel
    have hl : (fourDigits (e.gregorian n)).length = 4 := rfl
    simp only [bind, Except.bind, hj, if_true, convert_era e2 o1 hyear, Dict.get?_cons, Dict.get?_nil, reduceCtorEq, if_false, Except.map, hc, hnames, hidx, hl, Dict.set]
    rw [if_neg (by decide)]
    simp [show m - 1 + 1 = m by omega, pad2_twoDigits (show m < 100 by omega)]
  have hday : isInfix "day".toList "ixt:date-jpn-era-year-month".toList = false := by decide +kernel
  have hyr : isInfix "year".toList "ixt:date-jpn-era-year-month".toList = true := by decide +kernel
  have hord : dateOrder "ixt:date-jpn-era-year-month" false false = [.era, .year, .month] := by decide +kernel
  have hlay : layout "ixt:date-jpn-era-year-month" = [.year, .month] := by decide +kernel
  have hok : isoDateOk (fourDigits (e.gregorian n)) (twoDigits m) "01".toList = true := by
    have := isoDateOk_iff hlt (show m < 100 by omega) (show 1 < 100 by omega)
    rw [show twoDigits 1 = "01".toList by decide +kernel] at this
    refine this.2 ⟨by unfold Era.gregorian; omega, hm1, hm2, (daysInMonth_iff hm1 hm2).1 ⟨Nat.le_refl 1, ?_⟩⟩
    unfold daysInMonth
    repeat' split
    all_goals omega
  unfold parseDate
  simp only [trimmed_strip ht, hr, hmatch, hday, hyr, Bool.and_self, Bool.not_true, Bool.and_false, Bool.false_and, hord, hparts, hnorm, bind, Except.bind]
  simp [validateDate, datePart, Dict.get?, Dict.has, bind, Except.bind, isoText, hlay, show isoDateOk (fourDigits (e.gregorian n)) (twoDigits m) ['0', '1'] = true from hok]

/-- C32 for facts: the theorems of this file speak of the value that a non-numeric fact with the format gets. -/
theorem C32_era_fact {fmt : String} (hf : fmt ∈ ["ixt:date-jpn-era-year-month", "ixt:date-jpn-era-year-month-day", "ixt:date-ind-day-monthname-year-hi"]) (text : List Char) :
    parseNonNumerical dig text (some fmt) = parseDate dig text fmt := by
  have h : ∀ f ∈ ["ixt:date-jpn-era-year-month", "ixt:date-jpn-era-year-month-day", "ixt:date-ind-day-monthname-year-hi"], legacyFormats.get? f = none ∧
      (startsWith f.toList "ixt:num".toList = false ∧ f ≠ "ixt:fixed-zero") ∧ startsWith f.toList "ixt:date".toList = true ∧ f ≠ "ixt:datedaymonthyearin" ∧ f ≠ "" := by decide +kernel
  obtain ⟨h1, ⟨h2, h3⟩, h4, h5, h6⟩ := h fmt hf
  simp [parseNonNumerical, truthy_ne h6, h1, h2, h3, h4, h5, -String.reduceToList]

end

instance (s : List Char) : Decidable (Blanks s) := by unfold Blanks; infer_instance

theorem eraNumber_of {s : List Char} {n : Nat} (h : (s.all (fun c => decide (IsAsciiDigit c)) || s.all (fun c => decide (0xFF10 ≤ c.toNat) && decide (c.toNat ≤ 0xFF19))) = true)
    (hl : s.length = 1 ∨ s.length = 2) (hn : dateNumber s = n) : EraNumber s n := by
  refine ⟨?_, hl, hn⟩
  simpa using h

/-- The third of May of the second year of Reiwa, with blanks and full-width digits. -/
example : EraDay (chars! "令和2年 ５月3日") ⟨[chars! "令和", chars! "令"], (2019, 5, 1), none⟩ 2 5 3 ∧
    parseDate asciiDigit (chars! "令和2年 ５月3日") "ixt:date-jpn-era-year-month-day" = .ok (chars! "2020-05-03", []) := by
  refine ⟨⟨chars! "令和2年 ５月", [], chars! "3", [], ⟨chars! "令和", [], chars! "2", [], [' '], chars! "５", [], by decide +kernel, .inr ⟨eraNumber_of (by decide +kernel) (by decide) (by decide +kernel), by decide⟩,
    eraNumber_of (by decide +kernel) (by decide) (by decide +kernel), by decide, by decide, by decide, by decide, by decide +kernel⟩,
    eraNumber_of (by decide +kernel) (by decide) (by decide +kernel), by decide, by decide, by decide +kernel⟩, by decide +kernel⟩

/-- The first year of Showa is 1926; the 31st of February is reported. -/
example : parseDate asciiDigit (chars! "昭元年12月30日") "ixt:date-jpn-era-year-month-day" = .ok (chars! "1926-12-30", []) ∧
    parseDate asciiDigit (chars! "平成３１年２月３１日") "ixt:date-jpn-era-year-month-day" = .ok (chars! "2019-02-31", ["INVALID_GREGORIAN_DATE"]) ∧
    parseDate asciiDigit (chars! "平成３１年２月") "ixt:date-jpn-era-year-month" = .ok (chars! "2019-02", []) := by decide +kernel

/-- C72 fails for dates of the Japanese calendar that lie outside the era: the first of January of the 99th year of Showa, an era that ended in its 64th year, is accepted. -/
theorem C72_era_false : ∃ e ∈ eras, EraDay (chars! "昭和99年1月1日") e 99 1 1 ∧ ¬ e.has (e.gregorian 99) 1 1 ∧
    parseDate asciiDigit (chars! "昭和99年1月1日") "ixt:date-jpn-era-year-month-day" = .ok (chars! "2024-01-01", []) := by
  refine ⟨⟨[chars! "昭和", chars! "昭"], (1926, 12, 25), some (1989, 1, 7)⟩, by simp [eras], ⟨chars! "昭和99年1月", [], chars! "1", [], ⟨chars! "昭和", [], chars! "99", [], [], chars! "1", [], by decide +kernel,
    .inr ⟨eraNumber_of (by decide +kernel) (by decide) (by decide +kernel), by decide⟩, eraNumber_of (by decide +kernel) (by decide) (by decide +kernel), by decide, by decide, by decide, by decide, by decide +kernel⟩,
    eraNumber_of (by decide +kernel) (by decide) (by decide +kernel), by decide, by decide, by decide +kernel⟩, ?_, by decide +kernel⟩
  rintro ⟨-, h⟩
  have := h _ rfl
  simp [Era.has.notAfter, Era.gregorian] at this

/-- C32 fails for the national calendar of India: no text with this format gets a value. A date of the right form raises a `KeyError`; everything else is kept as it is and reported. -/
theorem C32_indian_false (dig : Char → Option Nat) (text : List Char) :
    parseDate dig text "ixt:date-ind-day-monthname-year-hi" = .ok (pyStrip text, ["DATE_DOES_NOT_MATCH_EXPECTED_FORMAT"]) ∨
    ∃ e, parseDate dig text "ixt:date-ind-day-monthname-year-hi" = .error e := by
  have hg : ∀ r, dateFormats.get? "ixt:date-ind-day-monthname-year-hi" = some r → 3 ≤ r.groups := by
    have : ((dateFormats.get? "ixt:date-ind-day-monthname-year-hi").all (fun r => decide (3 ≤ r.groups))) = true := by decide +kernel
    intro r hr
    rw [hr] at this
    simpa using this
  have hs : (dateFormats.get? "ixt:date-ind-day-monthname-year-hi").isSome = true := by decide +kernel
  have hday : isInfix "day".toList "ixt:date-ind-day-monthname-year-hi".toList = true := by decide +kernel
  have hyr : isInfix "year".toList "ixt:date-ind-day-monthname-year-hi".toList = true := by decide +kernel
  have hjp : isInfix "jpn".toList "ixt:date-ind-day-monthname-year-hi".toList = false := by decide +kernel
  have hord : dateOrder "ixt:date-ind-day-monthname-year-hi" false true = [.day, .month, .year] := by decide +kernel
  have hnorm : ∀ d m y, ∃ e, normalizeDateParts dig [(.day, d), (.month, m), (.year, y)] "ixt:date-ind-day-monthname-year-hi" = .error e := by
    intro d m y
    unfold normalizeDateParts
    cases d with
    | none => exact ⟨_, rfl⟩
    | some d =>
      cases m with
      | none => exact ⟨_, rfl⟩
      | some m =>
        cases y with
        | none => exact ⟨_, rfl⟩
        | some y =>
          simp only [List.mapM_cons, List.mapM_nil, normalizePart, bind, Except.bind, pure, Except.pure, hjp, Bool.false_eq_true, if_false, Dict.get?_cons, if_true, reduceCtorEq]
          cases intOf dig (normalizeDigits d) with
          | error e => exact ⟨e, rfl⟩
          | ok k =>
            simp only [Except.map]
            cases monthNames.get? (monthCountry "ixt:date-ind-day-monthname-year-hi") with
            | none => exact ⟨_, rfl⟩
            | some names => exact ⟨_, rfl⟩
  unfold parseDate
  simp only [hday, hyr, Bool.and_self, Bool.not_true, Bool.and_false, hord]
  cases hr : dateFormats.get? "ixt:date-ind-day-monthname-year-hi" with
  | none => rw [hr] at hs; cases hs
  | some r =>
    have h3 := hg r hr
    simp only
    cases r.fullMatch (pyStrip text) with
    | none => exact .inl rfl
    | some m =>
      have hparts : parseDateMatch r m [.day, .month, .year] = .ok [(.day, m.group 1), (.month, m.group 2), (.year, m.group 3)] := by
        have g : ∀ i, i ≤ 3 → matchGroup r m i = .ok (m.group i) := fun i hi => if_pos (by omega)
        simp [parseDateMatch, g, bind, Except.bind, Except.map, pure, Except.pure, Dict.set]
      obtain ⟨e, he⟩ := hnorm (m.group 1) (m.group 2) (m.group 3)
      refine .inr ⟨e, ?_⟩
      simp only [hparts, he, bind, Except.bind]

/-- The 22nd of March 2021 is the first of Chaitra 1943. -/
example : parseDate asciiDigit (chars! "1 चैत्र 1943") "ixt:date-ind-day-monthname-year-hi" = .error .keyError := by decide +kernel

end Brel
