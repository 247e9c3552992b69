import Verif.Spec.Dates

/-! Dates of the Japanese calendar: an era, the year of the era, the month and the day. -/

namespace Brel.Spec

/-- An era of the Japanese calendar: its name and short name, and the Gregorian dates of its first and, except for the present era, last day. -/
structure Era where
  names : List (List Char)
  first : Nat × Nat × Nat
  last : Option (Nat × Nat × Nat)

/-- Meiji, Taisho, Showa, Heisei and Reiwa. -/
def eras : List Era := [
  ⟨[chars! "明治", chars! "明"], (1868, 10, 23), some (1912, 7, 29)⟩,
  ⟨[chars! "大正", chars! "大"], (1912, 7, 30), some (1926, 12, 24)⟩,
  ⟨[chars! "昭和", chars! "昭"], (1926, 12, 25), some (1989, 1, 7)⟩,
  ⟨[chars! "平成", chars! "平"], (1989, 1, 8), some (2019, 4, 30)⟩,
  ⟨[chars! "令和", chars! "令"], (2019, 5, 1), none⟩]

/-- One or two digits, ASCII or full-width. -/
def EraNumber (s : List Char) (n : Nat) : Prop :=
  ((∀ c ∈ s, IsAsciiDigit c) ∨ ∀ c ∈ s, 0xFF10 ≤ c.toNat ∧ c.toNat ≤ 0xFF19) ∧ (s.length = 1 ∨ s.length = 2) ∧ dateNumber s = n

/-- The year of an era: the first year has a sign of its own. -/
def EraYear (s : List Char) (n : Nat) : Prop := (s = ['元'] ∧ n = 1) ∨ (EraNumber s n ∧ 1 ≤ n)

/-- Blanks: space, tab, line ends, no-break space and ideographic space. -/
def Blanks (s : List Char) : Prop := ∀ c ∈ s, c ∈ [' ', '\t', '\r', '\n', '\u00a0', '\u3000']

/-- `t` writes the month `m` of the year `n` of the era, as in 令和2年5月. -/
def EraMonth (t : List Char) (era : Era) (n m : Nat) : Prop :=
  ∃ name s1 year s2 s3 month s4, name ∈ era.names ∧ EraYear year n ∧ EraNumber month m ∧ Blanks s1 ∧ Blanks s2 ∧ Blanks s3 ∧ Blanks s4 ∧
    t = name ++ s1 ++ year ++ s2 ++ ['年'] ++ s3 ++ month ++ s4 ++ ['月']

/-- `t` writes the day `d` of that month, as in 令和2年5月3日. -/
def EraDay (t : List Char) (era : Era) (n m d : Nat) : Prop :=
  ∃ head s5 day s6, EraMonth head era n m ∧ EraNumber day d ∧ Blanks s5 ∧ Blanks s6 ∧ t = head ++ s5 ++ day ++ s6 ++ ['日']

/-- The Gregorian year of a year of an era. -/
def Era.gregorian (e : Era) (n : Nat) : Nat := e.first.1 + n - 1

/-- The date lies in the era. -/
def Era.has (e : Era) (y m d : Nat) : Prop := notAfter e.first (y, m, d) ∧ ∀ l, e.last = some l → notAfter (y, m, d) l
where
  /-- The first date is not later than the second. -/
  notAfter (a b : Nat × Nat × Nat) : Prop := a.1 < b.1 ∨ (a.1 = b.1 ∧ (a.2.1 < b.2.1 ∨ (a.2.1 = b.2.1 ∧ a.2.2 ≤ b.2.2)))

end Brel.Spec
