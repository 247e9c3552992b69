import Verif.Lemmas.Double
import Verif.Lemmas.FactValue

/-! `pyFloat` accepts the texts of the grammar. -/

namespace Brel
open Spec
variable {dig : Char → Option Nat}

theorem DigitText.ds_ne_nil {s ds} (h : DigitText dig s ds) : ds ≠ [] := by cases h <;> simp

/-- A character of a digit text is a digit or an underscore. -/
theorem DigitText.mem {s ds} (h : DigitText dig s ds) : ∀ c ∈ s, (∃ d, dig c = some d) ∨ c = '_' := by
  induction h with
  | one h => intro c hc; simp at hc; subst hc; exact .inl ⟨_, h⟩
  | more h _ ih => intro c hc; rcases List.mem_cons.mp hc with rfl | hc; exacts [.inl ⟨_, h⟩, ih c hc]
  | under h _ ih =>
    intro c hc
    rcases List.mem_cons.mp hc with rfl | hc
    · exact .inl ⟨_, h⟩
    · rcases List.mem_cons.mp hc with rfl | hc
      exacts [.inr rfl, ih c hc]

theorem parseDigitsOpt_iff (T : DigitTable dig) (s : List Char) (ds : List Nat) :
    parseDigitsOpt dig s = some ds ↔ DigitsOrNone dig s ds := by
  unfold parseDigitsOpt DigitsOrNone
  split
  · rename_i h; subst h
    constructor
    · intro h; cases h; exact .inl ⟨rfl, rfl⟩
    · rintro (⟨_, rfl⟩ | h)
      · rfl
      · exact absurd rfl h.ne_nil
  · rename_i h
    constructor
    · intro hp; exact .inr (parseDigits_sound s ds hp)
    · rintro (⟨h', _⟩ | h')
      · exact absurd h' h
      · exact parseDigits_complete T h'

theorem splitFirst_spec (p : Char → Bool) (s : List Char) :
    (∀ c ∈ (splitFirst p s).1, p c = false) ∧
    (((splitFirst p s).2 = none ∧ s = (splitFirst p s).1) ∨
      ∃ c t, (splitFirst p s).2 = some t ∧ p c = true ∧ s = (splitFirst p s).1 ++ c :: t) := by
  induction s with
  | nil => simp [splitFirst]
  | cons a s ih =>
    unfold splitFirst
    split
    · rename_i h; exact ⟨by simp, .inr ⟨a, s, rfl, h, by simp⟩⟩
    · rename_i h
      refine ⟨?_, ?_⟩
      · intro c hc
        rcases List.mem_cons.mp hc with rfl | hc
        · simpa using h
        · exact ih.1 c hc
      · rcases ih.2 with ⟨h1, h2⟩ | ⟨c, t, h1, h2, h3⟩
        · exact .inl ⟨h1, by simp [← h2]⟩
        · exact .inr ⟨c, t, h1, h2, by simp [← h3]⟩

theorem splitFirst_none (p : Char → Bool) (s : List Char) (h : ∀ c ∈ s, p c = false) : splitFirst p s = (s, none) := by
  induction s with
  | nil => rfl
  | cons a s ih =>
    have ha := h a (by simp)
    have := ih (fun c hc => h c (by simp [hc]))
    simp [splitFirst, ha, this]

theorem splitFirst_some (p : Char → Bool) (s : List Char) (c : Char) (t : List Char) (h : ∀ c ∈ s, p c = false) (hc : p c = true) :
    splitFirst p (s ++ c :: t) = (s, some t) := by
  induction s with
  | nil => simp [splitFirst, hc]
  | cons a s ih =>
    have ha := h a (by simp)
    have := ih (fun c hc => h c (by simp [hc]))
    simp [splitFirst, ha, this]

theorem takeSign_spec (s : List Char) : ∃ sgn, SignText sgn (takeSign s).1 ∧ s = sgn ++ (takeSign s).2 := by
  unfold takeSign
  split
  · exact ⟨['-'], .inr (.inr ⟨rfl, rfl⟩), rfl⟩
  · exact ⟨['+'], .inr (.inl ⟨rfl, rfl⟩), rfl⟩
  · exact ⟨[], .inl ⟨rfl, rfl⟩, rfl⟩

theorem takeSign_append {sgn body : List Char} {neg : Bool} (h : SignText sgn neg) (hb : ∀ c, body.head? = some c → c ≠ '-' ∧ c ≠ '+') :
    takeSign (sgn ++ body) = (neg, body) := by
  rcases h with ⟨rfl, rfl⟩ | ⟨rfl, rfl⟩ | ⟨rfl, rfl⟩
  · cases body with
    | nil => rfl
    | cons c t =>
      have := hb c rfl
      unfold takeSign
      split
      · rename_i h; cases h; exact absurd rfl this.1
      · rename_i h; cases h; exact absurd rfl this.2
      · rfl
  · rfl
  · rfl

theorem DigitText.head_ok (T : DigitTable dig) {s ds} (h : DigitText dig s ds) : ∀ c, s.head? = some c → c ≠ '-' ∧ c ≠ '+' := by
  obtain ⟨c', t, d', e, hc'⟩ := h.head
  subst e
  intro c hc
  cases hc
  exact ⟨(T.notSign _ _ hc').1, (T.notSign _ _ hc').2.1⟩

theorem parseExponent_sound {o : Option (List Char)} {e : Int} (h : parseExponent dig o = some e) (mark : Char)
    (hm : mark = 'e' ∨ mark = 'E') : ExponentText dig (match o with | none => [] | some s => mark :: s) e := by
  cases o with
  | none => cases h; exact .inl ⟨rfl, rfl⟩
  | some s =>
    obtain ⟨ds, hds, rfl⟩ := Option.map_eq_some_iff.mp h
    obtain ⟨sgn, hs, e⟩ := takeSign_spec s
    refine .inr ⟨mark, sgn, _, _, ds, hm, congrArg _ e, hs, parseDigits_sound _ _ hds, ?_⟩
    rw [digitsVal_eq]

theorem digitsVal_append (a b : List Nat) : decimalValue (a ++ b) = decimalValue a * 10 ^ b.length + decimalValue b := by
  induction a with
  | nil => simp [decimalValue]
  | cons d a ih => simp only [List.cons_append, decimalValue, ih, List.length_append, pow_add]; ring

theorem literal_value (w f : List Nat) (e : Int) : (digitsVal (w ++ f) : ℚ) * pow10 (e - (f.length : Int)) =
    ((decimalValue w : ℚ) + (decimalValue f : ℚ) / 10 ^ f.length) * (10 : ℚ) ^ e := by
  rw [digitsVal_eq, digitsVal_append, pow10_eq, zpow_sub₀ (by norm_num), zpow_natCast]
  push_cast
  field_simp

theorem isMark_iff (c : Char) : ((c = 'e' || c = 'E') : Bool) = true ↔ c = 'e' ∨ c = 'E' := by simp

theorem parseFloatNumber_iff (T : FloatDigitTable dig) (s : List Char) (q : ℚ) :
    parseFloatNumber dig s = some q ↔ FloatNumberText dig s q := by
  constructor
  · intro h
    unfold parseFloatNumber at h
    simp only [Option.bind_eq_some_iff] at h
    obtain ⟨w, hw, f, hf, e, he, h⟩ := h
    split at h
    · cases h
    rename_i hne
    cases h
    obtain ⟨m1, m2⟩ := splitFirst_spec (fun c => c = 'e' || c = 'E') s
    generalize splitFirst (fun c => c = 'e' || c = 'E') s = m at *
    obtain ⟨p1, p2⟩ := splitFirst_spec (fun c => c = '.') m.1
    generalize splitFirst (fun c => c = '.') m.1 = p at *
    have hw' := (parseDigitsOpt_iff T.toDigitTable _ _).mp hw
    have hf' := (parseDigitsOpt_iff T.toDigitTable _ _).mp hf
    obtain ⟨x, hx, hs⟩ : ∃ x, ExponentText dig x e ∧ s = m.1 ++ x := by
      rcases m2 with ⟨h1, h2⟩ | ⟨c, t, h1, h2, h3⟩
      · rw [h1] at he
        exact ⟨[], parseExponent_sound he 'e' (.inl rfl), by simpa using h2⟩
      · rw [h1] at he
        exact ⟨c :: t, parseExponent_sound he c (by simpa using h2), h3⟩
    refine ⟨p.1, p.2.getD [], x, w, f, e, hw', hf', hx, ?_, ?_, literal_value w f e⟩
    · by_contra hc
      rw [not_or, not_not, not_not] at hc
      apply hne
      rw [hc.1] at hw'; rw [hc.2] at hf'
      refine ⟨?_, ?_⟩
      · rcases hw' with h | h
        exacts [h.2, absurd rfl h.ne_nil]
      · rcases hf' with h | h
        exacts [h.2, absurd rfl h.ne_nil]
    · rcases p2 with ⟨h1, h2⟩ | ⟨c, t, h1, h2, h3⟩
      · left; rw [h1]; exact ⟨by rw [hs, h2], rfl⟩
      · right
        have : c = '.' := by simpa using h2
        subst this
        rw [h1]
        rw [hs, h3]
        simp
  · rintro ⟨w, f, x, ws, fs, e, hw, hf, hx, hne, hs, rfl⟩
    have memw : ∀ {s ds}, DigitsOrNone dig s ds → ∀ c ∈ s, c ≠ '.' ∧ c ≠ 'e' ∧ c ≠ 'E' := by
      rintro s ds (⟨rfl, _⟩ | h) c hc
      · simp at hc
      · rcases h.mem c hc with ⟨d, hd⟩ | rfl
        · exact T.notMark c d hd
        · decide
    -- the mantissa
    obtain ⟨m, hm, hsplit⟩ : ∃ m, s = m ++ x ∧ (∀ c ∈ m, c ≠ 'e' ∧ c ≠ 'E') ∧ (splitFirst (fun c => c = '.') m).1 = w ∧
        (splitFirst (fun c => c = '.') m).2.getD [] = f := by
      rcases hs with ⟨h1, h2⟩ | h1
      · refine ⟨w, h1, fun c hc => (memw hw c hc).2, ?_⟩
        rw [splitFirst_none _ w (fun c hc => by simpa using (memw hw c hc).1)]
        exact ⟨rfl, h2.symm⟩
      · refine ⟨w ++ '.' :: f, h1, ?_, ?_⟩
        · intro c hc
          rcases List.mem_append.mp hc with hc | hc
          · exact (memw hw c hc).2
          · rcases List.mem_cons.mp hc with rfl | hc
            · decide
            · exact (memw hf c hc).2
        · rw [splitFirst_some _ w '.' f (fun c hc => by simpa using (memw hw c hc).1) (by simp)]
          exact ⟨rfl, rfl⟩
    have hexp : ∃ o, splitFirst (fun c => c = 'e' || c = 'E') s = (m, o) ∧ parseExponent dig o = some e := by
      rcases hx with ⟨rfl, rfl⟩ | ⟨mark, sgn, body, neg, ds, hmark, rfl, hsgn, hbody, rfl⟩
      · refine ⟨none, ?_, rfl⟩
        rw [hm, List.append_nil]
        exact splitFirst_none _ m (fun c hc => by simpa using hsplit.1 c hc)
      · refine ⟨some (sgn ++ body), ?_, ?_⟩
        · rw [hm]
          exact splitFirst_some _ m mark _ (fun c hc => by simpa using hsplit.1 c hc) (by simpa using hmark)
        · simp only [parseExponent]
          rw [takeSign_append hsgn (hbody.head_ok T.toDigitTable)]
          simp only [parseDigits_complete T.toDigitTable hbody, Option.map_some, digitsVal_eq]
    obtain ⟨o, ho, he⟩ := hexp
    unfold parseFloatNumber
    simp only [ho, hsplit.2.1, hsplit.2.2, (parseDigitsOpt_iff T.toDigitTable _ _).mpr hw, (parseDigitsOpt_iff T.toDigitTable _ _).mpr hf, he,
      Option.bind_some]
    rw [if_neg, literal_value]
    rintro ⟨rfl, rfl⟩
    rcases hne with h | h
    · rcases hw with h' | h'
      · exact h h'.1
      · exact absurd rfl h'.ds_ne_nil
    · rcases hf with h' | h'
      · exact h h'.1
      · exact absurd rfl h'.ds_ne_nil

/-- The first and the last character of the text of a literal. -/
theorem FloatNumberText.ends (T : FloatDigitTable dig) {s : List Char} {q : ℚ} (h : FloatNumberText dig s q) :
    (∃ c t, s = c :: t ∧ ((∃ d, dig c = some d) ∨ c = '.')) ∧ (∃ t c, s = t ++ [c] ∧ ((∃ d, dig c = some d) ∨ c = '.')) := by
  obtain ⟨w, f, x, ws, fs, e, hw, hf, hx, hne, hs, -⟩ := h
  have hd : ∀ {s ds}, DigitText dig s ds → (∃ c t, s = c :: t ∧ ((∃ d, dig c = some d) ∨ c = '.')) ∧
      (∃ t c, s = t ++ [c] ∧ ((∃ d, dig c = some d) ∨ c = '.')) := by
    intro s ds h
    refine ⟨?_, ?_⟩
    · obtain ⟨c, t, d, e, hc⟩ := h.head; exact ⟨c, t, e, .inl ⟨d, hc⟩⟩
    · obtain ⟨t, c, d, e, hc⟩ := h.last; exact ⟨t, c, e, .inl ⟨d, hc⟩⟩
  have hxe : x = [] ∨ ∃ t c, x = t ++ [c] ∧ ((∃ d, dig c = some d) ∨ c = '.') := by
    rcases hx with ⟨rfl, _⟩ | ⟨mark, sgn, body, neg, ds, _, rfl, _, hbody, _⟩
    · exact .inl rfl
    · obtain ⟨t, c, e, hc⟩ := (hd hbody).2
      exact .inr ⟨mark :: (sgn ++ t), c, by simp [e], hc⟩
  refine ⟨?_, ?_⟩
  · rcases hw with ⟨rfl, _⟩ | hw
    · rcases hs with ⟨_, rfl⟩ | rfl
      · simp at hne
      · exact ⟨'.', f ++ x, by simp, .inr rfl⟩
    · obtain ⟨c, t, e, hc⟩ := (hd hw).1
      rcases hs with ⟨rfl, _⟩ | rfl
      · exact ⟨c, t ++ x, by simp [e], hc⟩
      · exact ⟨c, t ++ '.' :: f ++ x, by simp [e], hc⟩
  · rcases hxe with rfl | ⟨t, c, e, hc⟩
    · rcases hs with ⟨rfl, rfl⟩ | rfl
      · rcases hw with ⟨rfl, _⟩ | hw
        · simp at hne
        · simpa using (hd hw).2
      · rcases hf with ⟨rfl, _⟩ | hf
        · exact ⟨w, '.', by simp, .inr rfl⟩
        · obtain ⟨t, c, e, hc⟩ := (hd hf).2
          exact ⟨w ++ '.' :: t, c, by simp [e], hc⟩
    · rcases hs with ⟨rfl, _⟩ | rfl
      · exact ⟨w ++ t, c, by simp [e], hc⟩
      · exact ⟨w ++ '.' :: f ++ t, c, by simp [e], hc⟩

theorem toLower_of_space {c : Char} (h : pySpace c = true) : c.toLower = c := by
  unfold Char.toLower
  split
  · rename_i hc
    exfalso
    have h1 : 65 ≤ c.toNat := UInt32.le_iff_toNat_le.mp hc.1
    have h2 : c.toNat ≤ 90 := UInt32.le_iff_toNat_le.mp hc.2
    unfold pySpace at h
    simp only [Bool.or_eq_true, Bool.and_eq_true, decide_eq_true_eq] at h
    omega
  · rfl

theorem not_space_of_lower {c l : Char} (h : c.toLower = l) (hl : pySpace l = false) : pySpace c = false := by
  by_contra hc
  have hc : pySpace c = true := by simpa using hc
  rw [toLower_of_space hc] at h
  rw [h] at hc; rw [hc] at hl; cases hl

theorem not_sign_of_lower {c l : Char} (h : c.toLower = l) (hl : l ≠ '-' ∧ l ≠ '+') : c ≠ '-' ∧ c ≠ '+' := by
  constructor <;> rintro rfl
  · exact hl.1 (by rw [← h]; decide)
  · exact hl.2 (by rw [← h]; decide)

/-- The words begin and end with letters. -/
theorem word_ends {w : String} (hw : ∀ c ∈ w.toList, pySpace c = false ∧ c ≠ '-' ∧ c ≠ '+') (hne : w.toList ≠ []) {s : List Char} (h : Word w s) :
    (∃ c t, s = c :: t ∧ pySpace c = false ∧ c ≠ '-' ∧ c ≠ '+') ∧ (∃ t c, s = t ++ [c] ∧ pySpace c = false) := by
  unfold Word at h
  have hs : s ≠ [] := by rintro rfl; exact hne (by simpa using h.symm)
  have hmem : ∀ c ∈ s, c.toLower ∈ w.toList := by intro c hc; rw [← h]; exact List.mem_map_of_mem hc
  refine ⟨?_, ?_⟩
  · cases s with
    | nil => exact absurd rfl hs
    | cons c t =>
      have := hw _ (hmem c (by simp))
      exact ⟨c, t, rfl, not_space_of_lower rfl this.1, not_sign_of_lower rfl this.2⟩
  · obtain ⟨t, c, rfl⟩ := List.eq_nil_or_concat s |>.resolve_left hs
    have := hw _ (hmem c (by simp))
    exact ⟨t, c, by simp, not_space_of_lower rfl this.1⟩

theorem pyFloat_sound (T : FloatDigitTable dig) (s : List Char) (r : FloatReading) (h : pyFloat dig s = some r) : FloatText dig s r := by
  obtain ⟨l, right, e, hl, hr⟩ := pyStrip_decomp s
  obtain ⟨sgn, hsgn, es⟩ := takeSign_spec (pyStrip s)
  refine ⟨l, sgn, (takeSign (pyStrip s)).2, right, (takeSign (pyStrip s)).1, by rw [← es]; exact e, hl, hr, hsgn, ?_⟩
  unfold pyFloat at h
  dsimp only at h
  split at h
  · rename_i hw; cases h; exact .inr (.inl ⟨hw, rfl⟩)
  · split at h
    · rename_i hw; cases h; exact .inr (.inr ⟨hw, rfl⟩)
    · obtain ⟨q, hq, rfl⟩ := Option.map_eq_some_iff.mp h
      exact .inl ⟨q, (parseFloatNumber_iff T _ _).mp hq, rfl⟩

theorem pyFloat_complete (T : FloatDigitTable dig) (s : List Char) (r : FloatReading) (h : FloatText dig s r) : pyFloat dig s = some r := by
  obtain ⟨l, sgn, body, right, neg, e, hl, hr, hsgn, hb⟩ := h
  have hends : (∃ c t, body = c :: t ∧ pySpace c = false ∧ c ≠ '-' ∧ c ≠ '+') ∧ (∃ t c, body = t ++ [c] ∧ pySpace c = false) := by
    rcases hb with ⟨q, hq, _⟩ | ⟨hw | hw, _⟩ | ⟨hw, _⟩
    · obtain ⟨⟨c, t, e1, h1⟩, ⟨t2, c2, e2, h2⟩⟩ := FloatNumberText.ends T hq
      refine ⟨⟨c, t, e1, ?_⟩, ⟨t2, c2, e2, ?_⟩⟩
      · rcases h1 with ⟨d, hd⟩ | rfl
        · exact ⟨T.notSpace _ _ hd, (T.notSign _ _ hd).1, (T.notSign _ _ hd).2.1⟩
        · decide
      · rcases h2 with ⟨d, hd⟩ | rfl
        · exact T.notSpace _ _ hd
        · decide
    · exact word_ends (by decide) (by decide) hw
    · exact word_ends (by decide) (by decide) hw
    · exact word_ends (by decide) (by decide) hw
  obtain ⟨⟨c1, t1, e1, h1, h1s⟩, ⟨t2, c2, e2, h2⟩⟩ := hends
  have hm1 : ∃ c t, sgn ++ body = c :: t ∧ pySpace c = false := by
    rcases hsgn with ⟨rfl, _⟩ | ⟨rfl, _⟩ | ⟨rfl, _⟩
    · exact ⟨c1, t1, e1, h1⟩
    · exact ⟨'+', body, rfl, by decide⟩
    · exact ⟨'-', body, rfl, by decide⟩
  obtain ⟨c, t, ec, hc⟩ := hm1
  have hstrip : pyStrip s = sgn ++ body := by
    rw [e]
    exact pyStrip_mid l (sgn ++ body) right c t ec hc c2 (sgn ++ t2) (by rw [e2]; simp) h2 hl hr
  have hsign : takeSign (pyStrip s) = (neg, body) := by
    rw [hstrip]
    refine takeSign_append hsgn ?_
    intro c hc; rw [e1] at hc; cases hc; exact h1s
  unfold pyFloat
  simp only [hsign]
  rcases hb with ⟨q, hq, rfl⟩ | ⟨hw, rfl⟩ | ⟨hw, rfl⟩
  · obtain ⟨⟨c, t, e1, h1⟩, -⟩ := FloatNumberText.ends T hq
    have hne : c.toLower ≠ 'i' ∧ c.toLower ≠ 'n' := by
      rcases h1 with ⟨d, hd⟩ | rfl
      · exact T.notLetter _ _ hd
      · decide
    have h2 : ¬ (body.map Char.toLower = "inf".toList ∨ body.map Char.toLower = "infinity".toList) := by
      rw [e1]
      rintro (h | h) <;> exact hne.1 (List.head_eq_of_cons_eq h)
    have h3 : ¬ body.map Char.toLower = "nan".toList := by
      rw [e1]
      intro h; exact hne.2 (List.head_eq_of_cons_eq h)
    rw [if_neg h2, if_neg h3, (parseFloatNumber_iff T _ _).mpr hq]
    rfl
  · unfold Word at hw; rw [if_pos hw]
  · have h2 : ¬ (body.map Char.toLower = "inf".toList ∨ body.map Char.toLower = "infinity".toList) := by
      rw [show body.map Char.toLower = "nan".toList from hw]; decide
    rw [if_neg h2, if_pos (show body.map Char.toLower = "nan".toList from hw)]

/-- `float` reads exactly the texts of the grammar. -/
theorem pyFloat_iff (T : FloatDigitTable dig) (s : List Char) (r : FloatReading) : pyFloat dig s = some r ↔ FloatText dig s r :=
  ⟨pyFloat_sound T s r, pyFloat_complete T s r⟩

end Brel
