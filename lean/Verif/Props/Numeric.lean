import Verif.Lemmas.Numeric
import Verif.Lemmas.FactValue
import Verif.Lemmas.Py

/-! C29, C30: numeric transformations of inline facts. -/

namespace Brel
open Spec

variable {dig : Char → Option Nat}

theorem trimmed_strip {text t : List Char} (h : Trimmed text t) : pyStrip text = t := by
  obtain ⟨l, r, rfl, hl, hr, h1, h2⟩ := h
  rcases List.eq_nil_or_concat t with rfl | ⟨t', c2, rfl⟩
  · have hall : ∀ c ∈ l ++ r, pySpace c = true := by
      intro c hc
      rcases List.mem_append.1 hc with h | h
      · exact hl c h
      · exact hr c h
    have := dropWhile_all pySpace (l ++ r) [] hall
    rw [List.append_nil] at this
    unfold pyStrip
    rw [List.append_nil, this]
    rfl
  · cases t' with
    | nil => exact pyStrip_mid l _ r c2 [] rfl (h1 c2 rfl) c2 [] rfl (h1 c2 rfl) hl hr
    | cons a t' => exact pyStrip_mid l _ r a (t' ++ [c2]) (by simp) (h1 a rfl) c2 (a :: t') (by simp) (h2 c2 (by rw [List.concat_eq_append, List.getLast?_append]; rfl)) hl hr

theorem decimal_table {fmt : String} {mark : Char} {grouping : List Char} (h : (fmt, mark, grouping) ∈ decimalFormats) :
    ∃ c, numberFormats.get? ((legacyFormats.get? fmt).getD fmt) = some (decimalRe c [mark]) ∧ fmt ≠ "ixt:fixed-zero" ∧
      (∀ x, c.has x = true ↔ IsAsciiDigit x ∨ x ∈ grouping) ∧ mark ∉ grouping ∧ ¬ IsAsciiDigit mark ∧ (∀ x ∈ grouping, x ∈ separators) ∧ mark ∈ separators := by
  simp only [decimalFormats, List.mem_cons, Prod.mk.injEq, List.not_mem_nil, or_false] at h
  have key : ∀ (c : Cls) (g : List Char) (hc : c.neg = false) (hr : c.ranges.Perm ((48, 57) :: g.map (fun x => (x.toNat, x.toNat)))) (x : Char),
      c.has x = true ↔ IsAsciiDigit x ∨ x ∈ g := by
    intro c g hc hr x
    have : c.ranges.any (fun r => decide (r.1 ≤ x.toNat) && decide (x.toNat ≤ r.2)) =
        ((48, 57) :: g.map (fun x : Char => (x.toNat, x.toNat))).any (fun r => decide (r.1 ≤ x.toNat) && decide (x.toNat ≤ r.2)) := hr.any_eq
    simp only [Cls.has, hc, this, Bool.bne_false]
    simp only [List.any_cons, List.any_map, Bool.or_eq_true, Bool.and_eq_true, decide_eq_true_eq, List.any_eq_true, Function.comp, IsAsciiDigit]
    constructor
    · rintro (h | ⟨y, hy, h⟩)
      · exact .inl h
      · rw [char_eq (show x.toNat = y.toNat by omega)]; exact .inr hy
    · rintro (h | h)
      · exact .inl h
      · exact .inr ⟨x, h, by omega⟩
  rcases h with ⟨rfl, rfl, rfl⟩ | ⟨rfl, rfl, rfl⟩ | ⟨rfl, rfl, rfl⟩ | ⟨rfl, rfl, rfl⟩
  · exact ⟨Rx.wholeComma, by decide +kernel, by decide, key _ _ rfl (by decide), by decide, by decide, by decide, by decide⟩
  · exact ⟨Rx.wholeDot, by decide +kernel, by decide, key _ _ rfl (by decide), by decide, by decide, by decide, by decide⟩
  · exact ⟨Rx.wholeCommaApos, by decide +kernel, by decide, key _ _ rfl (by decide), by decide, by decide, by decide, by decide⟩
  · exact ⟨Rx.wholeDotApos, by decide +kernel, by decide, key _ _ rfl (by decide), by decide, by decide, by decide, by decide⟩

theorem parseNumeric_of_match {text t : List Char} {fmt : String} {r : Re} (hfmt : numberFormats.get? ((legacyFormats.get? fmt).getD fmt) = some r)
    (hz : fmt ≠ "ixt:fixed-zero") (ht : Trimmed text t) (scale : List Char) :
    (∀ m, r.fullMatch t = some m → parseNumeric dig text fmt scale = (normalizeNumeric (processNumeric dig m scale).1, (processNumeric dig m scale).2)) ∧
    (r.fullMatch t = none → parseNumeric dig text fmt scale = (t, ["NUMBER_DOES_NOT_MATCH_EXPECTED_FORMAT"])) := by
  constructor
  · intro m hm
    simp only [parseNumeric, if_neg hz, trimmed_strip ht, matchNumeric, hfmt, hm]
  · intro hm
    simp only [parseNumeric, if_neg hz, trimmed_strip ht, matchNumeric, hfmt, hm]

theorem trimmed_consumes {text t : List Char} (ht : Trimmed text t) {r : Re} {m : Caps} (hm : r.fullMatch t = some m) : Consumes r t [] m := by
  have := fullMatch_some hm
  rw [← trimmed_strip ht] at this ⊢
  exact matchesFully_strip this

theorem takeWhile_split {p : Char → Bool} {a b : List Char} (ha : ∀ x ∈ a, p x = true) (hb : ∀ x, b.head? = some x → p x = false) :
    (a ++ b).takeWhile p = a ∧ (a ++ b).dropWhile p = b := by
  induction a with
  | nil =>
    cases b with
    | nil => exact ⟨rfl, rfl⟩
    | cons x b => simp [hb x rfl]
  | cons x a ih =>
    have := ih (fun y hy => ha y (List.mem_cons_of_mem _ hy))
    simp [ha x (by simp), this]

/-- What a decimal format reads: which texts it accepts, and the digits of the parts. -/
theorem decimal_match {fmt : String} {mark : Char} {grouping : List Char} (h : (fmt, mark, grouping) ∈ decimalFormats) {text t : List Char}
    (ht : Trimmed text t) (scale : List Char) :
    (¬ DecimalText mark grouping t → parseNumeric dig text fmt scale = (t, ["NUMBER_DOES_NOT_MATCH_EXPECTED_FORMAT"])) ∧
    (DecimalText mark grouping t → ∃ m : Caps, PartOk (m.group 1) ∧ PartOk (m.group 2) ∧
      written mark t = decimalNumber (digitsOf ((m.group 1).getD [])) (digitsOf ((m.group 2).getD [])) ∧
      parseNumeric dig text fmt scale = (normalizeNumeric (processNumeric dig m scale).1, (processNumeric dig m scale).2)) := by
  obtain ⟨c, hfmt, hz, hc, hmg, hmd, hsep, hms⟩ := decimal_table h
  obtain ⟨h1, h2⟩ := parseNumeric_of_match (dig := dig) hfmt hz ht scale
  constructor
  · intro hd
    refine h2 ?_
    cases hm : (decimalRe c [mark]).fullMatch t with
    | none => rfl
    | some m =>
      obtain ⟨a, f, e, ha, -, hf⟩ := consumes_decimal (trimmed_consumes ht hm)
      refine absurd ⟨a, f, e, fun x hx => (hc x).1 (ha x hx), ?_⟩ hd
      rcases hf with ⟨hf, -⟩ | ⟨g, e, hg, hg', -⟩
      · exact .inl hf
      · exact .inr ⟨g, e, hg, hg'⟩
  · rintro ⟨w, f, e, hw, hf⟩
    cases hm : (decimalRe c [mark]).fullMatch t with
    | none =>
      obtain ⟨caps, hcaps⟩ := decimal_consumes (c := c) (fun x hx => (hc x).2 (hw x hx)) hf
      rw [← e] at hcaps
      exact absurd (consumes_matchesFully hcaps) (fullMatch_none hm caps)
    | some m =>
      obtain ⟨a, f, e, ha, g1, hf⟩ := consumes_decimal (trimmed_consumes ht hm)
      have ha' : ∀ x ∈ a, IsAsciiDigit x ∨ x ∈ grouping := fun x hx => (hc x).1 (ha x hx)
      have hne : ∀ x ∈ a, x ≠ mark := by
        rintro x hx rfl
        rcases ha' x hx with h | h
        · exact hmd h
        · exact hmg h
      have hsp := takeWhile_split (p := fun x => decide (x ≠ mark)) (a := a) (b := f) (fun x hx => by simpa using hne x hx) (by
        rcases hf with ⟨rfl, -⟩ | ⟨g, rfl, -⟩ <;> simp)
      refine ⟨m, ?_, ?_, ?_, h1 m hm⟩
      · intro s hs x hx
        rw [g1] at hs
        cases hs
        rcases ha' x hx with h | h
        · exact .inl (asciiDigit_isSome h)
        · exact .inr (hsep x h)
      · intro s hs x hx
        rcases hf with ⟨-, g2⟩ | ⟨g, rfl, -, hg, g2⟩
        · rw [g2] at hs; cases hs
        · rw [g2] at hs
          cases hs
          rcases List.mem_cons.1 hx with rfl | hx
          · exact .inr hms
          · rcases hg x hx with h | rfl
            · exact .inl (asciiDigit_isSome h)
            · exact .inr (by decide)
      · unfold written
        rw [e, hsp.1, hsp.2, g1]
        rcases hf with ⟨rfl, g2⟩ | ⟨g, rfl, -, hg, g2⟩
        · rw [g2]; rfl
        · rw [g2]; rfl

/-- C29 (decimal formats): a text of the format gives, without error, the number it writes times ten to the scale, in canonical form;
a text that denotes zero gives the empty text. -/
theorem C29_decimal (T : DigitTable dig) {fmt : String} {mark : Char} {grouping : List Char} (h : (fmt, mark, grouping) ∈ decimalFormats)
    {text t : List Char} (ht : Trimmed text t) (hd : DecimalText mark grouping t) {scale : List Char} {n : Int} (hn : IntText dig scale n) :
    (parseNumeric dig text fmt scale).2 = [] ∧
    (written mark t ≠ 0 → Denotes (parseNumeric dig text fmt scale).1 (written mark t * (10 : ℚ) ^ n) ∧ Canonical (parseNumeric dig text fmt scale).1) ∧
    (written mark t = 0 → (parseNumeric dig text fmt scale).1 = []) := by
  obtain ⟨m, p1, p2, hx, e⟩ := (decimal_match (dig := dig) h ht scale).2 hd
  rw [← pyInt_iff T] at hn
  have := processNumeric_spec dig p1 p2 scale n (by rw [hn]; rfl) _ hx
  rw [e]
  rw [hn, Option.isSome_some, if_pos rfl] at this
  obtain ⟨a, b, c⟩ := this
  dsimp only
  refine ⟨a, fun h0 => ?_, b⟩
  obtain ⟨d, f⟩ := c h0
  exact ⟨f, d⟩

/-- C29 (decimal formats): a text that is not of the format is kept and reported. -/
theorem C29_decimal_rejects {fmt : String} {mark : Char} {grouping : List Char} (h : (fmt, mark, grouping) ∈ decimalFormats)
    {text t : List Char} (ht : Trimmed text t) (hd : ¬ DecimalText mark grouping t) (scale : List Char) :
    parseNumeric dig text fmt scale = (t, ["NUMBER_DOES_NOT_MATCH_EXPECTED_FORMAT"]) := (decimal_match h ht scale).1 hd

/-- C29: a scale that is not an integer is reported and read as 0. -/
theorem C29_bad_scale (T : DigitTable dig) {fmt : String} {mark : Char} {grouping : List Char} (h : (fmt, mark, grouping) ∈ decimalFormats)
    {text t : List Char} (ht : Trimmed text t) (hd : DecimalText mark grouping t) {scale : List Char} (hn : ¬ ∃ n, IntText dig scale n) :
    (parseNumeric dig text fmt scale).2 = ["INVALID_SCALE_ATTRIBUTE_VALUE"] ∧
    (written mark t ≠ 0 → Denotes (parseNumeric dig text fmt scale).1 (written mark t)) := by
  obtain ⟨m, p1, p2, hx, e⟩ := (decimal_match (dig := dig) h ht scale).2 hd
  have hn' : pyInt dig scale = none := by
    cases hp : pyInt dig scale with
    | none => rfl
    | some k => exact absurd ⟨k, (pyInt_iff T _ _).1 hp⟩ hn
  have := processNumeric_spec dig p1 p2 scale 0 (by rw [hn']; rfl) _ hx
  rw [e]
  rw [hn', zpow_zero, mul_one] at this
  exact ⟨this.1, fun h0 => (this.2.2 h0).2⟩

/-! ## Formats with units -/

theorem unit_table {fmt : String} {grouping : List Char} (h : (fmt, grouping) ∈ unitFormats) :
    ∃ c nc, numberFormats.get? ((legacyFormats.get? fmt).getD fmt) = some (unitRe c nc) ∧ fmt ≠ "ixt:fixed-zero" ∧
      (∀ x, c.has x = true ↔ (digitValue x).isSome ∨ x ∈ grouping) ∧ (∀ x, nc.has x = true ↔ digitValue x = none ∧ x ∉ grouping) ∧
      (∀ x ∈ grouping, x ∈ separators) := by
  simp only [unitFormats, List.mem_cons, Prod.mk.injEq, List.not_mem_nil, or_false] at h
  have any : ∀ (rs : List (Nat × Nat)) (g : List Char) (hr : rs = (48, 57) :: (65296, 65305) :: g.map (fun x => (x.toNat, x.toNat))) (x : Char),
      rs.any (fun r => decide (r.1 ≤ x.toNat) && decide (x.toNat ≤ r.2)) = true ↔ (digitValue x).isSome ∨ x ∈ g := by
    intro rs g hr x
    rw [hr, digitValue_isSome]
    simp only [List.any_cons, List.any_map, Bool.or_eq_true, Bool.and_eq_true, decide_eq_true_eq, List.any_eq_true, Function.comp]
    constructor
    · rintro (h | h | ⟨y, hy, h⟩)
      · exact .inl (.inl h)
      · exact .inl (.inr h)
      · rw [char_eq (show x.toNat = y.toNat by omega)]; exact .inr hy
    · rintro ((h | h) | h)
      · exact .inl h
      · exact .inr (.inl h)
      · exact .inr (.inr ⟨x, h, by omega⟩)
  have pos : ∀ (c : Cls) (g : List Char) (hc : c.neg = false) (hr : c.ranges = (48, 57) :: (65296, 65305) :: g.map (fun x => (x.toNat, x.toNat))) (x : Char),
      c.has x = true ↔ (digitValue x).isSome ∨ x ∈ g := by
    intro c g hc hr x
    simp only [Cls.has, hc, Bool.bne_false]
    exact any _ _ hr x
  have neg : ∀ (c : Cls) (g : List Char) (hc : c.neg = true) (hr : c.ranges = (48, 57) :: (65296, 65305) :: g.map (fun x => (x.toNat, x.toNat))) (x : Char),
      c.has x = true ↔ digitValue x = none ∧ x ∉ g := by
    intro c g hc hr x
    have := any _ _ hr x
    simp only [Cls.has, hc, Bool.bne_true, Bool.not_eq_true', ← Bool.not_eq_true, this]
    rw [not_or, Bool.not_eq_true, Option.isSome_eq_false_iff, Option.isNone_iff_eq_none]
  rcases h with ⟨rfl, rfl⟩ | ⟨rfl, rfl⟩
  · exact ⟨Rx.unitWhole, Rx.notUnitWhole, by decide +kernel, by decide, pos _ _ rfl (by decide), neg _ _ rfl (by decide), by decide⟩
  · exact ⟨Rx.unitWholeApos, Rx.notUnitWholeApos, by decide +kernel, by decide, pos _ _ rfl (by decide), neg _ _ rfl (by decide), by decide⟩

theorem unitText_split {grouping : List Char} {w u m r : List Char} {x : Char} (hw : ∀ c ∈ w, (digitValue c).isSome ∨ c ∈ grouping)
    (hx : digitValue x = none) (hx' : x ∉ grouping) (hu : ∀ c ∈ u, digitValue c = none) (hr : ∀ c ∈ r, digitValue c = none) :
    (w ++ x :: u ++ m ++ r).takeWhile (fun c => (digitValue c).isSome || decide (c ∈ grouping)) = w ∧
    digitsOf ((w ++ x :: u ++ m ++ r).dropWhile (fun c => (digitValue c).isSome || decide (c ∈ grouping))) = digitsOf m := by
  have hsp := takeWhile_split (p := fun c => (digitValue c).isSome || decide (c ∈ grouping)) (a := w) (b := x :: u ++ m ++ r)
    (fun c hc => by simpa using hw c hc) (by rintro y hy; cases hy; simp [hx, hx'])
  have e : w ++ x :: u ++ m ++ r = w ++ (x :: u ++ m ++ r) := by simp
  rw [e]
  refine ⟨hsp.1, ?_⟩
  rw [hsp.2, digitsOf_append, digitsOf_append, digitsOf_eq_nil (s := x :: u) (by
    intro c hc
    rcases List.mem_cons.1 hc with rfl | hc
    · exact hx
    · exact hu c hc), digitsOf_eq_nil hr]
  simp

theorem unit_match {fmt : String} {grouping : List Char} (h : (fmt, grouping) ∈ unitFormats) {text t : List Char}
    (ht : Trimmed text t) (scale : List Char) :
    (¬ UnitText grouping 1 t → ¬ UnitText grouping 2 t → parseNumeric dig text fmt scale = (t, ["NUMBER_DOES_NOT_MATCH_EXPECTED_FORMAT"])) ∧
    (∀ n, n = 1 ∨ n = 2 → UnitText grouping n t → ∃ m : Caps, PartOk (m.group 1) ∧ PartOk (m.group 2) ∧
      (n = 2 → writtenWithUnit grouping t = decimalNumber (digitsOf ((m.group 1).getD [])) (digitsOf ((m.group 2).getD []))) ∧
      parseNumeric dig text fmt scale = (normalizeNumeric (processNumeric dig m scale).1, (processNumeric dig m scale).2)) := by
  obtain ⟨c, nc, hfmt, hz, hc, hnc, hsep⟩ := unit_table h
  obtain ⟨h1, h2⟩ := parseNumeric_of_match (dig := dig) hfmt hz ht scale
  constructor
  · intro hu1 hu2
    refine h2 ?_
    cases hm : (unitRe c nc).fullMatch t with
    | none => rfl
    | some m =>
      obtain ⟨a, x, u, d, r, e, ha0, ha, hx, hu, hl, hd, hr, -⟩ := consumes_unit (trimmed_consumes ht hm)
      rcases hl with hl | hl
      · exact absurd ⟨a, x, u, d, r, e, ha0, fun y hy => (hc y).1 (ha y hy), ((hnc x).1 hx).1, ((hnc x).1 hx).2, hu, hl, hd, hr⟩ hu1
      · exact absurd ⟨a, x, u, d, r, e, ha0, fun y hy => (hc y).1 (ha y hy), ((hnc x).1 hx).1, ((hnc x).1 hx).2, hu, hl, hd, hr⟩ hu2
  · rintro n hn ⟨w, x, u, d, r, e, hw0, hw, hx, hx', hu, hl, hd, hr⟩
    cases hm : (unitRe c nc).fullMatch t with
    | none =>
      obtain ⟨caps, hcaps⟩ := unit_consumes (c := c) (nc := nc) hw0 (fun y hy => (hc y).2 (hw y hy)) ((hnc x).2 ⟨hx, hx'⟩) hu (hl ▸ hn) hd hr
      rw [← e] at hcaps
      exact absurd (consumes_matchesFully hcaps) (fullMatch_none hm caps)
    | some m =>
      obtain ⟨a, y, v, d', r', e', ha0, ha, hy, hv, hl', hd', hr', g1, g2⟩ := consumes_unit (trimmed_consumes ht hm)
      have ha' : ∀ z ∈ a, (digitValue z).isSome ∨ z ∈ grouping := fun z hz => (hc z).1 (ha z hz)
      have s1 := unitText_split (m := d) hw hx hx' hu hr
      have s2 := unitText_split (m := d') ha' ((hnc y).1 hy).1 ((hnc y).1 hy).2 hv hr'
      rw [← e] at s1
      rw [← e'] at s2
      refine ⟨m, ?_, ?_, ?_, h1 m hm⟩
      · intro s hs z hz
        rw [g1] at hs
        cases hs
        rcases ha' z hz with h | h
        · exact .inl h
        · exact .inr (hsep z h)
      · intro s hs z hz
        rw [g2] at hs
        cases hs
        exact .inl (hd' z hz)
      · rintro rfl
        have hlen : (digitsOf d').length = 2 := by
          rw [← s2.2, s1.2, digitsOf_length hd, hl]
        unfold writtenWithUnit
        dsimp only
        rw [s2.1, s2.2, g1, g2]
        simp only [Option.getD_some, decimalNumber, hlen]
        norm_num

/-- C29 (unit formats), hundredths written with two digits: exact value. Missing: hundredths written with one digit, see
`C29_unit_false`. -/
theorem C29_unit_partial (T : DigitTable dig) {fmt : String} {grouping : List Char} (h : (fmt, grouping) ∈ unitFormats)
    {text t : List Char} (ht : Trimmed text t) (hd : UnitText grouping 2 t) {scale : List Char} {n : Int} (hn : IntText dig scale n) :
    (parseNumeric dig text fmt scale).2 = [] ∧
    (writtenWithUnit grouping t ≠ 0 →
      Denotes (parseNumeric dig text fmt scale).1 (writtenWithUnit grouping t * (10 : ℚ) ^ n) ∧ Canonical (parseNumeric dig text fmt scale).1) ∧
    (writtenWithUnit grouping t = 0 → (parseNumeric dig text fmt scale).1 = []) := by
  obtain ⟨m, p1, p2, hx, e⟩ := (unit_match (dig := dig) h ht scale).2 2 (.inr rfl) hd
  rw [← pyInt_iff T] at hn
  have := processNumeric_spec dig p1 p2 scale n (by rw [hn]; rfl) _ (hx rfl)
  rw [e]
  rw [hn, Option.isSome_some, if_pos rfl] at this
  obtain ⟨a, b, c⟩ := this
  dsimp only
  refine ⟨a, fun h0 => ?_, b⟩
  obtain ⟨d, f⟩ := c h0
  exact ⟨f, d⟩

/-- C29 (unit formats): a text that is not of the format is kept and reported. -/
theorem C29_unit_rejects {fmt : String} {grouping : List Char} (h : (fmt, grouping) ∈ unitFormats) {text t : List Char}
    (ht : Trimmed text t) (h1 : ¬ UnitText grouping 1 t) (h2 : ¬ UnitText grouping 2 t) (scale : List Char) :
    parseNumeric dig text fmt scale = (t, ["NUMBER_DOES_NOT_MATCH_EXPECTED_FORMAT"]) := (unit_match h ht scale).1 h1 h2

/-- C29 is false for hundredths written with one digit: "5 dollars 5 cents" becomes 5.5. -/
theorem C29_unit_false : ∃ (fmt : String) (grouping : List Char) (t : List Char), (fmt, grouping) ∈ unitFormats ∧ UnitText grouping 1 t ∧
    Trimmed t t ∧ writtenWithUnit grouping t = 505 / 100 ∧ parseNumeric asciiDigit t fmt ['0'] = ("5.5".toList, []) := by
  refine ⟨"ixt:num-unit-decimal", ['.', ',', '，'], "5 dollars 5 cents".toList, by simp [unitFormats],
    ⟨['5'], ' ', "dollars ".toList, ['5'], " cents".toList, by decide, by decide, by decide, by decide, by decide, by decide, by decide, by decide, by decide⟩,
    ⟨[], [], by simp, by simp, by simp, ?_, ?_⟩, ?_, by decide +kernel⟩
  · intro c hc
    have : c = '5' := by have h : "5 dollars 5 cents".toList.head? = some '5' := by decide
                         rw [h] at hc; cases hc; rfl
    rw [this]; decide
  · intro c hc
    have : c = 's' := by have h : "5 dollars 5 cents".toList.getLast? = some 's' := by decide
                         rw [h] at hc; cases hc; rfl
    rw [this]; decide
  · have h1 : digitsOf ("5 dollars 5 cents".toList.takeWhile (fun c => (digitValue c).isSome || decide (c ∈ ['.', ',', '，']))) = [5] := by decide
    have h2 : digitsOf ("5 dollars 5 cents".toList.dropWhile (fun c => (digitValue c).isSome || decide (c ∈ ['.', ',', '，']))) = [5] := by decide
    unfold writtenWithUnit
    dsimp only
    rw [h1, h2]
    norm_num [natOf]

/-- C29: an earlier name of a format does what the current name does. -/
theorem C29_earlier_names {old new : String} (h : (old, new) ∈ earlierNames) (text scale : List Char) :
    parseNumeric dig text old scale = parseNumeric dig text new scale := by
  have key : old ≠ "ixt:fixed-zero" ∧ new ≠ "ixt:fixed-zero" ∧ (legacyFormats.get? old).getD old = (legacyFormats.get? new).getD new := by
    revert old new
    have : ∀ p ∈ earlierNames, p.1 ≠ "ixt:fixed-zero" ∧ p.2 ≠ "ixt:fixed-zero" ∧ (legacyFormats.get? p.1).getD p.1 = (legacyFormats.get? p.2).getD p.2 := by
      decide +kernel
    exact fun {old new} h => this (old, new) h
  simp only [parseNumeric, if_neg key.1, if_neg key.2.1, key.2.2]

/-- C29: the format for a fixed zero gives 0 for every text. -/
theorem C29_fixed_zero (text scale : List Char) : parseNumeric dig text "ixt:fixed-zero" scale = (['0'], []) := rfl

/-- The earlier names for zero are not supported, although the table of names maps them to the format for zero: every text is
kept and reported. -/
theorem C29_earlier_zero_false {old : String} (h : old ∈ earlierZeroNames) (text scale : List Char) :
    parseNumeric dig text old scale = (pyStrip text, ["UNSUPPORTED_NON_FRACTION_FACT_FORMAT"]) := by
  have key : ∀ o ∈ earlierZeroNames, o ≠ "ixt:fixed-zero" ∧ numberFormats.get? ((legacyFormats.get? o).getD o) = none := by decide +kernel
  simp only [parseNumeric, if_neg (key old h).1, matchNumeric, (key old h).2]

/-- C29: every other format name is reported, and the text is kept. -/
theorem C29_unknown_format {fmt : String} (h : fmt ∉ knownNames) (text scale : List Char) :
    parseNumeric dig text fmt scale = (pyStrip text, ["UNSUPPORTED_NON_FRACTION_FACT_FORMAT"]) := by
  have key : numberFormats.get? ((legacyFormats.get? fmt).getD fmt) = none := by
    cases hl : legacyFormats.get? fmt with
    | none =>
      rw [Option.getD_none]
      cases hn : numberFormats.get? fmt with
      | none => rfl
      | some r =>
        have hall : ∀ p ∈ numberFormats, p.1 ∈ knownNames := by decide +kernel
        exact absurd (hall _ (Dict.mem_get? _ hn)) h
    | some new =>
      have hall : ∀ p ∈ legacyFormats, p.1 ∈ knownNames ∨ numberFormats.get? p.2 = none := by decide +kernel
      rcases hall _ (Dict.mem_get? _ hl) with h' | h'
      · exact absurd h' h
      · exact h'
  have hz : fmt ≠ "ixt:fixed-zero" := fun e => h (by rw [e]; simp [knownNames])
  simp only [parseNumeric, if_neg hz, matchNumeric, key]

/-- "1 234,50" with scale 3 in the comma format. -/
example : parseNumeric asciiDigit " 1 234,50\n".toList "ixt:num-comma-decimal" ['3'] = ("1234500".toList, []) := by decide +kernel
example : parseNumeric asciiDigit "1,234.5".toList "ixt:num-dot-decimal" "-6".toList = ("0.0012345".toList, []) := by decide +kernel
example : parseNumeric asciiDigit "１２円５０銭".toList "ixt:num-unit-decimal" ['0'] = ("12.5".toList, []) := by decide +kernel

example : DecimalText ',' ['.', ' '] "1 234,50".toList :=
  ⟨"1 234".toList, ",50".toList, by decide, by decide, .inr ⟨"50".toList, by decide, by decide, by decide⟩⟩
example : IntText asciiDigit "-6".toList (-6) :=
  ⟨[], ['-'], ['6'], [], [6], by decide, by simp, by simp, .one (by decide), by decide, .inr (.inr ⟨rfl, by decide⟩)⟩

/-! ## C30: canonical and readable numerals -/

/-- C30 is false for zero: the stored text is empty, and `Fact.get_value()` of an integer fact with it raises `ValueError`. -/
theorem C30_zero_false (dig : Char → Option Nat) {fmt : String} {mark : Char} {grouping : List Char} (h : (fmt, mark, grouping) ∈ decimalFormats) :
    (parseNumeric asciiDigit ['0'] fmt ['0']).1 = [] ∧ ¬ Canonical [] ∧ pyInt dig [] = none := by
  refine ⟨?_, ?_, rfl⟩
  · have : ∀ p ∈ decimalFormats, (parseNumeric asciiDigit ['0'] p.1 ['0']).1 = [] := by decide +kernel
    exact this _ h
  · rintro ⟨w, f, ⟨hw, -, -, hs⟩, -⟩
    rcases hs with ⟨-, e⟩ | ⟨-, e⟩
    · exact hw e.symm
    · simp at e

theorem numeral_unique {s w f w' f' : List Char} (h : Numeral s w f) (h' : Numeral s w' f') : w = w' ∧ f = f' := by
  obtain ⟨hw, hwd, hfd, hs⟩ := h
  obtain ⟨hw', hwd', hfd', hs'⟩ := h'
  have split : ∀ {w f : List Char}, (∀ c ∈ w, IsAsciiDigit c) → ((f = [] ∧ s = w) ∨ (f ≠ [] ∧ s = w ++ '.' :: f)) →
      s.takeWhile (fun c => decide (c ≠ '.')) = w ∧ (s.dropWhile (fun c => decide (c ≠ '.'))).drop 1 = f := by
    intro w f hw hs
    have hw2 : ∀ c ∈ w, decide (c ≠ '.') = true := by
      intro c hc
      simp only [decide_eq_true_eq]
      rintro rfl
      exact not_digit_dot (hw _ hc)
    rcases hs with ⟨rfl, rfl⟩ | ⟨-, rfl⟩
    · have := takeWhile_split (b := []) hw2 (by simp)
      rw [List.append_nil] at this
      rw [this.1, this.2]
      exact ⟨rfl, rfl⟩
    · have := takeWhile_split (b := '.' :: f) hw2 (by simp)
      rw [this.1, this.2]
      exact ⟨rfl, rfl⟩
  have a := split hwd hs
  have b := split hwd' hs'
  exact ⟨a.1.symm.trans b.1, a.2.symm.trans b.2⟩

theorem natOf_lt {ds : List Nat} (h : ∀ d ∈ ds, d < 10) : natOf ds < 10 ^ ds.length := by
  induction ds with
  | nil => simp [natOf]
  | cons d ds ih =>
    rw [natOf_cons, List.length_cons, Nat.pow_succ]
    have := ih (fun x hx => h x (List.mem_cons_of_mem _ hx))
    have hd := h d (by simp)
    nlinarith [Nat.mul_le_mul_right (10 ^ ds.length) (Nat.le_of_lt_succ (show d < 9 + 1 by omega))]

theorem digitsOf_lt {s : List Char} : ∀ d ∈ digitsOf s, d < 10 := by
  intro d hd
  obtain ⟨c, -, hc⟩ := List.mem_filterMap.1 hd
  unfold digitValue at hc
  split at hc
  · simp only [Option.some.injEq] at hc
    omega
  · split at hc
    · simp only [Option.some.injEq] at hc
      omega
    · cases hc

/-- A canonical numeral of a whole number has no fraction. -/
theorem canonical_whole {s : List Char} (hc : Canonical s) {N : Nat} (hd : Denotes s N) :
    s ≠ [] ∧ (∀ c ∈ s, IsAsciiDigit c) ∧ natOf (digitsOf s) = N ∧ (s = ['0'] ∨ s.head? ≠ some '0') := by
  obtain ⟨w, f, hn, h0, hl⟩ := hc
  obtain ⟨w', f', hn', hx⟩ := hd
  obtain ⟨rfl, rfl⟩ := numeral_unique hn hn'
  obtain ⟨hw, hwd, hfd, hs⟩ := hn
  have hfl : (digitsOf f).length = f.length := digitsOf_length (fun c hc => asciiDigit_isSome (hfd c hc))
  have hlt : natOf (digitsOf f) < 10 ^ f.length := hfl ▸ natOf_lt digitsOf_lt
  have hz : natOf (digitsOf f) = 0 := by
    have h10 : (10 : ℚ) ^ f.length ≠ 0 := pow_ne_zero _ (by norm_num)
    unfold decimalNumber at hx
    rw [hfl] at hx
    have e : (N : ℚ) * 10 ^ f.length = natOf (digitsOf w) * 10 ^ f.length + natOf (digitsOf f) := by
      rw [hx]; field_simp
    have e' : N * 10 ^ f.length = natOf (digitsOf w) * 10 ^ f.length + natOf (digitsOf f) := by exact_mod_cast e
    have hdvd : 10 ^ f.length ∣ natOf (digitsOf f) := (Nat.dvd_add_right (Nat.dvd_mul_left _ _)).1 (e' ▸ Nat.dvd_mul_left _ _)
    exact Nat.eq_zero_of_dvd_of_lt hdvd hlt
  have hf : f = [] := by
    cases hfe : f.getLast? with
    | none => exact List.getLast?_eq_none_iff.1 hfe
    | some c =>
      have := (digits_zero hfd).1 hz c (List.mem_of_getLast? hfe)
      rw [this] at hfe
      exact absurd hfe hl
  subst hf
  rcases hs with ⟨-, rfl⟩ | ⟨h, -⟩
  · refine ⟨hw, hwd, ?_, h0⟩
    have : (N : ℚ) = natOf (digitsOf s) := by rw [hx]; simp [decimalNumber, digitsOf, natOf]
    exact_mod_cast this.symm
  · exact absurd rfl h

theorem digitText_ascii (hdig : ∀ c, IsAsciiDigit c → dig c = some (c.toNat - 48)) : ∀ {s : List Char}, s ≠ [] → (∀ c ∈ s, IsAsciiDigit c) →
    DigitText dig s (digitsOf s) := by
  intro s
  induction s with
  | nil => exact fun h => absurd rfl h
  | cons c s ih =>
    intro _ h
    have hc := h c (by simp)
    have e : digitsOf (c :: s) = (c.toNat - 48) :: digitsOf s := by simp [digitsOf, digitValue_ascii hc]
    rw [e]
    cases s with
    | nil => exact .one (hdig c hc)
    | cons d s => exact .more (hdig c hc) (ih (by simp) (fun x hx => h x (List.mem_cons_of_mem _ hx)))

theorem natOf_eq_decimalValue (ds : List Nat) : natOf ds = decimalValue ds := by
  induction ds with
  | nil => rfl
  | cons d ds ih => rw [natOf_cons, ih]; rfl

theorem natOf_ge_pow {s : List Char} (hs : ∀ c ∈ s, IsAsciiDigit c) (hne : s ≠ []) (h0 : s.head? ≠ some '0') : 10 ^ (s.length - 1) ≤ natOf (digitsOf s) := by
  cases s with
  | nil => exact absurd rfl hne
  | cons c s =>
    have hc := hs c (by simp)
    have e : digitsOf (c :: s) = (c.toNat - 48) :: digitsOf s := by simp [digitsOf, digitValue_ascii hc]
    have hl : (digitsOf s).length = s.length := digitsOf_length (fun x hx => asciiDigit_isSome (hs x (List.mem_cons_of_mem _ hx)))
    have hpos : 1 ≤ c.toNat - 48 := by
      rcases Nat.eq_zero_or_pos (c.toNat - 48) with h | h
      · have := digitValue_eq_zero hc (by rw [digitValue_ascii hc, h])
        rw [this] at h0
        exact absurd rfl h0
      · exact h
    rw [e, natOf_cons, hl, List.length_cons, Nat.add_sub_cancel]
    calc 10 ^ s.length = 1 * 10 ^ s.length := by ring
      _ ≤ (c.toNat - 48) * 10 ^ s.length := Nat.mul_le_mul_right _ hpos
      _ ≤ _ := Nat.le_add_right _ _

/-- C30 (nonzero values): a decimal text whose scaled value is a whole number is stored as a text that `Fact.get_value()` of an
integer concept reads as that number (CPython refuses more than 4300 digits). Missing: zero, see `C30_zero_false`. -/
theorem C30_integer_partial (T : DigitTable dig) (hdig : ∀ c, IsAsciiDigit c → dig c = some (c.toNat - 48))
    {fmt : String} {mark : Char} {grouping : List Char} (h : (fmt, mark, grouping) ∈ decimalFormats)
    {text t : List Char} (ht : Trimmed text t) (hd : DecimalText mark grouping t) {scale : List Char} {n : Int} (hn : IntText dig scale n)
    {N : Nat} (hN : written mark t * (10 : ℚ) ^ n = N) (h0 : N ≠ 0) (hlt : N < 10 ^ 4300) :
    IntText dig (parseNumeric dig text fmt scale).1 N := by
  have hx : written mark t ≠ 0 := by
    intro e
    rw [e, zero_mul] at hN
    exact h0 (by exact_mod_cast hN.symm)
  obtain ⟨hden, hcan⟩ := (C29_decimal T h ht hd hn).2.1 hx
  rw [hN] at hden
  obtain ⟨hne, hdigs, hval, hz⟩ := canonical_whole hcan hden
  revert hne hdigs hval hz
  generalize (parseNumeric dig text fmt scale).1 = s
  intro hne hdigs hval hz
  have hlen : (digitsOf s).length = s.length := digitsOf_length (fun x hx => asciiDigit_isSome (hdigs x hx))
  refine ⟨[], [], s, [], digitsOf s, by simp, by simp, by simp, digitText_ascii hdig hne hdigs, ?_, .inl ⟨rfl, by rw [← natOf_eq_decimalValue, hval]⟩⟩
  rcases hz with rfl | hz
  · decide
  · have h1 := natOf_ge_pow hdigs hne hz
    rw [hval] at h1
    have h2 : (10 : Nat) ^ (s.length - 1) < 10 ^ 4300 := lt_of_le_of_lt h1 hlt
    have := (Nat.pow_lt_pow_iff_right (by norm_num : 1 < 10)).1 h2
    omega

end Brel
