import Verif.Lemmas.DateTables

/-! C32, C72: date formats of inline facts. -/

namespace Brel
open Spec

/-- The text of a part. -/
def textOf (day month year : List Char) : Part → List Char
  | .day => day
  | .month => month
  | .year => year

theorem partTexts_eq (fmt : String) (day month year : List Char) : partTexts fmt day month year = (layout fmt).map (textOf day month year) := by
  unfold partTexts
  congr 1

section
variable {dig : Char → Option Nat}

/-- The common part of both kinds of formats. -/
theorem date_finish (T : DigitTable dig) (hdig : ∀ c, IsAsciiDigit c → dig c = some (c.toNat - 48)) {fmt : String} {text t : List Char} {r : Re} {is : List Item}
    {named : Bool} (hc : commonCheck fmt (layout fmt) named r is = true) (hr : dateFormats.get? fmt = some r) (ht : Trimmed text t)
    {m : Caps} {F : Part → List Char} (hm : r.fullMatch t = some m) (hg : ∀ i p, (layout fmt)[i]? = some p → m.group (1 + i) = some (F p))
    {day year : List Char} {y mo d : Nat} (hFd : Part.day ∈ layout fmt → F .day = day) (hFy : Part.year ∈ layout fmt → F .year = year)
    (hd : ShortNumber fmt day d) (hy : YearNumber fmt year y) {names : List (List (List Char))}
    (hn : monthNames.get? (monthCountry fmt) = some names) (hi : monthIndex names (pyLower (normalizeDigits (F .month))) = some (mo - 1))
    (hmo : 1 ≤ mo) (hmo' : mo ≤ 12) :
    ∃ errs, parseDate dig text fmt = .ok (isoText fmt y mo d, errs) ∧ (Part.year ∈ layout fmt → (errs = [] ↔ DateExists fmt y mo d)) := by
  simp only [commonCheck, Bool.and_eq_true, decide_eq_true_eq, Bool.or_eq_true] at hc
  obtain ⟨⟨⟨⟨⟨⟨⟨⟨⟨⟨⟨⟨hj, hind⟩, hday⟩, hyear⟩, ho⟩, hnd⟩, hmem⟩, hany⟩, hlen⟩, -⟩, -⟩, -⟩, -⟩ := hc
  have inj : ∀ {a b : Part}, dpOf a = dpOf b → a = b := fun {a b} h => by rw [← partOf_dpOf a, h, partOf_dpOf]
  have hmem' : ∀ p : Part, dpOf p ∈ (layout fmt).map dpOf ↔ p ∈ layout fmt := by
    intro p
    rw [List.mem_map]
    exact ⟨fun ⟨q, hq, e⟩ => inj e ▸ hq, fun h => ⟨p, h, rfl⟩⟩
  have hd100 := dateNumber_lt (digitsIn_dateDigit hd.1) hd.2.1
  rw [hd.2.2] at hd100
  have hdne : day ≠ [] := by rintro rfl; simpa using hd.2.1
  have hd4 : day.length ≤ 4 := by have := hd.2.1; omega
  have key := parseDate_eval (dig := dig) (F := fun p => F (partOf p)) (d := d) (trimmed_strip ht) hr hm hday hyear ho ?_ (by simpa using hlen) ?_ hj hind
    ((hmem' .month).2 hmem) (by rw [show DatePart.day = dpOf .day from rfl, hmem']; simp) (by rw [show DatePart.year = dpOf .year from rfl, hmem']; simp)
    (by simpa using hany) ?_ hn hi
  · rw [key]
    have hy4 : Part.year ∈ layout fmt → yearText (normalizeDigits (F .year)) = fourDigits y ∧ y < 10000 := by
      intro h
      rw [hFy h]
      exact yearText_four hy
    rw [show mo - 1 + 1 = mo by omega, pad2_twoDigits hd100, pad2_twoDigits (show mo < 100 by omega)]
    refine ⟨(dateResult (decide (Part.day ∈ layout fmt)) (decide (Part.year ∈ layout fmt)) (yearText (normalizeDigits (F .year))) (twoDigits mo) (twoDigits d)).2, ?_, ?_⟩
    · congr 1
      refine Prod.ext ?_ rfl
      unfold dateResult isoText
      by_cases h1 : Part.year ∈ layout fmt <;> by_cases h2 : Part.day ∈ layout fmt <;> simp [h1, h2, partOf, hy4]
    · intro h1
      unfold dateResult
      simp only [h1, decide_true, if_true, Bool.and_true, (hy4 h1).1, decide_eq_true_eq]
      have hlt := (hy4 h1).2
      unfold DateExists
      by_cases h2 : Part.day ∈ layout fmt
      · simp only [h1, h2, if_true, forall_const]
        rw [← isoDateOk_iff hlt (by omega) hd100]
        split <;> simp_all
      · simp only [h1, h2, if_true, if_false, forall_const, false_implies, and_true]
        have := isoDateOk_iff hlt (show mo < 100 by omega) (show 1 < 100 by omega)
        rw [show twoDigits 1 = "01".toList by decide +kernel] at this
        have hex : DayExists y mo 1 := by
          rw [← daysInMonth_iff hmo hmo']
          unfold daysInMonth
          refine ⟨Nat.le_refl 1, ?_⟩
          repeat' split
          all_goals omega
        split
        · simp_all
        · rename_i hno
          rw [this] at hno
          simp only [List.cons_ne_nil, false_iff]
          exact fun h => hno ⟨h.1, h.2.1, h.2.2, hex⟩
  · intro i p hp
    rw [List.getElem?_map] at hp
    cases hq : (layout fmt)[i]? with
    | none => rw [hq] at hp; cases hp
    | some q =>
      rw [hq] at hp
      cases hp
      rw [hg i q hq, partOf_dpOf]
  · exact hnd.map (fun a b h => inj h)
  · intro h
    rw [show DatePart.day = dpOf .day from rfl, hmem'] at h
    show intOf dig (normalizeDigits (F .day)) = .ok d
    rw [hFd h, intOf_digits T hdig (digitsIn_dateDigit hd.1) hdne hd4, hd.2.2]

theorem segSpaced_segsOf {seg : Part → Seg} {last : List Seg} (hl : segNoDigit last = true) (hl' : segSpaced last = true) :
    ∀ ps : List Part, segSpaced (segsOf seg last ps) = true := by
  have step : ∀ s ss, segNoDigit ss = true → segSpaced ss = true → segSpaced (s :: ss) = true := by
    intro s ss h1 h2
    cases s <;> simp [segSpaced, h1, h2]
  intro ps
  induction ps with
  | nil => exact hl'
  | cons p ps ih =>
    cases ps with
    | nil => exact step _ _ hl hl'
    | cons q ps =>
      rw [segsOf]
      · exact step _ _ rfl ih
      · simp

theorem all_segsOf {f : Seg → Bool} {seg : Part → Seg} {last : List Seg} (hs : f .sep = true) (hl : last.all f = true) (h : ∀ p, f (seg p) = true) :
    ∀ ps : List Part, (segsOf seg last ps).all f = true := by
  intro ps
  induction ps with
  | nil => exact hl
  | cons p ps ih =>
    cases ps with
    | nil => simp [segsOf, h, hl]
    | cons q ps =>
      rw [segsOf]
      · simp only [List.all_cons, h, hs, Bool.true_and]
        exact ih
      · simp

theorem scripts_sub (fmt : String) : (scripts fmt).all (fun c => clsSub c (digitClass fmt)) = true := by
  rcases scripts_digitClass fmt with h | ⟨h1, h2⟩
  · exact h
  · exfalso
    revert h1 h2
    simp only [fullWidthFormats, devanagariFormats, List.mem_cons, List.not_mem_nil, or_false]
    rintro (rfl | rfl) <;> simp

theorem monthIndex_number {s : List Char} {fmt : String} {mo : Nat} (h : ShortNumber fmt s mo) (h1 : 1 ≤ mo) (h2 : mo ≤ 12) :
    ∃ names, monthNames.get? none = some names ∧ monthIndex names (pyLower (normalizeDigits s)) = some (mo - 1) := by
  obtain ⟨h3, h4, h5⟩ := normalizeDigits_date (digitsIn_dateDigit h.1)
  have hv : natOf (digitsOf (normalizeDigits s)) = mo := by rw [h4]; exact h.2.2
  have hw : normalizeDigits s = twoDigits mo ∨ (normalizeDigits s = [digitChar mo] ∧ mo < 10) := by
    generalize normalizeDigits s = w at *
    rcases h.2.1 with hl | hl
    · match w, h5.trans hl with
      | [c], _ =>
        right
        have hc := h3 c (by simp)
        have e : natOf (digitsOf [c]) = c.toNat - 48 := by
          simp only [digitsOf, List.filterMap_cons, List.filterMap_nil, digitValue_ascii hc, natOf, List.foldl]
          omega
        rw [e] at hv
        have := hc.1
        have := hc.2
        exact ⟨by rw [← digitChar_of hc (v := mo) (by omega)], by omega⟩
    · match w, h5.trans hl with
      | [c, d], _ =>
        left
        have e := (digits_two h3 (h5.trans hl)).1
        rw [hv] at e
        have : (2000 + mo) / 1000 = 2 ∧ (2000 + mo) / 100 = 20 ∧ (2000 + mo) / 10 = 200 + mo / 10 := by omega
        simp only [fourDigits, String.reduceToList, List.cons_append, List.nil_append, List.cons.injEq] at e
        rw [e.2.2.1, e.2.2.2.1]
        unfold twoDigits digitChar
        rw [this.2.2, show (200 + mo / 10) % 10 = mo / 10 % 10 by omega, show (2000 + mo) % 10 = mo % 10 by omega]
  have hall : ∀ k : Fin 12, ∃ names, monthNames.get? none = some names ∧ monthIndex names (pyLower (twoDigits (k.1 + 1))) = some k.1 ∧
      (k.1 + 1 < 10 → monthIndex names (pyLower [digitChar (k.1 + 1)]) = some k.1) := by
    have : ∀ k : Fin 12, (match monthNames.get? none with
      | none => false
      | some names => decide (monthIndex names (pyLower (twoDigits (k.1 + 1))) = some k.1) &&
        (!decide (k.1 + 1 < 10) || decide (monthIndex names (pyLower [digitChar (k.1 + 1)]) = some k.1))) = true := by decide +kernel
    intro k
    have hk := this k
    split at hk
    · cases hk
    · rename_i names hn
      simp only [Bool.and_eq_true, Bool.or_eq_true, Bool.not_eq_true', decide_eq_true_eq, decide_eq_false_iff_not] at hk
      exact ⟨names, hn, hk.1, fun h => hk.2.resolve_left (fun h' => h' h)⟩
  obtain ⟨names, hn, e1, e2⟩ := hall ⟨mo - 1, by omega⟩
  simp only [show mo - 1 + 1 = mo by omega] at e1 e2
  refine ⟨names, hn, ?_⟩
  rcases hw with hw | ⟨hw, hlt⟩
  · rw [hw]; exact e1
  · rw [hw]; exact e2 hlt

theorem seg_kinds {S : List Cls} {s : Seg} {named : Bool} (hs : ∀ ss, segKinds (s :: ss) = named :: segKinds ss) (p : Part) (ss : List Seg) :
    segKinds (segFor S s p :: ss) = (named && decide (p = .month)) :: segKinds ss := by
  cases p <;> simp [segFor, segKinds, hs]

theorem layout_ne {fmt : String} {named : Bool} {r : Re} {is : List Item} (hc : commonCheck fmt (layout fmt) named r is = true) : layout fmt ≠ [] := by
  simp only [commonCheck, Bool.and_eq_true, decide_eq_true_eq] at hc
  exact List.ne_nil_of_mem hc.1.1.1.1.1.1.2

/-- C32, C72 for numeric dates: every text that writes a date in one of the numeric formats, with a month from 1 to 12, is returned as the ISO text of
that date; if the format has a year, an error is reported exactly when no such date exists. -/
theorem C32_numeric (T : DigitTable dig) (hdig : ∀ c, IsAsciiDigit c → dig c = some (c.toNat - 48)) {fmt : String} (hf : fmt ∈ numericDateFormats)
    {text t : List Char} (ht : Trimmed text t) {y m d : Nat} (h : NumericDate fmt t y m d) (hm1 : 1 ≤ m) (hm2 : m ≤ 12) :
    ∃ errs, parseDate dig text fmt = .ok (isoText fmt y m d, errs) ∧ (Part.year ∈ layout fmt → (errs = [] ↔ DateExists fmt y m d)) := by
  obtain ⟨day, month, year, body, tail, rfl, hshow, htail, hd, hmo, hy⟩ := h
  have hck := numeric_ok fmt hf
  unfold numericCheck at hck
  split at hck
  · cases hck
  rename_i r hr
  split at hck
  · cases hck
  rename_i is his
  simp only [Bool.and_eq_true, Bool.or_eq_true, decide_eq_true_eq] at hck
  obtain ⟨⟨⟨hc, hmc⟩, hs1⟩, hs2⟩ := hck
  have hc0 := hc
  simp only [commonCheck, Bool.and_eq_true, decide_eq_true_eq] at hc
  obtain ⟨⟨⟨⟨⟨⟨⟨⟨-, hnd⟩, hmem⟩, hany⟩, hlen⟩, hids⟩, hpl⟩, hsp⟩, hk⟩ := hc
  rw [partTexts_eq] at hshow
  have hseg : ∀ p ss v fs, Realises (fun c => dateDigit c = none) ss v fs →
      Realises (fun c => dateDigit c = none) (segFor (scripts fmt) (.dig (scripts fmt) [1, 2]) p :: ss) (textOf day month year p ++ v) (textOf day month year p :: fs) := by
    intro p ss v fs hR
    cases p with
    | day => exact .dig (scripts_of_digitsIn hd.1) (by simpa [textOf] using hd.2.1) hR
    | month => exact .dig (scripts_of_digitsIn hmo.1) (by simpa [textOf] using hmo.2.1) hR
    | year => exact .dig (scripts_of_digitsIn hy.1) (by rcases hy.2 with ⟨h, -⟩ | ⟨h, -⟩ <;> simp [h, textOf]) hR
  have hplain : ∀ p, Seg.plain (digitClass fmt) (segFor (scripts fmt) (.dig (scripts fmt) [1, 2]) p) = true := by
    intro p
    cases p <;> simp only [segFor, Seg.plain, scripts_sub] <;> decide
  have main : ∀ last : List Seg, segKinds last = [] → segNoDigit last = true → segSpaced last = true → last.all (Seg.plain (digitClass fmt)) = true →
      Realises (fun c => dateDigit c = none) last tail [] →
      symMatch covNumeric is (segsOf (segFor (scripts fmt) (.dig (scripts fmt) [1, 2])) last (layout fmt)) = true →
      ∃ errs, parseDate dig text fmt = .ok (isoText fmt y m d, errs) ∧ (Part.year ∈ layout fmt → (errs = [] ↔ DateExists fmt y m d)) := by
    intro last h1 h2 h3 h4 h5 h6
    have hR := shows_realises h5 hseg (layout fmt) (layout_ne hc0) body hshow
    obtain ⟨mm, F, hmm, hg, hF, -⟩ := match_captures (k := fun p => false && decide (p = Part.month)) (d := digitClass fmt) covNumeric_has
      (fun x hx => by
        cases hh : (digitClass fmt).has x with
        | false => rfl
        | true => have := digitClass_dateDigit fmt hh; rw [hx] at this; cases this)
      his hnd (segKinds_segsOf h1 (seg_kinds (named := false) (fun ss => rfl)) _) hk hids hpl hsp (all_segsOf rfl h4 hplain _) (segSpaced_segsOf h2 h3 _) h6 ht hR
    have hFp : ∀ p ∈ layout fmt, F p = textOf day month year p := fun p hp => (hF p hp).1 rfl
    obtain ⟨names, hn, hi⟩ := monthIndex_number hmo hm1 hm2
    exact date_finish T hdig hc0 hr ht hmm hg (hFp .day) (hFp .year) hd hy (by rw [hmc]; exact hn) (by rw [hFp .month hmem]; exact hi) hm1 hm2
  rcases htail with rfl | ⟨hw, htail⟩
  · exact main [] rfl rfl rfl rfl .nil hs1
  · refine main [.tail] rfl rfl rfl rfl ?_ (hs2.resolve_left (fun h => h hw))
    have := Realises.tail (P := fun c => dateDigit c = none) (ss := []) (w := tail) htail .nil
    simpa using this

theorem separator_no_letter {x : Char} (h : IsSeparator x) : ¬ letter x = true := by
  simp only [letter, Bool.and_eq_true, decide_eq_true_eq]
  rcases h with h | h
  · exact fun h' => absurd h'.1.2 (by omega)
  · exact fun h' => absurd h h'.2

theorem digitClass_no_letter (fmt : String) {x : Char} (h : (digitClass fmt).has x = true) : ¬ letter x = true := by
  have := digitClass_dateDigit fmt h
  simp only [letter, Bool.and_eq_true]
  cases hh : dateDigit x with
  | none => rw [hh] at this; cases this
  | some n => simp

theorem mem_segsOf {seg : Part → Seg} : ∀ {ps : List Part} {s : Seg}, s ∈ segsOf seg [] ps → s = .sep ∨ ∃ p ∈ ps, s = seg p := by
  intro ps
  induction ps with
  | nil => intro s h; cases h
  | cons p ps ih =>
    intro s h
    cases ps with
    | nil =>
      simp only [segsOf, List.mem_cons, List.not_mem_nil, or_false] at h
      exact .inr ⟨p, by simp, h⟩
    | cons q ps =>
      rw [segsOf] at h
      · rcases List.mem_cons.1 h with h | h
        · exact .inr ⟨p, by simp, h⟩
        · rcases List.mem_cons.1 h with h | h
          · exact .inl h
          · rcases ih h with h | ⟨p, hp, h⟩
            · exact .inl h
            · exact .inr ⟨p, List.mem_cons_of_mem _ hp, h⟩
      · simp

theorem pick_month (f : Part → List Char) : ∀ (ps : List Part), ps.Nodup → Part.month ∈ ps →
    pick true (ps.map (fun p => true && decide (p = Part.month))) (ps.map f) = [f .month] := by
  have none : ∀ ps : List Part, Part.month ∉ ps → pick true (ps.map (fun p => true && decide (p = Part.month))) (ps.map f) = [] := by
    intro ps
    induction ps with
    | nil => intro _; rfl
    | cons p ps ih =>
      intro h
      rw [List.mem_cons, not_or] at h
      have hp : decide (p = Part.month) = false := by simpa using fun e => h.1 e.symm
      simp only [List.map_cons, pick, hp]
      simpa using ih h.2
  intro ps
  induction ps with
  | nil => intro _ h; cases h
  | cons p ps ih =>
    intro hnd h
    rw [List.nodup_cons] at hnd
    by_cases hp : p = .month
    · subst hp
      have := none ps hnd.1
      simp only [List.map_cons, pick]
      simpa using this
    · have hp' : decide (p = Part.month) = false := by simpa using hp
      have := ih hnd.2 ((List.mem_cons.1 h).resolve_left (fun e => hp e.symm))
      simp only [List.map_cons, pick, hp']
      simpa using this

/-- C32, C72 for dates with month names, except for the months and formats that the library reads wrongly (`unreadMonths`, `unreadFormats`): every text that writes
a date in one of the formats with month names is returned as the ISO text of that date; if the format has a year, an error is reported exactly when no such date exists. -/
theorem C32_named_partial (T : DigitTable dig) (hdig : ∀ c, IsAsciiDigit c → dig c = some (c.toNat - 48)) {fmt : String} (hf : fmt ∈ namedDateFormats)
    (hu : fmt ∉ unreadFormats) {text t : List Char} (ht : Trimmed text t) {y m d : Nat} (h : NamedDate fmt t y m d) (hm : m ∉ unreadMonths fmt) :
    ∃ errs, parseDate dig text fmt = .ok (isoText fmt y m d, errs) ∧ (Part.year ∈ layout fmt → (errs = [] ↔ DateExists fmt y m d)) := by
  obtain ⟨day, month, year, hshow, hd, ⟨nm, ml, hlang, hm1, hml, hword⟩, hy⟩ := h
  have hck := named_ok fmt hf hu
  unfold namedCheck at hck
  split at hck
  · cases hck
  rename_i r hr
  split at hck
  rotate_left
  · cases hck
  rename_i is names his hn
  simp only [Bool.and_eq_true, List.all_eq_true] at hck
  obtain ⟨⟨hc, hws⟩, hmonths⟩ := hck
  have hm2 : m ≤ 12 := by
    have : ∀ p ∈ monthsOf, p.2.length = 12 := by decide +kernel
    have h12 := this _ hlang
    have := (List.getElem?_eq_some_iff.1 hml).1
    simp only at h12
    omega
  have hwc : wordCheck fmt (layout fmt) is names (m - 1) month = true := by
    have h1 := hmonths _ hlang
    simp only [ne_eq, not_true_eq_false, decide_false, Bool.false_or, Bool.or_eq_true, decide_eq_true_eq, List.all_eq_true] at h1
    have h2 := h1 (ml, m - 1) (by
      rw [List.mem_zipIdx_iff_getElem?]
      exact hml)
    simp only at h2
    rcases h2 with h2 | h2
    · exact absurd (by rwa [show m - 1 + 1 = m by omega] at h2) hm
    · exact h2 month hword
  unfold wordCheck at hwc
  simp only [Bool.and_eq_true, Bool.or_eq_true, List.all_eq_true, decide_eq_true_eq] at hwc
  obtain ⟨⟨⟨hne, hlet⟩, hsym⟩, hstem⟩ := hwc
  have hc0 := hc
  simp only [commonCheck, Bool.and_eq_true, decide_eq_true_eq] at hc
  obtain ⟨⟨⟨⟨⟨⟨⟨⟨-, hnd⟩, hmem⟩, hany⟩, hlen⟩, hids⟩, hpl⟩, hsp⟩, hk⟩ := hc
  rw [partTexts_eq] at hshow
  have hseg : ∀ p ss v fs, Realises IsSeparator ss v fs →
      Realises IsSeparator (segFor (scripts fmt) (.word month) p :: ss) (textOf day month year p ++ v) (textOf day month year p :: fs) := by
    intro p ss v fs hR
    cases p with
    | day => exact .dig (scripts_of_digitsIn hd.1) (by simpa [textOf] using hd.2.1) hR
    | month => exact .word hR
    | year => exact .dig (scripts_of_digitsIn hy.1) (by rcases hy.2 with ⟨h, -⟩ | ⟨h, -⟩ <;> simp [h, textOf]) hR
  have hplain : ∀ p, Seg.plain (digitClass fmt) (segFor (scripts fmt) (.word month) p) = true := by
    intro p
    cases p with
    | month =>
      simp only [segFor, Seg.plain, Bool.and_eq_true, decide_eq_true_eq, List.all_eq_true]
      refine ⟨hne, fun x hx => ?_⟩
      cases hh : (digitClass fmt).has x with
      | false => rfl
      | true => exact absurd (hlet x hx) (digitClass_no_letter fmt hh)
    | day => simp only [segFor, Seg.plain, scripts_sub]; decide
    | year => simp only [segFor, Seg.plain, scripts_sub]; decide
  have hR := shows_realises (.nil (P := IsSeparator)) hseg (layout fmt) (layout_ne hc0) t hshow
  rw [List.append_nil] at hR
  have hkinds : segKinds (segsOf (segFor (scripts fmt) (.word month)) [] (layout fmt)) = (layout fmt).map (fun p => true && decide (p = Part.month)) :=
    segKinds_segsOf rfl (seg_kinds (named := true) (fun ss => rfl)) _
  obtain ⟨mm, F, hmm, hg, hF, hfirst⟩ := match_captures (k := fun p => true && decide (p = Part.month)) (d := digitClass fmt) covNamed_has
    (fun x hx => by
      cases hh : (digitClass fmt).has x with
      | false => rfl
      | true =>
        have := digitClass_dateDigit fmt hh
        rw [dateDigit_isSome] at this
        rcases hx with hx | hx <;> omega)
    his hnd hkinds hk hids hpl hsp (all_segsOf rfl rfl hplain _) (segSpaced_segsOf rfl rfl _) hsym ht hR
  have hgood : goodStem names (m - 1) (F .month) = true := by
    rcases hstem with hstem | ⟨⟨hnf, hhead⟩, hpre⟩
    · obtain ⟨p, q, e, hp, hq⟩ := realises_word (L := fun x => letter x = true) (fun x hx => separator_no_letter hx) hR
        (by
          intro s hs S ns e c hcS x hx
          subst e
          rcases mem_segsOf hs with hs | ⟨p, -, hs⟩
          · cases hs
          · refine digitClass_no_letter fmt (x := x) ?_
            have hsub := List.all_eq_true.1 (scripts_sub fmt) c
            cases p <;> simp only [segFor, Seg.dig.injEq, reduceCtorEq] at hs
            · exact clsSub_has (hsub (hs.1 ▸ hcS)) hx
            · exact clsSub_has (hsub (hs.1 ▸ hcS)) hx)
        (by rw [hkinds]; exact pick_month _ _ hnd hmem)
      obtain ⟨a, b, e', hFw, hbr⟩ := (hF .month hmem).2 (by simp)
      have hFlet := hws _ hFw
      simp only [decide_eq_true_eq] at hFlet
      obtain ⟨a', b', el, ea⟩ := inside_word (L := fun x => letter x = true) (e.symm.trans e') hp hq hFlet.2 hFlet.1
      simp only [textOf] at el
      rw [el] at hstem
      refine stemsOk_good hFw hFlet.1 a' none hstem (fun hb x hx => ?_)
      obtain ⟨z, hz, hz'⟩ := hbr hb
      rw [ea] at hz
      simp only [Option.or_none] at hx
      rw [List.getLast?_append, hx] at hz
      simp only [Option.some_or, Option.some.injEq] at hz
      exact hz ▸ hz'
    · obtain ⟨b, e', hFw, hafter⟩ := hfirst hnf .month hhead
      have hFlet := hws _ hFw
      simp only [decide_eq_true_eq] at hFlet
      -- the text begins with the name of the month
      have hstart : ∃ v, t = month ++ v ∧ ∀ x, v.head? = some x → ¬ letter x = true := by
        generalize layout fmt = ps at hR hhead
        match ps, hhead with
        | [.month], _ =>
          cases hR with
          | word h => cases h; exact ⟨[], rfl, by simp⟩
        | .month :: q :: ps, _ =>
          rw [segsOf] at hR
          · cases hR with
            | word h =>
              cases h with
              | @sep ss w v fs hne hP h =>
                refine ⟨w ++ v, rfl, fun x hx => ?_⟩
                cases w with
                | nil => exact absurd rfl hne
                | cons y w =>
                  cases hx
                  exact separator_no_letter (hP _ (by simp))
          · simp
      obtain ⟨v, e, hv⟩ := hstart
      have hprefix : F .month <+: month := by
        rw [e] at e'
        rcases List.append_eq_append_iff.1 e' with ⟨z, e1, e2⟩ | ⟨z, e1, e2⟩
        · cases z with
          | nil => rw [e1]; simp
          | cons x z =>
            exfalso
            refine hv x (by rw [e2]; rfl) (hFlet.2 x (by rw [e1]; simp))
        · exact ⟨z, e1.symm⟩
      have := hpre _ hFw
      rcases this with (h | h) | h
      · rw [List.isPrefixOf_iff_prefix.2 hprefix] at h; cases h
      · exact h
      · exfalso
        split at h
        · rename_i c x hc1 hx1
          obtain ⟨x', hx', hcx⟩ := hafter c hc1
          obtain ⟨z, ez⟩ := hprefix
          rw [← ez, List.drop_left] at hx1
          have : b = z ++ v := by
            rw [e, ← ez, List.append_assoc] at e'
            exact (List.append_cancel_left e').symm
          rw [this] at hx'
          cases z with
          | nil => cases hx1
          | cons w z =>
            cases hx1
            cases hx'
            rw [hcx] at h
            cases h
        · cases h
  refine date_finish T hdig hc0 hr ht hmm hg ?_ ?_ hd hy hn ?_ hm1 hm2
  · intro h; exact (hF .day h).1 (by simp)
  · intro h; exact (hF .year h).1 (by simp)
  · simpa [goodStem] using hgood

/-! ## Non-numeric facts -/

theorem truthy_ne {s : String} (h : s ≠ "") : truthy (some s) = some s := by
  unfold truthy
  split
  · rename_i e
    cases e
    exact absurd rfl h
  · rfl

/-- C32 for facts: `C32_numeric` and `C32_named_partial` speak of the value that a non-numeric fact with the format gets. -/
theorem C32_fact {fmt : String} (hf : fmt ∈ numericDateFormats ∨ fmt ∈ namedDateFormats) (text : List Char) :
    parseNonNumerical dig text (some fmt) = parseDate dig text fmt := by
  have h : ∀ f ∈ numericDateFormats ++ namedDateFormats, legacyFormats.get? f = none ∧ (startsWith f.toList "ixt:num".toList = false ∧ f ≠ "ixt:fixed-zero") ∧
      startsWith f.toList "ixt:date".toList = true ∧ f ≠ "ixt:datedaymonthyearin" ∧ f ≠ "" := by decide +kernel
  obtain ⟨h1, ⟨h2, h3⟩, h4, h5, h6⟩ := h fmt (by simpa using hf)
  simp [parseNonNumerical, truthy_ne h6, h1, h2, h3, h4, h5, -String.reduceToList]

/-- C73: without a format the text of a non-numeric fact is its value, and nothing is reported. -/
theorem C73_no_format (text : List Char) : parseNonNumerical dig text none = .ok (text, []) ∧ parseNonNumerical dig text (some "") = .ok (text, []) :=
  ⟨rfl, rfl⟩

/-- C73: the formats with a fixed value give that value for every text. -/
theorem C73_fixed (text : List Char) : parseNonNumerical dig text (some "ixt:fixed-true") = .ok ("true".toList, []) ∧
    parseNonNumerical dig text (some "ixt:fixed-false") = .ok ("false".toList, []) ∧ parseNonNumerical dig text (some "ixt:fixed-empty") = .ok ([], []) := by
  have h : legacyFormats.get? "ixt:fixed-true" = none ∧ legacyFormats.get? "ixt:fixed-false" = none ∧ legacyFormats.get? "ixt:fixed-empty" = none := by decide +kernel
  have h' : startsWith "ixt:fixed-true".toList "ixt:num".toList = false ∧ startsWith "ixt:fixed-false".toList "ixt:num".toList = false ∧
    startsWith "ixt:fixed-empty".toList "ixt:num".toList = false ∧ startsWith "ixt:fixed-true".toList "ixt:date".toList = false ∧
    startsWith "ixt:fixed-false".toList "ixt:date".toList = false ∧ startsWith "ixt:fixed-empty".toList "ixt:date".toList = false := by decide +kernel
  obtain ⟨a, b, c⟩ := h
  obtain ⟨d, e, f, g, i, j⟩ := h'
  refine ⟨?_, ?_, ?_⟩ <;> simp [parseNonNumerical, truthy, parseLiteral, a, b, c, d, e, f, g, i, j, -String.reduceToList]

/-- C73: with a format that is not in the registry the text is kept, up to blanks at its ends, and exactly one error is reported. No exception is raised. -/
theorem C73_unsupported (text : List Char) {fmt : String} (h0 : fmt ≠ "") (h1 : dateFormats.get? fmt = none) (h2 : legacyFormats.get? fmt = none)
    (h3 : fmt ∉ ["ixt:fixed-true", "ixt:fixed-false", "ixt:fixed-empty", "ixt:datedaymonthyearin"]) :
    ∃ v e, parseNonNumerical dig text (some fmt) = .ok (v, [e]) ∧ (v = text ∨ v = pyStrip text) := by
  simp only [List.mem_cons, List.not_mem_nil, or_false, not_or] at h3
  obtain ⟨a, b, c, d⟩ := h3
  unfold parseNonNumerical
  simp only [truthy_ne h0, h2, Option.getD_none]
  split
  · exact ⟨text, _, rfl, .inl rfl⟩
  · rename_i hn
    rw [Bool.or_eq_true, not_or] at hn
    split
    · unfold parseDate
      simp only [h1]
      exact ⟨_, _, rfl, .inr rfl⟩
    · have hz : fmt ≠ "ixt:fixed-zero" := by simpa using hn.2
      simp only [parseLiteral, a, b, c, hz, if_false]
      exact ⟨text, _, rfl, .inl rfl⟩

/-- The hypotheses of `C73_unsupported` hold for a misspelt format. -/
example : dateFormats.get? "ixt:date-day-monthname-xx" = none ∧ legacyFormats.get? "ixt:date-day-monthname-xx" = none := by decide +kernel

end

/-! ## Where the property fails -/

/-- The digits in the texts below. -/
theorem asciiDigit_digits : ∀ c, IsAsciiDigit c → asciiDigit c = some (c.toNat - 48) := by
  intro c h
  have h1 : '0' ≤ c := by rw [Char.le_def]; exact h.1
  have h2 : c ≤ '9' := by rw [Char.le_def]; exact h.2
  simp [asciiDigit, h1, h2]

theorem namedDate_of {fmt : String} {t day month year a b c : List Char} {y m d : Nat} (i : Nat) (sep1 sep2 : List Char)
    (hl : partTexts fmt day month year = [a, b, c]) (ht : t = a ++ sep1 ++ (b ++ sep2 ++ c))
    (h1 : sep1 ≠ []) (h2 : sep2 ≠ []) (h3 : ∀ c ∈ sep1, c.toNat < 0x30) (h4 : ∀ c ∈ sep2, c.toNat < 0x30)
    (hd : ShortNumber fmt day d) (hy : YearNumber fmt year y) {p : List Char × List (List (List Char))} (hp : monthsOf[i]? = some p)
    (hlang : p.1 = languageOf fmt) (hm : 1 ≤ m) {l : List (List Char)} (hl' : p.2[m - 1]? = some l) (hmem : month ∈ l) : NamedDate fmt t y m d := by
  refine ⟨day, month, year, ?_, hd, ⟨p.2, l, ?_, hm, hl', hmem⟩, hy⟩
  · rw [hl]
    exact ⟨sep1, _, ht, h1, fun c hc => .inl (h3 c hc), sep2, _, rfl, h2, fun c hc => .inl (h4 c hc), rfl⟩
  · rw [← hlang]
    exact List.mem_of_getElem? hp

theorem shortNumber_of {fmt : String} {s : List Char} {n : Nat} (h1 : ∀ c ∈ s, 0x30 ≤ c.toNat ∧ c.toNat ≤ 0x39) (h2 : s.length = 1 ∨ s.length = 2)
    (h3 : dateNumber s = n) : ShortNumber fmt s n := ⟨.inl h1, h2, h3⟩

theorem yearNumber_of {fmt : String} {s : List Char} {n : Nat} (h1 : ∀ c ∈ s, 0x30 ≤ c.toNat ∧ c.toNat ≤ 0x39) (h2 : s.length = 4)
    (h3 : n = dateNumber s) : YearNumber fmt s n := ⟨.inl h1, .inl ⟨h2, h3⟩⟩

/-- The 29th of February 2023 in German: the hypotheses of `C32_named_partial`, and a date that does not exist. -/
example : NamedDate "ixt:date-day-monthname-year-de" (chars! "29. Februar 2023") 2023 2 29 ∧
    "ixt:date-day-monthname-year-de" ∈ namedDateFormats ∧ "ixt:date-day-monthname-year-de" ∉ unreadFormats ∧ 2 ∉ unreadMonths "ixt:date-day-monthname-year-de" ∧
    parseDate asciiDigit (chars! " 29. Februar 2023") "ixt:date-day-monthname-year-de" = .ok (chars! "2023-02-29", ["INVALID_GREGORIAN_DATE"]) := by
  refine ⟨namedDate_of (day := chars! "29") (month := chars! "Februar") (year := chars! "2023") (a := chars! "29") (b := chars! "Februar") (c := chars! "2023") 4 (chars! ". ") [' '] (by decide +kernel) (by decide +kernel) (by decide) (by decide)
    (by decide) (by decide) (shortNumber_of (by decide) (by decide) (by decide +kernel)) (yearNumber_of (by decide) (by decide) (by decide +kernel)) rfl (by decide +kernel) (by decide)
    rfl (by decide +kernel), by decide +kernel, by decide +kernel, by decide +kernel, by decide +kernel⟩

/-- A numeric date with full-width digits and a text at the end: the hypotheses of `C32_numeric`. -/
example : NumericDate "ixt:date-year-month-day" (chars! "２０２０年5月3日") 2020 5 3 ∧ "ixt:date-year-month-day" ∈ numericDateFormats ∧
    parseDate asciiDigit (chars! "２０２０年5月3日") "ixt:date-year-month-day" = .ok (chars! "2020-05-03", []) := by
  refine ⟨⟨['3'], ['5'], chars! "２０２０", chars! "２０２０年5月3", ['日'], by decide +kernel, ?_, .inr ⟨by decide +kernel, by decide +kernel⟩,
    shortNumber_of (by decide) (by decide) (by decide +kernel), shortNumber_of (by decide) (by decide) (by decide +kernel), ?_⟩, by decide +kernel, by decide +kernel⟩
  · rw [show partTexts "ixt:date-year-month-day" ['3'] ['5'] (chars! "２０２０") = [chars! "２０２０", ['5'], ['3']] by decide +kernel]
    exact ⟨['年'], _, rfl, by decide, by decide +kernel, ['月'], _, rfl, by decide, by decide +kernel, rfl⟩
  · exact ⟨.inr (.inl ⟨by decide +kernel, by decide +kernel⟩), .inl ⟨by decide, by decide +kernel⟩⟩

/-- The German names of March, May and December are not recognised. -/
theorem C32_german_false : NamedDate "ixt:date-day-monthname-year-de" (chars! "3. März 2020") 2020 3 3 ∧
    parseDate asciiDigit (chars! "3. März 2020") "ixt:date-day-monthname-year-de" = .ok (chars! "3. März 2020", ["DATE_DOES_NOT_MATCH_EXPECTED_FORMAT"]) ∧
    parseDate asciiDigit (chars! "3. Mai 2020") "ixt:date-day-monthname-year-de" = .ok (chars! "3. Mai 2020", ["DATE_DOES_NOT_MATCH_EXPECTED_FORMAT"]) ∧
    parseDate asciiDigit (chars! "3. Dezember 2020") "ixt:date-day-monthname-year-de" =
      .ok (chars! "3. Dezember 2020", ["DATE_DOES_NOT_MATCH_EXPECTED_FORMAT"]) := by
  refine ⟨namedDate_of (day := ['3']) (month := chars! "März") (year := chars! "2020") (a := ['3']) (b := chars! "März") (c := chars! "2020") 4 (chars! ". ") [' '] (by decide +kernel) (by decide +kernel) (by decide) (by decide)
    (by decide) (by decide) (shortNumber_of (by decide) (by decide) (by decide +kernel)) (yearNumber_of (by decide) (by decide) (by decide +kernel)) rfl (by decide +kernel) (by decide)
    rfl (by decide +kernel), by decide +kernel, by decide +kernel, by decide +kernel⟩

/-- The third of May in Dutch is read as the third of June, without an error; the third of December as the third day of the 13th month. -/
theorem C32_dutch_false : NamedDate "ixt:date-day-monthname-year-nl" (chars! "3 mei 2020") 2020 5 3 ∧
    parseDate asciiDigit (chars! "3 mei 2020") "ixt:date-day-monthname-year-nl" = .ok (chars! "2020-06-03", []) ∧
    parseDate asciiDigit (chars! "3 december 2020") "ixt:date-day-monthname-year-nl" = .ok (chars! "2020-13-03", ["INVALID_GREGORIAN_DATE"]) := by
  refine ⟨namedDate_of (day := ['3']) (month := chars! "mei") (year := chars! "2020") (a := ['3']) (b := chars! "mei") (c := chars! "2020") 17 [' '] [' '] (by decide +kernel) (by decide +kernel) (by decide) (by decide)
    (by decide) (by decide) (shortNumber_of (by decide) (by decide) (by decide +kernel)) (yearNumber_of (by decide) (by decide) (by decide +kernel)) rfl (by decide +kernel) (by decide)
    rfl (by decide +kernel), by decide +kernel, by decide +kernel⟩

/-- The third of September in Lithuanian is read as the third of August, without an error. -/
theorem C32_lithuanian_false : NamedDate "ixt:date-year-monthname-day-lt" (chars! "2020 rugsėjo 3") 2020 9 3 ∧
    parseDate asciiDigit (chars! "2020 rugsėjo 3") "ixt:date-year-monthname-day-lt" = .ok (chars! "2020-08-03", []) := by
  refine ⟨namedDate_of (day := ['3']) (month := chars! "rugsėjo") (year := chars! "2020") (a := chars! "2020") (b := chars! "rugsėjo") (c := ['3']) 15 [' '] [' '] (by decide +kernel) (by decide +kernel) (by decide) (by decide)
    (by decide) (by decide) (shortNumber_of (by decide) (by decide) (by decide +kernel)) (yearNumber_of (by decide) (by decide) (by decide +kernel)) rfl (by decide +kernel) (by decide)
    rfl (by decide +kernel), by decide +kernel⟩

/-- Slovenian dates with a day raise an exception. -/
theorem C32_slovenian_false : NamedDate "ixt:date-day-monthname-year-sl" (chars! "3 maja 2020") 2020 5 3 ∧
    parseDate asciiDigit (chars! "3 maja 2020") "ixt:date-day-monthname-year-sl" = .error .indexError := by
  refine ⟨namedDate_of (day := ['3']) (month := chars! "maja") (year := chars! "2020") (a := ['3']) (b := chars! "maja") (c := chars! "2020") 23 [' '] [' '] (by decide +kernel) (by decide +kernel) (by decide) (by decide)
    (by decide) (by decide) (shortNumber_of (by decide) (by decide) (by decide +kernel)) (yearNumber_of (by decide) (by decide) (by decide +kernel)) rfl (by decide +kernel) (by decide)
    rfl (by decide +kernel), by decide +kernel⟩

/-- With a Roman month the month is returned in place of the year. -/
theorem C32_roman_false :
    parseDate asciiDigit (chars! "5 XII 2020") "ixt:date-day-monthroman-year" = .ok (chars! "XII-12-05", ["INVALID_GREGORIAN_DATE"]) := by decide +kernel

/-- C72 fails for dates without a year: the 31st of February is accepted. -/
theorem C72_recurring_false : NumericDate "ixt:date-day-month" (chars! "31.02") 2000 2 31 ∧ ¬ DateExists "ixt:date-day-month" 2000 2 31 ∧
    parseDate asciiDigit (chars! "31.02") "ixt:date-day-month" = .ok (chars! "--02-31", []) := by
  have hl : layout "ixt:date-day-month" = [.day, .month] := by decide +kernel
  refine ⟨⟨chars! "31", chars! "02", chars! "2000", chars! "31.02", [], by decide +kernel, ?_, .inl rfl,
    shortNumber_of (by decide) (by decide) (by decide +kernel), shortNumber_of (by decide) (by decide) (by decide +kernel),
    yearNumber_of (by decide) (by decide) (by decide +kernel)⟩, ?_, by decide +kernel⟩
  · unfold partTexts
    rw [hl]
    exact ⟨['.'], _, rfl, by decide, by decide +kernel, rfl⟩
  · unfold DateExists
    rw [hl]
    intro h
    have := h.2.2.2 (by simp)
    simp only [List.mem_cons, reduceCtorEq, List.not_mem_nil, or_self, if_false] at this
    obtain ⟨y, h⟩ := this
    simp [DayExists] at h

/-- C72 fails for a month beyond 12: instead of a report there is an exception. -/
theorem C72_month_false : NumericDate "ixt:date-day-month-year" (chars! "31.13.2020") 2020 13 31 ∧
    parseDate asciiDigit (chars! "31.13.2020") "ixt:date-day-month-year" = .error .keyError := by
  have hl : layout "ixt:date-day-month-year" = [.day, .month, .year] := by decide +kernel
  refine ⟨⟨chars! "31", chars! "13", chars! "2020", chars! "31.13.2020", [], by decide +kernel, ?_, .inl rfl,
    shortNumber_of (by decide) (by decide) (by decide +kernel), shortNumber_of (by decide) (by decide) (by decide +kernel),
    yearNumber_of (by decide) (by decide) (by decide +kernel)⟩, by decide +kernel⟩
  unfold partTexts
  rw [hl]
  exact ⟨['.'], _, rfl, by decide, by decide +kernel, ['.'], _, rfl, by decide, by decide +kernel, rfl⟩

end Brel
