import Verif.Spec.Edgar
import Verif.Lemmas.DateText
import Verif.Lemmas.Loader
import Verif.Props.Link

/-! C103: `open_edgar` opens the latest filing of those asked for. -/

namespace Brel

open Spec (IsAsciiDigit)

variable {dig : Char → Option Nat} {es : List EdgarEntry} {type : String} {date : Option String}

/-! ## Report dates as numbers -/

theorem pyInt_day (T : DigitTable dig) (hdig : ∀ c, IsAsciiDigit c → dig c = some (c.toNat - 48)) {t : String} {y m d : Nat} (h : IsDay t y m d) :
    pyInt dig (t.toList.filter (· ≠ '-')) = some ((y * 10000 + m * 100 + d : Nat) : Int) := by
  obtain ⟨hy, hm, hd, rfl⟩ := h
  have hdash : ∀ n, Spec.digitChar n ≠ '-' := by
    intro n hn
    have := congrArg Char.toNat hn
    rw [digitChar_toNat] at this
    have h2 : ('-' : Char).toNat = 45 := rfl
    omega
  have hasc : ∀ n, IsAsciiDigit (Spec.digitChar n) := by
    intro n
    unfold IsAsciiDigit
    rw [digitChar_toNat]
    omega
  have htext : (dayText y m d).toList.filter (· ≠ '-') = [Spec.digitChar (y / 1000), Spec.digitChar (y / 100), Spec.digitChar (y / 10), Spec.digitChar y,
      Spec.digitChar (m / 10), Spec.digitChar m, Spec.digitChar (d / 10), Spec.digitChar d] := by
    unfold dayText
    rw [String.toList_ofList]
    simp [Spec.fourDigits, Spec.twoDigits, hdash]
  rw [htext, pyInt_iff T]
  have hval : ∀ n, dig (Spec.digitChar n) = some (n % 10) := by
    intro n
    rw [hdig _ (hasc n), digitChar_toNat]
    congr 1
    omega
  refine ⟨[], [], [Spec.digitChar (y / 1000), Spec.digitChar (y / 100), Spec.digitChar (y / 10), Spec.digitChar y,
      Spec.digitChar (m / 10), Spec.digitChar m, Spec.digitChar (d / 10), Spec.digitChar d], [], [y / 1000 % 10, y / 100 % 10, y / 10 % 10, y % 10, m / 10 % 10, m % 10, d / 10 % 10, d % 10], by simp, by simp, by simp, ?_, by simp, .inl ⟨rfl, ?_⟩⟩
  · exact .more (hval _) (.more (hval _) (.more (hval _) (.more (hval _) (.more (hval _) (.more (hval _) (.more (hval _) (.one (hval _))))))))
  · simp only [decimalValue, List.length_cons, List.length_nil]
    omega

theorem key_before {y m d y' m' d' : Nat} (h1 : m < 100) (h2 : d < 100) (h3 : m' < 100) (h4 : d' < 100) :
    y * 10000 + m * 100 + d < y' * 10000 + m' * 100 + d' ↔ DayBefore y m d y' m' d' := by
  unfold DayBefore
  omega

/-! ## Choosing -/

theorem first_max {l : List (Int × Nat)} {x : Int × Nat} (h : (sortBy (fun a b => decide (b.1 ≤ a.1)) l).head? = some x) :
    ∃ l1 l2, l = l1 ++ x :: l2 ∧ (∀ a ∈ l1, a.1 < x.1) ∧ ∀ a ∈ l2, a.1 ≤ x.1 := by
  induction l generalizing x with
  | nil => cases h
  | cons y ys ih =>
    unfold sortBy at h
    cases hs : sortBy (fun a b : Int × Nat => decide (b.1 ≤ a.1)) ys with
    | nil =>
      rw [hs] at h
      unfold insertBy at h
      cases h
      have : ys = [] := by
        have := (sortBy_perm (le := fun a b : Int × Nat => decide (b.1 ≤ a.1)) ys).length_eq
        rw [hs] at this
        exact List.length_eq_zero_iff.1 this.symm
      subst this
      exact ⟨[], [], rfl, by simp, by simp⟩
    | cons z zs =>
      rw [hs] at h
      unfold insertBy at h
      obtain ⟨l1, l2, hl, h1, h2⟩ := ih (by rw [hs]; rfl)
      by_cases hc : z.1 ≤ y.1
      · rw [if_pos (by simpa using hc)] at h
        cases h
        refine ⟨[], ys, rfl, by simp, ?_⟩
        intro a ha
        rw [hl, List.mem_append, List.mem_cons] at ha
        rcases ha with ha | rfl | ha
        · exact Int.le_of_lt (Int.lt_of_lt_of_le (h1 a ha) hc)
        · exact hc
        · exact Int.le_trans (h2 a ha) hc
      · rw [if_neg (by simpa using hc)] at h
        cases h
        refine ⟨y :: l1, l2, by rw [hl]; rfl, ?_, h2⟩
        intro a ha
        rcases List.mem_cons.1 ha with rfl | ha
        · exact Int.not_le.1 hc
        · exact h1 a ha

instance (e : EdgarEntry) (type : String) (date : Option String) : Decidable (e.Wanted type date) :=
  decidable_of_iff (e.form = type ∧ e.isXBRL = "1" ∧ ∀ d ∈ date, e.reportDate = d)
    ⟨fun h => ⟨h.1, h.2.1, h.2.2⟩, fun h => ⟨h.form, h.xbrl, h.date⟩⟩

theorem reportFits_of {i : Nat} {e : EdgarEntry} (h : es[i]? = some e) : reportFits (Recent.of es) type date i = .ok (decide (e.Wanted type date)) := by
  have hi : ∀ f : EdgarEntry → String, pyIndex (es.map f) i = .ok (f e) := by
    intro f
    unfold pyIndex
    rw [List.getElem?_map, h]
    rfl
  unfold reportFits Recent.of
  rw [hi, hi]
  cases date with
  | none =>
    simp only [bind, Except.bind, pure, Except.pure]
    congr 1
    rw [Bool.eq_iff_iff]
    simp only [Bool.and_eq_true, decide_eq_true_iff]
    exact ⟨fun h => ⟨h.1, h.2, by simp⟩, fun h => ⟨h.form, h.xbrl⟩⟩
  | some d =>
    simp only [bind, Except.bind, pure, Except.pure]
    rw [hi]
    simp only
    congr 1
    rw [Bool.eq_iff_iff]
    simp only [Bool.and_eq_true, decide_eq_true_iff]
    exact ⟨fun h => ⟨h.1.1, h.1.2, by rintro _ ⟨⟩; exact h.2⟩, fun h => ⟨⟨h.form, h.xbrl⟩, h.date d rfl⟩⟩

theorem rightIndices_of : ∀ is : List Nat, (∀ i ∈ is, i < es.length) → rightIndices (Recent.of es) type date is = .ok (is.filter (fun i => (es[i]?).any (fun e => decide (e.Wanted type date))))
  | [], _ => rfl
  | i :: is, h => by
    unfold rightIndices
    have hi := h i List.mem_cons_self
    have hg : es[i]? = some es[i] := List.getElem?_eq_getElem hi
    rw [reportFits_of hg, rightIndices_of is (fun j hj => h j (List.mem_cons_of_mem _ hj))]
    simp only [bind, Except.bind, pure, Except.pure, List.filter_cons]
    rw [hg]
    rfl

theorem reportKey_of (T : DigitTable dig) (hdig : ∀ c, IsAsciiDigit c → dig c = some (c.toNat - 48)) {i : Nat} {e : EdgarEntry} (h : es[i]? = some e) {y m d : Nat} (hd : IsDay e.reportDate y m d) :
    reportKey dig (Recent.of es) i = .ok ((y * 10000 + m * 100 + d : Nat) : Int) := by
  unfold reportKey Recent.of pyIndex
  rw [List.getElem?_map, h]
  simp only [Option.map_some, bind, Except.bind]
  rw [pyInt_day T hdig hd]
  rfl

/-- The chosen filing is one of those wanted; listed filings for a later date are not wanted, nor are earlier listed ones for the same date. -/
theorem choose_sound (T : DigitTable dig) (hdig : ∀ c, IsAsciiDigit c → dig c = some (c.toNat - 48)) {i : Nat} (h : chooseReport dig (Recent.of es) type date = .ok i) :
    ∃ es1 e es2, es = es1 ++ e :: es2 ∧ es1.length = i ∧ e.Wanted type date ∧
      (∀ e' ∈ es1 ++ es2, e'.Wanted type date → ¬ e.Before e') ∧
      (∀ e' ∈ es1, e'.Wanted type date → ∀ y m d, IsDay e'.reportDate y m d → IsDay e.reportDate y m d → False) := by
  unfold chooseReport at h
  rw [rightIndices_of _ (by intro i hi; rw [List.mem_range] at hi; simpa [Recent.of] using hi)] at h
  simp only [bind, Except.bind] at h
  have hlen : (Recent.of es).form.length = es.length := by simp [Recent.of]
  rw [hlen] at h
  generalize his : (List.range es.length).filter (fun i => (es[i]?).any (fun e => decide (e.Wanted type date))) = is at h
  have hmem : ∀ j, j ∈ is ↔ ∃ e, es[j]? = some e ∧ e.Wanted type date := by
    intro j
    rw [← his, List.mem_filter, List.mem_range]
    constructor
    · rintro ⟨hj, h2⟩
      rw [List.getElem?_eq_getElem hj] at h2
      exact ⟨_, List.getElem?_eq_getElem hj, by simpa using h2⟩
    · rintro ⟨e, he, hw⟩
      obtain ⟨hj, _⟩ := List.getElem?_eq_some_iff.1 he
      exact ⟨hj, by rw [he]; simpa using hw⟩
  have hpw : is.Pairwise (· < ·) := by
    rw [← his]
    exact List.Pairwise.filter _ List.pairwise_lt_range
  cases hk : is.mapM (reportKey dig (Recent.of es)) with
  | error e => rw [hk] at h; cases h
  | ok keys =>
    rw [hk] at h
    simp only at h
    have hrel := (mapM_ok_iff _ _ _).1 hk
    cases hs : sortBy (fun a b : Int × Nat => decide (b.1 ≤ a.1)) (keys.zip is) with
    | nil => rw [hs] at h; cases h
    | cons x xs =>
      rw [hs] at h
      cases h
      obtain ⟨l1, l2, hl, h1, h2⟩ := first_max (l := keys.zip is) (x := x) (by rw [hs]; rfl)
      -- keys of the indices
      have hz : ∀ {a : List Nat} {b : List Int}, Rel2 (fun i k => reportKey dig (Recent.of es) i = .ok k) a b → (b.zip a).map (·.2) = a ∧ ∀ p ∈ b.zip a, reportKey dig (Recent.of es) p.2 = .ok p.1 := by
        intro a b hr
        induction hr with
        | nil => exact ⟨rfl, by simp⟩
        | cons h3 _ ih =>
          refine ⟨by rw [List.zip_cons_cons, List.map_cons, ih.1], ?_⟩
          intro p hp
          rw [List.zip_cons_cons, List.mem_cons] at hp
          rcases hp with rfl | hp
          · exact h3
          · exact ih.2 p hp
      obtain ⟨hz1, hz2⟩ := hz hrel
      have hisl : is = l1.map (·.2) ++ x.2 :: l2.map (·.2) := by rw [← hz1, hl, List.map_append, List.map_cons]
      have hx : x.2 ∈ is := by rw [hisl]; simp
      obtain ⟨e, he, hw⟩ := (hmem x.2).1 hx
      obtain ⟨hlt, hge⟩ := List.getElem?_eq_some_iff.1 he
      have hxk : reportKey dig (Recent.of es) x.2 = .ok x.1 := hz2 x (by rw [hl]; simp)
      refine ⟨es.take x.2, e, es.drop (x.2 + 1), ?_, by rw [List.length_take]; omega, hw, ?_, ?_⟩
      · rw [← hge, List.getElem_cons_drop, List.take_append_drop]
      · intro e' he' hw' hb
        obtain ⟨y, m, d, y', m', d', g1, g2, g3⟩ := hb
        have hj : ∃ j, es[j]? = some e' ∧ j ≠ x.2 := by
          rcases List.mem_append.1 he' with h3 | h3
          · obtain ⟨j, hj, hje⟩ := List.mem_iff_getElem.1 h3
            rw [List.length_take] at hj
            refine ⟨j, ?_, by omega⟩
            rw [List.getElem_take] at hje
            rw [← hje]
            exact List.getElem?_eq_getElem _
          · obtain ⟨j, hj, hje⟩ := List.mem_iff_getElem.1 h3
            rw [List.length_drop] at hj
            refine ⟨x.2 + 1 + j, ?_, by omega⟩
            rw [List.getElem_drop] at hje
            rw [← hje]
            exact List.getElem?_eq_getElem _
        obtain ⟨j, hje, hne⟩ := hj
        have hjm : j ∈ is := (hmem j).2 ⟨e', hje, hw'⟩
        have hjp : ∃ p ∈ l1 ++ l2, p.2 = j := by
          rw [hisl, List.mem_append, List.mem_cons] at hjm
          rcases hjm with h3 | h3 | h3
          · obtain ⟨p, hp, rfl⟩ := List.mem_map.1 h3
            exact ⟨p, List.mem_append_left _ hp, rfl⟩
          · exact absurd h3 hne
          · obtain ⟨p, hp, rfl⟩ := List.mem_map.1 h3
            exact ⟨p, List.mem_append_right _ hp, rfl⟩
        obtain ⟨p, hp, rfl⟩ := hjp
        have hpk : reportKey dig (Recent.of es) p.2 = .ok p.1 := hz2 p (by
          rw [hl]
          rcases List.mem_append.1 hp with h3 | h3
          · exact List.mem_append_left _ h3
          · exact List.mem_append_right _ (List.mem_cons_of_mem _ h3))
        rw [reportKey_of T hdig hje g2] at hpk
        rw [reportKey_of T hdig he g1] at hxk
        have e1 := Except.ok.inj hpk
        have e2 := Except.ok.inj hxk
        have hle : p.1 ≤ x.1 := by
          rcases List.mem_append.1 hp with h3 | h3
          · exact Int.le_of_lt (h1 p h3)
          · exact h2 p h3
        have := (key_before g1.2.1 g1.2.2.1 g2.2.1 g2.2.2.1).2 g3
        omega
      · intro e' he' hw' y m d g1 g2
        obtain ⟨j, hj, hje⟩ := List.mem_iff_getElem.1 he'
        rw [List.length_take] at hj
        rw [List.getElem_take] at hje
        have hje2 : es[j]? = some e' := by rw [← hje]; exact List.getElem?_eq_getElem _
        have hjm : j ∈ is := (hmem j).2 ⟨e', hje2, hw'⟩
        have hjp : ∃ p ∈ l1, p.2 = j := by
          rw [hisl, List.pairwise_append] at hpw
          rw [hisl, List.mem_append, List.mem_cons] at hjm
          rcases hjm with h3 | h3 | h3
          · obtain ⟨p, hp, rfl⟩ := List.mem_map.1 h3
            exact ⟨p, hp, rfl⟩
          · omega
          · have := (List.pairwise_cons.1 hpw.2.1).1 j h3
            omega
        obtain ⟨p, hp, rfl⟩ := hjp
        have hpk : reportKey dig (Recent.of es) p.2 = .ok p.1 := hz2 p (by rw [hl]; exact List.mem_append_left _ hp)
        rw [reportKey_of T hdig hje2 g1] at hpk
        rw [reportKey_of T hdig he g2] at hxk
        have e1 := Except.ok.inj hpk
        have e2 := Except.ok.inj hxk
        have := h1 p hp
        omega

/-- If one filing is wanted and the dates of the wanted ones can be read, one is chosen. -/
theorem choose_complete (T : DigitTable dig) (hdig : ∀ c, IsAsciiDigit c → dig c = some (c.toNat - 48)) (hw : ∃ e ∈ es, e.Wanted type date)
    (hd : ∀ e ∈ es, e.Wanted type date → ∃ y m d, IsDay e.reportDate y m d) : ∃ i, chooseReport dig (Recent.of es) type date = .ok i := by
  unfold chooseReport
  have hlen : (Recent.of es).form.length = es.length := by simp [Recent.of]
  rw [rightIndices_of _ (by intro i hi; rw [List.mem_range] at hi; simpa [Recent.of] using hi), hlen]
  simp only [bind, Except.bind]
  generalize his : (List.range es.length).filter (fun i => (es[i]?).any (fun e => decide (e.Wanted type date))) = is
  obtain ⟨keys, hk⟩ := mapM_succeeds (reportKey dig (Recent.of es)) is (fun i hi => by
    rw [← his, List.mem_filter, List.mem_range] at hi
    obtain ⟨hi, h2⟩ := hi
    have hg : es[i]? = some es[i] := List.getElem?_eq_getElem hi
    rw [hg] at h2
    obtain ⟨y, m, d, h3⟩ := hd es[i] (List.getElem_mem hi) (by simpa using h2)
    exact ⟨_, reportKey_of T hdig hg h3⟩)
  rw [hk]
  simp only
  have hne : keys.zip is ≠ [] := by
    have hl := ((mapM_ok_iff _ _ _).1 hk).length_eq
    obtain ⟨e, he, hwe⟩ := hw
    obtain ⟨i, hi, hie⟩ := List.mem_iff_getElem.1 he
    have : i ∈ is := by
      rw [← his, List.mem_filter, List.mem_range]
      refine ⟨hi, ?_⟩
      rw [List.getElem?_eq_getElem hi, hie]
      simpa using hwe
    have hpos : 0 < is.length := List.length_pos_of_mem this
    rw [← List.length_pos_iff, List.length_zip]
    omega
  cases hs : sortBy (fun a b : Int × Nat => decide (b.1 ≤ a.1)) (keys.zip is) with
  | nil =>
    have := (sortBy_perm (le := fun a b : Int × Nat => decide (b.1 ≤ a.1)) (keys.zip is)).length_eq
    rw [hs] at this
    exact absurd (List.length_eq_zero_iff.1 this.symm) hne
  | cons x xs => exact ⟨x.2, rfl⟩

/-! ## The address -/

theorem replaceText_end {s : List Char} (h : ¬ ".htm".toList <:+: s) : replaceText ".htm".toList "_htm.xml".toList 0 (s ++ ".htm".toList) = s ++ "_htm.xml".toList := by
  induction s with
  | nil => decide
  | cons c s ih =>
    rw [List.cons_append, replaceText]
    have hno : startsWith (c :: (s ++ ".htm".toList)) ".htm".toList = false := by
      rw [Bool.eq_false_iff]
      intro hp
      rw [startsWith_prefix] at hp
      apply h
      -- an occurrence that begins in `s` lies in `s`, as the pattern has one dot
      have key : ∀ s : List Char, '.' :: ['h', 't', 'm'] <+: c :: (s ++ ['.', 'h', 't', 'm']) → ['.', 'h', 't', 'm'] <+: c :: s := by
        intro s hp
        match s, hp with
        | [], hp => simp at hp
        | [a], hp => simp at hp
        | [a, b], hp => simp at hp
        | a :: b :: d :: s, hp => simpa using hp
      exact (key s hp).isInfix
    rw [hno]
    simp only [Bool.false_eq_true, if_false, List.cons_append]
    rw [ih (fun h2 => h (h2.trans (List.suffix_cons c s).isInfix))]

theorem edgarUri_dir (cik : String) (e : EdgarEntry) : edgarUri cik e.accession e.document = filingDir cik e ++ e.document := by
  unfold edgarUri filingDir zfill
  have : String.ofList (List.replicate (10 - cik.toList.length) '0' ++ cik.toList) = String.ofList (List.replicate (10 - cik.length) '0') ++ cik := by
    apply String.toList_injective
    simp [String.toList_append, String.length_toList]
  rw [this]
  simp only [String.append_assoc]

theorem htm_suffix {a b : List Char} (h : ".htm".toList <:+ a ++ '/' :: b) : ".htm".toList <:+ b := by
  obtain ⟨t, ht⟩ := h
  rcases List.append_eq_append_iff.1 ht with ⟨u, rfl, hu⟩ | ⟨u, rfl, hu⟩
  · have : '/' ∈ (".htm".toList : List Char) := by rw [hu]; simp
    exact absurd this (by decide)
  · cases u with
    | nil =>
      have := congrArg List.head? hu
      simp at this
    | cons c u =>
      rw [List.cons_append] at hu
      exact ⟨u, (List.cons.inj hu).2.symm⟩

/-! ## C103 -/

/-- C103: the filing that is opened is one of those asked for, for the latest report date, and the first listed one of these; its main document is opened. -/
theorem C103_right (T : DigitTable dig) (hdig : ∀ c, IsAsciiDigit c → dig c = some (c.toNat - 48)) {w : EdgarWorld} {cik uri : String} (h : openEdgar dig w cik type date = .ok uri)
    (hm : w.metadata = .ok (Recent.of es)) (hhtm : ∀ e ∈ es, ∀ x, e.document = x ++ ".htm" → ¬ ".htm".toList <:+: (filingDir cik e ++ x).toList) :
    type ∈ ["10-K", "10-Q", "8-K"] ∧ ∃ es1 e es2, es = es1 ++ e :: es2 ∧ e.Wanted type date ∧ (∀ e' ∈ es1 ++ es2, e'.Wanted type date → ¬ e.Before e') ∧
      (∀ e' ∈ es1, e'.Wanted type date → ∀ y m d, IsDay e'.reportDate y m d → IsDay e.reportDate y m d → False) ∧ OpensDocument cik e uri := by
  unfold openEdgar at h
  by_cases h1 : date.any (fun d => !w.isDate d) = true
  · rw [if_pos h1] at h; cases h
  rw [if_neg h1] at h
  by_cases h2 : cik.length > 10
  · rw [if_pos h2] at h; cases h
  rw [if_neg h2] at h
  by_cases h3 : type ∉ edgarTypes
  · rw [if_pos h3] at h; cases h
  rw [if_neg h3, hm] at h
  simp only [bind, Except.bind] at h
  refine ⟨Classical.not_not.1 h3, ?_⟩
  cases hc : chooseReport dig (Recent.of es) type date with
  | error e => rw [hc] at h; cases h
  | ok i =>
    rw [hc] at h
    obtain ⟨es1, e, es2, hes, hlen, a1, a2, a3⟩ := choose_sound T hdig hc
    refine ⟨es1, e, es2, hes, a1, a2, a3, ?_⟩
    have hi : es[i]? = some e := by rw [hes, ← hlen]; simp
    have hidx : ∀ f : EdgarEntry → String, pyIndex (es.map f) i = .ok (f e) := by
      intro f
      unfold pyIndex
      rw [List.getElem?_map, hi]
      rfl
    simp only [Recent.of] at h
    rw [hidx] at h
    simp only at h
    rw [hidx] at h
    simp only at h
    rw [edgarUri_dir] at h
    have hdir : ∃ a, (filingDir cik e).toList = a ++ ['/'] := by
      unfold filingDir
      refine ⟨_, by rw [String.toList_append]; rfl⟩
    obtain ⟨a, ha⟩ := hdir
    by_cases h4 : ".htm".toList <:+ e.document.toList
    · right
      obtain ⟨x, hx⟩ := h4
      have hdoc : e.document = String.ofList x ++ ".htm" := by
        apply String.toList_injective
        rw [String.toList_append, String.toList_ofList, hx]
      refine ⟨String.ofList x, hdoc, ?_⟩
      have hend : endsWith (filingDir cik e ++ e.document).toList ".htm".toList = true := by
        rw [endsWith_iff, String.toList_append]
        exact ⟨(filingDir cik e).toList ++ x, by rw [List.append_assoc, hx]⟩
      rw [if_pos hend] at h
      have hno := hhtm e (by rw [hes]; simp) _ hdoc
      have htext : (filingDir cik e ++ e.document).toList = (filingDir cik e ++ String.ofList x).toList ++ ".htm".toList := by
        rw [hdoc]
        simp only [String.toList_append, List.append_assoc]
      rw [htext, replaceText_end hno] at h
      have hres : String.ofList ((filingDir cik e ++ String.ofList x).toList ++ "_htm.xml".toList) = filingDir cik e ++ String.ofList x ++ "_htm.xml" := by
        apply String.toList_injective
        simp only [String.toList_append, String.toList_ofList]
      rw [hres] at h
      split at h
      · cases h; rfl
      · cases h
    · left
      have hend : ¬ endsWith (filingDir cik e ++ e.document).toList ".htm".toList = true := by
        rw [endsWith_iff, String.toList_append, ha, List.append_assoc]
        exact fun h5 => h4 (htm_suffix h5)
      rw [if_neg hend] at h
      cases h
      exact ⟨h4, rfl⟩

/-- C103: a filing is opened if one of those asked for exists, provided that all of those have report dates and that the server answers. -/
theorem C103_found_partial (T : DigitTable dig) (hdig : ∀ c, IsAsciiDigit c → dig c = some (c.toNat - 48)) {w : EdgarWorld} {cik : String} (hcik : cik.length ≤ 10)
    (htype : type ∈ ["10-K", "10-Q", "8-K"]) (hdate : ∀ d, date = some d → w.isDate d = true) (hm : w.metadata = .ok (Recent.of es)) (hans : ∀ u, w.answers u = true)
    (hw : ∃ e ∈ es, e.Wanted type date) (hd : ∀ e ∈ es, e.Wanted type date → ∃ y m d, IsDay e.reportDate y m d) : ∃ uri, openEdgar dig w cik type date = .ok uri := by
  obtain ⟨i, hi⟩ := choose_complete T hdig hw hd
  obtain ⟨es1, e, es2, hes, hlen, _⟩ := choose_sound T hdig hi
  have hie : es[i]? = some e := by rw [hes, ← hlen]; simp
  have hidx : ∀ f : EdgarEntry → String, pyIndex (es.map f) i = .ok (f e) := by
    intro f
    unfold pyIndex
    rw [List.getElem?_map, hie]
    rfl
  unfold openEdgar
  rw [if_neg (by cases date with | none => simp | some d => simp [hdate d rfl]), if_neg (by omega), if_neg (fun h => h htype), hm]
  simp only [bind, Except.bind]
  rw [hi]
  simp only [Recent.of]
  rw [hidx]
  simp only
  rw [hidx]
  simp only
  split
  · rw [if_pos (hans _)]
    exact ⟨_, rfl⟩
  · exact ⟨_, rfl⟩

/-- C103: if no filing is as asked for, or the arguments are wrong, this is an error. -/
theorem C103_refused {w : EdgarWorld} {cik : String} (h : type ∉ ["10-K", "10-Q", "8-K"] ∨ cik.length > 10 ∨ (∃ d, date = some d ∧ w.isDate d = false) ∨
    w.metadata = .ok (Recent.of es) ∧ ∀ e ∈ es, ¬ e.Wanted type date) : openEdgar dig w cik type date = .error .valueError := by
  unfold openEdgar
  by_cases h1 : date.any (fun d => !w.isDate d) = true
  · rw [if_pos h1]
  rw [if_neg h1]
  by_cases h2 : cik.length > 10
  · rw [if_pos h2]
  rw [if_neg h2]
  by_cases h3 : type ∉ edgarTypes
  · rw [if_pos h3]
  rw [if_neg h3]
  rcases h with h | h | ⟨d, rfl, h⟩ | ⟨hm, hno⟩
  · exact absurd h h3
  · exact absurd h h2
  · exact absurd (by simp [h]) h1
  · rw [hm]
    simp only [bind, Except.bind]
    have : chooseReport dig (Recent.of es) type date = .error .valueError := by
      unfold chooseReport
      have hlen : (Recent.of es).form.length = es.length := by simp [Recent.of]
      rw [rightIndices_of _ (by intro i hi; rw [List.mem_range] at hi; simpa [Recent.of] using hi), hlen]
      have : (List.range es.length).filter (fun i => (es[i]?).any (fun e => decide (e.Wanted type date))) = [] := by
        rw [List.filter_eq_nil_iff]
        intro i hi
        rw [List.mem_range] at hi
        rw [List.getElem?_eq_getElem hi]
        simpa using hno _ (List.getElem_mem hi)
      rw [this]
      rfl
    rw [this]

/-- C103: metadata older than two days are fetched again. -/
theorem C103_fresh_partial {w : EdgarWorld} {m : Recent} (h : w.metadata = .ok m) : w.fetch = some m ∨ ∃ age, w.cached = some (age, m) ∧ age < 2 * 86400 := by
  unfold EdgarWorld.metadata at h
  cases hc : w.cached with
  | none =>
    rw [hc] at h
    cases hf : w.fetch with
    | none => rw [hf] at h; cases h
    | some m' => rw [hf] at h; cases h; exact Or.inl rfl
  | some p =>
    obtain ⟨age, m'⟩ := p
    rw [hc] at h
    dsimp only at h
    by_cases ha : age / 86400 > 1
    · rw [if_pos ha] at h
      cases hf : w.fetch with
      | none => rw [hf] at h; cases h
      | some m' => rw [hf] at h; cases h; exact Or.inl rfl
    · rw [if_neg ha] at h
      cases h
      exact Or.inr ⟨age, rfl, by omega⟩

namespace EdgarExample

def entry (form xbrl date doc : String) : EdgarEntry := ⟨form, xbrl, date, "0000320193-23-000077", doc⟩
def list : List EdgarEntry := [entry "8-K" "1" "2023-08-03" "a.htm", entry "10-Q" "1" "2022-12-31" "b.htm", entry "10-Q" "1" "2023-07-01" "c.htm", entry "10-Q" "1" "2023-07-01" "d.htm",
  entry "10-Q" "0" "2024-01-01" "e.htm"]
def world (es : List EdgarEntry) : EdgarWorld := ⟨fun _ => true, none, some (Recent.of es), fun _ => true⟩
def result (r : Except PyErr String) : Option String := match r with | .ok u => some u | .error _ => none

/-- The latest quarterly report with XBRL data, listed first. -/
example : result (openEdgar asciiDigit (world list) "320193" "10-Q" none) = some "https://www.sec.gov/Archives/edgar/data/0000320193/000032019323000077/c_htm.xml" := by decide +kernel
example : result (openEdgar asciiDigit (world list) "320193" "10-Q" (some "2022-12-31")) = some "https://www.sec.gov/Archives/edgar/data/0000320193/000032019323000077/b_htm.xml" := by decide +kernel
example : IsDay "2023-07-01" 2023 7 1 := ⟨by decide, by decide, by decide, by decide +kernel⟩

end EdgarExample

open EdgarExample in
/-- C103 fails: if one filing of the type has no report date, no filing of the type can be opened without giving a date. -/
theorem C103_dates_false : ∃ (es : List EdgarEntry) (w : EdgarWorld) (e : EdgarEntry), w.metadata = .ok (Recent.of es) ∧ (∀ u, w.answers u = true) ∧ e ∈ es ∧ e.Wanted "8-K" none ∧ IsDay e.reportDate 2023 8 3 ∧
    openEdgar asciiDigit w "320193" "8-K" none = .error .valueError := by
  refine ⟨[entry "8-K" "1" "2023-08-03" "a.htm", entry "8-K" "1" "" "b.htm"], world [entry "8-K" "1" "2023-08-03" "a.htm", entry "8-K" "1" "" "b.htm"], entry "8-K" "1" "2023-08-03" "a.htm", rfl,
    fun _ => rfl, by simp, ⟨rfl, rfl, by simp⟩, ⟨by decide, by decide, by decide, by decide +kernel⟩, ?_⟩
  rfl

open EdgarExample in
/-- C103 fails: metadata that are more than one day old are used although newer ones are available. -/
theorem C103_fresh_false : ∃ (w : EdgarWorld) (age : Nat) (old new : List EdgarEntry), age > 86400 ∧ w.cached = some (age, Recent.of old) ∧ w.fetch = some (Recent.of new) ∧
    w.metadata = .ok (Recent.of old) ∧ old ≠ new :=
  ⟨⟨fun _ => true, some (150000, Recent.of []), some (Recent.of list), fun _ => true⟩, 150000, [], list, by decide, rfl, rfl, rfl, by decide⟩

end Brel
