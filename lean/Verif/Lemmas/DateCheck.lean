import Verif.Lemmas.DateText

/-! Tests of the date tables, and what they imply for the captures. -/

namespace Brel
open Spec

/-- The key of a part in the dictionary of the parser. -/
def dpOf : Part → DatePart
  | .day => .day
  | .month => .month
  | .year => .year

/-- The part of a key. -/
def partOf : DatePart → Part
  | .day => .day
  | .month => .month
  | _ => .year

theorem partOf_dpOf (p : Part) : partOf (dpOf p) = p := by cases p <;> rfl

/-- The parts of a text in the order `ps`, with separators between them. -/
def segsOf (seg : Part → Seg) (last : List Seg) : List Part → List Seg
  | [] => last
  | [p] => seg p :: last
  | p :: ps => seg p :: .sep :: segsOf seg last ps

theorem segKinds_segsOf {seg : Part → Seg} {last : List Seg} (hl : segKinds last = []) {k : Part → Bool} (hk : ∀ p ss, segKinds (seg p :: ss) = k p :: segKinds ss)
    (ps : List Part) : segKinds (segsOf seg last ps) = ps.map k := by
  induction ps with
  | nil => exact hl
  | cons p ps ih =>
    cases ps with
    | nil => simp [segsOf, hk, hl]
    | cons q ps =>
      rw [segsOf, hk]
      · simp only [segKinds, ih, List.map_cons]
      · simp

/-- The text of a date, as a sequence of parts. -/
theorem shows_realises {P : Char → Prop} {seg : Part → Seg} {f : Part → List Char} {last : List Seg} {tail : List Char} (hlast : Realises P last tail [])
    (hseg : ∀ p ss v fs, Realises P ss v fs → Realises P (seg p :: ss) (f p ++ v) (f p :: fs)) :
    ∀ (ps : List Part), ps ≠ [] → ∀ t, Shows P (ps.map f) t → Realises P (segsOf seg last ps) (t ++ tail) (ps.map f) := by
  intro ps
  induction ps with
  | nil => exact fun h => absurd rfl h
  | cons p ps ih =>
    intro _ t ht
    cases ps with
    | nil =>
      simp only [List.map_cons, List.map_nil, Shows] at ht
      subst ht
      exact hseg p _ _ _ hlast
    | cons q ps =>
      obtain ⟨sep, rest, rfl, hne, hP, h⟩ := ht
      rw [segsOf, List.map_cons, List.append_assoc, List.append_assoc]
      · exact hseg p _ _ _ (.sep hne hP (ih (by simp) rest h))
      · simp

/-- Captures as a function of the parts. -/
theorem captures_fun {k : Part → Bool} {f : Part → List Char} : ∀ (ps : List Part) (cs : List (List Char)), ps.Nodup → cs.length = ps.length →
    pick false (ps.map k) cs = pick false (ps.map k) (ps.map f) →
    ∃ F : Part → List Char, cs = ps.map F ∧ ∀ p ∈ ps, (k p = false → F p = f p) ∧ (k p = true → F p ∈ pick true (ps.map k) cs) := by
  intro ps
  induction ps with
  | nil => intro cs _ hl _; exact ⟨f, by simpa using hl, by simp⟩
  | cons p ps ih =>
    intro cs hnd hl hp
    cases cs with
    | nil => simp at hl
    | cons c cs =>
      rw [List.nodup_cons] at hnd
      simp only [List.length_cons, Nat.add_right_cancel_iff] at hl
      simp only [List.map_cons, pick] at hp
      have hp' : pick false (ps.map k) cs = pick false (ps.map k) (ps.map f) := by
        split at hp
        · injection hp
        · exact hp
      obtain ⟨F, e, hF⟩ := ih cs hnd.2 hl hp'
      refine ⟨fun q => if q = p then c else F q, ?_, ?_⟩
      · simp only [List.map_cons, if_true]
        rw [e]
        congr 1
        rw [List.map_inj_left]
        intro q hq
        rw [if_neg (by rintro rfl; exact hnd.1 hq)]
      · intro q hq
        by_cases hqp : q = p
        · subst hqp
          simp only [if_true]
          constructor
          · intro hk
            rw [hk] at hp
            simp only [if_true] at hp
            injection hp
          · intro hk
            simp [pick, hk]
        · simp only [if_neg hqp]
          have hq' : q ∈ ps := by
            rcases List.mem_cons.1 hq with h | h
            · exact absurd h hqp
            · exact h
          obtain ⟨h1, h2⟩ := hF q hq'
          refine ⟨h1, fun hk => ?_⟩
          have := h2 hk
          simp only [List.map_cons, pick]
          split
          · exact List.mem_cons_of_mem _ this
          · exact this

theorem group_zip {ids : List Nat} {cs : List (List Char)} (hnd : ids.Nodup) {i g : Nat} {w : List Char} (hg : ids[i]? = some g) (hw : cs[i]? = some w) :
    Caps.group ((ids.zip cs).reverse) g = some w := by
  have hmem : (g, w) ∈ ids.zip cs := by
    rw [List.mem_iff_getElem?]
    exact ⟨i, by rw [List.getElem?_zip_eq_some]; exact ⟨hg, hw⟩⟩
  have hnd' : ((ids.zip cs).reverse.map (·.1)).Nodup := by
    rw [List.map_reverse, List.nodup_reverse]
    clear hmem hg hw
    induction ids generalizing cs with
    | nil => simp
    | cons a ids ih =>
      cases cs with
      | nil => simp
      | cons c cs =>
        rw [List.nodup_cons] at hnd
        simp only [List.zip_cons_cons, List.map_cons, List.nodup_cons]
        refine ⟨fun hm => ?_, ih hnd.2⟩
        obtain ⟨x, hx, rfl⟩ := List.mem_map.1 hm
        exact hnd.1 (List.of_mem_zip hx).1
  exact Dict.get?_of_mem (κ := Nat) (β := List Char) ((ids.zip cs).reverse) hnd' (List.mem_reverse.2 hmem)

/-- The sequence begins with a name. -/
def nameFirst : List Item → Bool
  | .name _ _ :: _ => true
  | _ => false

/-- The class of the character after a name at the beginning. -/
def afterName : List Item → Option Cls
  | .name _ _ :: .gap c lo _ :: _ => if 1 ≤ lo then some c else none
  | _ => none

/-- What the tests of the tables imply: the pattern matches and captures the numbers of the text, and a word that occurs in the text. -/
theorem match_captures {P : Char → Prop} {cov : Cls → Bool} (hcov : ∀ c, cov c = true → ∀ x, P x → c.has x = true) {d : Cls} (hP : ∀ x, P x → d.has x = false)
    {r : Re} {is : List Item} (his : r.items = some is) {ps : List Part} (hnd : ps.Nodup) {k : Part → Bool} {f : Part → List Char} {ss : List Seg}
    (hk : segKinds ss = ps.map k) (hk' : kinds is = ps.map k) (hids : groupIds is = List.range' 1 ps.length)
    (hpl : is.all (Item.plain d) = true) (hsp : spaced is = true) (hspl : ss.all (Seg.plain d) = true) (hssp : segSpaced ss = true)
    (hsym : symMatch cov is ss = true) {text t : List Char} (ht : Trimmed text t) (hR : Realises P ss t (ps.map f)) :
    ∃ (m : Caps) (F : Part → List Char), r.fullMatch t = some m ∧ (∀ i p, ps[i]? = some p → m.group (1 + i) = some (F p)) ∧
      (∀ p ∈ ps, (k p = false → F p = f p) ∧ (k p = true →
        ∃ a b, t = a ++ F p ++ b ∧ F p ∈ nameWords is ∧ (nameBreaks false is = true → ∃ x, a.getLast? = some x ∧ Rx.notAlnum.has x = true))) ∧
      (nameFirst is = true → ∀ p, ps.head? = some p → ∃ b, t = F p ++ b ∧ F p ∈ nameWords is ∧
        ∀ c, afterName is = some c → ∃ x, b.head? = some x ∧ c.has x = true) := by
  obtain ⟨cs0, h0⟩ := symMatch_takes hcov is ss t _ hR hsym
  cases hm : r.fullMatch t with
  | none =>
    exact absurd (consumes_matchesFully ((consumes_items his).2 ⟨cs0, h0, rfl⟩)) (fullMatch_none hm _)
  | some m =>
    have hc := trimmed_consumes ht hm
    obtain ⟨cs, hT, e⟩ := (consumes_items his).1 hc
    rw [List.append_nil] at e
    have hlen : cs.length = ps.length := by rw [takes_length hT, hids]; simp
    have hr1 := takes_runs hT hpl hsp
    have hr2 := realises_runs hP hR hspl hssp
    rw [hr2, hk, hk'] at hr1
    obtain ⟨F, eF, hF⟩ := captures_fun ps cs hnd hlen hr1.symm
    refine ⟨m, F, rfl, ?_, fun p hp => ⟨?_, ?_⟩, ?_⟩
    · intro i p hp
      rw [e]
      have hi : i < ps.length := (List.getElem?_eq_some_iff.1 hp).1
      refine group_zip (by rw [hids]; exact List.nodup_range') (i := i) ?_ ?_
      · rw [hids, List.getElem?_range' hi]; simp
      · rw [eF, List.getElem?_map, hp]; rfl
    · exact (hF p hp).1
    · intro hkp
      have hw := (hF p hp).2 hkp
      rw [← hk'] at hw
      obtain ⟨a, b, e, h1, h2⟩ := takes_names hT false [] (fun h => by cases h) _ hw
      exact ⟨a, b, by simpa using e, h1, h2⟩
    · intro hnf p hp
      cases hT with
      | nil => simp [nameFirst] at hnf
      | gap _ _ => simp [nameFirst] at hnf
      | num _ _ => simp [nameFirst] at hnf
      | @name g ws is w v cs hw h =>
        cases ps with
        | nil => cases hp
        | cons q ps =>
          cases hp
          rw [List.map_cons, List.cons.injEq] at eF
          rw [← eF.1]
          refine ⟨v, rfl, by simp [nameWords, hw], fun c hc' => ?_⟩
          cases h with
          | nil => simp [afterName] at hc'
          | num _ _ => simp [afterName] at hc'
          | name _ _ => simp [afterName] at hc'
          | @gap c' lo hi is w' v cs h1 h2 =>
            simp only [afterName] at hc'
            split at hc'
            · cases hc'
              rename_i hlo
              cases w' with
              | nil => exact absurd h1.2.1 (by simp; omega)
              | cons x w' => exact ⟨x, rfl, h1.1 x (by simp)⟩
            · cases hc'

/-! ## Tests -/

/-- The digits that a format reads. -/
def digitClass (fmt : String) : Cls :=
  if fmt ∈ fullWidthFormats then Rx.wideDigit else if fmt ∈ devanagariFormats then Rx.hindiOrDigit else Rx.asciiDigit

/-- Full-width digits. -/
def fullWidthDigit : Cls := ⟨false, [(65296, 65305)]⟩

/-- The scripts that a format reads. -/
def scripts (fmt : String) : List Cls :=
  Rx.asciiDigit :: ((if fmt ∈ fullWidthFormats then [fullWidthDigit] else []) ++ (if fmt ∈ devanagariFormats then [Rx.hindiDigit] else []))

/-- The parts of a date; the month as given. -/
def segFor (S : List Cls) (month : Seg) : Part → Seg
  | .day => .dig S [1, 2]
  | .month => month
  | .year => .dig S [2, 4]

/-- Test of a format that does not depend on the month. -/
def commonCheck (fmt : String) (ps : List Part) (named : Bool) (r : Re) (is : List Item) : Bool :=
  let hasDay := decide (Part.day ∈ ps)
  let hasYear := decide (Part.year ∈ ps)
  decide (isInfix "jpn".toList fmt.toList = false) && decide (fmt ≠ "ixt:date-ind-day-monthname-year-hi") &&
  decide (isInfix "day".toList fmt.toList = hasDay) && decide (isInfix "year".toList fmt.toList = hasYear) &&
  decide (dateOrder fmt (hasDay && !hasYear) (hasDay && hasYear) = ps.map dpOf) && decide ps.Nodup && decide (Part.month ∈ ps) && (hasDay || hasYear) &&
  decide (ps.length ≤ r.groups) && decide (groupIds is = List.range' 1 ps.length) &&
  is.all (Item.plain (digitClass fmt)) && spaced is && decide (kinds is = ps.map (fun p => named && decide (p = .month)))

/-- Classes that have all separators of dates with month names. -/
def covNamed (c : Cls) : Bool := c.neg && c.ranges.all (fun r => decide (0x30 ≤ r.1) && (decide (r.2 < 0xA0) || decide (0xA0 < r.1)))

/-- Classes that have all characters but digits. -/
def covNumeric (c : Cls) : Bool :=
  c.neg && c.ranges.all (fun r => (decide (0x30 ≤ r.1) && decide (r.2 ≤ 0x39)) || (decide (0xFF10 ≤ r.1) && decide (r.2 ≤ 0xFF19)) ||
    (decide (0x966 ≤ r.1) && decide (r.2 ≤ 0x96F)))

theorem covNamed_has (c : Cls) (h : covNamed c = true) (x : Char) (hx : IsSeparator x) : c.has x = true := by
  simp only [covNamed, Bool.and_eq_true, List.all_eq_true, Bool.or_eq_true, decide_eq_true_eq] at h
  simp only [Cls.has, h.1, Bool.bne_true, Bool.not_eq_true', List.any_eq_false, Bool.and_eq_true, decide_eq_true_eq]
  intro r hr
  have := h.2 r hr
  rcases hx with hx | hx <;> omega

theorem covNumeric_has (c : Cls) (h : covNumeric c = true) (x : Char) (hx : dateDigit x = none) : c.has x = true := by
  rw [← Option.not_isSome_iff_eq_none, dateDigit_isSome] at hx
  simp only [covNumeric, Bool.and_eq_true, List.all_eq_true, Bool.or_eq_true, decide_eq_true_eq] at h
  simp only [Cls.has, h.1, Bool.bne_true, Bool.not_eq_true', List.any_eq_false, Bool.and_eq_true, decide_eq_true_eq]
  intro r hr
  have := h.2 r hr
  omega

theorem digitClass_dateDigit (fmt : String) {x : Char} (h : (digitClass fmt).has x = true) : (dateDigit x).isSome = true := by
  rw [dateDigit_isSome]
  unfold digitClass at h
  split at h
  · simp only [Cls.has, Rx.wideDigit, List.any_cons, List.any_nil, Bool.or_false, Bool.bne_false, Bool.or_eq_true, Bool.and_eq_true, decide_eq_true_eq] at h
    omega
  · split at h
    · simp only [Cls.has, Rx.hindiOrDigit, List.any_cons, List.any_nil, Bool.or_false, Bool.bne_false, Bool.or_eq_true, Bool.and_eq_true, decide_eq_true_eq] at h
      omega
    · simp only [Cls.has, Rx.asciiDigit, List.any_cons, List.any_nil, Bool.or_false, Bool.bne_false, Bool.and_eq_true, decide_eq_true_eq] at h
      omega

theorem scripts_of_digitsIn {fmt : String} {s : List Char} (h : DigitsIn fmt s) : ∃ c ∈ scripts fmt, ∀ x ∈ s, c.has x = true := by
  rcases h with h | ⟨hf, h⟩ | ⟨hf, h⟩
  · refine ⟨Rx.asciiDigit, by simp [scripts], fun x hx => ?_⟩
    have := h x hx
    simp only [Cls.has, Rx.asciiDigit, List.any_cons, List.any_nil, Bool.or_false, Bool.bne_false, Bool.and_eq_true, decide_eq_true_eq]
    exact this
  · refine ⟨fullWidthDigit, by simp [scripts, hf], fun x hx => ?_⟩
    have := h x hx
    simp only [Cls.has, fullWidthDigit, List.any_cons, List.any_nil, Bool.or_false, Bool.bne_false, Bool.and_eq_true, decide_eq_true_eq]
    exact this
  · refine ⟨Rx.hindiDigit, by simp [scripts, hf], fun x hx => ?_⟩
    have := h x hx
    simp only [Cls.has, Rx.hindiDigit, List.any_cons, List.any_nil, Bool.or_false, Bool.bne_false, Bool.and_eq_true, decide_eq_true_eq]
    exact this

theorem scripts_digitClass (fmt : String) : (scripts fmt).all (fun c => clsSub c (digitClass fmt)) = true ∨
    (fmt ∈ fullWidthFormats ∧ fmt ∈ devanagariFormats) := by
  unfold scripts digitClass
  by_cases h1 : fmt ∈ fullWidthFormats <;> by_cases h2 : fmt ∈ devanagariFormats <;> simp only [h1, h2, if_true, if_false] <;> simp <;> decide

/-- Test of a numeric format. -/
def numericCheck (fmt : String) : Bool :=
  match dateFormats.get? fmt with
  | none => false
  | some r => match r.items with
    | none => false
    | some is =>
      let ps := layout fmt
      let segs := segsOf (segFor (scripts fmt) (.dig (scripts fmt) [1, 2]))
      commonCheck fmt ps false r is && decide (monthCountry fmt = none) &&
      symMatch covNumeric is (segs [] ps) && (decide (fmt ∉ fullWidthFormats) || symMatch covNumeric is (segs [.tail] ps))

/-- Letters: what is neither a digit nor a separator. -/
def letter (c : Char) : Bool := (dateDigit c).isNone && decide (0x30 ≤ c.toNat) && decide (c.toNat ≠ 0xA0)

/-- The stem is looked up as the month with index `i`. -/
def goodStem (names : List (List (List Char))) (i : Nat) (w : List Char) : Bool :=
  decide (monthIndex names (pyLower (normalizeDigits w)) = some i)

/-- Test of a name of the month with index `i`. -/
def wordCheck (fmt : String) (ps : List Part) (is : List Item) (names : List (List (List Char))) (i : Nat) (l : List Char) : Bool :=
  decide (l ≠ []) && l.all letter &&
  symMatch covNamed is (segsOf (segFor (scripts fmt) (.word l)) [] ps) &&
  (stemsOk (nameBreaks false is) (nameWords is) (goodStem names i) none l ||
    (nameFirst is && decide (ps.head? = some .month) && (nameWords is).all (fun w =>
      !w.isPrefixOf l || goodStem names i w || (match afterName is, (l.drop w.length).head? with | some c, some x => !c.has x | _, _ => false))))

/-- Test of a format with month names, except for some months. -/
def namedCheck (except : List Nat) (fmt : String) : Bool :=
  match dateFormats.get? fmt with
  | none => false
  | some r => match r.items, monthNames.get? (monthCountry fmt) with
    | some is, some names =>
      let ps := layout fmt
      let lang := languageOf fmt
      commonCheck fmt ps true r is && (nameWords is).all (fun w => decide (w ≠ []) && w.all letter) &&
      monthsOf.all (fun p => decide (p.1 ≠ lang) || p.2.zipIdx.all (fun q => decide (q.2 + 1 ∈ except) || q.1.all (wordCheck fmt ps is names q.2)))
    | _, _ => false

end Brel
