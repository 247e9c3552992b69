import Verif.Model.Uri
import Verif.Model.Footnotes
import Verif.Spec.Uri
import Verif.Props.Numeric
/-!
# C112: which texts pass for URIs
-/
namespace Brel
open Spec

theorem takeWhile_self_iff {p : Char → Bool} {l : List Char} : l.takeWhile p = l ↔ ∀ c ∈ l, p c = true := by
  induction l with
  | nil => simp
  | cons c l ih =>
    cases hp : p c with
    | true => simp [hp, ih]
    | false => simp [hp]

theorem letter_iff (c : Char) : asciiLetter c = true ↔ Letter c := by
  simp [asciiLetter, Letter]

theorem scheme_isSchemeChar {c : Char} (h : Letter c ∨ ('0' ≤ c ∧ c ≤ '9') ∨ c ∈ ['+', '-', '.']) : schemeChar c = true := by
  unfold schemeChar
  rcases h with h | h | h
  · rw [(letter_iff c).2 h]; rfl
  · simp [h.1, h.2]
  · simp only [List.mem_cons, List.not_mem_nil, or_false] at h
    rcases h with rfl | rfl | rfl <;> decide

theorem schemeChar_ne {c d : Char} (h : schemeChar c = true) (hd : schemeChar d = false) : c ≠ d := by
  rintro rfl; simp [h] at hd

theorem schemeChar_notDelim {c : Char} (h : schemeChar c = true) : notDelim c = true := by
  have h1 := schemeChar_ne h (d := '/') (by decide)
  have h2 := schemeChar_ne h (d := '?') (by decide)
  have h3 := schemeChar_ne h (d := '#') (by decide)
  simp [notDelim, h1, h2, h3]

theorem urlClean_visible {s : List Char} (h : ∀ c ∈ s, 32 < c.toNat) : urlClean s = s := by
  unfold urlClean
  have h1 : s.dropWhile c0OrSpace = s := by
    cases s with
    | nil => rfl
    | cons c s =>
      have := h c (by simp)
      rw [List.dropWhile_cons_of_neg]
      simp only [c0OrSpace, decide_eq_true_eq]; omega
  rw [h1, List.filter_eq_self]
  intro c hc
  have := h c hc
  have e1 : c ≠ '\t' := by rintro rfl; exact absurd this (by decide)
  have e2 : c ≠ '\r' := by rintro rfl; exact absurd this (by decide)
  have e3 : c ≠ '\n' := by rintro rfl; exact absurd this (by decide)
  simp [unsafeChar, e1, e2, e3]

theorem splitScheme_some {s r : List Char} (h : IsScheme s) : splitScheme (s ++ ':' :: r) = (s.map Char.toLower, r) := by
  obtain ⟨c, t, rfl, hc, ht⟩ := h
  have hall : ∀ d ∈ c :: t, schemeChar d = true := by
    intro d hd
    rcases List.mem_cons.1 hd with rfl | hd
    · exact scheme_isSchemeChar (.inl hc)
    · exact scheme_isSchemeChar (ht d hd)
  have htw : ((c :: t) ++ ':' :: r).takeWhile (· ≠ ':') = c :: t := by
    refine (takeWhile_split (p := fun x => decide (x ≠ ':')) ?_ ?_).1
    · intro d hd; simpa using schemeChar_ne (hall d hd) (d := ':') (by decide)
    · intro x hx; simp only [List.head?_cons, Option.some.injEq] at hx; subst hx; simp
  unfold splitScheme
  simp only [htw]
  rw [if_pos]
  · congr 1
    have : (c :: t ++ ':' :: r) = (c :: t ++ [':']) ++ r := by simp
    rw [this, List.drop_append_of_le_length (by simp)]
    simp
  · refine ⟨by simp, by simp [(letter_iff c).2 hc], ?_⟩
    exact List.all_eq_true.2 hall

/-- Without a scheme nothing is taken for one, if no colon stands in what precedes the first delimiter or the text begins with a character no scheme begins with. -/
theorem splitScheme_none {s : List Char} (h : (∃ c r, s = c :: r ∧ asciiLetter c = false) ∨ ':' ∉ s.takeWhile notDelim) : splitScheme s = ([], s) := by
  unfold splitScheme
  simp only
  rw [if_neg]
  rintro ⟨hm, hh, hall⟩
  rcases h with ⟨c, r, rfl, hc⟩ | h
  · by_cases hcc : c = ':'
    · subst hcc; simp at hh
    · rw [List.takeWhile_cons_of_pos (by simpa using hcc)] at hh
      simp [hc] at hh
  · refine h ?_
    have hall' := List.all_eq_true.1 hall
    clear hh hall h
    induction s with
    | nil => exact absurd hm (by simp)
    | cons c s ih =>
      by_cases hcc : c = ':'
      · subst hcc
        rw [List.takeWhile_cons_of_pos (by decide)]; simp
      · rw [List.takeWhile_cons_of_pos (by simpa using hcc)] at hall'
        rw [List.takeWhile_cons_of_pos (schemeChar_notDelim (hall' c (by simp)))]
        refine List.mem_cons_of_mem _ (ih ?_ fun d hd => hall' d (List.mem_cons_of_mem _ hd))
        rcases List.mem_cons.1 hm with hm | hm
        · exact absurd hm.symm hcc
        · exact hm

theorem takeWhile_path {path qf : List Char} (hp : ∀ c ∈ path, c ≠ '?' ∧ c ≠ '#') (hq : ∀ x, qf.head? = some x → notDelim x = false) :
    (path ++ qf).takeWhile notDelim = path.takeWhile (· ≠ '/') := by
  induction path with
  | nil =>
    cases qf with
    | nil => rfl
    | cons x r =>
      rw [List.nil_append, List.takeWhile_cons_of_neg (by simp [hq x rfl])]
      rfl
  | cons c path ih =>
    have hc := hp c (by simp)
    by_cases h : c = '/'
    · subst h
      rw [List.cons_append, List.takeWhile_cons_of_neg (by decide), List.takeWhile_cons_of_neg (by decide)]
    · rw [List.cons_append, List.takeWhile_cons_of_pos (by simp [notDelim, h, hc.1, hc.2]), List.takeWhile_cons_of_pos (by simpa using h),
        ih fun d hd => hp d (List.mem_cons_of_mem _ hd)]

theorem splitNetloc_none {s : List Char} (h : ∀ r, s ≠ '/' :: '/' :: r) : splitNetloc s = ([], s) := by
  unfold splitNetloc
  split
  · rename_i r; exact absurd rfl (h r)
  · rfl

/-- What follows the path: a query and a fragment. -/
def UriParts.tail (p : UriParts) : List Char :=
  (match p.query with | some q => '?' :: q | none => []) ++ (match p.fragment with | some f => '#' :: f | none => [])

theorem tail_head (p : UriParts) : ∀ x, (UriParts.tail p).head? = some x → notDelim x = false := by
  intro x hx
  unfold UriParts.tail at hx
  cases hq : p.query with
  | some q => rw [hq] at hx; simp at hx; subst hx; decide
  | none =>
    rw [hq] at hx
    cases hf : p.fragment with
    | some f => rw [hf] at hx; simp at hx; subst hx; decide
    | none => rw [hf] at hx; simp at hx

/-- From the path and what follows it, the path is cut out. -/
theorem path_cut {p : UriParts} (h : p.WellFormed) : ((p.path ++ UriParts.tail p).takeWhile (· ≠ '#')).takeWhile (· ≠ '?') = p.path := by
  have hp := h.path
  unfold UriParts.tail
  cases hq : p.query with
  | some q =>
    have hqh := h.query q hq
    have e : p.path ++ (('?' :: q) ++ (match p.fragment with | some f => '#' :: f | none => [])) = (p.path ++ '?' :: q) ++ (match p.fragment with | some f => '#' :: f | none => []) := by simp
    simp only [e]
    rw [(takeWhile_split (p := fun x => decide (x ≠ '#')) (a := p.path ++ '?' :: q) ?_ ?_).1]
    · refine (takeWhile_split (p := fun x => decide (x ≠ '?')) ?_ ?_).1
      · intro c hc; simpa using (hp c hc).1
      · intro x hx; simp only [List.head?_cons, Option.some.injEq] at hx; subst hx; simp
    · intro c hc
      rcases List.mem_append.1 hc with hc | hc
      · simpa using (hp c hc).2
      · rcases List.mem_cons.1 hc with rfl | hc
        · decide
        · have : c ≠ '#' := by rintro rfl; exact hqh hc
          simpa using this
    · intro x hx
      cases hf : p.fragment with
      | none => rw [hf] at hx; simp at hx
      | some f => rw [hf] at hx; simp only [List.head?_cons, Option.some.injEq] at hx; subst hx; simp
  | none =>
    simp only [List.nil_append]
    rw [(takeWhile_split (p := fun x => decide (x ≠ '#')) (a := p.path) ?_ ?_).1]
    · rw [takeWhile_self_iff]
      intro c hc; simpa using (hp c hc).1
    · intro c hc; simpa using (hp c hc).2
    · intro x hx
      cases hf : p.fragment with
      | none => rw [hf] at hx; simp at hx
      | some f => rw [hf] at hx; simp only [List.head?_cons, Option.some.injEq] at hx; subst hx; simp

/-- What follows the scheme. -/
def UriParts.afterScheme (p : UriParts) : List Char := (match p.authority with | some a => '/' :: '/' :: a | none => []) ++ (p.path ++ UriParts.tail p)

theorem splitScheme_text {p : UriParts} (h : p.WellFormed) : splitScheme p.text = ((p.scheme.getD []).map Char.toLower, UriParts.afterScheme p) := by
  cases hs : p.scheme with
  | some s =>
    have : p.text = s ++ ':' :: UriParts.afterScheme p := by
      unfold UriParts.text UriParts.afterScheme UriParts.tail
      simp only [hs, List.append_assoc, List.cons_append, List.nil_append]
      rfl
    rw [this, splitScheme_some (h.scheme s hs)]; rfl
  | none =>
    have : p.text = UriParts.afterScheme p := by
      unfold UriParts.text UriParts.afterScheme UriParts.tail
      simp only [hs, List.nil_append]
      rfl
    rw [this]
    refine splitScheme_none ?_
    unfold UriParts.afterScheme
    cases ha : p.authority with
    | some a => exact .inl ⟨'/', _, rfl, by decide⟩
    | none =>
      refine .inr ?_
      rw [List.nil_append, takeWhile_path h.path (tail_head p)]
      exact h.colon hs ha

theorem splitNetloc_afterScheme {p : UriParts} (h : p.WellFormed) : splitNetloc (UriParts.afterScheme p) = (p.authority.getD [], p.path ++ UriParts.tail p) := by
  unfold UriParts.afterScheme
  cases ha : p.authority with
  | some a =>
    have := takeWhile_split (p := notDelim) (a := a) (b := p.path ++ UriParts.tail p) ?_ ?_
    · simp only [List.cons_append, splitNetloc, this.1, this.2, Option.getD_some]
    · intro c hc
      have := h.authority a ha c hc
      simp [notDelim, this.1, this.2.1, this.2.2]
    · intro x hx
      rcases h.rooted (by rw [ha]; simp) with e | ⟨r, e⟩
      · rw [e, List.nil_append] at hx; exact tail_head p x hx
      · rw [e] at hx; simp only [List.cons_append, List.head?_cons, Option.some.injEq] at hx; subst hx; decide
  | none =>
    rw [List.nil_append, splitNetloc_none]
    · rfl
    · intro r hr
      have hs := h.slashes ha
      cases hp : p.path with
      | nil =>
        rw [hp, List.nil_append] at hr
        have := tail_head p '/' (by rw [hr]; rfl)
        have h2 : p.query = none := by
          cases hq : p.query with
          | none => rfl
          | some q => unfold UriParts.tail at hr; rw [hq] at hr; simp at hr
        unfold UriParts.tail at hr; rw [h2] at hr
        cases hf : p.fragment with
        | none => rw [hf] at hr; simp at hr
        | some f => rw [hf] at hr; simp at hr
      | cons c t =>
        rw [hp, List.cons_append] at hr
        injection hr with h1 h2
        subst h1
        cases t with
        | nil =>
          rw [List.nil_append] at h2
          unfold UriParts.tail at h2
          cases hq : p.query with
          | some q => rw [hq] at h2; simp at h2
          | none =>
            rw [hq] at h2
            cases hf : p.fragment with
            | none => rw [hf] at h2; simp at h2
            | some f => rw [hf] at h2; simp at h2
        | cons d t =>
          rw [List.cons_append] at h2
          injection h2 with h1 h2
          subst h1
          exact hs t hp

/-- The parts of every well-formed reference are found again: writing the parts and splitting the text is the identity, up to the case of the scheme. -/
theorem C112_split {bad : List Char → Bool} {p : UriParts} (h : p.WellFormed) (hb : lonelyBracket (p.authority.getD []) = false) (hn : bad (p.authority.getD []) = false) :
    urlSplit bad p.text = some ⟨(p.scheme.getD []).map Char.toLower, p.authority.getD [], p.path⟩ := by
  unfold urlSplit
  simp only [urlClean_visible h.visible, splitScheme_text h, splitNetloc_afterScheme h, hb, hn, path_cut h]
  rfl

theorem takeWhile_nil_iff {p : Char → Bool} {l : List Char} : l.takeWhile p = [] ↔ l = [] ∨ ∃ c r, l = c :: r ∧ p c = false := by
  cases l with
  | nil => simp
  | cons c r =>
    cases hp : p c with
    | true => simp [hp]
    | false => simp [hp]

/-- When nothing is left of a path without its parameters. -/
theorem splitParams_nil (u : List Char) : splitParams u = [] ↔ u = [] ∨ ('/' ∉ u ∧ ∃ r, u = ';' :: r) := by
  unfold splitParams
  simp only
  rw [List.append_eq_nil_iff]
  by_cases hs : '/' ∈ u
  · have hlt : (u.reverse.takeWhile (· ≠ '/')).length < u.length := by
      have h1 : (u.reverse.takeWhile (· ≠ '/')).length ≤ u.reverse.length := (List.takeWhile_prefix _).length_le
      rcases Nat.lt_or_eq_of_le h1 with h | h
      · simpa using h
      · exfalso
        have h2 := (List.takeWhile_prefix (p := fun x => decide (x ≠ '/')) (l := u.reverse)).eq_of_length h
        rw [takeWhile_self_iff] at h2
        have := h2 '/' (by simpa using hs)
        simp at this
    constructor
    · rintro ⟨h, -⟩
      rw [List.take_eq_nil_iff] at h
      rw [List.length_reverse] at h
      rcases h with h | h
      · omega
      · exact .inl h
    · rintro (rfl | ⟨h, -⟩)
      · simp at hs
      · exact absurd hs h
  · have e : u.reverse.takeWhile (· ≠ '/') = u.reverse := by
      rw [takeWhile_self_iff]
      intro c hc
      have : c ≠ '/' := by rintro rfl; exact hs (by simpa using hc)
      simpa using this
    rw [e, List.reverse_reverse, Nat.sub_self]
    simp only [List.take_zero, true_and]
    rw [takeWhile_nil_iff]
    constructor
    · rintro (h | ⟨c, r, h, hc⟩)
      · exact .inl h
      · simp at hc; subst hc; exact .inr ⟨hs, r, h⟩
    · rintro (h | ⟨-, r, h⟩)
      · exact .inl h
      · exact .inr ⟨';', r, h, by simp⟩

/-- For every well-formed reference, exactly when it passes: its authority must be acceptable, and it needs a path (not made of parameters only, where the scheme has parameters) or a scheme and an authority. Query and fragment do not count. -/
theorem C112_decision {bad : List Char → Bool} {p : UriParts} (h : p.WellFormed) (hb : lonelyBracket (p.authority.getD []) = false) (hn : bad (p.authority.getD []) = false) :
    isValidUri bad (String.ofList p.text) = true ↔
      (p.path ≠ [] ∧ ¬ ((p.scheme.getD []).map Char.toLower ∈ usesParams ∧ '/' ∉ p.path ∧ ∃ r, p.path = ';' :: r)) ∨
      (p.scheme ≠ none ∧ ∃ a, p.authority = some a ∧ a ≠ []) := by
  unfold isValidUri
  rw [String.toList_ofList, C112_split h hb hn]
  simp only [Bool.or_eq_true, Bool.and_eq_true, decide_eq_true_eq, ne_eq, decide_not, Bool.not_eq_true', decide_eq_false_iff_not]
  refine or_congr ?_ (and_congr ?_ ?_)
  · unfold parsePath
    by_cases hu : (p.scheme.getD []).map Char.toLower ∈ usesParams ∧ ';' ∈ p.path
    · simp only [if_pos hu]
      rw [splitParams_nil]
      simp only [hu.1, true_and, not_or]
    · simp only [if_neg hu]
      constructor
      · intro hp
        refine ⟨hp, ?_⟩
        rintro ⟨h1, -, r, h2⟩
        exact hu ⟨h1, by rw [h2]; simp⟩
      · exact fun x => x.1
  · cases hs : p.scheme with
    | none => simp
    | some s =>
      obtain ⟨c, t, rfl, -⟩ := h.scheme s hs
      simp
  · cases ha : p.authority with
    | none => simp
    | some a => simp

/-- Every absolute URI with an authority passes, whatever its path, query and fragment. -/
theorem C112_absolute_partial {bad : List Char → Bool} {p : UriParts} (h : p.WellFormed) {s a : List Char} (hs : p.scheme = some s) (ha : p.authority = some a) (hne : a ≠ [])
    (hb : '[' ∉ a ∧ ']' ∉ a) (hn : bad a = false) : isValidUri bad (String.ofList p.text) = true := by
  refine (C112_decision (bad := bad) h ?_ ?_).2 (.inr ⟨by rw [hs]; simp, a, ha, hne⟩)
  · rw [ha]; simp [lonelyBracket, hb.1, hb.2]
  · rw [ha]; exact hn

/-- C112 fails: a reference to a place in the same document is a URI reference, and no such reference passes. -/
theorem C112_fragment_false (bad : List Char → Bool) {f : List Char} (hf : ∀ c ∈ f, 32 < c.toNat) :
    (∃ p : UriParts, p.WellFormed ∧ p.text = '#' :: f) ∧ isValidUri bad (String.ofList ('#' :: f)) = false := by
  have hw : (⟨none, none, [], none, some f⟩ : UriParts).WellFormed := by
    refine ⟨by simp, by simp, by simp, by simp, by simp, by simp, by simp, ?_⟩
    intro c hc
    simp only [UriParts.text, List.nil_append] at hc
    rcases List.mem_cons.1 hc with rfl | hc
    · decide
    · exact hf c hc
  refine ⟨⟨_, hw, rfl⟩, ?_⟩
  unfold isValidUri
  rw [String.toList_ofList]
  have hc : urlClean ('#' :: f) = '#' :: f := urlClean_visible (hw.visible)
  have hsch : splitScheme ('#' :: f) = ([], '#' :: f) := splitScheme_none (.inl ⟨'#', f, rfl, by decide⟩)
  have hnl : splitNetloc ('#' :: f) = ([], '#' :: f) := splitNetloc_none (by simp)
  unfold urlSplit
  simp only [hc, hsch, hnl]
  by_cases hbad : lonelyBracket [] || bad []
  · rw [if_pos hbad]
  · rw [if_neg hbad]
    simp [parsePath]

/-- C112 fails: every text without the characters `: / ? # ;` that does not begin with a space passes, although a text with a space in it is no URI. -/
theorem C112_words_false {bad : List Char → Bool} (hn : bad [] = false) {c : Char} {w : List Char} (hc : 32 < c.toNat)
    (hw : ∀ d ∈ c :: w, d ≠ ':' ∧ d ≠ '/' ∧ d ≠ '?' ∧ d ≠ '#' ∧ d ≠ ';') :
    isValidUri bad (String.ofList (c :: w)) = true ∧ (' ' ∈ w → ¬ ∃ p : UriParts, p.WellFormed ∧ p.text = c :: w) := by
  constructor
  · have hcl : ∃ w', urlClean (c :: w) = c :: w' ∧ ∀ d ∈ c :: w', d ∈ c :: w := by
      refine ⟨w.filter (fun c => !unsafeChar c), ?_, ?_⟩
      · unfold urlClean
        rw [List.dropWhile_cons_of_neg (by simp only [c0OrSpace, decide_eq_true_eq]; omega), List.filter_cons_of_pos]
        have e1 : c ≠ '\t' := by rintro rfl; exact absurd hc (by decide)
        have e2 : c ≠ '\r' := by rintro rfl; exact absurd hc (by decide)
        have e3 : c ≠ '\n' := by rintro rfl; exact absurd hc (by decide)
        simp [unsafeChar, e1, e2, e3]
      · intro d hd
        rcases List.mem_cons.1 hd with rfl | hd
        · simp
        · exact List.mem_cons_of_mem _ (List.mem_filter.1 hd).1
    obtain ⟨w', e, hsub⟩ := hcl
    have hw' : ∀ d ∈ c :: w', d ≠ ':' ∧ d ≠ '/' ∧ d ≠ '?' ∧ d ≠ '#' ∧ d ≠ ';' := fun d hd => hw d (hsub d hd)
    have hsch : splitScheme (c :: w') = ([], c :: w') := by
      refine splitScheme_none (.inr fun hm => ?_)
      exact (hw' ':' ((List.takeWhile_prefix _).subset hm)).1 rfl
    have hnl : splitNetloc (c :: w') = ([], c :: w') := by
      refine splitNetloc_none ?_
      intro r hr
      exact (hw' '/' (by rw [hr]; simp)).2.1 rfl
    unfold isValidUri
    rw [String.toList_ofList]
    unfold urlSplit
    have hl : lonelyBracket [] = false := rfl
    have t1 : (c :: w').takeWhile (· ≠ '#') = c :: w' := by
      rw [takeWhile_self_iff]; intro d hd; simpa using (hw' d hd).2.2.2.1
    have t2 : (c :: w').takeWhile (· ≠ '?') = c :: w' := by
      rw [takeWhile_self_iff]; intro d hd; simpa using (hw' d hd).2.2.1
    simp only [e, hsch, hnl, hl, hn, t1, t2]
    have hp : parsePath ⟨[], [], c :: w'⟩ = c :: w' := by
      unfold parsePath
      rw [if_neg]
      rintro ⟨-, h⟩
      exact (hw' ';' h).2.2.2.2 rfl
    simp [hp]
  · rintro hsp ⟨p, hp, e⟩
    have := hp.visible ' ' (by rw [e]; exact List.mem_cons_of_mem _ hsp)
    exact absurd this (by decide)

/-- C112 fails: so a relationship between facts and footnotes keeps any words as its role, without a report. -/
theorem C112_role_false {bad : List Char → Bool} (hn : bad [] = false) {c : Char} {w : List Char} (hc : 32 < c.toNat)
    (hw : ∀ d ∈ c :: w, d ≠ ':' ∧ d ≠ '/' ∧ d ≠ '?' ∧ d ≠ '#' ∧ d ≠ ';') (dflt err : String) :
    roleOr (isValidUri bad) dflt err (some (String.ofList (c :: w))) = (String.ofList (c :: w), []) := by
  have hne : String.ofList (c :: w) ≠ "" := by
    intro h
    have := congrArg String.toList h
    simp at this
  have ht : truthy (some (String.ofList (c :: w))) = some (String.ofList (c :: w)) := by
    simp [truthy, hne]
  unfold roleOr
  simp only [ht, (C112_words_false hn hc hw).1, if_true]

/-- A role of US-GAAP, taken apart: it meets the hypotheses of `C112_split` and passes. -/
example : isValidUri (fun _ => false) "http://fasb.org/us-gaap/role?x=1#a" = true := by decide +kernel

example : (⟨some "http".toList, some "fasb.org".toList, "/role".toList, some "x=1".toList, some "a".toList⟩ : UriParts).WellFormed := by
  refine ⟨?_, ?_, by decide, ?_, fun _ => .inr ⟨_, rfl⟩, by simp, by simp, by decide⟩
  · intro s hs
    injection hs with hs
    subst hs
    exact ⟨'h', "ttp".toList, rfl, .inl ⟨by decide, by decide⟩, by intro d hd; simp at hd; rcases hd with rfl | rfl <;> exact .inl (.inl ⟨by decide, by decide⟩)⟩
  · intro a ha
    injection ha with ha
    subst ha
    decide
  · intro q hq
    injection hq with hq
    subst hq
    decide

/-- The words of a careless author pass as well; a lone fragment and a broken authority do not. -/
example : isValidUri (fun _ => false) "see the notes" = true ∧ isValidUri (fun _ => false) "#note" = false ∧ isValidUri (fun _ => false) "http://[a/b" = false := by decide +kernel

end Brel
