import Verif.Spec.Loader
import Verif.Lemmas.Loader
import Verif.Props.Schema

/-! References to other documents (C87). -/

namespace Brel

theorem isQuote_iff (c : Char) : isQuote c = true ↔ c ∈ ['\'', '"'] := by
  unfold isQuote
  simp

theorem unquoted_iff (v : List Char) : ('\'' ∉ v ∧ '"' ∉ v) ↔ ∀ c ∈ v, (!isQuote c) = true := by
  constructor
  · rintro ⟨h1, h2⟩ c hc
    cases hq : isQuote c with
    | false => rfl
    | true =>
      rcases List.mem_cons.1 ((isQuote_iff c).1 hq) with h | h
      · exact absurd (by rw [← h]; exact hc) h1
      · exact absurd (by rw [← List.mem_singleton.1 h]; exact hc) h2
  · intro h
    exact ⟨fun hm => absurd (h _ hm) (by decide), fun hm => absurd (h _ hm) (by decide)⟩

theorem split_quote : ∀ w : List Char, (∀ c ∈ w, (!isQuote c) = true) ∨ ∃ a x b, w = a ++ x :: b ∧ (∀ c ∈ a, (!isQuote c) = true) ∧ isQuote x = true
  | [] => Or.inl (by intro c hc; cases hc)
  | c :: w => by
    cases hc : isQuote c with
    | true => exact Or.inr ⟨[], c, w, rfl, (by intro c hc; cases hc), hc⟩
    | false =>
      rcases split_quote w with h | ⟨a, x, b, rfl, h1, h2⟩
      · exact Or.inl (List.forall_mem_cons.2 ⟨by rw [hc]; rfl, h⟩)
      · exact Or.inr ⟨c :: a, x, b, rfl, List.forall_mem_cons.2 ⟨by rw [hc]; rfl, h1⟩, h2⟩

theorem take_quote {a : List Char} {x : Char} (b : List Char) (h1 : ∀ c ∈ a, (!isQuote c) = true) (h2 : isQuote x = true) :
    (a ++ x :: b).takeWhile (fun c => !isQuote c) = a ∧ (a ++ x :: b).dropWhile (fun c => !isQuote c) = x :: b := by
  induction a with
  | nil => simp [h2]
  | cons c a ih =>
    obtain ⟨hc, ha⟩ := List.forall_mem_cons.1 h1
    obtain ⟨i1, i2⟩ := ih ha
    rw [List.cons_append, List.takeWhile_cons, List.dropWhile_cons, hc, if_pos rfl, if_pos rfl, i1, i2]
    exact ⟨rfl, rfl⟩

theorem take_unquoted {w : List Char} (h : ∀ c ∈ w, (!isQuote c) = true) : w.takeWhile (fun c => !isQuote c) = w ∧ w.dropWhile (fun c => !isQuote c) = [] := by
  induction w with
  | nil => exact ⟨rfl, rfl⟩
  | cons c w ih =>
    obtain ⟨hc, ha⟩ := List.forall_mem_cons.1 h
    obtain ⟨i1, i2⟩ := ih ha
    rw [List.takeWhile_cons, List.dropWhile_cons, hc, if_pos rfl, if_pos rfl, i1, i2]
    exact ⟨rfl, rfl⟩

/-- The quoted value at the beginning. -/
theorem matchQuoted_written (q : Char) (v : List Char) (q' : Char) (b : List Char) (hq : q ∈ ['\'', '"']) (hq' : q' ∈ ['\'', '"']) (hv : v ≠ []) (hi : '\'' ∉ v ∧ '"' ∉ v) :
    matchQuoted (q :: (v ++ q' :: b)) = some v := by
  unfold matchQuoted
  dsimp only
  obtain ⟨h1, h2⟩ := take_quote b ((unquoted_iff v).1 hi) ((isQuote_iff q').2 hq')
  rw [if_pos ((isQuote_iff q).2 hq), h1, h2, if_pos ⟨hv, List.cons_ne_nil _ _⟩]

theorem matchQuoted_some {s v : List Char} (h : matchQuoted s = some v) : ∃ q q' b, s = q :: (v ++ q' :: b) ∧ q ∈ ['\'', '"'] ∧ q' ∈ ['\'', '"'] ∧ v ≠ [] ∧ '\'' ∉ v ∧ '"' ∉ v := by
  cases s with
  | nil => cases h
  | cons q s =>
    unfold matchQuoted at h
    dsimp only at h
    by_cases hq : isQuote q = true
    · rw [if_pos hq] at h
      rcases split_quote s with hs | ⟨a, x, b, rfl, h1, h2⟩
      · rw [(take_unquoted hs).2, if_neg (by rintro ⟨_, h⟩; exact h rfl)] at h
        cases h
      · obtain ⟨e1, e2⟩ := take_quote b h1 h2
        rw [e1, e2] at h
        by_cases ha : a = []
        · rw [if_neg (by rintro ⟨h, _⟩; exact h ha)] at h; cases h
        · rw [if_pos ⟨ha, List.cons_ne_nil _ _⟩] at h
          cases h
          exact ⟨q, x, b, rfl, (isQuote_iff q).1 hq, (isQuote_iff x).1 h2, ha, (unquoted_iff v).2 h1⟩
    · rw [if_neg hq] at h; cases h

def Written.found (w : Written) : Bool × List Char := (decide (w.kind = .href), w.value)

theorem matchReference_written (w : Written) (b : List Char) : matchReference (w.text ++ b) = some w.found := by
  obtain ⟨k, q, v, q', hq, hv, hi⟩ := w
  unfold Written.text Written.found matchReference
  dsimp only
  have h := matchQuoted_written q v q' b hq.1 hq.2 hv hi
  have e : k.text ++ q :: (v ++ [q']) ++ b = k.text ++ (q :: (v ++ q' :: b)) := by simp
  rw [e]
  cases k with
  | href =>
    have hp : startsWith (RefKind.href.text ++ q :: (v ++ q' :: b)) ":href=".toList = true := (startsWith_prefix _ _).2 ⟨_, rfl⟩
    rw [if_pos hp, show (RefKind.href.text ++ q :: (v ++ q' :: b)).drop 6 = q :: (v ++ q' :: b) from rfl, h]
    rfl
  | location =>
    have hn : ¬ startsWith (RefKind.location.text ++ q :: (v ++ q' :: b)) ":href=".toList = true := by
      rw [startsWith_prefix]
      rintro ⟨t, ht⟩
      have := congrArg List.head? ht
      exact absurd (show some ':' = some 's' from this) (by decide)
    have hp : startsWith (RefKind.location.text ++ q :: (v ++ q' :: b)) "schemaLocation=".toList = true := (startsWith_prefix _ _).2 ⟨_, rfl⟩
    rw [if_neg hn, if_pos hp, show (RefKind.location.text ++ q :: (v ++ q' :: b)).drop 15 = q :: (v ++ q' :: b) from rfl, h]
    rfl

theorem drop_word (t w : List Char) (n : Nat) (h : w.length = n) : (w ++ t).drop n = t := by rw [← h, List.drop_left]

theorem matchReference_some {s : List Char} {m : Bool × List Char} (h : matchReference s = some m) : ∃ (w : Written) (b : List Char), s = w.text ++ b ∧ m = w.found := by
  unfold matchReference at h
  by_cases h1 : startsWith s ":href=".toList = true
  · rw [if_pos h1] at h
    obtain ⟨v, hv, rfl⟩ := Option.map_eq_some_iff.1 h
    obtain ⟨q, q', b, e, hq, hq', hne, hi⟩ := matchQuoted_some hv
    obtain ⟨t, rfl⟩ := (startsWith_prefix _ _).1 h1
    rw [drop_word t ":href=".toList 6 (by decide)] at e
    exact ⟨⟨.href, q, v, q', ⟨hq, hq'⟩, hne, hi⟩, b, by rw [e, Written.text, List.append_assoc]; simp only [List.cons_append, List.append_assoc, List.nil_append]; rfl, rfl⟩
  · rw [if_neg h1] at h
    by_cases h2 : startsWith s "schemaLocation=".toList = true
    · rw [if_pos h2] at h
      obtain ⟨v, hv, rfl⟩ := Option.map_eq_some_iff.1 h
      obtain ⟨q, q', b, e, hq, hq', hne, hi⟩ := matchQuoted_some hv
      obtain ⟨t, rfl⟩ := (startsWith_prefix _ _).1 h2
      rw [drop_word t "schemaLocation=".toList 15 (by decide)] at e
      exact ⟨⟨.location, q, v, q', ⟨hq, hq'⟩, hne, hi⟩, b, by rw [e, Written.text, List.append_assoc]; simp only [List.cons_append, List.append_assoc, List.nil_append]; rfl, rfl⟩
    · rw [if_neg h2] at h; cases h

theorem text_length (k : RefKind) : k.text.length = if decide (k = .href) = true then 6 else 15 := by cases k <;> decide

theorem matchLength_found (w : Written) : matchLength w.found = w.text.length := by
  obtain ⟨k, q, v, q', hq, hv, hi⟩ := w
  unfold matchLength Written.found Written.text
  dsimp only
  rw [List.length_append, text_length, List.length_cons, List.length_append, List.length_singleton]
  rfl

theorem findReferences_skip : ∀ (a s : List Char), findReferences (a ++ s) a.length = findReferences s 0
  | [], s => rfl
  | c :: a, s => by
    rw [List.cons_append, List.length_cons, findReferences]
    exact findReferences_skip a s

theorem findReferences_written (w : Written) (b : List Char) : findReferences (w.text ++ b) 0 = w.found :: findReferences b 0 := by
  have hm := matchReference_written w b
  have hl := matchLength_found w
  cases ht : w.text with
  | nil =>
    rw [ht, List.length_nil] at hl
    unfold matchLength at hl
    omega
  | cons c t =>
    rw [ht] at hm hl
    rw [List.cons_append, findReferences]
    rw [List.cons_append] at hm
    rw [hm]
    dsimp only
    rw [hl, List.length_cons, Nat.add_sub_cancel, findReferences_skip]


/-- The beginning of a reference cannot reach from one text into another that begins with one. -/
theorem prefix_text (k : RefKind) (c : Char) (a t : List Char) (ht : ∀ x ∈ t.head?, x = ':' ∨ x = 's') (h : k.text <+: c :: a ++ t) : k.text <+: c :: a := by
  obtain ⟨r, hr⟩ := h
  rcases List.append_eq_append_iff.1 hr with ⟨m, h1, _⟩ | ⟨m, h1, h2⟩
  · exact ⟨m, h1.symm⟩
  · cases m with
    | nil => exact ⟨[], by rw [h1]; simp⟩
    | cons x m =>
      exfalso
      rw [List.cons_append] at h2
      have hx := ht x (by rw [h2]; rfl)
      have hmem : x ∈ (k.text).tail := by rw [h1]; simp
      cases k <;> rcases hx with rfl | rfl <;> exact absurd hmem (by decide)

theorem drop_text (k : RefKind) {a : List Char} (t : List Char) (h : k.text <+: a) : ∃ r, a = k.text ++ r ∧ a ++ t = k.text ++ (r ++ t) := by
  obtain ⟨r, rfl⟩ := h
  exact ⟨r, rfl, by rw [List.append_assoc]⟩

theorem matchQuoted_append (r t : List Char) (ht : ∀ x ∈ t.head?, x = ':' ∨ x = 's') (hc : ∀ q w, q ∈ ['\'', '"'] → r = q :: w → '\'' ∈ w ∨ '"' ∈ w) :
    matchQuoted (r ++ t) = matchQuoted r := by
  cases r with
  | nil =>
    cases t with
    | nil => rfl
    | cons x t =>
      have hx : isQuote x = false := by rcases ht x rfl with rfl | rfl <;> decide
      unfold matchQuoted
      rw [List.nil_append]
      dsimp only
      rw [hx]
      rfl
  | cons q w =>
    rw [List.cons_append]
    unfold matchQuoted
    dsimp only
    by_cases hq : isQuote q = true
    · rw [if_pos hq, if_pos hq]
      have hm := hc q w ((isQuote_iff q).1 hq) rfl
      rcases split_quote w with hw | ⟨a, x, b, rfl, h1, h2⟩
      · have := (unquoted_iff w).2 hw
        exact absurd hm (by rintro (h | h); exact this.1 h; exact this.2 h)
      · obtain ⟨e1, e2⟩ := take_quote b h1 h2
        obtain ⟨e3, e4⟩ := take_quote (b ++ t) h1 h2
        rw [List.append_assoc, List.cons_append, e1, e2, e3, e4]
        simp
    · rw [if_neg hq, if_neg hq]

theorem matchReference_append (c : Char) (a t : List Char) (ht : ∀ x ∈ t.head?, x = ':' ∨ x = 's') (hc : Closed (c :: a)) : matchReference (c :: a ++ t) = matchReference (c :: a) := by
  have hk : ∀ k : RefKind, startsWith (c :: a ++ t) k.text = startsWith (c :: a) k.text := by
    intro k
    rw [Bool.eq_iff_iff, startsWith_prefix, startsWith_prefix]
    exact ⟨prefix_text k c a t ht, fun h => h.trans (List.prefix_append _ _)⟩
  have hq : ∀ (k : RefKind) (n : Nat), k.text.length = n → k.text <+: c :: a → matchQuoted ((c :: a ++ t).drop n) = matchQuoted ((c :: a).drop n) := by
    intro k n hn h
    obtain ⟨r, h1, h2⟩ := drop_text k t h
    rw [h2, h1, ← hn, List.drop_left, List.drop_left]
    exact matchQuoted_append r t ht (fun q w hq e => hc [] k q w hq (by rw [h1, e]; rfl))
  have e1 := hk .href
  have e2 := hk .location
  unfold RefKind.text at e1 e2
  dsimp only at e1 e2
  unfold matchReference
  rw [e1, e2]
  by_cases h1 : startsWith (c :: a) ":href=".toList = true
  · rw [if_pos h1, if_pos h1, hq .href 6 rfl ((startsWith_prefix _ _).1 h1)]
  · rw [if_neg h1, if_neg h1]
    by_cases h2 : startsWith (c :: a) "schemaLocation=".toList = true
    · rw [if_pos h2, if_pos h2, hq .location 15 rfl ((startsWith_prefix _ _).1 h2)]
    · rw [if_neg h2, if_neg h2]

theorem findReferences_append (t : List Char) (ht : ∀ x ∈ t.head?, x = ':' ∨ x = 's') : ∀ (a : List Char) (n : Nat), n ≤ a.length → Closed a →
    findReferences (a ++ t) n = findReferences a n ++ findReferences t 0
  | [], n, hn, _ => by
    rw [Nat.le_zero.1 hn]
    rfl
  | c :: a, n + 1, hn, hc => by
    rw [List.cons_append, findReferences, findReferences]
    exact findReferences_append t ht a n (Nat.le_of_succ_le_succ hn) (fun p k q w hq e => hc (c :: p) k q w hq (by rw [e]; rfl))
  | c :: a, 0, _, hc => by
    have hc' : Closed a := fun p k q w hq e => hc (c :: p) k q w hq (by rw [e]; rfl)
    have hm := matchReference_append c a t ht hc
    rw [List.cons_append] at hm
    rw [List.cons_append, findReferences, findReferences, hm]
    cases h : matchReference (c :: a) with
    | none => exact findReferences_append t ht a 0 (Nat.zero_le _) hc'
    | some m =>
      dsimp only
      obtain ⟨w, b, e, rfl⟩ := matchReference_some h
      have hl : matchLength w.found - 1 ≤ a.length := by
        rw [matchLength_found]
        have := congrArg List.length e
        simp only [List.length_cons, List.length_append] at this
        omega
      rw [findReferences_append t ht a _ hl hc']
      rfl

theorem findReferences_mem : ∀ (s : List Char) (n : Nat) (m : Bool × List Char), m ∈ findReferences s n → ∃ (a : List Char) (w : Written) (b : List Char), s = a ++ (w.text ++ b) ∧ m = w.found
  | [], _, _, h => by cases h
  | c :: s, n + 1, m, h => by
    rw [findReferences] at h
    obtain ⟨a, w, b, rfl, e⟩ := findReferences_mem s n m h
    exact ⟨c :: a, w, b, rfl, e⟩
  | c :: s, 0, m, h => by
    rw [findReferences] at h
    cases hm : matchReference (c :: s) with
    | none =>
      rw [hm] at h
      obtain ⟨a, w, b, rfl, e⟩ := findReferences_mem s 0 m h
      exact ⟨c :: a, w, b, rfl, e⟩
    | some m' =>
      rw [hm] at h
      rcases List.mem_cons.1 h with h | h
      · subst h
        obtain ⟨w, b, e1, e2⟩ := matchReference_some hm
        exact ⟨[], w, b, e1, e2⟩
      · obtain ⟨a, w, b, rfl, e⟩ := findReferences_mem s _ m h
        exact ⟨c :: a, w, b, rfl, e⟩

/-! ## The named document -/

theorem splitHash_one (a b : List Char) (ha : '#' ∉ a) (hb : '#' ∉ b) : splitHash (String.ofList (a ++ '#' :: b)) = .ok (String.ofList a, String.ofList b) := by
  unfold splitHash
  dsimp only
  rw [String.toList_ofList, (takeWhile_hash a b ha).1, (takeWhile_hash a b ha).2]
  dsimp only
  rw [if_neg hb]

theorem splitHash_two (a b : List Char) (ha : '#' ∉ a) (hb : '#' ∈ b) : splitHash (String.ofList (a ++ '#' :: b)) = .error .valueError := by
  unfold splitHash
  dsimp only
  rw [String.toList_ofList, (takeWhile_hash a b ha).1, (takeWhile_hash a b ha).2]
  dsimp only
  rw [if_pos hb]

theorem first_hash {v : List Char} (h : '#' ∈ v) : ∃ a b, v = a ++ '#' :: b ∧ '#' ∉ a := by
  induction v with
  | nil => cases h
  | cons c v ih =>
    by_cases hc : c = '#'
    · subst hc; exact ⟨[], v, rfl, by intro h; cases h⟩
    · obtain ⟨a, b, rfl, ha⟩ := ih ((List.mem_cons.1 h).resolve_left (Ne.symm hc))
      exact ⟨c :: a, b, rfl, by intro h; rcases List.mem_cons.1 h with h | h; exact hc h.symm; exact ha h⟩

theorem append_hash {a b c d : List Char} (ha : '#' ∉ a) (hc : '#' ∉ c) (h : a ++ '#' :: b = c ++ '#' :: d) : a = c ∧ b = d := by
  have h1 := (takeWhile_hash a b ha)
  have h2 := (takeWhile_hash c d hc)
  rw [h] at h1
  refine ⟨h1.1.symm.trans h2.1, ?_⟩
  have := h1.2.symm.trans h2.2
  exact (List.cons.inj this).2

/-- The last word, or none if there are only spaces. -/
theorem lastWord_cases (v : List Char) : (lastWord v = .error .indexError ∧ (∀ c ∈ v, pySpace c = true)) ∨ ∃ r, lastWord v = .ok r ∧ Written.names.LastWord v r := by
  have hd : ∀ l : List Char, (∀ c ∈ l, pySpace c = true) ∨ ∃ a x b, l = a ++ x :: b ∧ (∀ c ∈ a, pySpace c = true) ∧ pySpace x = false := by
    intro l
    induction l with
    | nil => exact Or.inl (by intro c hc; cases hc)
    | cons c l ih =>
      cases hc : pySpace c with
      | false => exact Or.inr ⟨[], c, l, rfl, (by intro c hc; cases hc), hc⟩
      | true =>
        rcases ih with h | ⟨a, x, b, rfl, h1, h2⟩
        · exact Or.inl (List.forall_mem_cons.2 ⟨hc, h⟩)
        · exact Or.inr ⟨c :: a, x, b, rfl, List.forall_mem_cons.2 ⟨hc, h1⟩, h2⟩
  unfold lastWord
  dsimp only
  rcases hd v.reverse with h | ⟨a, x, b, e, h1, h2⟩
  · left
    have : v.reverse.dropWhile pySpace = [] := by
      revert h
      generalize v.reverse = l
      intro h
      induction l with
      | nil => rfl
      | cons c l ih =>
        obtain ⟨hc, hl⟩ := List.forall_mem_cons.1 h
        rw [List.dropWhile_cons, if_pos hc]
        exact ih hl
    rw [this]
    exact ⟨rfl, fun c hc => h c (List.mem_reverse.2 hc)⟩
  · right
    have e1 : v.reverse.dropWhile pySpace = x :: b := by
      rw [e]
      clear e
      induction a with
      | nil => simp [h2]
      | cons c a ih =>
        obtain ⟨hc, ha⟩ := List.forall_mem_cons.1 h1
        rw [List.cons_append, List.dropWhile_cons, if_pos hc]
        exact ih ha
    rw [e1]
    have e2 : (x :: b).takeWhile (fun c => !pySpace c) = x :: b.takeWhile (fun c => !pySpace c) := by simp [h2]
    have e3 : v = ((x :: b).dropWhile (fun c => !pySpace c)).reverse ++ ((x :: b).takeWhile (fun c => !pySpace c)).reverse ++ a.reverse := by
      rw [← List.reverse_append, List.takeWhile_append_dropWhile, ← List.reverse_append, ← e, List.reverse_reverse]
    rw [if_neg (by rw [e2]; exact List.cons_ne_nil _ _)]
    refine ⟨_, rfl, _, _, e3, fun c hc => h1 c (List.mem_reverse.1 hc), ?_, ?_, ?_⟩
    · rw [e2]; simp
    · intro c hc
      have : ∀ l : List Char, ∀ c ∈ l.takeWhile (fun c => !pySpace c), pySpace c = false := by
        intro l
        induction l with
        | nil => intro c hc; cases hc
        | cons d l ih =>
          intro c hc
          rw [List.takeWhile_cons] at hc
          cases hd : pySpace d with
          | true => rw [hd] at hc; cases hc
          | false =>
            rw [hd] at hc
            rcases List.mem_cons.1 hc with h | h
            · rw [h]; exact hd
            · exact ih c h
      exact this _ c (List.mem_reverse.1 hc)
    · intro c hc
      rw [List.getLast?_reverse] at hc
      have : ∀ l : List Char, ∀ c ∈ (l.dropWhile (fun c => !pySpace c)).head?, pySpace c = true := by
        intro l
        induction l with
        | nil => intro c hc; cases hc
        | cons d l ih =>
          intro c hc
          rw [List.dropWhile_cons] at hc
          cases hd : pySpace d with
          | true => rw [hd] at hc; cases hc; exact hd
          | false => rw [hd] at hc; exact ih c hc
      exact this _ c hc

theorem dropWhile_every {p : Char → Bool} {a : List Char} (b : List Char) (h : ∀ c ∈ a, p c = true) : (a ++ b).dropWhile p = b.dropWhile p := by
  induction a with
  | nil => rfl
  | cons c a ih =>
    obtain ⟨hc, ha⟩ := List.forall_mem_cons.1 h
    rw [List.cons_append, List.dropWhile_cons, if_pos hc]
    exact ih ha

theorem takeWhile_stop {p : Char → Bool} {a b : List Char} (h : ∀ c ∈ a, p c = true) (hb : ∀ c ∈ b.head?, p c = false) : (a ++ b).takeWhile p = a := by
  induction a with
  | nil =>
    cases b with
    | nil => rfl
    | cons c b => rw [List.nil_append, List.takeWhile_cons, hb c rfl]; rfl
  | cons c a ih =>
    obtain ⟨hc, ha⟩ := List.forall_mem_cons.1 h
    rw [List.cons_append, List.takeWhile_cons, if_pos hc, ih ha]

theorem lastWord_of {v r : List Char} (h : Written.names.LastWord v r) : lastWord v = .ok r := by
  obtain ⟨p, q, rfl, h1, h2, h3, h4⟩ := h
  unfold lastWord
  dsimp only
  have hr : ∀ c ∈ r.reverse, pySpace c = false := fun c hc => h3 c (List.mem_reverse.1 hc)
  have e1 : (p ++ r ++ q).reverse.dropWhile pySpace = r.reverse ++ p.reverse := by
    rw [List.reverse_append, dropWhile_every _ (fun c hc => h1 c (List.mem_reverse.1 hc)), List.reverse_append]
    cases hc : r.reverse with
    | nil => exact absurd (List.reverse_eq_nil_iff.1 hc) h2
    | cons x l =>
      rw [List.cons_append, List.dropWhile_cons, if_neg (by rw [hr x (by rw [hc]; simp)]; decide)]
  rw [e1, takeWhile_stop (fun c hc => by rw [hr c hc]; rfl) (fun c hc => by rw [List.head?_reverse] at hc; rw [h4 c hc]; rfl)]
  rw [if_neg (fun e => h2 (List.reverse_eq_nil_iff.1 e)), List.reverse_reverse]

theorem referenceOf_names (w : Written) (r : String) : referenceOf w.found = .ok (some r) ↔ w.names r := by
  obtain ⟨k, q, v, q', hq, hv, hi⟩ := w
  unfold referenceOf Written.found Written.names
  dsimp only
  cases k with
  | href =>
    rw [if_pos (by simp)]
    dsimp only
    by_cases hh : '#' ∈ v
    · rw [if_pos hh]
      obtain ⟨a, b, rfl, ha⟩ := first_hash hh
      by_cases hb : '#' ∈ b
      · rw [splitHash_two a b ha hb]
        constructor
        · intro h; cases h
        · rintro (⟨h, _⟩ | ⟨f, e, h1, h2, _⟩)
          · exact absurd hh h
          · rw [(append_hash ha h1 e).2] at hb; exact absurd hb h2
      · rw [splitHash_one a b ha hb]
        show (Except.ok (if String.ofList a = "" then none else some (String.ofList a)) : Except PyErr _) = _ ↔ _
        by_cases he : String.ofList a = ""
        · rw [if_pos he]
          constructor
          · intro h; cases h
          · rintro (⟨h, _⟩ | ⟨f, e, h1, h2, h3⟩)
            · exact absurd hh h
            · exact absurd (by rw [← he, (append_hash ha h1 e).1, String.ofList_toList]) h3
        · rw [if_neg he]
          constructor
          · intro h
            cases h
            exact Or.inr ⟨b, by rw [String.toList_ofList], by rw [String.toList_ofList]; exact ha, hb, he⟩
          · rintro (⟨h, _⟩ | ⟨f, e, h1, h2, h3⟩)
            · exact absurd hh h
            · rw [(append_hash ha h1 e).1, String.ofList_toList]
    · rw [if_neg hh]
      constructor
      · intro h; cases h; exact Or.inl ⟨hh, String.toList_ofList⟩
      · rintro (⟨_, h⟩ | ⟨f, e, _⟩)
        · rw [← h, String.ofList_toList]
        · exact absurd (by rw [e]; simp) hh
  | location =>
    rw [if_neg (by simp)]
    dsimp only
    constructor
    · intro h
      rcases lastWord_cases v with ⟨h1, _⟩ | ⟨r', h1, h2⟩
      · rw [h1] at h; cases h
      · rw [h1] at h
        cases h
        rw [String.toList_ofList]
        exact h2
    · intro h
      rw [lastWord_of h]
      show Except.ok (some (String.ofList r.toList)) = _
      rw [String.ofList_toList]

theorem referenceOf_faulty (w : Written) (e : PyErr) : referenceOf w.found = .error e ↔ w.faulty e := by
  obtain ⟨k, q, v, q', hq, hv, hi⟩ := w
  unfold referenceOf Written.found Written.faulty
  dsimp only
  cases k with
  | href =>
    rw [if_pos (by simp)]
    dsimp only
    by_cases hh : '#' ∈ v
    · rw [if_pos hh]
      obtain ⟨a, b, rfl, ha⟩ := first_hash hh
      by_cases hb : '#' ∈ b
      · rw [splitHash_two a b ha hb]
        obtain ⟨b1, b2, rfl, _⟩ := first_hash hb
        constructor
        · intro h; cases h; exact ⟨rfl, a, b1, b2, by simp⟩
        · rintro ⟨rfl, _⟩; rfl
      · rw [splitHash_one a b ha hb]
        constructor
        · intro h; cases h
        · rintro ⟨_, x, y, z, h⟩
          exfalso
          have hc := congrArg (List.count '#') h
          simp only [List.count_append, List.count_cons_self, List.count_eq_zero.2 ha, List.count_eq_zero.2 hb] at hc
          omega
    · rw [if_neg hh]
      constructor
      · intro h; cases h
      · rintro ⟨_, x, y, z, h⟩; exact absurd (by rw [h]; simp) hh
  | location =>
    rw [if_neg (by simp)]
    dsimp only
    rcases lastWord_cases v with ⟨h1, h2⟩ | ⟨r', h1, p, q, e', _, h3, h4, _⟩
    · rw [h1]
      constructor
      · intro h; cases h; exact ⟨rfl, h2⟩
      · rintro ⟨rfl, _⟩; rfl
    · rw [h1]
      constructor
      · intro h; cases h
      · rintro ⟨_, h⟩
        obtain ⟨x, l, hx⟩ := List.exists_cons_of_ne_nil h3
        have h5 := h4 x (by rw [hx]; simp)
        rw [h x (by rw [e', hx]; simp)] at h5
        cases h5

/-! ## All references -/

theorem refs_fold (ms : List (Bool × List Char)) : ∀ acc : List String, acc.Nodup →
    match ms.foldlM (fun l m => do
      match ← referenceOf m with
      | some r => return appendNew l r
      | none => return l) acc with
    | .ok l => l.Nodup ∧ (∀ r, r ∈ l ↔ r ∈ acc ∨ ∃ m ∈ ms, referenceOf m = .ok (some r)) ∧ ∀ m ∈ ms, ∀ e, referenceOf m ≠ .error e
    | .error e => ∃ m ∈ ms, referenceOf m = .error e := by
  induction ms with
  | nil => intro acc h; exact ⟨h, fun r => ⟨Or.inl, fun h => h.elim id (by rintro ⟨m, hm, _⟩; cases hm)⟩, by intro m hm; cases hm⟩
  | cons m ms ih =>
    intro acc h
    rw [List.foldlM_cons]
    cases hm : referenceOf m with
    | error e => exact ⟨m, by simp, hm⟩
    | ok o =>
      have step : ∀ acc' : List String, acc'.Nodup → (∀ r, r ∈ acc' ↔ r ∈ acc ∨ o = some r) →
          match ms.foldlM (fun l m => do
            match ← referenceOf m with
            | some r => return appendNew l r
            | none => return l) acc' with
          | .ok l => l.Nodup ∧ (∀ r, r ∈ l ↔ r ∈ acc ∨ ∃ m' ∈ m :: ms, referenceOf m' = .ok (some r)) ∧ ∀ m' ∈ m :: ms, ∀ e, referenceOf m' ≠ .error e
          | .error e => ∃ m' ∈ m :: ms, referenceOf m' = .error e := by
        intro acc' h' hacc
        have := ih acc' h'
        cases hf : ms.foldlM (fun l m => do
            match ← referenceOf m with
            | some r => return appendNew l r
            | none => return l) acc' with
        | error e =>
          rw [hf] at this
          obtain ⟨m', h1, h2⟩ := this
          exact ⟨m', by simp [h1], h2⟩
        | ok l =>
          rw [hf] at this
          obtain ⟨h1, h2, h3⟩ := this
          refine ⟨h1, ?_, ?_⟩
          · intro r
            rw [h2 r, hacc r, or_assoc]
            simp only [List.mem_cons, exists_eq_or_imp, hm, Except.ok.injEq]
          · intro m' hm' e
            rcases List.mem_cons.1 hm' with rfl | hm'
            · rw [hm]; intro h; cases h
            · exact h3 m' hm' e
      cases o with
      | none => exact step acc h (fun r => by simp)
      | some r0 =>
        refine step (appendNew acc r0) ?_ ?_
        · unfold appendNew
          split
          · exact h
          · rename_i hn
            exact List.nodup_append.2 ⟨h, by simp, by rintro a ha b hb rfl; rw [List.mem_singleton] at hb; rw [hb] at ha; exact hn ha⟩
        · intro r
          rw [mem_appendNew, Option.some.injEq, eq_comm (a := r0)]

theorem extractReferences_cases (content : String) :
    match extractReferences content with
    | .ok l => l.Nodup ∧ (∀ r, r ∈ l ↔ ∃ m ∈ findReferences content.toList 0, referenceOf m = .ok (some r)) ∧ ∀ m ∈ findReferences content.toList 0, ∀ e, referenceOf m ≠ .error e
    | .error e => ∃ m ∈ findReferences content.toList 0, referenceOf m = .error e := by
  have h : match extractReferences content with
    | .ok l => l.Nodup ∧ (∀ r, r ∈ l ↔ r ∈ ([] : List String) ∨ ∃ m ∈ findReferences content.toList 0, referenceOf m = .ok (some r)) ∧ ∀ m ∈ findReferences content.toList 0, ∀ e, referenceOf m ≠ .error e
    | .error e => ∃ m ∈ findReferences content.toList 0, referenceOf m = .error e := refs_fold (findReferences content.toList 0) [] List.nodup_nil
  revert h
  cases extractReferences content with
  | error e => exact id
  | ok l => rintro ⟨h1, h2, h3⟩; exact ⟨h1, fun r => by rw [h2 r]; simp, h3⟩

/-- Whether and how the reading fails does not depend on what was found before. -/
theorem refs_fold_error (ms : List (Bool × List Char)) (e : PyErr) : ∀ acc acc' : List String,
    ms.foldlM (fun l m => do
      match ← referenceOf m with
      | some r => return appendNew l r
      | none => return l) acc = .error e →
    ms.foldlM (fun l m => do
      match ← referenceOf m with
      | some r => return appendNew l r
      | none => return l) acc' = .error e := by
  induction ms with
  | nil => intro acc acc' h; cases h
  | cons m ms ih =>
    intro acc acc'
    rw [List.foldlM_cons, List.foldlM_cons]
    cases hm : referenceOf m with
    | error e' => exact id
    | ok o =>
      cases o with
      | none => exact ih acc acc'
      | some r => exact ih (appendNew acc r) (appendNew acc' r)

/-- C87: each reference of a document is written in it, and only once among the references; if the reading fails, a faulty reference is written in it. -/
theorem C87_written (content : String) :
    match extractReferences content with
    | .ok refs => refs.Nodup ∧ ∀ r ∈ refs, ∃ (a : List Char) (w : Written) (b : List Char), content.toList = a ++ (w.text ++ b) ∧ w.names r
    | .error e => ∃ (a : List Char) (w : Written) (b : List Char), content.toList = a ++ (w.text ++ b) ∧ w.faulty e := by
  have := extractReferences_cases content
  cases h : extractReferences content with
  | ok l =>
    rw [h] at this
    obtain ⟨h1, h2, _⟩ := this
    refine ⟨h1, ?_⟩
    intro r hr
    obtain ⟨m, hm, e⟩ := (h2 r).1 hr
    obtain ⟨a, w, b, e1, rfl⟩ := findReferences_mem _ _ m hm
    exact ⟨a, w, b, e1, (referenceOf_names w r).1 e⟩
  | error e =>
    rw [h] at this
    obtain ⟨m, hm, e⟩ := this
    obtain ⟨a, w, b, e1, rfl⟩ := findReferences_mem _ _ m hm
    exact ⟨a, w, b, e1, (referenceOf_faulty w _).1 e⟩

/-- C87 (for a reference that does not begin inside the value of an earlier one): the references of a document are those before the reference, the reference itself and those after it. A
faulty reference makes the reading fail. -/
theorem C87_found_partial (a : String) (w : Written) (b : String) (ha : Closed a.toList) :
    match extractReferences (a ++ String.ofList w.text ++ b) with
    | .ok refs => ∃ ra rb, extractReferences a = .ok ra ∧ extractReferences b = .ok rb ∧ (∀ e, ¬ w.faulty e) ∧ ∀ r, r ∈ refs ↔ r ∈ ra ∨ w.names r ∨ r ∈ rb
    | .error e => extractReferences a = .error e ∨ w.faulty e ∨ extractReferences b = .error e := by
  have hf : findReferences (a ++ String.ofList w.text ++ b).toList 0 = findReferences a.toList 0 ++ w.found :: findReferences b.toList 0 := by
    rw [String.toList_append, String.toList_append, String.toList_ofList, List.append_assoc, findReferences_append _ _ _ 0 (Nat.zero_le _) ha, findReferences_written]
    intro x hx
    obtain ⟨k, q, v, q', hq, hv, hi⟩ := w
    unfold Written.text at hx
    cases k
    · exact Or.inl (Option.some.inj (show some ':' = some x from hx)).symm
    · exact Or.inr (Option.some.inj (show some 's' = some x from hx)).symm
  have hc := extractReferences_cases (a ++ String.ofList w.text ++ b)
  have h1 := extractReferences_cases a
  have h2 := extractReferences_cases b
  rw [hf] at hc
  cases h : extractReferences (a ++ String.ofList w.text ++ b) with
  | ok refs =>
    rw [h] at hc
    obtain ⟨_, c2, c3⟩ := hc
    have ha' : ∃ ra, extractReferences a = .ok ra := by
      cases he : extractReferences a with
      | ok ra => exact ⟨ra, rfl⟩
      | error e => rw [he] at h1; obtain ⟨m, hm, e1⟩ := h1; exact absurd e1 (c3 m (by simp [hm]) e)
    have hb' : ∃ rb, extractReferences b = .ok rb := by
      cases he : extractReferences b with
      | ok ra => exact ⟨ra, rfl⟩
      | error e => rw [he] at h2; obtain ⟨m, hm, e1⟩ := h2; exact absurd e1 (c3 m (by simp [hm]) e)
    obtain ⟨ra, hra⟩ := ha'
    obtain ⟨rb, hrb⟩ := hb'
    rw [hra] at h1
    rw [hrb] at h2
    refine ⟨ra, rb, hra, hrb, fun e he => c3 w.found (by simp) e ((referenceOf_faulty w e).2 he), fun r => ?_⟩
    rw [c2 r, h1.2.1 r, h2.2.1 r, ← referenceOf_names w r]
    constructor
    · rintro ⟨m, hm, e⟩
      rcases List.mem_append.1 hm with hm | hm
      · exact Or.inl ⟨m, hm, e⟩
      · rcases List.mem_cons.1 hm with rfl | hm
        · exact Or.inr (Or.inl e)
        · exact Or.inr (Or.inr ⟨m, hm, e⟩)
    · rintro (⟨m, hm, e⟩ | e | ⟨m, hm, e⟩)
      · exact ⟨m, by simp [hm], e⟩
      · exact ⟨w.found, by simp, e⟩
      · exact ⟨m, by simp [hm], e⟩
  | error e =>
    dsimp only
    unfold extractReferences at h
    rw [hf, List.foldlM_append] at h
    cases he : extractReferences a with
    | error e' =>
      unfold extractReferences at he
      rw [he] at h
      cases h
      exact Or.inl rfl
    | ok ra =>
      unfold extractReferences at he
      rw [he] at h
      right
      dsimp only [bind, Except.bind] at h
      rw [List.foldlM_cons] at h
      cases hw : referenceOf w.found with
      | error e' =>
        rw [hw] at h
        cases h
        exact Or.inl ((referenceOf_faulty w _).1 hw)
      | ok o =>
        rw [hw] at h
        right
        cases o with
        | none => exact refs_fold_error _ e _ _ h
        | some r => exact refs_fold_error _ e _ _ h

/-! An example: the reference begins outside of quotes. -/

namespace ReferenceExample

def before : String := "<xs:import id='x' schemaLocation='old.xsd'/><link:loc xlink"
def loc : Written := ⟨.href, '"', "b.xsd#id".toList, '"', by decide, by decide, by decide⟩

theorem closed_of_quotes {a : List Char} (h : ∀ t : List Char, t <:+ a → ∀ k : RefKind, k.text <+: t → '\'' ∈ t.drop (k.text.length + 1) ∨ '"' ∈ t.drop (k.text.length + 1)) : Closed a := by
  rintro p k q w hq rfl
  have := h (k.text ++ q :: w) (List.suffix_append _ _) k (List.prefix_append _ _)
  rw [← List.drop_drop, List.drop_left] at this
  exact this

example : Closed before.toList := by
  apply closed_of_quotes
  intro t ht k hk
  have hd : ∀ i ∈ List.range 100, (RefKind.href.text.isPrefixOf (before.toList.drop i) = true → '\'' ∈ before.toList.drop (i + 7)) ∧
      (RefKind.location.text.isPrefixOf (before.toList.drop i) = true → '\'' ∈ before.toList.drop (i + 16)) := by decide +kernel
  obtain ⟨p, hp⟩ := ht
  have e : t = before.toList.drop p.length := by rw [← hp, List.drop_left]
  have hl : p.length ∈ List.range 100 := by
    have := congrArg List.length hp
    rw [List.length_append, show before.toList.length = 59 by decide +kernel] at this
    exact List.mem_range.2 (by omega)
  have hk := List.isPrefixOf_iff_prefix.2 hk
  rw [e] at hk ⊢
  rw [List.drop_drop]
  cases k
  · exact Or.inl ((hd p.length hl).1 hk)
  · exact Or.inl ((hd p.length hl).2 hk)

example : extractReferences (before ++ String.ofList loc.text ++ "/>") = .ok ["old.xsd", "b.xsd"] := by decide +kernel

end ReferenceExample

/-- C87 fails for lists of locations: of several pairs only the last one is read. -/
theorem C87_pairs_false : extractReferences "<x xsi:schemaLocation='http://n1 a.xsd http://n2 b.xsd'/>" = .ok ["b.xsd"] := by decide +kernel

/-- C87 fails for spaces around the equals sign, which XML allows: the reference is not found. -/
theorem C87_spaces_false : extractReferences "<link:loc xlink:href = 'b.xsd'/>" = .ok [] := by decide +kernel

/-- C87 fails for comments: a reference in one is found. -/
theorem C87_comment_false : extractReferences "<!-- <link:loc xlink:href='old.xsd'/> -->" = .ok ["old.xsd"] := by decide +kernel

/-- C87 fails for references to characters: they are not replaced. -/
theorem C87_entity_false : extractReferences "<link:loc xlink:href='http://e/get?a=1&amp;b=2.xsd'/>" = .ok ["http://e/get?a=1&amp;b=2.xsd"] := by decide +kernel

end Brel
