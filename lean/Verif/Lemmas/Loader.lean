import Verif.Model.Loader
import Verif.Lemmas.Py

namespace Brel

/-! ## Splitting and joining -/

theorem splitAtChar_ne_nil (c : Char) (s : List Char) : splitAtChar c s ≠ [] := by
  cases s with
  | nil => simp [splitAtChar]
  | cons x s =>
    unfold splitAtChar
    split
    · simp
    · split <;> simp

theorem splitAtChar_append (c : Char) (a b : List Char) : splitAtChar c (a ++ c :: b) = splitAtChar c a ++ splitAtChar c b := by
  induction a with
  | nil => simp [splitAtChar]
  | cons x a ih =>
    rw [List.cons_append, splitAtChar, splitAtChar]
    by_cases h : x = c
    · rw [if_pos h, if_pos h, ih]; rfl
    · rw [if_neg h, if_neg h, ih]
      cases hs : splitAtChar c a with
      | nil => exact absurd hs (splitAtChar_ne_nil c a)
      | cons p ps => rfl

theorem splitAtChar_none {c : Char} {a : List Char} (h : c ∉ a) : splitAtChar c a = [a] := by
  induction a with
  | nil => rfl
  | cons x a ih =>
    rw [splitAtChar, if_neg (fun e => h (by simp [e])), ih (fun hm => h (by simp [hm]))]

theorem joinWith_cons (c : Char) (p : List Char) (ps : List (List Char)) (h : ps ≠ []) : joinWith c (p :: ps) = p ++ c :: joinWith c ps := by
  cases ps with
  | nil => exact absurd rfl h
  | cons q qs => simp [joinWith, List.intercalate]

theorem joinWith_append (c : Char) (p q : List (List Char)) (hp : p ≠ []) (hq : q ≠ []) : joinWith c (p ++ q) = joinWith c p ++ c :: joinWith c q := by
  induction p with
  | nil => exact absurd rfl hp
  | cons x p ih =>
    cases p with
    | nil => rw [List.singleton_append, joinWith_cons c x q hq]; simp [joinWith, List.intercalate]
    | cons y p =>
      rw [List.cons_append, joinWith_cons c x _ (by simp), ih (by simp), joinWith_cons c x _ (by simp)]
      simp

theorem joinWith_split (c : Char) (s : List Char) : joinWith c (splitAtChar c s) = s := by
  induction s with
  | nil => rfl
  | cons x s ih =>
    rw [splitAtChar]
    by_cases h : x = c
    · rw [if_pos h, joinWith_cons c _ _ (splitAtChar_ne_nil c s), ih, h]; rfl
    · rw [if_neg h]
      cases hs : splitAtChar c s with
      | nil => exact absurd hs (splitAtChar_ne_nil c s)
      | cons p ps =>
        rw [hs] at ih
        dsimp only
        cases ps with
        | nil => rw [← ih]; simp [joinWith, List.intercalate]
        | cons q qs =>
          rw [joinWith_cons c _ _ (by simp)] at ih ⊢
          rw [← ih]; rfl

theorem joinWith_splits (c : Char) (a b : List Char) : joinWith c (splitAtChar c a ++ splitAtChar c b) = a ++ c :: b := by
  rw [joinWith_append c _ _ (splitAtChar_ne_nil c a) (splitAtChar_ne_nil c b), joinWith_split, joinWith_split]

/-! ## Removing -/

theorem startsWith_prefix (s p : List Char) : startsWith s p = true ↔ p <+: s := by
  unfold startsWith; exact List.isPrefixOf_iff_prefix

theorem removeGo_none (pat : List Char) : ∀ s : List Char, ¬ pat <:+: s → removeGo pat s 0 = s
  | [], _ => rfl
  | c :: s, h => by
    rw [removeGo, if_neg, removeGo_none pat s (fun hi => h (hi.trans (List.suffix_cons c s).isInfix))]
    intro hs
    exact h ((startsWith_prefix _ _).1 hs).isInfix

theorem removeGo_skip (pat : List Char) : ∀ (a s : List Char), removeGo pat (a ++ s) a.length = removeGo pat s 0
  | [], s => rfl
  | c :: a, s => by rw [List.cons_append, List.length_cons, removeGo]; exact removeGo_skip pat a s

theorem removeAll_prefix (pat s : List Char) (hp : pat ≠ []) (h : ¬ pat <:+: s) : removeAll pat (pat ++ s) = s := by
  cases pat with
  | nil => exact absurd rfl hp
  | cons c p =>
    unfold removeAll
    rw [List.cons_append, removeGo, if_pos ((startsWith_prefix (c :: (p ++ s)) (c :: p)).2 ⟨s, rfl⟩)]
    rw [show (c :: p).length - 1 = p.length from rfl, removeGo_skip, removeGo_none _ _ h]

/-- Nothing is removed from the end if no occurrence reaches into it. -/
theorem removeGo_append {w b c : List Char} {z : Char} (hb : z ∉ b) (hc : z ∉ c) : ∀ (a : List Char) (n : Nat), n ≤ a.length → ¬ w <:+ a ++ b →
    removeGo (w ++ [z]) (a ++ (b ++ z :: c)) n = removeGo (w ++ [z]) a n ++ (b ++ z :: c) := by
  have key : ∀ a : List Char, (w ++ [z]) <+: a ++ (b ++ z :: c) → ¬ w <:+ a ++ b → (w ++ [z]) <+: a := by
    rintro a ⟨r, e⟩ hw
    rcases List.append_eq_append_iff.1 e with ⟨m, h1, h2⟩ | ⟨m, h1, h2⟩
    · exact ⟨m, h1.symm⟩
    · rcases List.eq_nil_or_concat m with rfl | ⟨m', y, rfl⟩
      · rw [List.append_nil] at h1; exact ⟨[], by rw [List.append_nil, h1]⟩
      · rw [List.concat_eq_append, ← List.append_assoc] at h1
        obtain ⟨h3, h4⟩ := List.append_inj' h1 rfl
        cases h4
        rw [List.concat_eq_append, List.append_assoc, List.singleton_append] at h2
        exfalso
        rcases List.append_eq_append_iff.1 h2 with ⟨k, h5, h6⟩ | ⟨k, h5, h6⟩
        · cases k with
          | nil => rw [List.append_nil] at h5; exact hw ⟨[], by rw [List.nil_append, h3, h5]⟩
          | cons d k => cases h6; exact hc (by simp)
        · cases k with
          | nil => rw [List.append_nil] at h5; exact hw ⟨[], by rw [List.nil_append, h3, h5]⟩
          | cons d k => cases h6; exact hb (by rw [h5]; simp)
  intro a
  induction a with
  | nil =>
    intro n hn hw
    obtain rfl : n = 0 := by simpa using hn
    rw [List.nil_append, removeGo_none]
    · rfl
    · rintro ⟨l, r, e⟩
      rw [List.append_assoc, List.append_assoc] at e
      have h1 : l ++ w ++ z :: r = b ++ z :: c := by simpa using e
      rcases List.append_eq_append_iff.1 h1 with ⟨k, h5, h6⟩ | ⟨k, h5, h6⟩
      · cases k with
        | nil => rw [List.append_nil] at h5; exact hw ⟨l, by rw [List.nil_append, h5]⟩
        | cons d k => cases h6; exact hb (by rw [h5]; simp)
      · cases k with
        | nil => rw [List.append_nil] at h5; exact hw ⟨l, by rw [List.nil_append, ← h5]⟩
        | cons d k => cases h6; exact hc (by simp)
  | cons x a ih =>
    intro n hn hw
    have hw' : ¬ w <:+ a ++ b := fun h => hw (h.trans (List.suffix_cons x (a ++ b)))
    cases n with
    | succ n =>
      rw [List.cons_append, removeGo, removeGo]
      exact ih n (by simpa using hn) hw'
    | zero =>
      rw [List.cons_append, removeGo, removeGo]
      by_cases h : (w ++ [z]) <+: x :: a
      · rw [if_pos ((startsWith_prefix _ _).2 h), if_pos ((startsWith_prefix _ _).2 (by rw [← List.cons_append]; exact h.trans ⟨b ++ z :: c, rfl⟩))]
        have := h.length_le
        exact ih _ (by simp at this ⊢; omega) hw'
      · rw [if_neg (fun hh => h ((startsWith_prefix _ _).1 hh)), if_neg (fun hh => h (key (x :: a) ((startsWith_prefix (x :: (a ++ (b ++ z :: c))) _).1 hh) hw)), ih 0 (Nat.zero_le _) hw']
        rfl

end Brel
