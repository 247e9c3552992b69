import Verif.Spec.FactValue

namespace Brel

theorem digitsVal_acc (ds : List Nat) : ∀ acc, ds.foldl (fun acc d => acc * 10 + d) acc = acc * 10 ^ ds.length + decimalValue ds := by
  induction ds with
  | nil => intro acc; simp [decimalValue]
  | cons d ds ih =>
    intro acc
    rw [List.foldl_cons, ih]
    simp only [decimalValue, List.length_cons]
    rw [Nat.add_mul, Nat.pow_succ, Nat.add_assoc, Nat.mul_assoc, Nat.mul_comm 10]

theorem digitsVal_eq (ds : List Nat) : digitsVal ds = decimalValue ds := by
  unfold digitsVal; rw [digitsVal_acc]; simp

variable {dig : Char → Option Nat}

theorem parseDigits_sound (s : List Char) : ∀ ds, parseDigits dig s = some ds → DigitText dig s ds := by
  fun_induction parseDigits dig s with
  | case1 => intro ds h; simp at h
  | case2 c =>
    intro ds h
    cases hd : dig c with
    | none => simp [hd] at h
    | some d => simp [hd] at h; subst h; exact .one hd
  | case3 c cs ih =>
    intro ds h
    cases hd : dig c with
    | none => simp [hd] at h
    | some d =>
      cases hp : parseDigits dig cs with
      | none => simp [hd, hp] at h
      | some ds' => simp [hd, hp] at h; subst h; exact .under hd (ih _ hp)
  | case4 c c' cs hne ih =>
    intro ds h
    cases hd : dig c with
    | none => simp [hd] at h
    | some d =>
      cases hp : parseDigits dig (c' :: cs) with
      | none => simp [hd, hp] at h
      | some ds' => simp [hd, hp] at h; subst h; exact .more hd (ih _ hp)

theorem DigitText.ne_nil {s : List Char} {ds : List Nat} (h : DigitText dig s ds) : s ≠ [] := by
  cases h <;> simp

theorem DigitText.head {s : List Char} {ds : List Nat} (h : DigitText dig s ds) :
    ∃ c t d, s = c :: t ∧ dig c = some d := by
  cases h with
  | one h => exact ⟨_, _, _, rfl, h⟩
  | more h _ => exact ⟨_, _, _, rfl, h⟩
  | under h _ => exact ⟨_, _, _, rfl, h⟩

theorem DigitText.last {s : List Char} {ds : List Nat} (h : DigitText dig s ds) :
    ∃ t c d, s = t ++ [c] ∧ dig c = some d := by
  induction h with
  | one h => exact ⟨[], _, _, rfl, h⟩
  | more h _ ih => obtain ⟨t, c, d, e, hc⟩ := ih; exact ⟨_ :: t, c, d, by rw [e]; rfl, hc⟩
  | under h _ ih => obtain ⟨t, c, d, e, hc⟩ := ih; exact ⟨_ :: '_' :: t, c, d, by rw [e]; rfl, hc⟩

theorem parseDigits_complete (T : DigitTable dig) {s : List Char} {ds : List Nat} (h : DigitText dig s ds) :
    parseDigits dig s = some ds := by
  induction h with
  | one h => simp [parseDigits, h]
  | @more c d cs ds h hb ih =>
    obtain ⟨c', t, d', e, hc'⟩ := hb.head
    subst e
    have : c' ≠ '_' := (T.notSign _ _ hc').2.2
    rw [parseDigits]
    · simp [h, ih]
    · intro h2; exact this h2
  | under h hb ih => simp [parseDigits, h, ih]

theorem dropWhile_all {α : Type} (p : α → Bool) (l m : List α) (h : ∀ c ∈ l, p c = true) :
    (l ++ m).dropWhile p = m.dropWhile p := by
  induction l with
  | nil => rfl
  | cons a l ih =>
    have := h a (by simp)
    simp [this]
    exact ih (fun c hc => h c (by simp [hc]))

theorem pyStrip_mid (l m r : List Char) (c1 : Char) (t1 : List Char) (e1 : m = c1 :: t1) (h1 : pySpace c1 = false)
    (c2 : Char) (t2 : List Char) (e2 : m = t2 ++ [c2]) (h2 : pySpace c2 = false)
    (hl : ∀ c ∈ l, pySpace c = true) (hr : ∀ c ∈ r, pySpace c = true) : pyStrip (l ++ m ++ r) = m := by
  unfold pyStrip
  rw [List.append_assoc, dropWhile_all _ _ _ hl]
  have : (m ++ r).dropWhile pySpace = m ++ r := by rw [e1]; simp [h1]
  rw [this, List.reverse_append, dropWhile_all _ _ _ (by simpa using hr)]
  have : m.reverse.dropWhile pySpace = m.reverse := by rw [e2]; simp [h2]
  rw [this, List.reverse_reverse]

theorem takeWhile_all {α : Type} (p : α → Bool) (l : List α) : ∀ c ∈ l.takeWhile p, p c = true := by
  induction l with
  | nil => simp
  | cons a l ih =>
    intro c hc
    rw [List.takeWhile_cons] at hc
    split at hc
    · rcases List.mem_cons.1 hc with rfl | hc
      · assumption
      · exact ih c hc
    · simp at hc

theorem pyStrip_decomp (s : List Char) : ∃ l r, s = l ++ pyStrip s ++ r ∧ (∀ c ∈ l, pySpace c = true) ∧ (∀ c ∈ r, pySpace c = true) := by
  refine ⟨s.takeWhile pySpace, ((s.dropWhile pySpace).reverse.takeWhile pySpace).reverse, ?_, takeWhile_all _ _, ?_⟩
  · unfold pyStrip
    rw [List.append_assoc, ← List.reverse_append, List.takeWhile_append_dropWhile, List.reverse_reverse,
      List.takeWhile_append_dropWhile]
  · intro c hc
    exact takeWhile_all _ _ c (List.mem_reverse.1 hc)

theorem pyNat_iff (T : DigitTable dig) (s : List Char) (n : Nat) :
    pyNat dig s = some n ↔ ∃ ds, DigitText dig s ds ∧ ds.length ≤ 4300 ∧ n = decimalValue ds := by
  unfold pyNat
  constructor
  · intro h
    cases hp : parseDigits dig s with
    | none => simp [hp] at h
    | some ds =>
      simp only [hp] at h
      split at h
      · rename_i hle
        cases h
        exact ⟨ds, parseDigits_sound s ds hp, hle, digitsVal_eq ds⟩
      · simp at h
  · rintro ⟨ds, h1, h2, rfl⟩
    rw [parseDigits_complete T h1]
    simp only
    rw [if_pos (show ds.length ≤ maxStrDigits from h2), digitsVal_eq]

theorem pyInt_iff (T : DigitTable dig) (s : List Char) (n : Int) : pyInt dig s = some n ↔ IntText dig s n := by
  constructor
  · intro h
    obtain ⟨l, r, e, hl, hr⟩ := pyStrip_decomp s
    unfold pyInt at h
    split at h
    · rename_i t ht
      obtain ⟨k, hk, rfl⟩ := Option.map_eq_some_iff.1 h
      obtain ⟨ds, h1, h2, rfl⟩ := (pyNat_iff T t k).1 hk
      exact ⟨l, ['-'], t, r, ds, by rw [e, ht]; rfl, hl, hr, h1, h2, Or.inr (Or.inr ⟨rfl, rfl⟩)⟩
    · rename_i t ht
      obtain ⟨k, hk, rfl⟩ := Option.map_eq_some_iff.1 h
      obtain ⟨ds, h1, h2, rfl⟩ := (pyNat_iff T t k).1 hk
      exact ⟨l, ['+'], t, r, ds, by rw [e, ht]; rfl, hl, hr, h1, h2, Or.inr (Or.inl ⟨rfl, rfl⟩)⟩
    · rename_i t _ _
      obtain ⟨k, hk, rfl⟩ := Option.map_eq_some_iff.1 h
      obtain ⟨ds, h1, h2, rfl⟩ := (pyNat_iff T _ k).1 hk
      exact ⟨l, [], _, r, ds, by simpa using e, hl, hr, h1, h2, Or.inl ⟨rfl, rfl⟩⟩
  · rintro ⟨l, sgn, body, r, ds, e, hl, hr, hb, hlen, hs⟩
    obtain ⟨c1, t1, d1, e1, hd1⟩ := hb.head
    obtain ⟨t2, c2, d2, e2, hd2⟩ := hb.last
    have hk := (pyNat_iff T body _).2 ⟨ds, hb, hlen, rfl⟩
    have s2 := T.notSpace _ _ hd2
    rcases hs with ⟨rfl, rfl⟩ | ⟨rfl, rfl⟩ | ⟨rfl, rfl⟩
    · have : pyStrip s = body := by
        rw [e]
        exact pyStrip_mid l _ r c1 t1 e1 (T.notSpace _ _ hd1) c2 t2 e2 s2 hl hr
      unfold pyInt
      rw [this]
      have hn := T.notSign _ _ hd1
      split
      · cases e1; exact absurd rfl hn.1
      · cases e1; exact absurd rfl hn.2.1
      · rw [hk]; rfl
    · have : pyStrip s = '+' :: body := by
        rw [e]
        exact pyStrip_mid l _ r '+' body rfl (by decide) c2 ('+' :: t2) (by rw [e2]; rfl) s2 hl hr
      unfold pyInt
      rw [this]
      simp [hk]
    · have : pyStrip s = '-' :: body := by
        rw [e]
        exact pyStrip_mid l _ r '-' body rfl (by decide) c2 ('-' :: t2) (by rw [e2]; rfl) s2 hl hr
      unfold pyInt
      rw [this]
      simp [hk]

theorem upper_table : ∀ n : Fin 26, ∀ k : Fin 26,
    (Char.ofNat (97 + n.val - 32) = Char.ofNat (65 + k.val) ↔ n = k) := by decide

/-- Which characters `upper()` maps to the `k`-th capital letter. -/
theorem pyUpperChar_eq (c : Char) (k : Fin 26) :
    pyUpperChar c = Char.ofNat (65 + k.val) ↔
      c = Char.ofNat (65 + k.val) ∨ c = Char.ofNat (97 + k.val) ∨ (c = 'ſ' ∧ k.val = 18) := by
  unfold pyUpperChar
  by_cases h : 'a' ≤ c ∧ c ≤ 'z'
  · rw [if_pos h]
    have h1 : 97 ≤ c.toNat := h.1
    have h2 : c.toNat ≤ 122 := h.2
    obtain ⟨n, hn, hc⟩ : ∃ n, n < 26 ∧ c = Char.ofNat (97 + n) := by
      refine ⟨c.toNat - 97, by omega, ?_⟩
      rw [show 97 + (c.toNat - 97) = c.toNat by omega, Char.ofNat_toNat]
    have key := upper_table ⟨n, hn⟩ k
    have hcn : c.toNat = 97 + n := by
      have : ∀ m : Fin 26, (Char.ofNat (97 + m.val)).toNat = 97 + m.val := by decide
      rw [hc]; exact this ⟨n, hn⟩
    simp only at key
    rw [hcn, key, hc]
    have t1 : ∀ m k : Fin 26, Char.ofNat (97 + m.val) ≠ Char.ofNat (65 + k.val) := by decide
    have t2 : ∀ m k : Fin 26, (Char.ofNat (97 + m.val) = Char.ofNat (97 + k.val) ↔ m = k) := by decide
    have t3 : ∀ m : Fin 26, Char.ofNat (97 + m.val) ≠ 'ſ' := by decide
    have a1 := t1 ⟨n, hn⟩ k
    have a2 := t2 ⟨n, hn⟩ k
    have a3 := t3 ⟨n, hn⟩
    simp only at a1 a2 a3
    simp [a1, a2, a3]
  · rw [if_neg h]
    have t0 : ∀ k : Fin 26, 'a' ≤ Char.ofNat (97 + k.val) ∧ Char.ofNat (97 + k.val) ≤ 'z' := by decide
    have hne : c ≠ Char.ofNat (97 + k.val) := fun e => h (e ▸ t0 k)
    by_cases hs : c = 'ſ'
    · subst hs
      have t4 : ∀ k : Fin 26, ('S' = Char.ofNat (65 + k.val) ↔ k.val = 18) := by decide
      have t5 : ∀ k : Fin 26, 'ſ' ≠ Char.ofNat (65 + k.val) := by decide
      simp [t4 k, t5 k, hne]
    · rw [if_neg hs]
      simp [hne, hs]

theorem upper_two {c x y : Char} {k : Nat} (h : c = x ∨ c = y ∨ (c = 'ſ' ∧ k = 18)) (hk : k ≠ 18) : c = y ∨ c = x := by
  rcases h with h | h | h
  · exact Or.inr h
  · exact Or.inl h
  · exact absurd h.2 hk

theorem toBool_true_iff (s : List Char) : pyUpper s = "TRUE".toList ↔ BoolText s true := by
  have hT := fun c => pyUpperChar_eq c 19
  have hR := fun c => pyUpperChar_eq c 17
  have hU := fun c => pyUpperChar_eq c 20
  have hE := fun c => pyUpperChar_eq c 4
  constructor
  · intro h
    unfold pyUpper at h
    match s, h with
    | [], h => simp at h
    | [_], h => simp at h
    | [_, _], h => simp at h
    | [_, _, _], h => simp at h
    | [a, b, c, d], h =>
      have h' : pyUpperChar a = 'T' ∧ pyUpperChar b = 'R' ∧ pyUpperChar c = 'U' ∧ pyUpperChar d = 'E' := by simpa using h
      obtain ⟨h1, h2, h3, h4⟩ := h'
      refine ⟨a, b, c, d, Or.inl ⟨rfl, rfl, ?_, ?_, ?_, ?_⟩⟩
      · exact upper_two ((hT a).1 h1) (by decide)
      · exact upper_two ((hR b).1 h2) (by decide)
      · exact upper_two ((hU c).1 h3) (by decide)
      · exact upper_two ((hE d).1 h4) (by decide)
    | _ :: _ :: _ :: _ :: _ :: _, h => simp at h
  · rintro ⟨a, b, c, d, ⟨_, rfl, h1, h2, h3, h4⟩ | ⟨h, _⟩⟩
    · rcases h1 with rfl | rfl <;> rcases h2 with rfl | rfl <;> rcases h3 with rfl | rfl <;> rcases h4 with rfl | rfl <;> decide
    · simp at h

theorem toBool_false_iff (s : List Char) : pyUpper s = "FALSE".toList ↔ BoolText s false := by
  have hF := fun c => pyUpperChar_eq c 5
  have hA := fun c => pyUpperChar_eq c 0
  have hL := fun c => pyUpperChar_eq c 11
  have hS := fun c => pyUpperChar_eq c 18
  have hE := fun c => pyUpperChar_eq c 4
  constructor
  · intro h
    unfold pyUpper at h
    match s, h with
    | [], h => simp at h
    | [_], h => simp at h
    | [_, _], h => simp at h
    | [_, _, _], h => simp at h
    | [_, _, _, _], h => simp at h
    | [a, b, c, d, e], h =>
      have h' : pyUpperChar a = 'F' ∧ pyUpperChar b = 'A' ∧ pyUpperChar c = 'L' ∧ pyUpperChar d = 'S' ∧ pyUpperChar e = 'E' := by
        simpa using h
      obtain ⟨h1, h2, h3, h4, h5⟩ := h'
      refine ⟨a, b, c, d, Or.inr ⟨rfl, e, rfl, ?_, ?_, ?_, ?_, ?_⟩⟩
      · exact upper_two ((hF a).1 h1) (by decide)
      · exact upper_two ((hA b).1 h2) (by decide)
      · exact upper_two ((hL c).1 h3) (by decide)
      · have := (hS d).1 h4
        rcases this with h | h | h
        · exact Or.inr (Or.inl h)
        · exact Or.inl h
        · exact Or.inr (Or.inr h.1)
      · exact upper_two ((hE e).1 h5) (by decide)
    | _ :: _ :: _ :: _ :: _ :: _ :: _, h => simp at h
  · rintro ⟨a, b, c, d, ⟨h, _⟩ | ⟨_, e, rfl, h1, h2, h3, h4, h5⟩⟩
    · simp at h
    · rcases h1 with rfl | rfl <;> rcases h2 with rfl | rfl <;> rcases h3 with rfl | rfl <;>
        rcases h4 with rfl | rfl | rfl <;> rcases h5 with rfl | rfl <;> decide

theorem lastSegment_prefixed (p n : String) (h : ':' ∉ n.toList) : lastSegment (p ++ ":" ++ n) = n := by
  unfold lastSegment
  have e : (p ++ ":" ++ n).toList.reverse = n.toList.reverse ++ (':' :: p.toList.reverse) := by
    simp [String.toList_append]
  rw [e, List.takeWhile_append_of_pos]
  · simp
  · intro a ha
    have : a ∈ n.toList := by simpa using ha
    have : a ≠ ':' := fun h' => h (h' ▸ this)
    simpa using this

theorem lastSegment_plain (n : String) (h : ':' ∉ n.toList) : lastSegment n = n := by
  unfold lastSegment
  have := List.takeWhile_append_of_pos (p := fun c : Char => decide (c ≠ ':')) (l₁ := n.toList.reverse) (l₂ := [])
    (by
      intro a ha
      have : a ∈ n.toList := by simpa using ha
      have : a ≠ ':' := fun h' => h (h' ▸ this)
      simpa using this)
  simp only [List.append_nil, List.takeWhile_nil] at this
  rw [this]
  simp

end Brel
