import Verif.Lemmas.DateItems

/-!
Texts as sequences of digits, separators and words, and a symbolic test whether a sequence of items consumes every such text.
-/

namespace Brel
open Spec

/-- A part of a text: digits of one of the scripts with one of the lengths, one or more separators, no or some separators, a word. -/
inductive Seg where
  | dig (scripts : List Cls) (lengths : List Nat)
  | sep
  | tail
  | word (l : List Char)

/-- `Realises P ss t fs`: the text consists of the parts, and `fs` are the numbers and words. -/
inductive Realises (P : Char → Prop) : List Seg → List Char → List (List Char) → Prop
  | nil : Realises P [] [] []
  | dig {S ns ss w v fs} : (∃ c ∈ S, ∀ x ∈ w, c.has x = true) → w.length ∈ ns → Realises P ss v fs → Realises P (.dig S ns :: ss) (w ++ v) (w :: fs)
  | sep {ss w v fs} : w ≠ [] → (∀ x ∈ w, P x) → Realises P ss v fs → Realises P (.sep :: ss) (w ++ v) fs
  | tail {ss w v fs} : (∀ x ∈ w, P x) → Realises P ss v fs → Realises P (.tail :: ss) (w ++ v) fs
  | word {l ss v fs} : Realises P ss v fs → Realises P (.word l :: ss) (l ++ v) (l :: fs)

/-- Kinds of the numbers and words: `true` for words. -/
def segKinds : List Seg → List Bool
  | [] => []
  | .dig _ _ :: ss => false :: segKinds ss
  | .word _ :: ss => true :: segKinds ss
  | _ :: ss => segKinds ss

theorem realises_length {P : Char → Prop} {ss : List Seg} {t : List Char} {fs : List (List Char)} (h : Realises P ss t fs) :
    fs.length = (segKinds ss).length := by
  induction h with
  | nil => rfl
  | dig _ _ _ ih => simp [segKinds, ih]
  | sep _ _ _ ih => exact ih
  | tail _ _ ih => exact ih
  | word _ ih => simp [segKinds, ih]

/-- Numbers have digits, words have none. -/
def Seg.plain (d : Cls) : Seg → Bool
  | .dig S ns => S.all (fun c => clsSub c d) && ns.all (fun n => decide (1 ≤ n))
  | .word l => decide (l ≠ []) && l.all (fun x => !d.has x)
  | _ => true

/-- What follows does not begin with a digit. -/
def segNoDigit : List Seg → Bool
  | [] => true
  | .dig _ _ :: _ => false
  | .tail :: ss => segNoDigit ss
  | _ => true

/-- No number follows another directly. -/
def segSpaced : List Seg → Bool
  | [] => true
  | .dig _ _ :: ss => segNoDigit ss && segSpaced ss
  | _ :: ss => segSpaced ss

theorem realises_head {P : Char → Prop} {d : Cls} (hP : ∀ x, P x → d.has x = false) {ss : List Seg} {t : List Char} {fs : List (List Char)}
    (h : Realises P ss t fs) (hp : ss.all (Seg.plain d) = true) (hn : segNoDigit ss = true) : ∀ x, t.head? = some x → d.has x = false := by
  induction h with
  | nil => intro x hx; cases hx
  | dig => cases hn
  | @sep ss w v fs hw hw' _ _ =>
    intro x hx
    cases w with
    | nil => exact absurd rfl hw
    | cons y w => cases hx; exact hP _ (hw' _ (by simp))
  | @tail ss w v fs hw _ ih =>
    rw [List.all_cons, Bool.and_eq_true] at hp
    intro x hx
    cases w with
    | nil => exact ih hp.2 hn x hx
    | cons y w => cases hx; exact hP _ (hw _ (by simp))
  | @word l ss v fs _ _ =>
    rw [List.all_cons, Bool.and_eq_true] at hp
    simp only [Seg.plain, List.all_eq_true, Bool.and_eq_true, decide_eq_true_eq, Bool.not_eq_true'] at hp
    intro x hx
    cases l with
    | nil => exact absurd rfl hp.1.1
    | cons y l => cases hx; exact hp.1.2 _ (by simp)

theorem realises_runs {P : Char → Prop} {d : Cls} (hP : ∀ x, P x → d.has x = false) {ss : List Seg} {t : List Char} {fs : List (List Char)}
    (h : Realises P ss t fs) (hp : ss.all (Seg.plain d) = true) (hs : segSpaced ss = true) : runs d.has t = pick false (segKinds ss) fs := by
  induction h with
  | nil => rfl
  | @dig S ns ss w v fs hS hl ht ih =>
    rw [List.all_cons, Bool.and_eq_true] at hp
    simp only [segSpaced, Bool.and_eq_true] at hs
    obtain ⟨c, hc, hw⟩ := hS
    have h1 := hp.1
    simp only [Seg.plain, List.all_eq_true, Bool.and_eq_true, decide_eq_true_eq] at h1
    rw [runs_run (fun x hx => clsSub_has (h1.1 c hc) (hw x hx)) (by rintro rfl; exact absurd (h1.2 _ hl) (by simp)) (realises_head hP ht hp.2 hs.1), ih hp.2 hs.2]
    rfl
  | @sep ss w v fs hw hw' _ ih =>
    rw [List.all_cons, Bool.and_eq_true] at hp
    rw [runs_skip (fun x hx => hP x (hw' x hx))]
    exact ih hp.2 hs
  | @tail ss w v fs hw' _ ih =>
    rw [List.all_cons, Bool.and_eq_true] at hp
    rw [runs_skip (fun x hx => hP x (hw' x hx))]
    exact ih hp.2 hs
  | @word l ss v fs _ ih =>
    rw [List.all_cons, Bool.and_eq_true] at hp
    have h1 := hp.1
    simp only [Seg.plain, List.all_eq_true, Bool.and_eq_true, decide_eq_true_eq, Bool.not_eq_true'] at h1
    rw [runs_skip h1.2, ih hp.2 hs]
    rfl

/-! ## Symbolic matching -/

/-- The rest of a word in front of the other parts. -/
def restWord (l : List Char) (ss : List Seg) : List Seg := if l = [] then ss else .word l :: ss

/-- Upper bounds of repetitions. -/
def withinHi (n : Nat) : Option Nat → Bool
  | none => true
  | some m => decide (n ≤ m)

/-- Whether a sequence consumes every text with the parts (a sufficient test). `cov` tells which classes have all separators. -/
def symMatch (cov : Cls → Bool) : List Item → List Seg → Bool
  | [], ss => ss.isEmpty
  | .num _ alts :: is, .dig S ns :: ss =>
    S.all (fun c => ns.all (fun n => alts.any (fun a => clsSub c a.1 && decide (a.2.1 ≤ n) && withinHi n a.2.2))) && symMatch cov is ss
  | .name _ ws :: is, .word l :: ss => ws.any (fun w => w.isPrefixOf l && symMatch cov is (restWord (l.drop w.length) ss))
  | .gap c lo hi :: is, ss =>
    (decide (lo = 0) && symMatch cov is ss) ||
    (match ss with
     | .sep :: ss' => decide (lo ≤ 1) && decide (hi = none) && cov c && symMatch cov is ss'
     | .tail :: ss' => decide (lo = 0) && decide (hi = none) && cov c && symMatch cov is ss'
     | .word l :: ss' =>
       l.all c.has && ((decide (lo ≤ l.length) && withinHi l.length hi && symMatch cov is ss') ||
         (match ss' with
          | .sep :: ss'' => decide (lo ≤ 1) && decide (hi = none) && cov c && symMatch cov is ss''
          | _ => false))
     | _ => false)
  | _, _ => false

theorem isPrefixOf_append {w l : List Char} (h : w.isPrefixOf l = true) : l = w ++ l.drop w.length := by
  obtain ⟨t, rfl⟩ := List.isPrefixOf_iff_prefix.1 h
  simp

theorem withinHi_le {n : Nat} {hi : Option Nat} (h : withinHi n hi = true) : ∀ m, hi = some m → n ≤ m := by
  rintro m rfl
  simpa [withinHi] using h

theorem symMatch_takes {P : Char → Prop} {cov : Cls → Bool} (hcov : ∀ c, cov c = true → ∀ x, P x → c.has x = true) : ∀ (is : List Item) (ss : List Seg)
    (t : List Char) (fs : List (List Char)), Realises P ss t fs → symMatch cov is ss = true → ∃ cs, Takes is t cs := by
  intro is
  induction is with
  | nil =>
    intro ss t fs h hm
    cases h with
    | nil => exact ⟨[], .nil⟩
    | _ => simp [symMatch] at hm
  | cons i is ih =>
    intro ss t fs h hm
    cases i with
    | num g alts =>
      cases h with
      | @dig S ns ss w v fs hS hl h =>
        simp only [symMatch, Bool.and_eq_true, List.all_eq_true, List.any_eq_true, decide_eq_true_eq] at hm
        obtain ⟨hm, hm'⟩ := hm
        obtain ⟨c, hc, hw⟩ := hS
        obtain ⟨a, ha, ⟨h1, h2⟩, h3⟩ := hm c hc _ hl
        obtain ⟨cs, hcs⟩ := ih _ _ _ h hm'
        exact ⟨_, .num ⟨a, ha, fun x hx => clsSub_has h1 (hw x hx), h2, withinHi_le h3⟩ hcs⟩
      | _ => simp [symMatch] at hm
    | name g ws =>
      cases h with
      | @word l ss v fs h =>
        simp only [symMatch, List.any_eq_true, Bool.and_eq_true] at hm
        obtain ⟨w, hw, hp, hm⟩ := hm
        have e := isPrefixOf_append hp
        have : ∃ fs', Realises P (restWord (l.drop w.length) ss) (l.drop w.length ++ v) fs' := by
          unfold restWord
          split
          · rename_i h0; rw [h0]; exact ⟨_, h⟩
          · exact ⟨_, .word h⟩
        obtain ⟨fs', h'⟩ := this
        obtain ⟨cs, hcs⟩ := ih _ _ _ h' hm
        rw [e, List.append_assoc]
        exact ⟨_, .name hw hcs⟩
      | _ => simp [symMatch] at hm
    | gap c lo hi =>
      simp only [symMatch, Bool.or_eq_true, Bool.and_eq_true, decide_eq_true_eq] at hm
      rcases hm with ⟨rfl, hm⟩ | hm
      · obtain ⟨cs, hcs⟩ := ih _ _ _ h hm
        exact ⟨cs, Takes.gap (w := []) ⟨by simp, by simp, by simp⟩ hcs⟩
      · cases h with
        | @sep ss w v fs hne hw h =>
          simp only [Bool.and_eq_true, decide_eq_true_eq] at hm
          obtain ⟨⟨⟨h1, rfl⟩, h2⟩, hm⟩ := hm
          obtain ⟨cs, hcs⟩ := ih _ _ _ h hm
          have := List.length_pos_iff.2 hne
          exact ⟨cs, .gap ⟨fun x hx => hcov c h2 x (hw x hx), by simp only; omega, by simp⟩ hcs⟩
        | @tail ss w v fs hw h =>
          simp only [Bool.and_eq_true, decide_eq_true_eq] at hm
          obtain ⟨⟨⟨rfl, rfl⟩, h2⟩, hm⟩ := hm
          obtain ⟨cs, hcs⟩ := ih _ _ _ h hm
          exact ⟨cs, .gap ⟨fun x hx => hcov c h2 x (hw x hx), by simp, by simp⟩ hcs⟩
        | @word l ss v fs h =>
          simp only [Bool.and_eq_true, Bool.or_eq_true, decide_eq_true_eq, List.all_eq_true] at hm
          obtain ⟨hl, ⟨⟨h1, h2⟩, hm⟩ | hm⟩ := hm
          · obtain ⟨cs, hcs⟩ := ih _ _ _ h hm
            exact ⟨cs, .gap ⟨hl, h1, withinHi_le h2⟩ hcs⟩
          · cases h with
            | @sep ss w v fs hne hw h =>
              simp only [Bool.and_eq_true, decide_eq_true_eq] at hm
              obtain ⟨⟨⟨h1, rfl⟩, h2⟩, hm⟩ := hm
              obtain ⟨cs, hcs⟩ := ih _ _ _ h hm
              have := List.length_pos_iff.2 hne
              rw [← List.append_assoc]
              refine ⟨cs, .gap ⟨?_, by simp only [List.length_append]; omega, by simp⟩ hcs⟩
              intro x hx
              rcases List.mem_append.1 hx with hx | hx
              · exact hl x hx
              · exact hcov c h2 x (hw x hx)
            | _ => simp at hm
        | _ => simp at hm

/-! ## Words in a text -/

/-- If everything around a word lacks a property that the characters of `w` have, an occurrence of `w` is inside the word. -/
theorem inside_word {L : Char → Prop} {p l q a w b : List Char} (h : p ++ l ++ q = a ++ w ++ b) (hp : ∀ x ∈ p, ¬ L x) (hq : ∀ x ∈ q, ¬ L x)
    (hw : ∀ x ∈ w, L x) (hne : w ≠ []) : ∃ a' b', l = a' ++ w ++ b' ∧ a = p ++ a' := by
  have h1 : ∃ a', a = p ++ a' := by
    rw [List.append_assoc, List.append_assoc] at h
    rcases List.append_eq_append_iff.1 h with ⟨z, e, -⟩ | ⟨z, e, e'⟩
    · exact ⟨z, e⟩
    · cases z with
      | nil => exact ⟨[], by rw [e]; simp⟩
      | cons y z =>
        cases w with
        | nil => exact absurd rfl hne
        | cons x w =>
          rw [List.cons_append, List.cons_append] at e'
          injection e' with e1 _
          refine absurd (hw x (by simp)) ?_
          rw [e1]
          exact hp y (by rw [e]; simp)
  obtain ⟨a', rfl⟩ := h1
  rw [List.append_assoc, List.append_assoc, List.append_assoc, List.append_cancel_left_eq] at h
  have h2 : ∃ b', b = b' ++ q := by
    rw [← List.append_assoc] at h
    rcases List.append_eq_append_iff.1 h with ⟨z, e, e'⟩ | ⟨z, e, e'⟩
    · rcases List.eq_nil_or_concat w with rfl | ⟨w0, x, rfl⟩
      · exact absurd rfl hne
      · rcases List.eq_nil_or_concat z with rfl | ⟨z0, y, rfl⟩
        · exact ⟨[], by rw [e']; simp⟩
        · exfalso
          have h3 : (a' ++ (w0.concat x)).getLast? = (l ++ z0.concat y).getLast? := by rw [e]
          simp only [List.concat_eq_append, ← List.append_assoc, List.getLast?_append, List.getLast?_singleton, Option.some_or, Option.some.injEq] at h3
          refine absurd (hw x (by simp)) ?_
          rw [h3]
          exact hq y (by rw [e']; simp)
    · exact ⟨z, e'⟩
  obtain ⟨b', rfl⟩ := h2
  refine ⟨a', b', ?_, rfl⟩
  rw [← List.append_assoc, ← List.append_assoc, List.append_cancel_right_eq] at h
  exact h

/-- A text with a single word is that word with other characters around it. -/
theorem realises_word {P : Char → Prop} {L : Char → Prop} (hP : ∀ x, P x → ¬ L x) {ss : List Seg} {t : List Char} {fs : List (List Char)}
    (h : Realises P ss t fs) (hd : ∀ s ∈ ss, ∀ S ns, s = .dig S ns → ∀ c ∈ S, ∀ x, c.has x = true → ¬ L x) {l : List Char}
    (hone : pick true (segKinds ss) fs = [l]) : ∃ p q, t = p ++ l ++ q ∧ (∀ x ∈ p, ¬ L x) ∧ (∀ x ∈ q, ¬ L x) := by
  have noWord : ∀ {ss : List Seg} {t : List Char} {fs : List (List Char)}, Realises P ss t fs →
      (∀ s ∈ ss, ∀ S ns, s = .dig S ns → ∀ c ∈ S, ∀ x, c.has x = true → ¬ L x) → pick true (segKinds ss) fs = [] → ∀ x ∈ t, ¬ L x := by
    intro ss t fs h
    induction h with
    | nil => intro _ _ x hx; cases hx
    | @dig S ns ss w v fs hS hl h ih =>
      intro hd hk x hx
      rcases List.mem_append.1 hx with hx | hx
      · obtain ⟨c, hc, hw⟩ := hS
        exact hd _ (by simp) S ns rfl c hc x (hw x hx)
      · exact ih (fun s hs => hd s (List.mem_cons_of_mem _ hs)) hk x hx
    | sep _ hw h ih =>
      intro hd hk x hx
      rcases List.mem_append.1 hx with hx | hx
      · exact hP x (hw x hx)
      · exact ih (fun s hs => hd s (List.mem_cons_of_mem _ hs)) hk x hx
    | tail hw h ih =>
      intro hd hk x hx
      rcases List.mem_append.1 hx with hx | hx
      · exact hP x (hw x hx)
      · exact ih (fun s hs => hd s (List.mem_cons_of_mem _ hs)) hk x hx
    | word h ih => intro _ hk; simp [segKinds, pick] at hk
  induction h with
  | nil => cases hone
  | @dig S ns ss w v fs hS hl h ih =>
    obtain ⟨p, q, rfl, hp, hq⟩ := ih (fun s hs => hd s (List.mem_cons_of_mem _ hs)) hone
    refine ⟨w ++ p, q, by simp, ?_, hq⟩
    intro x hx
    rcases List.mem_append.1 hx with hx | hx
    · obtain ⟨c, hc, hw⟩ := hS
      exact hd _ (by simp) S ns rfl c hc x (hw x hx)
    · exact hp x hx
  | @sep ss w v fs hne hw h ih =>
    obtain ⟨p, q, rfl, hp, hq⟩ := ih (fun s hs => hd s (List.mem_cons_of_mem _ hs)) hone
    refine ⟨w ++ p, q, by simp, ?_, hq⟩
    intro x hx
    rcases List.mem_append.1 hx with hx | hx
    · exact hP x (hw x hx)
    · exact hp x hx
  | @tail ss w v fs hw h ih =>
    obtain ⟨p, q, rfl, hp, hq⟩ := ih (fun s hs => hd s (List.mem_cons_of_mem _ hs)) hone
    refine ⟨w ++ p, q, by simp, ?_, hq⟩
    intro x hx
    rcases List.mem_append.1 hx with hx | hx
    · exact hP x (hw x hx)
    · exact hp x hx
  | @word l' ss v fs h ih =>
    simp only [segKinds, pick, if_true, List.cons.injEq] at hone
    obtain ⟨rfl, hk⟩ := hone
    exact ⟨[], v, by simp, by simp, noWord h (fun s hs => hd s (List.mem_cons_of_mem _ hs)) hk⟩

/-! ## Stems in month names -/

/-- All stems that occur in a word are good. With `brk` only occurrences that do not follow an ASCII letter or digit count. -/
def stemsOk (brk : Bool) (ws : List (List Char)) (good : List Char → Bool) : Option Char → List Char → Bool
  | _, [] => true
  | prev, c :: s =>
    ((brk && (match prev with | some x => !Rx.notAlnum.has x | none => false)) || ws.all (fun w => !w.isPrefixOf (c :: s) || good w)) &&
    stemsOk brk ws good (some c) s

theorem stemsOk_good {brk : Bool} {ws : List (List Char)} {good : List Char → Bool} {w b : List Char} (hw : w ∈ ws) (hne : w ≠ []) :
    ∀ (a : List Char) (prev : Option Char), stemsOk brk ws good prev (a ++ w ++ b) = true →
      (brk = true → ∀ x, (a.getLast?.or prev) = some x → Rx.notAlnum.has x = true) → good w = true := by
  intro a
  induction a with
  | nil =>
    intro prev h hb
    cases w with
    | nil => exact absurd rfl hne
    | cons c w =>
      simp only [List.nil_append, List.cons_append, stemsOk, Bool.and_eq_true, Bool.or_eq_true, List.all_eq_true] at h
      rcases h.1 with ⟨hbrk, h⟩ | h
      · cases prev with
        | none => simp at h
        | some x =>
          have := hb hbrk x (by simp)
          simp [this] at h
      · rcases h _ hw with h | h
        · simp only [Bool.not_eq_true', ← Bool.not_eq_true] at h
          exact absurd (List.isPrefixOf_iff_prefix.2 ⟨b, rfl⟩) h
        · exact h
  | cons c a ih =>
    intro prev h hb
    simp only [List.cons_append, stemsOk, Bool.and_eq_true] at h
    refine ih (some c) h.2 ?_
    intro hbrk x hx
    apply hb hbrk x
    cases a with
    | nil => simpa using hx
    | cons y a =>
      rw [List.getLast?_cons_cons]
      cases hl : (y :: a).getLast? with
      | none => simp at hl
      | some z => rw [hl] at hx; simpa using hx

end Brel
