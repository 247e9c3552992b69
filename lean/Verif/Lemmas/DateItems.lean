import Verif.Lemmas.Numeric
import Verif.Lemmas.Py
import Verif.Model.Dates
import Verif.Spec.Dates

/-!
The date patterns are sequences of gaps, numbers and names. What such a sequence captures is determined by the text:
the numbers are its runs of digits, and a name is a part of it.
-/

namespace Brel
open Spec

/-! ## Patterns as sequences -/

/-- A part of a date pattern. -/
inductive Item where
  | gap (c : Cls) (lo : Nat) (hi : Option Nat)
  | num (g : Nat) (alts : List (Cls × Nat × Option Nat))
  | name (g : Nat) (ws : List (List Char))

/-- The repetitions of an alternative of repetitions. -/
def Re.alts : Re → Option (List (Cls × Nat × Option Nat))
  | .rep c lo hi => some [(c, lo, hi)]
  | .alt a b => match a.alts, b.alts with
    | some x, some y => some (x ++ y)
    | _, _ => none
  | _ => none

/-- The pattern as a sequence, if it is one. -/
def Re.items : Re → Option (List Item)
  | .rep c lo hi => some [.gap c lo hi]
  | .grp g (.lits ws) => some [.name g ws]
  | .grp g a => a.alts.map (fun l => [.num g l])
  | .seq a b => match a.items, b.items with
    | some x, some y => some (x ++ y)
    | _, _ => none
  | _ => none

/-- The text is a repetition. -/
def RepTakes (a : Cls × Nat × Option Nat) (w : List Char) : Prop :=
  (∀ x ∈ w, a.1.has x = true) ∧ a.2.1 ≤ w.length ∧ ∀ n, a.2.2 = some n → w.length ≤ n

/-- `Takes is t cs`: the sequence consumes `t` and captures `cs`. -/
inductive Takes : List Item → List Char → List (List Char) → Prop
  | nil : Takes [] [] []
  | gap {c lo hi is w v cs} : RepTakes (c, lo, hi) w → Takes is v cs → Takes (.gap c lo hi :: is) (w ++ v) cs
  | num {g alts is w v cs} : (∃ a ∈ alts, RepTakes a w) → Takes is v cs → Takes (.num g alts :: is) (w ++ v) (w :: cs)
  | name {g ws is w v cs} : w ∈ ws → Takes is v cs → Takes (.name g ws :: is) (w ++ v) (w :: cs)

/-- Numbers of the groups of a sequence. -/
def groupIds : List Item → List Nat
  | [] => []
  | .gap _ _ _ :: is => groupIds is
  | .num g _ :: is => g :: groupIds is
  | .name g _ :: is => g :: groupIds is

theorem takes_length {is : List Item} {t : List Char} {cs : List (List Char)} (h : Takes is t cs) : cs.length = (groupIds is).length := by
  induction h with
  | nil => rfl
  | gap _ _ ih => exact ih
  | num _ _ ih => simp [groupIds, ih]
  | name _ _ ih => simp [groupIds, ih]

theorem groupIds_append (a b : List Item) : groupIds (a ++ b) = groupIds a ++ groupIds b := by
  induction a with
  | nil => rfl
  | cons i a ih => cases i <;> simp [groupIds, ih]

theorem takes_append {a b : List Item} {t : List Char} {cs : List (List Char)} :
    Takes (a ++ b) t cs ↔ ∃ u v cu cv, t = u ++ v ∧ cs = cu ++ cv ∧ Takes a u cu ∧ Takes b v cv := by
  constructor
  · induction a generalizing t cs with
    | nil => exact fun h => ⟨[], t, [], cs, rfl, rfl, .nil, h⟩
    | cons i a ih =>
      intro h
      cases h with
      | gap h h' => obtain ⟨u, v, cu, cv, rfl, rfl, h1, h2⟩ := ih h'; exact ⟨_, v, cu, cv, by rw [List.append_assoc], rfl, .gap h h1, h2⟩
      | num h h' => obtain ⟨u, v, cu, cv, rfl, rfl, h1, h2⟩ := ih h'; exact ⟨_, v, _, cv, by rw [List.append_assoc], rfl, .num h h1, h2⟩
      | name h h' => obtain ⟨u, v, cu, cv, rfl, rfl, h1, h2⟩ := ih h'; exact ⟨_, v, _, cv, by rw [List.append_assoc], rfl, .name h h1, h2⟩
  · rintro ⟨u, v, cu, cv, rfl, rfl, h1, h2⟩
    induction h1 with
    | nil => exact h2
    | gap h _ ih => rw [List.append_assoc]; exact .gap h ih
    | num h _ ih => rw [List.append_assoc]; exact .num h ih
    | name h _ ih => rw [List.append_assoc]; exact .name h ih

theorem consumes_alts {r : Re} : ∀ {l : List (Cls × Nat × Option Nat)}, r.alts = some l → ∀ {w : List Char} {a b : Caps},
    Consumes r w a b ↔ b = a ∧ ∃ x ∈ l, RepTakes x w := by
  induction r with
  | rep c lo hi =>
    intro l h w a b
    simp only [Re.alts, Option.some.injEq] at h
    subst h
    rw [consumes_rep]
    simp [RepTakes]
  | alt x y ihx ihy =>
    intro l h w a b
    simp only [Re.alts] at h
    split at h
    · rename_i p q hp hq
      cases h
      rw [consumes_alt, ihx hp, ihy hq]
      simp only [List.mem_append]
      constructor
      · rintro (⟨e, z, hz, hw⟩ | ⟨e, z, hz, hw⟩)
        · exact ⟨e, z, .inl hz, hw⟩
        · exact ⟨e, z, .inr hz, hw⟩
      · rintro ⟨e, z, hz | hz, hw⟩
        · exact .inl ⟨e, z, hz, hw⟩
        · exact .inr ⟨e, z, hz, hw⟩
    · cases h
  | _ => intro l h; simp [Re.alts] at h

theorem takes_single_num {g : Nat} {l : List (Cls × Nat × Option Nat)} {w : List Char} {cs : List (List Char)} :
    Takes [.num g l] w cs ↔ cs = [w] ∧ ∃ x ∈ l, RepTakes x w := by
  constructor
  · intro h
    cases h with
    | num h h' => cases h'; simp [h]
  · rintro ⟨rfl, h⟩
    have := Takes.num (g := g) h .nil
    rwa [List.append_nil] at this

theorem takes_single_name {g : Nat} {ws : List (List Char)} {w : List Char} {cs : List (List Char)} :
    Takes [.name g ws] w cs ↔ cs = [w] ∧ w ∈ ws := by
  constructor
  · intro h
    cases h with
    | name h h' => cases h'; simp [h]
  · rintro ⟨rfl, h⟩
    have := Takes.name (g := g) h .nil
    rwa [List.append_nil] at this

theorem takes_single_gap {c : Cls} {lo : Nat} {hi : Option Nat} {w : List Char} {cs : List (List Char)} :
    Takes [.gap c lo hi] w cs ↔ cs = [] ∧ RepTakes (c, lo, hi) w := by
  constructor
  · intro h
    cases h with
    | gap h h' => cases h'; simp [h]
  · rintro ⟨rfl, h⟩
    have := Takes.gap h .nil
    rwa [List.append_nil] at this

/-- The sequence consumes the same texts as the pattern, and its captures are those of the groups. -/
theorem consumes_items {r : Re} : ∀ {is : List Item}, r.items = some is → ∀ {w : List Char} {a b : Caps},
    Consumes r w a b ↔ ∃ cs, Takes is w cs ∧ b = ((groupIds is).zip cs).reverse ++ a := by
  induction r with
  | rep c lo hi =>
    intro is h w a b
    simp only [Re.items, Option.some.injEq] at h
    subst h
    rw [consumes_rep]
    simp only [takes_single_gap]
    constructor
    · rintro ⟨rfl, h⟩; exact ⟨[], ⟨rfl, h⟩, rfl⟩
    · rintro ⟨_, ⟨rfl, h⟩, rfl⟩; exact ⟨rfl, h⟩
  | grp g x _ =>
    intro is h w a b
    rw [consumes_grp]
    have gen : ∀ l, x.alts = some l → is = [.num g l] →
        ((∃ c', b = (g, w) :: c' ∧ Consumes x w a c') ↔ ∃ cs, Takes is w cs ∧ b = ((groupIds is).zip cs).reverse ++ a) := by
      rintro l hl rfl
      simp only [consumes_alts hl, takes_single_num, groupIds]
      constructor
      · rintro ⟨_, rfl, rfl, h⟩; exact ⟨_, ⟨rfl, h⟩, rfl⟩
      · rintro ⟨_, ⟨rfl, h⟩, rfl⟩; exact ⟨_, rfl, rfl, h⟩
    cases x with
    | lits ws =>
      simp only [Re.items, Option.some.injEq] at h
      subst h
      simp only [consumes_lits, takes_single_name, groupIds]
      constructor
      · rintro ⟨_, rfl, rfl, l, hl, rfl⟩; exact ⟨_, ⟨rfl, hl⟩, rfl⟩
      · rintro ⟨_, ⟨rfl, h⟩, rfl⟩; exact ⟨_, rfl, rfl, _, h, rfl⟩
    | _ =>
      simp only [Re.items, Option.map_eq_some_iff] at h
      obtain ⟨l, hl, rfl⟩ := h
      exact gen l hl rfl
  | seq x y ihx ihy =>
    intro is h w a b
    simp only [Re.items] at h
    split at h
    · rename_i p q hp hq
      cases h
      rw [consumes_seq]
      simp only [ihx hp, ihy hq, takes_append, groupIds_append]
      constructor
      · rintro ⟨u, v, _, rfl, ⟨cu, hu, rfl⟩, cv, hv, rfl⟩
        refine ⟨cu ++ cv, ⟨u, v, cu, cv, rfl, rfl, hu, hv⟩, ?_⟩
        rw [List.zip_append (takes_length hu).symm]
        simp
      · rintro ⟨_, ⟨u, v, cu, cv, rfl, rfl, hu, hv⟩, rfl⟩
        refine ⟨u, v, _, rfl, ⟨cu, hu, rfl⟩, cv, hv, ?_⟩
        rw [List.zip_append (takes_length hu).symm]
        simp
    · cases h
  | _ => intro is h; simp [Re.items] at h

/-! ## Runs of digits -/

/-- The maximal runs of characters with a property. -/
def runs (d : Char → Bool) : List Char → List (List Char)
  | [] => []
  | [c] => if d c then [[c]] else []
  | c :: c' :: s =>
    if d c then
      if d c' then
        match runs d (c' :: s) with
        | [] => [[c]]
        | r :: rs => (c :: r) :: rs
      else [c] :: runs d (c' :: s)
    else runs d (c' :: s)

theorem runs_skip {d : Char → Bool} {u v : List Char} (h : ∀ x ∈ u, d x = false) : runs d (u ++ v) = runs d v := by
  induction u with
  | nil => rfl
  | cons c u ih =>
    have hc := h c (by simp)
    have := ih (fun x hx => h x (List.mem_cons_of_mem _ hx))
    rw [List.cons_append]
    cases huv : u ++ v with
    | nil =>
      rw [huv] at this
      rw [← this]
      simp [runs, hc]
    | cons c' s =>
      rw [huv] at this
      simp only [runs, hc]
      exact this

theorem runs_run {d : Char → Bool} {f v : List Char} (hf : ∀ x ∈ f, d x = true) (hne : f ≠ []) (hv : ∀ x, v.head? = some x → d x = false) :
    runs d (f ++ v) = f :: runs d v := by
  induction f with
  | nil => exact absurd rfl hne
  | cons c f ih =>
    have hc := hf c (by simp)
    cases f with
    | nil =>
      cases v with
      | nil => simp [runs, hc]
      | cons x v => simp [runs, hc, hv x rfl]
    | cons c' f =>
      have := ih (fun x hx => hf x (List.mem_cons_of_mem _ hx)) (by simp)
      rw [List.cons_append, List.cons_append] at *
      simp only [runs, hc, hf c' (by simp), if_true, this]

/-! ## Classes -/

/-- Every character of `c` is one of `d` (a sufficient test on ranges). -/
def clsSub (c d : Cls) : Bool := !c.neg && !d.neg && c.ranges.all (fun r => d.ranges.any (fun q => decide (q.1 ≤ r.1) && decide (r.2 ≤ q.2)))

/-- No character of `c` is one of `d` (a sufficient test on ranges). -/
def clsDisjoint (c d : Cls) : Bool :=
  !d.neg &&
  if c.neg then d.ranges.all (fun r => c.ranges.any (fun q => decide (q.1 ≤ r.1) && decide (r.2 ≤ q.2)))
  else c.ranges.all (fun r => d.ranges.all (fun q => decide (q.2 < r.1) || decide (r.2 < q.1)))

theorem clsSub_has {c d : Cls} (h : clsSub c d = true) {x : Char} (hx : c.has x = true) : d.has x = true := by
  simp only [clsSub, Bool.and_eq_true, Bool.not_eq_true', List.all_eq_true, List.any_eq_true, decide_eq_true_eq] at h
  obtain ⟨⟨h1, h2⟩, h3⟩ := h
  simp only [Cls.has, h1, h2, Bool.bne_false, List.any_eq_true, Bool.and_eq_true, decide_eq_true_eq] at hx ⊢
  obtain ⟨r, hr, hx⟩ := hx
  obtain ⟨q, hq, hq'⟩ := h3 r hr
  exact ⟨q, hq, by omega, by omega⟩

theorem clsDisjoint_has {c d : Cls} (h : clsDisjoint c d = true) {x : Char} (hx : c.has x = true) : d.has x = false := by
  rw [← Bool.not_eq_true]
  intro hd
  simp only [clsDisjoint, Bool.and_eq_true, Bool.not_eq_true'] at h
  obtain ⟨h1, h2⟩ := h
  simp only [Cls.has, h1, Bool.bne_false, List.any_eq_true, Bool.and_eq_true, decide_eq_true_eq] at hd
  obtain ⟨r, hr, hd⟩ := hd
  split at h2
  · rename_i hn
    simp only [Cls.has, hn, Bool.bne_true, Bool.not_eq_true', List.any_eq_false, Bool.and_eq_true, decide_eq_true_eq, not_and] at hx
    simp only [List.all_eq_true, List.any_eq_true, Bool.and_eq_true, decide_eq_true_eq] at h2
    obtain ⟨q, hq, hq'⟩ := h2 r hr
    exact absurd (hx q hq (by omega)) (by simp; omega)
  · rename_i hn
    simp only [Cls.has, hn, Bool.bne_false, List.any_eq_true, Bool.and_eq_true, decide_eq_true_eq] at hx
    simp only [List.all_eq_true, Bool.or_eq_true, decide_eq_true_eq] at h2
    obtain ⟨q, hq, hx⟩ := hx
    have := h2 q hq r hr
    omega

/-! ## What a sequence captures -/

/-- Kinds of the captures: `true` for names. -/
def kinds : List Item → List Bool
  | [] => []
  | .gap _ _ _ :: is => kinds is
  | .num _ _ :: is => false :: kinds is
  | .name _ _ :: is => true :: kinds is

/-- The elements of a list at the places with the given kind. -/
def pick {α : Type} (b : Bool) : List Bool → List α → List α
  | k :: ks, x :: xs => if k = b then x :: pick b ks xs else pick b ks xs
  | _, _ => []

/-- Numbers have digits, gaps and names have none. -/
def Item.plain (d : Cls) : Item → Bool
  | .gap c _ _ => clsDisjoint c d
  | .num _ alts => alts.all (fun a => clsSub a.1 d && decide (1 ≤ a.2.1))
  | .name _ ws => ws.all (fun w => decide (w ≠ []) && w.all (fun x => !d.has x))

/-- What follows does not begin with a digit. -/
def noDigitFirst : List Item → Bool
  | [] => true
  | .gap _ lo _ :: is => decide (1 ≤ lo) || noDigitFirst is
  | .num _ _ :: _ => false
  | .name _ _ :: _ => true

/-- No number follows another directly. -/
def spaced : List Item → Bool
  | [] => true
  | .num _ _ :: is => noDigitFirst is && spaced is
  | _ :: is => spaced is

theorem takes_head {d : Cls} {is : List Item} {t : List Char} {cs : List (List Char)} (h : Takes is t cs) (hp : is.all (Item.plain d) = true)
    (hn : noDigitFirst is = true) : ∀ x, t.head? = some x → d.has x = false := by
  induction h with
  | nil => intro x hx; cases hx
  | @gap c lo hi is w v cs hw _ ih =>
    rw [List.all_cons, Bool.and_eq_true] at hp
    intro x hx
    cases w with
    | cons y w => cases hx; exact clsDisjoint_has hp.1 (hw.1 x (by simp))
    | nil =>
      have : lo = 0 := Nat.le_zero.1 hw.2.1
      subst this
      simp only [noDigitFirst, Bool.or_eq_true, decide_eq_true_eq] at hn
      rcases hn with hn | hn
      · omega
      · exact ih hp.2 hn x hx
  | num => cases hn
  | @name g ws is w v cs hw _ _ =>
    rw [List.all_cons, Bool.and_eq_true] at hp
    simp only [Item.plain, List.all_eq_true, Bool.and_eq_true, decide_eq_true_eq, Bool.not_eq_true'] at hp
    obtain ⟨h1, h2⟩ := hp.1 w hw
    intro x hx
    cases w with
    | nil => exact absurd rfl h1
    | cons y w => cases hx; exact h2 _ (by simp)

/-- The numbers captured are the runs of digits of the text. -/
theorem takes_runs {d : Cls} {is : List Item} {t : List Char} {cs : List (List Char)} (h : Takes is t cs) (hp : is.all (Item.plain d) = true)
    (hs : spaced is = true) : runs d.has t = pick false (kinds is) cs := by
  induction h with
  | nil => rfl
  | @gap c lo hi is w v cs hw _ ih =>
    rw [List.all_cons, Bool.and_eq_true] at hp
    rw [runs_skip (fun x hx => clsDisjoint_has hp.1 (hw.1 x hx))]
    exact ih hp.2 hs
  | @num g alts is w v cs hw ht ih =>
    rw [List.all_cons, Bool.and_eq_true] at hp
    simp only [spaced, Bool.and_eq_true] at hs
    obtain ⟨a, ha, hw, hlo, -⟩ := hw
    have h1 := hp.1
    simp only [Item.plain, List.all_eq_true, Bool.and_eq_true, decide_eq_true_eq] at h1
    obtain ⟨h1, h2⟩ := h1 a ha
    rw [runs_run (fun x hx => clsSub_has h1 (hw x hx)) (by rintro rfl; simp at hlo; omega) (takes_head ht hp.2 hs.1), ih hp.2 hs.2]
    rfl
  | @name g ws is w v cs hw _ ih =>
    rw [List.all_cons, Bool.and_eq_true] at hp
    have h1 := hp.1
    simp only [Item.plain, List.all_eq_true, Bool.and_eq_true, decide_eq_true_eq, Bool.not_eq_true'] at h1
    rw [runs_skip (h1 w hw).2, ih hp.2 hs]
    rfl

/-- Every name follows a gap without ASCII letters and digits. -/
def nameBreaks : Bool → List Item → Bool
  | _, [] => true
  | _, .gap c lo _ :: is => nameBreaks (decide (c = Rx.notAlnum) && decide (1 ≤ lo)) is
  | _, .num _ _ :: is => nameBreaks false is
  | p, .name _ _ :: is => p && nameBreaks false is

/-- The words of the names of a sequence. -/
def nameWords : List Item → List (List Char)
  | [] => []
  | .name _ ws :: is => ws ++ nameWords is
  | _ :: is => nameWords is

theorem takes_names {is : List Item} {t : List Char} {cs : List (List Char)} (h : Takes is t cs) : ∀ (p : Bool) (a0 : List Char),
    (p = true → ∃ x, a0.getLast? = some x ∧ Rx.notAlnum.has x = true) → ∀ w ∈ pick true (kinds is) cs,
      ∃ a b, a0 ++ t = a ++ w ++ b ∧ w ∈ nameWords is ∧ (nameBreaks p is = true → ∃ x, a.getLast? = some x ∧ Rx.notAlnum.has x = true) := by
  induction h with
  | nil => intro p a0 _ w hw; cases hw
  | @gap c lo hi is w v cs hw _ ih =>
    intro p a0 _ w' hw'
    obtain ⟨a, b, e, hm, hb⟩ := ih (decide (c = Rx.notAlnum) && decide (1 ≤ lo)) (a0 ++ w) (by
      intro h
      simp only [Bool.and_eq_true, decide_eq_true_eq] at h
      obtain ⟨rfl, h⟩ := h
      rcases List.eq_nil_or_concat w with rfl | ⟨w0, x, rfl⟩
      · have := hw.2.1; simp at this; omega
      · exact ⟨x, by simp, hw.1 x (by simp)⟩) w' hw'
    exact ⟨a, b, by rw [← e, List.append_assoc], hm, hb⟩
  | @num g alts is w v cs hw _ ih =>
    intro p a0 _ w' hw'
    obtain ⟨a, b, e, hm, hb⟩ := ih false (a0 ++ w) (fun h => by cases h) w' hw'
    exact ⟨a, b, by rw [← e, List.append_assoc], hm, hb⟩
  | @name g ws is w v cs hw _ ih =>
    intro p a0 hp w' hw'
    simp only [kinds, pick, if_true, List.mem_cons] at hw'
    rcases hw' with rfl | hw'
    · refine ⟨a0, v, by rw [List.append_assoc], List.mem_append_left _ hw, ?_⟩
      intro h
      simp only [nameBreaks, Bool.and_eq_true] at h
      exact hp h.1
    · obtain ⟨a, b, e, hm, hb⟩ := ih false (a0 ++ w) (fun h => by cases h) w' hw'
      refine ⟨a, b, by rw [← e, List.append_assoc], List.mem_append_right _ hm, ?_⟩
      intro h
      simp only [nameBreaks, Bool.and_eq_true] at h
      exact hb h.2

end Brel
