import Verif.Spec.Regex

namespace Brel
open Spec

theorem runRep_some {α : Type} (c : Cls) (k : List Char → Option α) (s : List Char) : ∀ (lo : Nat) (hi : Option Nat) (a : α),
    runRep c k lo hi s = some a →
    ∃ w rest, s = w ++ rest ∧ (∀ x ∈ w, c.has x = true) ∧ lo ≤ w.length ∧ (∀ n, hi = some n → w.length ≤ n) ∧ k rest = some a := by
  induction s with
  | nil =>
    intro lo hi a h
    simp only [runRep] at h
    split at h
    · exact ⟨[], [], rfl, by simp, by omega, by simp, h⟩
    · exact absurd h (by simp)
  | cons x s ih =>
    intro lo hi a h
    simp only [runRep] at h
    have here : (if lo = 0 then k (x :: s) else none) = some a → ∃ w rest, x :: s = w ++ rest ∧ (∀ x ∈ w, c.has x = true) ∧
        lo ≤ w.length ∧ (∀ n, hi = some n → w.length ≤ n) ∧ k rest = some a := by
      intro h
      split at h
      · exact ⟨[], x :: s, rfl, by simp, by omega, by simp, h⟩
      · exact absurd h (by simp)
    split at h
    · exact here h
    · rename_i hhi
      split at h
      · rename_i hx
        rw [Option.or_eq_some_iff] at h
        rcases h with h | ⟨_, h⟩
        · obtain ⟨w, rest, e, hw, hlo, hup, hk⟩ := ih _ _ _ h
          refine ⟨x :: w, rest, by rw [e]; rfl, ?_, by simp; omega, ?_, hk⟩
          · intro y hy
            rcases List.mem_cons.1 hy with rfl | hy
            · exact hx
            · exact hw y hy
          · intro n hn
            subst hn
            have h0 : n ≠ 0 := fun e => hhi (by rw [e])
            have := hup (n - 1) rfl
            simp; omega
        · exact here h
      · exact here h

theorem runRep_none {α : Type} (c : Cls) (k : List Char → Option α) (s : List Char) : ∀ (lo : Nat) (hi : Option Nat),
    runRep c k lo hi s = none →
    ∀ w rest, s = w ++ rest → (∀ x ∈ w, c.has x = true) → lo ≤ w.length → (∀ n, hi = some n → w.length ≤ n) → k rest = none := by
  induction s with
  | nil =>
    intro lo hi h w rest e hw hlo hup
    obtain ⟨rfl, rfl⟩ := List.append_eq_nil_iff.1 e.symm
    simp only [runRep] at h
    have : lo = 0 := by simpa using hlo
    simpa [this] using h
  | cons x s ih =>
    intro lo hi h w rest e hw hlo hup
    simp only [runRep] at h
    cases w with
    | nil =>
      have h0 : lo = 0 := by simpa using hlo
      have e' : rest = x :: s := e.symm
      subst e'
      split at h
      · simpa [h0] using h
      · split at h
        · rw [Option.or_eq_none_iff] at h
          simpa [h0] using h.2
        · simpa [h0] using h
    | cons y w =>
      simp only [List.cons_append, List.cons.injEq] at e
      obtain ⟨rfl, e⟩ := e
      have hx := hw x (by simp)
      have hhi : hi ≠ some 0 := by
        intro hh
        have := hup 0 hh
        simp at this
      rw [if_neg hhi, if_pos hx, Option.or_eq_none_iff] at h
      refine ih _ _ h.1 w rest e (fun y hy => hw y (by simp [hy])) (by simp at hlo; omega) ?_
      intro n hn
      cases hi with
      | none => exact absurd hn (by simp)
      | some m =>
        simp only [Option.map_some, Option.some.injEq] at hn
        have := hup m rfl
        simp at this; omega

theorem dropLit_some {w s t : List Char} : dropLit w s = some t ↔ s = w ++ t := by
  unfold dropLit
  constructor
  · intro h
    split at h
    · rename_i hp
      obtain ⟨u, rfl⟩ := List.isPrefixOf_iff_prefix.1 hp
      simp at h
      rw [h]
    · exact absurd h (by simp)
  · rintro rfl
    rw [if_pos (List.isPrefixOf_iff_prefix.2 ⟨t, rfl⟩)]
    simp

/-- What the matcher finds is a match. -/
theorem run_some {α : Type} (r : Re) : ∀ (k : List Char → Caps → Option α) (s : List Char) (caps : Caps) (a : α),
    r.run k s caps = some a → ∃ w rest caps', s = w ++ rest ∧ Consumes r w caps caps' ∧ k rest caps' = some a := by
  induction r with
  | rep c lo hi =>
    intro k s caps a h
    obtain ⟨w, rest, e, hw, hlo, hup, hk⟩ := runRep_some c _ s lo hi a h
    exact ⟨w, rest, caps, e, .rep hw hlo hup, hk⟩
  | lits ws =>
    intro k s caps a h
    obtain ⟨w, hw, h⟩ := List.exists_of_findSome?_eq_some h
    rw [Option.bind_eq_some_iff] at h
    obtain ⟨t, ht, hk⟩ := h
    exact ⟨w, t, caps, dropLit_some.1 ht, .lits hw, hk⟩
  | alt a b iha ihb =>
    intro k s caps x h
    simp only [Re.run, Option.or_eq_some_iff] at h
    rcases h with h | ⟨_, h⟩
    · obtain ⟨w, rest, c', e, hc, hk⟩ := iha _ _ _ _ h
      exact ⟨w, rest, c', e, .altLeft hc, hk⟩
    · obtain ⟨w, rest, c', e, hc, hk⟩ := ihb _ _ _ _ h
      exact ⟨w, rest, c', e, .altRight hc, hk⟩
  | opt a ih =>
    intro k s caps x h
    simp only [Re.run, Option.or_eq_some_iff] at h
    rcases h with h | ⟨_, h⟩
    · obtain ⟨w, rest, c', e, hc, hk⟩ := ih _ _ _ _ h
      exact ⟨w, rest, c', e, .optSome hc, hk⟩
    · exact ⟨[], s, caps, rfl, .optNone, h⟩
  | seq a b iha ihb =>
    intro k s caps x h
    obtain ⟨v, rest, c', e, hc, hk⟩ := iha _ _ _ _ h
    obtain ⟨w, rest', c'', e', hc', hk'⟩ := ihb _ _ _ _ hk
    exact ⟨v ++ w, rest', c'', by rw [e, e', List.append_assoc], .seq hc hc', hk'⟩
  | grp i a ih =>
    intro k s caps x h
    obtain ⟨w, rest, c', e, hc, hk⟩ := ih _ _ _ _ h
    refine ⟨w, rest, _, e, .grp hc, ?_⟩
    rw [e] at hk
    simpa using hk

/-- When the matcher finds nothing there is no match. -/
theorem run_none {α : Type} (r : Re) : ∀ (k : List Char → Caps → Option α) (s : List Char) (caps : Caps),
    r.run k s caps = none → ∀ w rest caps', s = w ++ rest → Consumes r w caps caps' → k rest caps' = none := by
  induction r with
  | rep c lo hi =>
    intro k s caps h w rest caps' e hc
    cases hc with
    | rep hw hlo hup => exact runRep_none c _ s lo hi h w rest e hw hlo hup
  | lits ws =>
    intro k s caps h w rest caps' e hc
    cases hc with
    | lits hw =>
      have := List.findSome?_eq_none_iff.1 h _ hw
      rw [dropLit_some.2 e] at this
      exact this
  | alt a b iha ihb =>
    intro k s caps h w rest caps' e hc
    simp only [Re.run, Option.or_eq_none_iff] at h
    cases hc with
    | altLeft hc => exact iha _ _ _ h.1 _ _ _ e hc
    | altRight hc => exact ihb _ _ _ h.2 _ _ _ e hc
  | opt a ih =>
    intro k s caps h w rest caps' e hc
    simp only [Re.run, Option.or_eq_none_iff] at h
    cases hc with
    | optSome hc => exact ih _ _ _ h.1 _ _ _ e hc
    | optNone => rw [show rest = s from e.symm]; exact h.2
  | seq a b iha ihb =>
    intro k s caps h w rest caps' e hc
    cases hc with
    | seq hc hc' =>
      have := iha _ _ _ h _ _ _ (by rw [e, List.append_assoc]) hc
      exact ihb _ _ _ this _ _ _ rfl hc'
  | grp i a ih =>
    intro k s caps h w rest caps' e hc
    cases hc with
    | grp hc =>
      have := ih _ _ _ h _ _ _ e hc
      rw [e] at this
      simpa using this

theorem atEnd_iff (s : List Char) : atEnd s = true ↔ s = [] ∨ s = ['\n'] := by simp [atEnd]

theorem fullMatch_some {r : Re} {s : List Char} {caps : Caps} (h : r.fullMatch s = some caps) : MatchesFully r s caps := by
  obtain ⟨w, rest, c', e, hc, hk⟩ := run_some r _ s [] caps h
  simp only [Option.ite_none_right_eq_some, Option.some.injEq] at hk
  obtain ⟨he, rfl⟩ := hk
  exact ⟨w, rest, e, (atEnd_iff rest).1 he, hc⟩

theorem fullMatch_none {r : Re} {s : List Char} (h : r.fullMatch s = none) (caps : Caps) : ¬ MatchesFully r s caps := by
  rintro ⟨w, rest, e, he, hc⟩
  have := run_none r _ s [] h _ _ _ e hc
  simp [(atEnd_iff rest).2 he] at this

theorem fullMatch_isSome_iff (r : Re) (s : List Char) : (r.fullMatch s).isSome ↔ ∃ caps, MatchesFully r s caps := by
  constructor
  · intro h
    obtain ⟨c, hc⟩ := Option.isSome_iff_exists.1 h
    exact ⟨c, fullMatch_some hc⟩
  · rintro ⟨c, hc⟩
    cases h : r.fullMatch s with
    | none => exact absurd hc (fullMatch_none h c)
    | some _ => rfl

theorem consumes_rep {c : Cls} {lo : Nat} {hi : Option Nat} {w : List Char} {a b : Caps} :
    Consumes (.rep c lo hi) w a b ↔ b = a ∧ (∀ x ∈ w, c.has x = true) ∧ lo ≤ w.length ∧ ∀ n, hi = some n → w.length ≤ n :=
  ⟨fun h => by cases h with | rep h1 h2 h3 => exact ⟨rfl, h1, h2, h3⟩, fun ⟨e, h1, h2, h3⟩ => e ▸ .rep h1 h2 h3⟩

theorem consumes_lits {ws : List (List Char)} {w : List Char} {a b : Caps} :
    Consumes (.lits ws) w a b ↔ b = a ∧ ∃ l ∈ ws, w = l :=
  ⟨fun h => by cases h with | lits h => exact ⟨rfl, _, h, rfl⟩, fun ⟨e, _, h, e'⟩ => e ▸ e' ▸ .lits h⟩

theorem consumes_alt {x y : Re} {w : List Char} {a b : Caps} : Consumes (.alt x y) w a b ↔ Consumes x w a b ∨ Consumes y w a b :=
  ⟨fun h => by cases h with | altLeft h => exact .inl h | altRight h => exact .inr h, fun h => h.elim .altLeft .altRight⟩

theorem consumes_opt {x : Re} {w : List Char} {a b : Caps} : Consumes (.opt x) w a b ↔ Consumes x w a b ∨ (w = [] ∧ b = a) :=
  ⟨fun h => by cases h with | optSome h => exact .inl h | optNone => exact .inr ⟨rfl, rfl⟩,
    fun h => h.elim .optSome (fun ⟨e, e'⟩ => e ▸ e' ▸ .optNone)⟩

theorem consumes_seq {x y : Re} {w : List Char} {a b : Caps} :
    Consumes (.seq x y) w a b ↔ ∃ u v c, w = u ++ v ∧ Consumes x u a c ∧ Consumes y v c b :=
  ⟨fun h => by cases h with | seq h1 h2 => exact ⟨_, _, _, rfl, h1, h2⟩, fun ⟨_, _, _, e, h1, h2⟩ => e ▸ .seq h1 h2⟩

theorem consumes_grp {i : Nat} {x : Re} {w : List Char} {a b : Caps} :
    Consumes (.grp i x) w a b ↔ ∃ c, b = (i, w) :: c ∧ Consumes x w a c :=
  ⟨fun h => by cases h with | grp h => exact ⟨_, rfl, h⟩, fun ⟨_, e, h⟩ => e ▸ .grp h⟩

end Brel
