import Verif.Lemmas.XmlContext

/-! A property of the repositories that reports, aspects and parsed characteristics keep is kept by the context parser. -/

namespace Brel
open Spec

/-- A property that the context parser cannot destroy; it never reports a duplicate id. -/
structure Stable (P : ParseState → Prop) : Prop where
  err : ∀ s e, e ≠ "IXBRL_DUPLICATE_ELEMENT_ID" → P s → P (s.err e)
  aspect : ∀ s a, P s → P { s with aspects := s.aspects.upsert a }
  put : ∀ s i c, CharKind.parsed c.kind → P s → P (s.put i c)

variable {P : ParseState → Prop}

theorem stable_contextDate (hP : Stable P) (dateOf : String → Option Date) (x : XNode) (s : ParseState) (h : P s) : P (contextDate dateOf x s).2 := by
  unfold contextDate
  split
  · exact h
  · exact hP.err _ _ (by decide) h

theorem map_snd {ε α β : Type} {m : Except ε α} {f : α → β} {b : β} (h : m.map f = .ok b) : ∃ a, m = .ok a ∧ b = f a := by
  cases m with
  | error e => cases h
  | ok a => cases h; exact ⟨a, rfl, rfl⟩

theorem stable_instant (hP : Stable P) {dateOf : String → Option Date} {x : XNode} {s s' : ParseState} {r : Option Characteristic} (h : P s)
    (hr : parseInstant dateOf x s = .ok (r, s')) : P s' := by
  unfold parseInstant at hr
  have hk := stable_contextDate hP dateOf x s h
  generalize contextDate dateOf x s = cd at hr hk
  obtain ⟨t, s1⟩ := cd
  cases t with
  | none => cases hr; exact hk
  | some t =>
    dsimp only at hr hk
    split at hr
    · obtain ⟨c, _, e⟩ := map_snd hr; cases e; exact hk
    · obtain ⟨c, _, e⟩ := map_snd hr; cases e; exact hP.put _ _ _ ⟨(fun h => nomatch h), (fun h => nomatch h)⟩ hk

theorem stable_duration (hP : Stable P) {dateOf : String → Option Date} {x y : XNode} {s s' : ParseState} {r : Option Characteristic} (h : P s)
    (hr : parseDuration dateOf x y s = .ok (r, s')) : P s' := by
  unfold parseDuration at hr
  have hk := stable_contextDate hP dateOf x s h
  generalize contextDate dateOf x s = cd at hr hk
  obtain ⟨a, s1⟩ := cd
  dsimp only at hr hk
  have hk2 := stable_contextDate hP dateOf y s1 hk
  generalize contextDate dateOf y s1 = cd at hr hk2
  obtain ⟨b, s2⟩ := cd
  dsimp only at hr hk2
  cases a with
  | none => cases hr; exact hk2
  | some a =>
    cases b with
    | none => cases hr; exact hk2
    | some b =>
      dsimp only at hr
      split at hr
      · obtain ⟨c, _, e⟩ := map_snd hr; cases e; exact hk2
      · split at hr
        · cases hr; exact hP.put _ _ _ ⟨(fun h => nomatch h), (fun h => nomatch h)⟩ hk2
        · cases hr; exact hP.err _ _ (by decide) hk2
        · cases hr

theorem stable_period (hP : Stable P) {dateOf : String → Option Date} {x : XNode} {s s' : ParseState} {r : Option Characteristic} (h : P s)
    (hr : parsePeriod dateOf x s = .ok (r, s')) : P s' := by
  unfold parsePeriod at hr
  split at hr
  · exact stable_instant hP h hr
  · split at hr
    · cases hr; exact hP.err _ _ (by decide) h
    · split at hr
      · cases hr; exact hP.err _ _ (by decide) h
      · exact stable_duration hP h hr

theorem stable_entity (hP : Stable P) {x : XNode} {s s' : ParseState} {r : Option Characteristic} (h : P s) (hr : parseEntity x s = .ok (r, s')) : P s' := by
  unfold parseEntity at hr
  split at hr
  · cases hr; exact hP.err _ _ (by decide) h
  · split at hr
    · cases hr; exact hP.err _ _ (by decide) h
    · split at hr
      · cases hr; exact h
      · split at hr
        · obtain ⟨c, _, e⟩ := map_snd hr; cases e; exact h
        · cases hr; exact hP.put _ _ _ ⟨(fun h => nomatch h), (fun h => nomatch h)⟩ h

theorem stable_store (hP : Stable P) {s1 s' : ParseState} {i : String} {k : CharKind} {v : Characteristic} {r : Option Characteristic} (h : P s1) (hv : CharKind.parsed v.kind)
    (hr : ((if s1.chars.hasKey i k then s1 else s1.put i v).chars.lookup i k >>= fun c => (.ok (some c, if s1.chars.hasKey i k then s1 else s1.put i v) : Parsed)) = .ok (r, s')) :
    P s' := by
  have h2 : P (if s1.chars.hasKey i k then s1 else s1.put i v) := by
    split
    · exact h
    · exact hP.put _ _ _ hv h
  generalize (if s1.chars.hasKey i k then s1 else s1.put i v) = s2 at hr h2
  cases hl : s2.chars.lookup i k with
  | error e => rw [hl] at hr; cases hr
  | ok c => rw [hl] at hr; cases hr; exact h2

theorem stable_explicit (hP : Stable P) {re : ElemStore} {x : XNode} {s s' : ParseState} {r : Option Characteristic} (h : P s) (hr : parseExplicit re x s = .ok (r, s')) : P s' := by
  unfold parseExplicit at hr
  cases ha : x.attr "dimension" with
  | error e => rw [ha] at hr; cases hr
  | ok axis =>
    simp only [ha, bind, Except.bind, pure, Except.pure] at hr
    have h1 : P (if s.chars.hasKey axis .explicit then s else { s with aspects := s.aspects.upsert { name := axis } }) := by
      split
      · exact h
      · exact hP.aspect _ _ h
    generalize (if s.chars.hasKey axis .explicit then s else { s with aspects := s.aspects.upsert { name := axis } }) = s1 at hr h1
    split at hr
    · cases hr
    · split at hr
      · cases hr
      · split at hr
        · cases hr; exact hP.err _ _ (by decide) h1
        · split at hr
          · cases hr
          · split at hr
            · cases hr; exact hP.err _ _ (by decide) h1
            · split at hr
              · cases hr
              · split at hr
                · cases hr; exact hP.err _ _ (by decide) h1
                · split at hr
                  · cases hr
                  · exact stable_store hP h1 (by constructor <;> intro h <;> cases h) hr

theorem stable_typed (hP : Stable P) {re : ElemStore} {x : XNode} {s s' : ParseState} {r : Option Characteristic} (h : P s) (hr : parseTyped re x s = .ok (r, s')) : P s' := by
  unfold parseTyped at hr
  cases ha : x.attr "dimension" with
  | error e => rw [ha] at hr; cases hr
  | ok axis =>
    simp only [ha, bind, Except.bind, pure, Except.pure] at hr
    have h1 : P (if Dict.has s.aspects axis then s else { s with aspects := s.aspects.upsert { name := axis } }) := by
      split
      · exact h
      · exact hP.aspect _ _ h
    generalize (if Dict.has s.aspects axis then s else { s with aspects := s.aspects.upsert { name := axis } }) = s1 at hr h1
    cases hasp : Dict.get s1.aspects axis with
    | error e => rw [hasp] at hr; cases hr
    | ok asp =>
      obtain ⟨dq, hdq⟩ := qnameFromStr_total axis x.ns
      rw [hasp, hdq] at hr
      dsimp only at hr
      have h2 : P (if re.hasTypedQName dq .dimension then s1 else s1.err "INVALID_TYPED_DIMENSION_VALUE") := by
        split
        · exact h1
        · exact hP.err _ _ (by decide) h1
      generalize (if re.hasTypedQName dq .dimension then s1 else s1.err "INVALID_TYPED_DIMENSION_VALUE") = s2 at hr h2
      cases hd : re.getTypedByQName dq .dimension with
      | error e => rw [hd] at hr; cases hr
      | ok dim =>
        rw [hd] at hr
        dsimp only at hr
        have h3 : P (if x.children.length > 1 then s2.err "MULTIPLE_TYPED_DIMENSION_ELEMENT_CHILDREN" else s2) := by
          split
          · exact hP.err _ _ (by decide) h2
          · exact h2
        generalize (if x.children.length > 1 then s2.err "MULTIPLE_TYPED_DIMENSION_ELEMENT_CHILDREN" else s2) = s3 at hr h3
        split at hr
        · cases hr; exact hP.err _ _ (by decide) h3
        · split at hr
          · cases hr; exact hP.err _ _ (by decide) h3
          · exact stable_store hP h3 (by constructor <;> intro h <;> cases h) hr

theorem stable_dimension (hP : Stable P) {re : ElemStore} {x : XNode} {s s' : ParseState} {r : Option Characteristic} (h : P s) (hr : parseDimension re x s = .ok (r, s')) : P s' := by
  unfold parseDimension XNode.tagHas at hr
  simp only [bind, Except.bind, pure, Except.pure] at hr
  cases ht : x.tag with
  | none => rw [ht] at hr; cases hr
  | some t =>
    rw [ht] at hr
    dsimp only at hr
    split at hr
    · exact stable_explicit hP h hr
    · split at hr
      · exact stable_typed hP h hr
      · cases hr

theorem stable_segment (hP : Stable P) {re : ElemStore} (xs : List XNode) : ∀ {ctx ctx' : Context} {s s' : ParseState}, P s → parseSegment re xs ctx s = .ok (ctx', s') → P s' := by
  induction xs with
  | nil => intro ctx ctx' s s' h hr; cases hr; exact h
  | cons x xs ih =>
    intro ctx ctx' s s' h hr
    simp only [parseSegment, bind, Except.bind] at hr
    cases hd : parseDimension re x s with
    | error e => rw [hd] at hr; cases hr
    | ok rs => rw [hd] at hr; exact ih (stable_dimension hP h hd) hr

/-- The context parser keeps every stable property. -/
theorem stable_context (hP : Stable P) {dateOf : String → Option Date} {re : ElemStore} {x : XNode} {given : List Characteristic} {s s' : ParseState} {r : Option Context} (h : P s)
    (hr : parseContext dateOf re x given s = .ok (r, s')) : P s' := by
  unfold parseContext at hr
  simp only [bind, Except.bind, pure, Except.pure] at hr
  split at hr
  · cases hr
  · split at hr
    · cases hr; exact hP.err _ _ (by decide) h
    · split at hr
      · cases hr; exact hP.err _ _ (by decide) h
      · split at hr
        · cases hr
        · next rs hp =>
          have h1 := stable_period hP h hp
          split at hr
          · cases hr
          · next rs he =>
            have h2 := stable_entity hP h1 he
            split at hr
            · cases hr
            · next rs hs =>
              cases hr
              exact stable_segment hP _ h2 hs

/-- Concepts and units are left alone. -/
theorem stable_other (d : CharStore) : Stable (fun s => ∀ i k, ¬ CharKind.parsed k → s.chars.get? (i, k) = d.get? (i, k)) where
  err := fun _ _ _ h => h
  aspect := fun _ _ h => h
  put := by
    intro s i c hc h j k hk
    unfold ParseState.put
    rw [get?_upsert, if_neg]
    · exact h j k hk
    · intro e
      have e2 : c.kind = k := congrArg Prod.snd e
      exact hk (e2 ▸ hc)

/-- Reports are only added. -/
theorem stable_errs (e : ErrNames) : Stable (fun s => ∃ more, s.errs = e ++ more) where
  err := by
    rintro s x _ ⟨more, h⟩
    exact ⟨more ++ [x], by simp [ParseState.err, h]⟩
  aspect := fun _ _ h => h
  put := fun _ _ _ _ h => h

theorem parseContext_other {dateOf : String → Option Date} {re : ElemStore} {x : XNode} {given : List Characteristic} {s s' : ParseState} {r : Option Context}
    (hr : parseContext dateOf re x given s = .ok (r, s')) (i : String) (k : CharKind) (hk : ¬ CharKind.parsed k) : s'.chars.get? (i, k) = s.chars.get? (i, k) :=
  stable_context (stable_other s.chars) (fun _ _ _ => rfl) hr i k hk

theorem parseContext_errs {dateOf : String → Option Date} {re : ElemStore} {x : XNode} {given : List Characteristic} {s s' : ParseState} {r : Option Context}
    (hr : parseContext dateOf re x given s = .ok (r, s')) : ∃ more, s'.errs = s.errs ++ more :=
  stable_context (stable_errs s.errs) ⟨[], by simp⟩ hr

end Brel
