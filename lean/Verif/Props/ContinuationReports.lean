import Verif.Props.InlineInstance
import Mathlib.Data.List.Perm.Subperm

/-! C99: what is reported of the continuations of a filing. -/

namespace Brel
open Brel.Spec

/-- The reports of `create_continuation_chains`. -/
abbrev withoutIdReport : String := "IXBRL_CONTINUATION_WITHOUT_ID"
abbrev reusedReport : String := "IXBRL_REUSED_CONTINUATION"
abbrev invalidIdReport : String := "IXBRL_INVALID_CONTINUATION_ID"
abbrev nestedReport : String := "IXBRL_INVALID_DESCENDANT_IN_CONTINUATION_CHAIN"
abbrev unusedReport : String := "IXBRL_UNUSED_CONTINUATION_ELEMENTS"

theorem followChain_reports {idx : Dict String ContElem} (hid : ∀ i c, idx.get? i = some c → c.id = some i) : ∀ (fuel : Nat) (start : Option String) (st st' : ChainState),
    followChain idx fuel start st = some st' → (∀ u ∈ st.used, (idx.get? u).isSome) →
    ∃ cs more, st'.chain = st.chain ++ cs ∧ st'.errs = st.errs ++ more ∧ (∀ e ∈ more, e = reusedReport ∨ e = invalidIdReport) ∧
      (reusedReport ∈ more ↔ ¬ ((cs.filterMap (·.id)).Nodup ∧ ∀ i ∈ cs.filterMap (·.id), i ∉ st.used)) ∧
      (invalidIdReport ∈ more ↔ ∃ i, (start = some i ∨ ∃ c ∈ cs, c.continuedAt = some i) ∧ idx.get? i = none) ∧
      (∀ u, u ∈ st'.used ↔ u ∈ st.used ∨ u ∈ cs.filterMap (·.id)) ∧ (∀ u ∈ st'.used, (idx.get? u).isSome) := by
  intro fuel
  induction fuel with
  | zero =>
    intro start st st' h hk
    cases start with
    | none => simp only [followChain, Option.some.injEq] at h; subst h; exact ⟨[], [], by simp, by simp, by simp, by simp, by simp, by simp, hk⟩
    | some i => simp [followChain] at h
  | succ fuel ih =>
    intro start st st' h hk
    cases start with
    | none => simp only [followChain, Option.some.injEq] at h; subst h; exact ⟨[], [], by simp, by simp, by simp, by simp, by simp, by simp, hk⟩
    | some i =>
      rw [followChain] at h
      cases hi : idx.get? i with
      | none =>
        rw [hi] at h
        have hnu : i ∉ st.used := by intro hu; have := hk i hu; rw [hi] at this; cases this
        simp only [if_neg hnu, List.append_nil, Option.some.injEq] at h
        subst h
        refine ⟨[], [invalidIdReport], by simp, rfl, by simp, by simp; decide, ?_, by simp, hk⟩
        simp [hi]
      | some c =>
        rw [hi] at h
        dsimp only at h
        have hci := hid i c hi
        obtain ⟨cs, more, r1, r2, r3, r4, r5, r6, r7⟩ := ih _ _ _ h (by
          intro u hu
          rcases mem_appendNew.1 hu with hu | rfl
          · exact hk u hu
          · rw [hi]; rfl)
        dsimp only at r1 r2 r4 r6
        have hids : (c :: cs).filterMap (·.id) = i :: cs.filterMap (·.id) := List.filterMap_cons_some (f := fun c : ContElem => c.id) hci
        refine ⟨c :: cs, (if i ∈ st.used then [reusedReport] else []) ++ more, by rw [r1]; simp, by rw [r2]; simp, ?_, ?_, ?_, ?_, r7⟩
        · intro e he
          rcases List.mem_append.1 he with he | he
          · split at he
            · exact Or.inl (List.mem_singleton.1 he)
            · cases he
          · exact r3 e he
        · rw [hids, List.mem_append, r4, List.nodup_cons]
          by_cases hu : i ∈ st.used
          · simp [hu]
          · rw [if_neg hu]
            simp only [List.not_mem_nil, false_or, mem_appendNew, List.mem_cons]
            refine not_congr ⟨?_, ?_⟩
            · rintro ⟨h1, h2⟩
              refine ⟨⟨fun hm => h2 i hm (Or.inr rfl), h1⟩, ?_⟩
              rintro j (rfl | hj)
              · exact hu
              · exact fun hm => h2 j hj (Or.inl hm)
            · rintro ⟨⟨h1, h2⟩, h3⟩
              refine ⟨h2, ?_⟩
              rintro j hj (hm | rfl)
              · exact h3 j (Or.inr hj) hm
              · exact h1 hj
        · rw [List.mem_append, r5]
          have hne : invalidIdReport ∉ (if i ∈ st.used then [reusedReport] else []) := by split <;> decide
          constructor
          · rintro (h | ⟨j, hj, hn⟩)
            · exact absurd h hne
            · refine ⟨j, Or.inr ?_, hn⟩
              rcases hj with hj | ⟨d, hd, hj⟩
              · exact ⟨c, List.mem_cons_self, hj⟩
              · exact ⟨d, List.mem_cons_of_mem _ hd, hj⟩
          · rintro ⟨j, hj, hn⟩
            refine Or.inr ⟨j, ?_, hn⟩
            rcases hj with hj | ⟨d, hd, hj⟩
            · cases hj; rw [hi] at hn; cases hn
            · rcases List.mem_cons.1 hd with rfl | hd
              · exact Or.inl hj
              · exact Or.inr ⟨d, hd, hj⟩
        · intro u
          rw [hids, r6 u, mem_appendNew, List.mem_cons]
          exact or_assoc

theorem followAll_reports {idx : Dict String ContElem} (hid : ∀ i c, idx.get? i = some c → c.id = some i) {fuel : Nat} : ∀ (es : List ContElem) (used : List String) (errs : ErrNames)
    (r : List (ContElem × List ContElem) × List String × ErrNames), followAll idx fuel es used errs = some r → (∀ u ∈ used, (idx.get? u).isSome) →
    ∃ more, r.2.2 = errs ++ more ∧ (∀ e ∈ more, e = reusedReport ∨ e = invalidIdReport) ∧
      (reusedReport ∈ more ↔ ¬ ((r.1.flatMap (fun p => p.2.filterMap (·.id))).Nodup ∧ ∀ i ∈ r.1.flatMap (fun p => p.2.filterMap (·.id)), i ∉ used)) ∧
      (invalidIdReport ∈ more ↔ ∃ p ∈ r.1, ∃ a ∈ p.1 :: p.2, ∃ i, a.continuedAt = some i ∧ idx.get? i = none) ∧
      (∀ u, u ∈ r.2.1 ↔ u ∈ used ∨ u ∈ r.1.flatMap (fun p => p.2.filterMap (·.id))) := by
  intro es
  induction es with
  | nil => intro used errs r h _; simp only [followAll, Option.some.injEq] at h; subst h; exact ⟨[], by simp, by simp, by simp, by simp, by simp⟩
  | cons e es ih =>
    intro used errs r h hk
    simp only [followAll, Option.bind_eq_bind, Option.bind_eq_some_iff, Option.some.injEq] at h
    obtain ⟨st, h1, r', h2, rfl⟩ := h
    obtain ⟨cs, m1, a1, a2, a3, a4, a5, a6, a7⟩ := followChain_reports hid _ _ _ _ h1 hk
    rw [List.nil_append] at a1
    subst a1
    obtain ⟨m2, b2, b3, b4, b5, b6⟩ := ih _ _ _ h2 a7
    refine ⟨m1 ++ m2, by rw [b2, a2, List.append_assoc], ?_, ?_, ?_, ?_⟩
    · intro x hx
      rcases List.mem_append.1 hx with hx | hx
      · exact a3 x hx
      · exact b3 x hx
    · rw [List.mem_append, a4, b4, List.flatMap_cons, List.nodup_append, ← not_and_or]
      refine not_congr ⟨?_, ?_⟩
      · rintro ⟨⟨x1, x2⟩, x3, x4⟩
        refine ⟨⟨x1, x3, ?_⟩, ?_⟩
        · rintro i hi j hj rfl
          exact x4 i hj ((a6 i).2 (Or.inr hi))
        · intro i hi hu
          rcases List.mem_append.1 hi with hi | hi
          · exact x2 i hi hu
          · exact x4 i hi ((a6 i).2 (Or.inl hu))
      · rintro ⟨⟨x1, x2, x3⟩, x4⟩
        refine ⟨⟨x1, fun i hi => x4 i (List.mem_append.2 (Or.inl hi))⟩, x2, ?_⟩
        intro i hi hu
        rcases (a6 i).1 hu with hu | hu
        · exact x4 i (List.mem_append.2 (Or.inr hi)) hu
        · exact x3 i hu i hi rfl
    · rw [List.mem_append, a5, b5]
      constructor
      · rintro (⟨i, hi, hn⟩ | ⟨p, hp, ha⟩)
        · refine ⟨_, List.mem_cons_self, ?_⟩
          rcases hi with hi | ⟨c, hc, hi⟩
          · exact ⟨e, List.mem_cons_self, i, hi, hn⟩
          · exact ⟨c, List.mem_cons_of_mem _ hc, i, hi, hn⟩
        · exact ⟨p, List.mem_cons_of_mem _ hp, ha⟩
      · rintro ⟨p, hp, a, ha, i, hi, hn⟩
        rcases List.mem_cons.1 hp with rfl | hp
        · refine Or.inl ⟨i, ?_, hn⟩
          rcases List.mem_cons.1 ha with rfl | ha
          · exact Or.inl hi
          · exact Or.inr ⟨a, ha, hi⟩
        · exact Or.inr ⟨p, hp, a, ha, i, hi, hn⟩
    · intro u
      rw [b6 u, a6 u, List.flatMap_cons, List.mem_append]
      exact or_assoc

theorem idStep_reports (cs : List ContElem) : ∀ (acc : ErrNames × List String), ∃ more, (cs.foldl idStep acc).1 = acc.1 ++ more ∧ (∀ e ∈ more, e = duplicateId ∨ e = withoutIdReport) ∧
    (withoutIdReport ∈ more ↔ ∃ c ∈ cs, c.id = none) := by
  induction cs with
  | nil => intro acc; exact ⟨[], by simp, by simp, by simp⟩
  | cons c cs ih =>
    intro acc
    rw [List.foldl_cons]
    obtain ⟨more, h1, h2, h3⟩ := ih (idStep acc c)
    cases hc : c.id with
    | none =>
      have hs : idStep acc c = (acc.1 ++ [withoutIdReport], acc.2) := by unfold idStep; rw [hc]
      rw [hs] at h1 ⊢
      refine ⟨withoutIdReport :: more, by rw [h1]; simp, ?_, ?_⟩
      · intro e he
        rcases List.mem_cons.1 he with rfl | he
        · exact Or.inr rfl
        · exact h2 e he
      · simp [hc]
    | some i =>
      have hs : idStep acc c = (acc.1 ++ (if i ∈ acc.2 then [duplicateId] else []), appendNew acc.2 i) := by unfold idStep; rw [hc]; rfl
      rw [hs] at h1 ⊢
      refine ⟨(if i ∈ acc.2 then [duplicateId] else []) ++ more, by rw [h1]; simp, ?_, ?_⟩
      · intro e he
        rcases List.mem_append.1 he with he | he
        · exact Or.inl (OnlyDup.ite _ e he)
        · exact h2 e he
      · rw [List.mem_append, h3]
        have : withoutIdReport ∉ (if i ∈ acc.2 then [duplicateId] else []) := by split <;> decide
        constructor
        · rintro (h | ⟨d, hd, hn⟩)
          · exact absurd h this
          · exact ⟨d, List.mem_cons_of_mem _ hd, hn⟩
        · rintro ⟨d, hd, hn⟩
          rcases List.mem_cons.1 hd with rfl | hd
          · rw [hc] at hn; cases hn
          · exact Or.inr ⟨d, hd, hn⟩

theorem continuationOf_none {conts : List ContElem} {i : String} : continuationOf conts i = none ↔ ∀ c ∈ conts, c.id ≠ some i := by
  unfold continuationOf
  rw [List.getLast?_eq_none_iff, List.filter_eq_nil_iff]
  simp

theorem continuationOf_some {conts : List ContElem} {i : String} : (continuationOf conts i).isSome ↔ ∃ c ∈ conts, c.id = some i := by
  rw [Option.isSome_iff_ne_none, ne_eq, continuationOf_none]
  simp

/-- C99. What is reported when the chains of continuations are built: continuations without an id, continuations that are reached twice, references to ids no continuation has,
continuations that are never reached, and elements of a chain inside another one of it - each exactly if there is one. Beyond that only repeated ids are reported, see C48. -/
theorem C99_reports {fuel : Nat} {facts footnotes conts : List ContElem} {taken taken' : List String} {chains : List (ContElem × List ContElem)} {errs : ErrNames}
    (h : createChains fuel facts footnotes conts taken = some (chains, errs, taken')) :
    (∀ e ∈ errs, e = duplicateId ∨ e = withoutIdReport ∨ e = reusedReport ∨ e = invalidIdReport ∨ e = nestedReport ∨ e = unusedReport) ∧
    (withoutIdReport ∈ errs ↔ ∃ c ∈ conts, c.id = none) ∧
    (reusedReport ∈ errs ↔ ¬ (chains.flatMap (fun p => p.2.filterMap (·.id))).Nodup) ∧
    (invalidIdReport ∈ errs ↔ ∃ p ∈ chains, ∃ a ∈ p.1 :: p.2, ∃ i, a.continuedAt = some i ∧ ∀ c ∈ conts, c.id ≠ some i) ∧
    (nestedReport ∈ errs ↔ ∃ p ∈ chains, ∃ a ∈ p.1 :: p.2, ∃ b ∈ p.1 :: p.2, b.oid ∈ a.inside) ∧
    (unusedReport ∈ errs ↔ ∃ c ∈ conts, ∃ i, c.id = some i ∧ ∀ p ∈ chains, ∀ d ∈ p.2, d.id ≠ some i) := by
  unfold createChains at h
  dsimp only at h
  split at h
  · cases h
  · next r hr =>
    cases h
    have hget := buildIndex_get? conts taken
    obtain ⟨m1, e1, o1, w1⟩ := idStep_reports conts ([], taken)
    rw [List.nil_append] at e1
    have e1 : (buildIndex conts taken).2.1 = m1 := e1
    obtain ⟨m2, e2, o2, r2, i2, u2⟩ := followAll_reports (idx := (buildIndex conts taken).1) (fun i c hi => (continuationOf_mem (by rw [hget] at hi; exact hi)).2) _ _ _ _ hr (by simp)
    rw [List.nil_append] at e2
    have hnest : ∀ e ∈ nestedErrors r.1, e = nestedReport := by
      intro e he
      unfold nestedErrors at he
      obtain ⟨p, _, he⟩ := List.mem_flatMap.1 he
      obtain ⟨a, _, he⟩ := List.mem_flatMap.1 he
      obtain ⟨o, _, rfl⟩ := List.mem_map.1 he
      rfl
    have hnest' : nestedReport ∈ nestedErrors r.1 ↔ ∃ p ∈ r.1, ∃ a ∈ p.1 :: p.2, ∃ b ∈ p.1 :: p.2, b.oid ∈ a.inside := by
      unfold nestedErrors
      simp only [List.mem_flatMap, List.mem_map, List.mem_filter, decide_eq_true_eq]
      constructor
      · rintro ⟨p, hp, a, ha, o, ⟨ho, b, hb, rfl⟩, _⟩
        exact ⟨p, hp, a, ha, b, hb, ho⟩
      · rintro ⟨p, hp, a, ha, b, hb, ho⟩
        exact ⟨p, hp, a, ha, _, ⟨ho, b, hb, rfl⟩, trivial⟩
    have hun : (buildIndex conts taken).1.keys.filter (fun k => decide (k ∉ r.2.1)) = [] ↔ ¬ ∃ c ∈ conts, ∃ i, c.id = some i ∧ ∀ p ∈ r.1, ∀ d ∈ p.2, d.id ≠ some i := by
      rw [List.filter_eq_nil_iff]
      constructor
      · rintro h ⟨c, hc, i, hi, hn⟩
        have hk : i ∈ (buildIndex conts taken).1.keys := by
          rw [← Dict.has_iff_mem_keys, Dict.has_eq, hget]
          exact continuationOf_some.2 ⟨c, hc, hi⟩
        refine h i hk ?_
        rw [decide_eq_true_eq]
        intro hm
        rcases (u2 i).1 hm with hm | hm
        · cases hm
        · obtain ⟨p, hp, hm⟩ := List.mem_flatMap.1 hm
          obtain ⟨d, hd, hdi⟩ := List.mem_filterMap.1 hm
          exact hn p hp d hd hdi
      · intro h i hk hd
        rw [decide_eq_true_eq] at hd
        rw [← Dict.has_iff_mem_keys, Dict.has_eq, hget] at hk
        obtain ⟨c, hc, hi⟩ := continuationOf_some.1 hk
        refine h ⟨c, hc, i, hi, fun p hp d hdm hdi => hd ((u2 i).2 (Or.inr ?_))⟩
        exact List.mem_flatMap.2 ⟨p, hp, List.mem_filterMap.2 ⟨d, hdm, hdi⟩⟩
    rw [e1, e2]
    generalize hu : (if (buildIndex conts taken).1.keys.filter (fun k => decide (k ∉ r.2.1)) = [] then ([] : ErrNames) else [unusedReport]) = m4
    have o4 : ∀ e ∈ m4, e = unusedReport := by
      intro e he
      rw [← hu] at he
      split at he
      · cases he
      · exact List.mem_singleton.1 he
    have u4 : unusedReport ∈ m4 ↔ ∃ c ∈ conts, ∃ i, c.id = some i ∧ ∀ p ∈ r.1, ∀ d ∈ p.2, d.id ≠ some i := by
      rw [← hu]
      by_cases hf : (buildIndex conts taken).1.keys.filter (fun k => decide (k ∉ r.2.1)) = []
      · rw [if_pos hf]
        simpa using hun.1 hf
      · rw [if_neg hf]
        simp only [List.mem_singleton, true_iff]
        exact Classical.not_not.1 (fun hh => hf (hun.2 hh))
    have only : ∀ x, x ∈ m1 ++ m2 ++ nestedErrors r.1 ++ m4 ↔ x ∈ m1 ∨ x ∈ m2 ∨ x ∈ nestedErrors r.1 ∨ x ∈ m4 := by
      intro x; simp only [List.mem_append, or_assoc]
    have n1 : ∀ {x}, x ≠ duplicateId → x ≠ withoutIdReport → x ∉ m1 := fun h1 h2 hm => (o1 _ hm).elim h1 h2
    have n2 : ∀ {x}, x ≠ reusedReport → x ≠ invalidIdReport → x ∉ m2 := fun h1 h2 hm => (o2 _ hm).elim h1 h2
    have n3 : ∀ {x}, x ≠ nestedReport → x ∉ nestedErrors r.1 := fun h1 hm => h1 (hnest _ hm)
    have n4 : ∀ {x}, x ≠ unusedReport → x ∉ m4 := fun h1 hm => h1 (o4 _ hm)
    refine ⟨?_, ?_, ?_, ?_, ?_, ?_⟩
    · intro x hx
      rcases (only x).1 hx with h | h | h | h
      · rcases o1 x h with h | h <;> simp [h]
      · rcases o2 x h with h | h <;> simp [h]
      · simp [hnest x h]
      · simp [o4 x h]
    · rw [only, w1]
      simp only [n2 (x := withoutIdReport) (by decide) (by decide), n3 (x := withoutIdReport) (by decide), n4 (x := withoutIdReport) (by decide), or_false]
    · rw [only, r2]
      simp only [n1 (x := reusedReport) (by decide) (by decide), n3 (x := reusedReport) (by decide), n4 (x := reusedReport) (by decide), or_false, false_or]
      simp
    · rw [only, i2]
      simp only [n1 (x := invalidIdReport) (by decide) (by decide), n3 (x := invalidIdReport) (by decide), n4 (x := invalidIdReport) (by decide), or_false, false_or, hget, continuationOf_none]
    · rw [only, hnest']
      simp only [n1 (x := nestedReport) (by decide) (by decide), n2 (x := nestedReport) (by decide) (by decide), n4 (x := nestedReport) (by decide), or_false, false_or]
    · rw [only, u4]
      simp only [n1 (x := unusedReport) (by decide) (by decide), n2 (x := unusedReport) (by decide) (by decide), n3 (x := unusedReport) (by decide), false_or]

/-! ## Exactness -/

theorem reported_none {l : List String} : ∀ {seen : List String} {n : Nat}, l.Nodup → (∀ i ∈ l, i ∉ seen) → Reported seen l n → n = 0 := by
  induction l with
  | nil => intro seen n _ _ h; exact h
  | cons i l ih =>
    rintro seen n hn hs ⟨k, m, e, hk, hm⟩
    obtain ⟨h1, h2⟩ := List.nodup_cons.1 hn
    rw [if_neg (hs i List.mem_cons_self)] at hk
    have := ih h2 (by
      intro j hj hm
      rcases List.mem_cons.1 hm with rfl | hm
      · exact h1 hj
      · exact hs j (List.mem_cons_of_mem _ hj) hm) hm
    omega

variable {idx : String → Option ContElem}

theorem path_same {o : Option String} {a : List ContElem} (h : Path idx o a) : ∀ {b}, Path idx o b → a = b := by
  induction h with
  | done => intro b hb; cases hb; rfl
  | unknown hi =>
    intro b hb
    cases hb with
    | unknown _ => rfl
    | step hi' _ => rw [hi] at hi'; cases hi'
  | step hi _ ih =>
    intro b hb
    cases hb with
    | unknown hi' => rw [hi] at hi'; cases hi'
    | step hi' hp =>
      rw [hi] at hi'
      cases hi'
      rw [ih hp]

theorem path_visits {a b : String} {n : Nat} (hv : Visits idx a n b) : ∀ {cs}, Path idx (some a) cs → ∃ cs', Path idx (some b) cs' ∧ cs'.length + n = cs.length := by
  induction hv with
  | zero => intro cs h; exact ⟨cs, h, rfl⟩
  | succ hc _ ih =>
    intro cs h
    obtain ⟨c, hi, hn⟩ := hc
    cases h with
    | unknown hi' => rw [hi] at hi'; cases hi'
    | step hi' hp =>
      rw [hi] at hi'
      cases hi'
      rw [hn] at hp
      obtain ⟨cs', h1, h2⟩ := ih hp
      exact ⟨cs', h1, by rw [List.length_cons]; omega⟩

theorem path_suffix {o : Option String} {cs : List ContElem} (h : Path idx o cs) : ∀ c ∈ cs, ∃ i rest, idx i = some c ∧ Path idx (some i) rest := by
  induction h with
  | done => intro c hc; cases hc
  | unknown _ => intro c hc; cases hc
  | step hi hp ih =>
    intro c hc
    rcases List.mem_cons.1 hc with rfl | hc
    · exact ⟨_, _, hi, .step hi hp⟩
    · exact ih c hc

theorem path_links {o : Option String} {cs : List ContElem} (hid : ∀ i c, idx i = some c → c.id = some i) (h : Path idx o cs) :
    (∀ i, (o = some i ∨ ∃ c ∈ cs, c.continuedAt = some i) → (idx i).isSome) → o.toList ++ cs.filterMap (·.continuedAt) = cs.filterMap (·.id) := by
  induction h with
  | done => intro _; rfl
  | unknown hi => intro hk; have := hk _ (Or.inl rfl); rw [hi] at this; cases this
  | @step i c rest hi _ ih =>
    intro hk
    have := ih (by
      intro j hj
      refine hk j (Or.inr ?_)
      rcases hj with hj | ⟨d, hd, hj⟩
      · exact ⟨c, List.mem_cons_self, hj⟩
      · exact ⟨d, List.mem_cons_of_mem _ hd, hj⟩)
    rw [List.filterMap_cons_some (f := fun c : ContElem => c.id) (hid _ _ hi), ← this]
    cases hc : c.continuedAt with
    | none => rw [List.filterMap_cons_none (f := fun c : ContElem => c.continuedAt) hc]; rfl
    | some j => rw [List.filterMap_cons_some (f := fun c : ContElem => c.continuedAt) hc]; rfl

theorem perm_chains (chains : List (ContElem × List ContElem)) : (chains.flatMap (fun p => p.1 :: p.2)).Perm (chains.map (·.1) ++ chains.flatMap (·.2)) := by
  induction chains with
  | nil => exact .refl _
  | cons p chains ih =>
    rw [List.flatMap_cons, List.map_cons, List.flatMap_cons, List.cons_append, List.cons_append]
    refine List.Perm.cons _ ?_
    refine (List.Perm.append_left p.2 ih).trans ?_
    rw [← List.append_assoc, ← List.append_assoc]
    exact List.Perm.append_right _ List.perm_append_comm

/-- C99. Nothing at all is reported of the continuations exactly if their ids are distinct and not used before, and they are valid. -/
theorem C99_exact {fuel : Nat} {facts footnotes conts : List ContElem} {taken taken' : List String} {chains : List (ContElem × List ContElem)} {errs : ErrNames}
    (h : createChains fuel facts footnotes conts taken = some (chains, errs, taken')) :
    errs = [] ↔ (conts.filterMap (·.id)).Nodup ∧ (∀ i ∈ conts.filterMap (·.id), i ∉ taken) ∧ ValidContinuations (canContinue facts footnotes) conts := by
  obtain ⟨_, hrep, _⟩ := createChains_spec h
  constructor
  · intro he
    obtain ⟨_, w, r, i, n, u⟩ := C99_reports h
    rw [he] at w r i n u hrep
    obtain ⟨hn, hd⟩ := (reported_zero _ _).1 hrep
    obtain ⟨c1, c2⟩ := C33_chains h
    dsimp only at c1 c2
    simp only [List.not_mem_nil, false_iff] at w r i n u
    have hids : ∀ c ∈ conts, c.id.isSome := by
      intro c hc
      cases hci : c.id with
      | none => exact absurd ⟨c, hc, hci⟩ w
      | some j => rfl
    have hknown : ∀ p ∈ chains, ∀ a ∈ p.1 :: p.2, ∀ j, a.continuedAt = some j → ∃ c ∈ conts, c.id = some j := by
      intro p hp a ha j hj
      refine Classical.byContradiction (fun hh => i ⟨p, hp, a, ha, j, hj, fun c hc hcj => hh ⟨c, hc, hcj⟩⟩)
    have hmem : ∀ p ∈ chains, ∀ d ∈ p.2, d ∈ conts := by
      intro p hp d hd
      obtain ⟨j, _, hj, _⟩ := path_suffix (c2 p hp) d hd
      exact (continuationOf_mem hj).1
    have hused : ∀ c ∈ conts, ∃ p ∈ chains, c ∈ p.2 := by
      intro c hc
      obtain ⟨j, hj⟩ := Option.isSome_iff_exists.1 (hids c hc)
      refine Classical.byContradiction (fun hh => u ⟨c, hc, j, hj, fun p hp d hd hdj => hh ⟨p, hp, ?_⟩⟩)
      have : d = c := filterMap_unique hn (hmem p hp d hd) hc hdj hj
      exact this ▸ hd
    refine ⟨hn, hd, hids, ?_, ?_, ?_, ?_, ?_⟩
    · intro e he j hj
      rcases List.mem_append.1 he with he | he
      · rw [← c1] at he
        obtain ⟨p, hp, rfl⟩ := List.mem_map.1 he
        exact hknown p hp _ List.mem_cons_self j hj
      · obtain ⟨p, hp, hcp⟩ := hused e he
        exact hknown p hp e (List.mem_cons_of_mem _ hcp) j hj
    · have hL : (chains.flatMap (fun p => p.1 :: p.2)).filterMap (·.continuedAt) = chains.flatMap (fun p => p.2.filterMap (·.id)) := by
        rw [List.filterMap_flatMap]
        apply List.flatMap_congr
        intro p hp
        have := path_links (fun i c hi => (continuationOf_mem hi).2) (c2 p hp) (by
          intro j hj
          rw [continuationOf_some]
          rcases hj with hj | ⟨d, hd, hj⟩
          · exact hknown p hp _ List.mem_cons_self j hj
          · exact hknown p hp d (List.mem_cons_of_mem _ hd) j hj)
        rw [← this]
        cases hc : p.1.continuedAt with
        | none => rw [List.filterMap_cons_none (f := fun c : ContElem => c.continuedAt) hc]; rfl
        | some j => rw [List.filterMap_cons_some (f := fun c : ContElem => c.continuedAt) hc]; rfl
      have hperm := (perm_chains chains).filterMap (·.continuedAt)
      rw [hL, c1] at hperm
      have hnd : ((canContinue facts footnotes ++ chains.flatMap (·.2)).filterMap (·.continuedAt)).Nodup := hperm.nodup_iff.1 (Classical.not_not.1 r)
      have hcn : conts.Nodup := by
        refine List.Pairwise.imp_of_mem ?_ (List.pairwise_filterMap.1 hn)
        intro a b ha _ hab e
        subst e
        obtain ⟨j, hj⟩ := Option.isSome_iff_exists.1 (hids a ha)
        exact hab j hj j hj rfl
      have hsub : conts.Subperm (chains.flatMap (·.2)) := List.subperm_of_subset hcn (by
        intro c hc
        obtain ⟨p, hp, hcp⟩ := hused c hc
        exact List.mem_flatMap.2 ⟨p, hp, hcp⟩)
      obtain ⟨l, hl1, hl2⟩ := hsub
      have hs := (hl2.filterMap (·.continuedAt))
      rw [List.filterMap_append] at hnd ⊢
      refine (List.Perm.append_left _ (hl1.filterMap _)).nodup_iff.1 ?_
      exact hnd.sublist ((List.Sublist.refl _).append hs)
    · intro a m hv
      obtain ⟨c, hi, _⟩ : ∃ c, continuationOf conts a = some c ∧ True := by
        cases hv with
        | succ hc _ => obtain ⟨c, hc, _⟩ := hc; exact ⟨c, hc, trivial⟩
      obtain ⟨hcm, hcid⟩ := continuationOf_mem hi
      obtain ⟨p, hp, hcp⟩ := hused c hcm
      obtain ⟨j, rest, hj, hpath⟩ := path_suffix (c2 p hp) c hcp
      have hja := (continuationOf_mem hj).2
      rw [hcid] at hja
      cases hja
      obtain ⟨cs', h1, h2⟩ := path_visits hv hpath
      rw [path_same h1 hpath] at h2
      omega
    · intro c hc
      obtain ⟨p, hp, hcp⟩ := hused c hc
      exact ⟨p.1, c1 ▸ List.mem_map.2 ⟨p, hp, rfl⟩, p.2, c2 p hp, hcp⟩
    · intro e he cs hpath a ha b hb hab
      rw [← c1] at he
      obtain ⟨p, hp, rfl⟩ := List.mem_map.1 he
      rw [path_same hpath (c2 p hp)] at ha hb
      exact n ⟨p, hp, a, ha, b, hb, hab⟩
  · rintro ⟨hn, hd, hv⟩
    refine (createChains_silent hv h).silent ?_
    have := reported_none hn hd hrep
    rw [List.count_eq_zero] at this
    exact this

/-- A text fact with two continuations: nothing is reported. -/
example : ∃ chains taken, createChains 3 [⟨1, "ix:nonNumeric", none, some "a", []⟩] [] [⟨2, "ix:continuation", some "a", some "b", []⟩, ⟨3, "ix:continuation", some "b", none, []⟩] ["c"] =
    some (chains, [], taken) := ⟨_, _, by rfl⟩

/-- Two facts continued by the same element, inside which one of them lies, an unknown id and an unused continuation: everything is reported. -/
example : ∃ chains taken, createChains 3 [⟨1, "ix:nonNumeric", none, some "a", []⟩, ⟨2, "ix:nonNumeric", none, some "a", []⟩] []
    [⟨3, "ix:continuation", some "a", some "x", [2]⟩, ⟨4, "ix:continuation", some "b", none, []⟩, ⟨5, "ix:continuation", none, none, []⟩] [] =
    some (chains, [withoutIdReport, invalidIdReport, reusedReport, invalidIdReport, nestedReport, unusedReport], taken) := ⟨_, _, by rfl⟩

end Brel
