import Verif.Lemmas.InlineErrors
import Verif.Model.Footnotes
import Verif.Props.InlineContent

/-! Properties of the parsers of inline documents: C48, C83 and the inline half of C41. -/

namespace Brel
open Spec

variable {dateOf : String → Option Date} {re : ElemStore}

/-! ## The passes over headers, references, contexts and units -/

theorem count_clean {l : ErrNames} (h : duplicateId ∉ l) : l.count duplicateId = 0 := List.count_eq_zero.2 h

theorem reported_one (i : String) (seen : List String) (k : Nat) (h : if i ∈ seen then 1 ≤ k ∧ k ≤ 2 else k = 0) : Reported seen [i] k := ⟨k, 0, rfl, h, rfl⟩

/-- What using an id does. -/
theorem use_errs (s : InlineState) (i : String) : (s.use i).ps.errs = s.ps.errs ++ (if i ∈ s.taken then [duplicateId] else []) := by
  unfold InlineState.use
  split
  · rfl
  · simp [InlineState.take]

theorem use_rest (s : InlineState) (i : String) : (s.use i).ps.chars = s.ps.chars ∧ (s.use i).ps.aspects = s.ps.aspects ∧ (s.use i).contexts = s.contexts ∧ (s.use i).facts = s.facts ∧
    (s.use i).last = s.last ∧ (s.use i).taken = appendNew s.taken i := by
  unfold InlineState.use
  split <;> exact ⟨rfl, rfl, rfl, rfl, rfl, rfl⟩

theorem use_ps (s : InlineState) (i : String) : (s.use i).ps = { s.ps with errs := s.ps.errs ++ (if i ∈ s.taken then [duplicateId] else []) } := by
  unfold InlineState.use
  split
  · rfl
  · simp [InlineState.take]

/-- A pass of the parser used the ids `ids`, in order, reporting the repeated ones. -/
structure Pass (s s' : InlineState) (ids : List String) : Prop where
  taken : s'.taken = ids.foldl appendNew s.taken
  reports : ∃ n, s'.ps.errs.count duplicateId = s.ps.errs.count duplicateId + n ∧ Reported s.taken ids n

theorem Pass.nil {s s' : InlineState} (ht : s'.taken = s.taken) (he : s'.ps.errs.count duplicateId = s.ps.errs.count duplicateId) : Pass s s' [] :=
  ⟨ht, 0, he, rfl⟩

theorem Pass.trans {s s1 s2 : InlineState} {a b : List String} (h1 : Pass s s1 a) (h2 : Pass s1 s2 b) : Pass s s2 (a ++ b) := by
  obtain ⟨t1, n1, c1, r1⟩ := h1
  obtain ⟨t2, n2, c2, r2⟩ := h2
  refine ⟨by rw [t2, t1, List.foldl_append], n1 + n2, by omega, reported_append r1 (reported_congr (fun i => ?_) _ _ r2)⟩
  rw [t1, mem_foldl_appendNew, List.mem_append]

theorem Pass.mem {s s' : InlineState} {ids : List String} (h : Pass s s' ids) (i : String) : i ∈ s'.taken ↔ i ∈ s.taken ∨ i ∈ ids := by
  rw [h.taken, mem_foldl_appendNew]

theorem Pass.use (s : InlineState) (i : String) : Pass s (s.use i) [i] := by
  refine ⟨(use_rest s i).2.2.2.2.2, (if i ∈ s.taken then 1 else 0), ?_, reported_one _ _ _ ?_⟩
  · rw [use_errs, List.count_append]
    split <;> simp
  · split <;> simp

/-- An id used with more reports than the one of `use`. -/
theorem Pass.one {s s' : InlineState} {i : String} (ht : s'.taken = appendNew s.taken i) {k : Nat} (hc : s'.ps.errs.count duplicateId = s.ps.errs.count duplicateId + k)
    (hk : if i ∈ s.taken then 1 ≤ k ∧ k ≤ 2 else k = 0) : Pass s s' [i] := ⟨ht, k, hc, reported_one _ _ _ hk⟩

/-! ### References -/

theorem err_count (s : InlineState) {e : String} (h : e ≠ duplicateId) : (s.err e).ps.errs.count duplicateId = s.ps.errs.count duplicateId := by
  simp [InlineState.err, ParseState.err, List.count_append, h]

/-- States that differ at most in reports. -/
def OnlyReports (s s' : InlineState) : Prop := ∃ more, s' = { s with ps := { s.ps with errs := s.ps.errs ++ more } }

theorem OnlyReports.refl (s : InlineState) : OnlyReports s s := ⟨[], by simp⟩

theorem OnlyReports.trans {s s1 s2 : InlineState} (h1 : OnlyReports s s1) (h2 : OnlyReports s1 s2) : OnlyReports s s2 := by
  obtain ⟨a, rfl⟩ := h1
  obtain ⟨b, rfl⟩ := h2
  exact ⟨a ++ b, by simp⟩

theorem OnlyReports.err (s : InlineState) (e : String) : OnlyReports s (s.err e) := ⟨[e], rfl⟩

theorem references_children (cs : List XNode) : ∀ {s s' : InlineState}, cs.foldlM referenceChild s = .ok s' →
    OnlyReports s s' ∧ s'.ps.errs.count duplicateId = s.ps.errs.count duplicateId := by
  induction cs with
  | nil => intro s s' h; cases h; exact ⟨.refl _, rfl⟩
  | cons c cs ih =>
    intro s s' h
    rw [List.foldlM_cons] at h
    cases hc : referenceChild s c with
    | error e => rw [hc] at h; cases h
    | ok s1 =>
      rw [hc] at h
      obtain ⟨o, n⟩ := ih h
      have h1 : OnlyReports s s1 ∧ s1.ps.errs.count duplicateId = s.ps.errs.count duplicateId := by
        unfold referenceChild at hc
        simp only [bind, Except.bind, pure, Except.pure] at hc
        split at hc
        · cases hc
        · split at hc
          · cases hc; exact ⟨.refl _, rfl⟩
          · cases hc
      exact ⟨h1.1.trans o, n.trans h1.2⟩

/-- What no pass but its own changes. -/
structure Quiet (s s' : InlineState) : Prop where
  chars : s'.ps.chars = s.ps.chars
  aspects : s'.ps.aspects = s.ps.aspects
  contexts : s'.contexts = s.contexts
  facts : s'.facts = s.facts
  last : s'.last = s.last

theorem Quiet.refl (s : InlineState) : Quiet s s := ⟨rfl, rfl, rfl, rfl, rfl⟩
theorem Quiet.trans {s s1 s2 : InlineState} (h1 : Quiet s s1) (h2 : Quiet s1 s2) : Quiet s s2 :=
  ⟨h2.chars.trans h1.chars, h2.aspects.trans h1.aspects, h2.contexts.trans h1.contexts, h2.facts.trans h1.facts, h2.last.trans h1.last⟩
theorem OnlyReports.quiet {s s' : InlineState} (h : OnlyReports s s') : Quiet s s' := by obtain ⟨m, rfl⟩ := h; exact ⟨rfl, rfl, rfl, rfl, rfl⟩
theorem OnlyReports.taken {s s' : InlineState} (h : OnlyReports s s') : s'.taken = s.taken := by obtain ⟨m, rfl⟩ := h; rfl
theorem Quiet.use (s : InlineState) (i : String) : Quiet s (s.use i) := by
  obtain ⟨a, b, c, d, e, _⟩ := use_rest s i
  exact ⟨a, b, c, d, e⟩

theorem reference_pass {s s' : InlineState} {x : XNode} (h : parseReference s x = .ok s') : Quiet s s' ∧ Pass s s' (idsOf [x]) := by
  unfold parseReference at h
  dsimp only at h
  have h1 : ∃ s1, s.useOpt (x.attr? "id") = s1 ∧ Quiet s s1 ∧ Pass s s1 (idsOf [x]) := by
    cases hi : x.attr? "id" with
    | none => exact ⟨s, rfl, .refl s, by simpa [idsOf, hi] using Pass.nil (s := s) rfl rfl⟩
    | some i => exact ⟨_, rfl, .use s i, by simpa [idsOf, hi, InlineState.useOpt] using Pass.use s i⟩
  obtain ⟨s1, e1, q1, p1⟩ := h1
  rw [e1] at h
  have h2 : ∃ s2, (if x.children.length = 0 then s1.err "IXBRL_REFERENCES_ELEMENT_WITHOUT_CHILDREN" else s1) = s2 ∧ OnlyReports s1 s2 ∧
      s2.ps.errs.count duplicateId = s1.ps.errs.count duplicateId := by
    split
    · exact ⟨_, rfl, .err _ _, err_count s1 (by decide)⟩
    · exact ⟨_, rfl, .refl _, rfl⟩
  obtain ⟨s2, e2, o2, c2⟩ := h2
  rw [e2] at h
  obtain ⟨o3, c3⟩ := references_children _ h
  refine ⟨q1.trans (o2.trans o3).quiet, ?_⟩
  have := p1.trans (Pass.nil (o2.trans o3).taken (c3.trans c2))
  rwa [List.append_nil] at this

theorem idsOf_cons (x : XNode) (xs : List XNode) : idsOf (x :: xs) = idsOf [x] ++ idsOf xs := by
  unfold idsOf
  rw [← List.filterMap_append]; rfl

theorem references_pass (xs : List XNode) : ∀ {s s' : InlineState}, xs.foldlM parseReference s = .ok s' → Quiet s s' ∧ Pass s s' (idsOf xs) := by
  induction xs with
  | nil => intro s s' h; cases h; exact ⟨.refl s, .nil rfl rfl⟩
  | cons x xs ih =>
    intro s s' h
    rw [List.foldlM_cons] at h
    cases hc : parseReference s x with
    | error e => rw [hc] at h; cases h
    | ok s1 =>
      rw [hc] at h
      obtain ⟨q1, p1⟩ := reference_pass hc
      obtain ⟨q2, p2⟩ := ih h
      rw [idsOf_cons]
      exact ⟨q1.trans q2, p1.trans p2⟩

/-! ### Contexts -/

/-- The parsers of contexts report no duplicate id. -/
theorem stable_dup (n : Nat) : Stable (fun s => s.errs.count duplicateId = n) where
  err := by
    intro s e he h
    have : e ≠ duplicateId := he
    simpa [ParseState.err, List.count_append, this] using h
  aspect := fun _ _ h => h
  put := fun _ _ _ _ h => h

/-- What a pass over contexts keeps: every stored context was declared with its id. -/
structure Ctxs (s : InlineState) : Prop where
  ids : ∀ i c, s.contexts.get? i = some c → c.id = i ∧ i ∈ s.taken

theorem addOpt_id (ctx : Context) (c : Option Characteristic) : (ctx.addOpt c).id = ctx.id := by
  cases c with
  | none => rfl
  | some c => exact foldl_add_id [c] ctx

theorem parseSegment_id (xs : List XNode) : ∀ {ctx ctx' : Context} {s s' : ParseState}, parseSegment re xs ctx s = .ok (ctx', s') → ctx'.id = ctx.id := by
  induction xs with
  | nil => intro ctx ctx' s s' h; cases h; rfl
  | cons x xs ih =>
    intro ctx ctx' s s' h
    simp only [parseSegment, bind, Except.bind] at h
    split at h
    · cases h
    · rw [ih h, addOpt_id]

/-- The context parser keeps the id of the element. -/
theorem parseContext_id {x : XNode} {s s' : ParseState} {ctx : Context} (h : parseContext dateOf re x [] s = .ok (some ctx, s')) : x.attr? "id" = some ctx.id := by
  unfold parseContext at h
  simp only [bind, Except.bind, pure, Except.pure] at h
  split at h
  · cases h
  · next i hi =>
    split at h
    · cases h
    · split at h
      · cases h
      · split at h
        · cases h
        · split at h
          · cases h
          · split at h
            · cases h
            · next hs =>
              cases h
              rw [attr_ok hi, parseSegment_id _ hs, addOpt_id, addOpt_id]
              rfl

/-- Without an id, the context parser raises. -/
theorem parseContext_no_id {x : XNode} {given : List Characteristic} {s : ParseState} (h : x.attr? "id" = none) (r : Option Context × ParseState) :
    parseContext dateOf re x given s ≠ .ok r := by
  intro hr
  unfold parseContext at hr
  cases ha : x.attr "id" with
  | error e => rw [ha] at hr; cases hr
  | ok i => rw [attr_ok ha] at h; cases h

theorem context_pass {s s' : InlineState} {x : XNode} (h : parseInlineContext dateOf re s x = .ok s') (hc : Ctxs s) :
    ∃ i r ps, x.attr? "id" = some i ∧ parseContext dateOf re x [] (s.use i).ps = .ok (r, ps) ∧ Pass s s' [i] ∧ Ctxs s' ∧
      s'.facts = s.facts ∧ s'.last = s.last ∧ (∃ more, s'.ps = { ps with errs := ps.errs ++ more }) ∧
      (∀ j, s'.contexts.get? j = (s.contexts.get? j).or (if j = i then r else none)) := by
  unfold parseInlineContext at h
  simp only [bind, Except.bind, pure, Except.pure] at h
  cases hi : x.attr? "id" with
  | none =>
    exfalso
    split at h
    · cases h
    · next hp => exact parseContext_no_id hi _ hp
  | some i =>
    rw [hi] at h
    simp only [Option.isNone_some, Bool.false_eq_true, if_false, Option.getD_some] at h
    cases hp : parseContext dateOf re x [] (s.use i).ps with
    | error e => rw [hp] at h; cases h
    | ok rp =>
      obtain ⟨r, ps⟩ := rp
      rw [hp] at h
      obtain ⟨_, _, hcx, hfa, hla, hta⟩ := use_rest s i
      have hcnt : ps.errs.count duplicateId = (s.use i).ps.errs.count duplicateId := stable_context (stable_dup _) rfl hp
      rw [use_errs, List.count_append] at hcnt
      refine ⟨i, r, ps, rfl, hp, ?_⟩
      cases r with
      | none =>
        cases h
        refine ⟨Pass.one hta (k := if i ∈ s.taken then 1 else 0) ?_ (by split <;> simp), ⟨?_⟩, hfa, hla, ⟨[], by simp⟩, ?_⟩
        · dsimp only; rw [hcnt]; split <;> simp
        · intro j c hj
          dsimp only at hj ⊢
          rw [hcx] at hj
          obtain ⟨a, b⟩ := hc.ids j c hj
          exact ⟨a, by rw [hta, mem_appendNew]; exact Or.inl b⟩
        · intro j
          dsimp only
          rw [hcx]; simp
      | some ctx =>
        have hid : ctx.id = i := by
          have := parseContext_id hp
          rw [hi] at this; exact (Option.some.inj this).symm
        dsimp only at h
        rw [hcx, Dict.has_eq, hid] at h
        split at h
        · next hh =>
          obtain ⟨c, hcg⟩ := Option.isSome_iff_exists.1 hh
          have hmem := (hc.ids i c hcg).2
          cases h
          refine ⟨Pass.one hta (k := 2) ?_ (by rw [if_pos hmem]; simp), ⟨?_⟩, hfa, hla, ⟨[duplicateId], rfl⟩, ?_⟩
          · dsimp only
            simp only [ParseState.err]
            rw [List.count_append, hcnt, if_pos hmem]
            simp [duplicateId]
          · intro j c hj
            dsimp only at hj ⊢
            obtain ⟨a, b⟩ := hc.ids j c hj
            exact ⟨a, by rw [hta, mem_appendNew]; exact Or.inl b⟩
          · intro j
            dsimp only
            by_cases hj : j = i
            · subst hj; rw [hcg]; rfl
            · rw [if_neg hj]; simp
        · next hh =>
          have hn : s.contexts.get? i = none := by simpa using hh
          cases h
          refine ⟨Pass.one hta (k := if i ∈ s.taken then 1 else 0) ?_ (by split <;> simp), ⟨?_⟩, hfa, hla, ⟨[], by simp⟩, ?_⟩
          · dsimp only; rw [hcnt]; split <;> simp
          · intro j c hj
            dsimp only at hj ⊢
            rw [Dict.get?_set] at hj
            rw [hta, mem_appendNew]
            split at hj
            · next e => cases hj; exact ⟨by rw [hid, e], Or.inr e.symm⟩
            · obtain ⟨a, b⟩ := hc.ids j c hj
              exact ⟨a, Or.inl b⟩
          · intro j
            dsimp only
            rw [Dict.get?_set]
            by_cases hj : i = j
            · subst hj; rw [if_pos rfl, if_pos rfl, hn]; rfl
            · rw [if_neg hj, if_neg (fun e => hj e.symm)]; simp

theorem reach_use (s : InlineState) (i : String) (ys : List XNode) : Reach dateOf re ys s.ps (s.use i).ps := Reach.errs _ (use_ps s i)

/-- The context a context element yields, if it does not depend on what was parsed before. -/
theorem context_value {ys : List XNode} {s ps : ParseState} {x : XNode} {i : String} {r : Option Context} (hr : Reach dateOf re ys {} s) (hu : Unambiguous re ys) (hx : x ∈ ys)
    (hi : x.attr? "id" = some i) (h : parseContext dateOf re x [] s = .ok (r, ps)) :
    r = (partsOf x).map (fun _ => (statedBy dateOf re x).foldl Context.add (Context.new i)) := by
  cases hp : partsOf x with
  | none => rw [(parseContext_none hp h).1]; rfl
  | some pe =>
    cases r with
    | none =>
      exfalso
      have := (C39_none_iff h).1.1 rfl
      unfold partsOf at hp
      rcases this with e | e
      · rw [e] at hp; cases hp
      · rw [e] at hp
        cases hq : x.find "period" with
        | none => rw [hq] at hp; cases hp
        | some q => rw [hq] at hp; cases hp
    | some ctx =>
      obtain ⟨ops, ho, hc⟩ := hr
      obtain ⟨i', hi', hv⟩ := C39_content_partial ho (unambiguous_mono hu (by
        intro y hy
        rw [List.mem_append, List.mem_singleton] at hy
        rcases hy with hy | rfl
        · exact hc y hy
        · exact hx)) h
      rw [hi] at hi'
      cases hi'
      rw [hv]; rfl

/-- Whether a context element yields a context does not depend on anything else. -/
theorem context_some {s ps : ParseState} {x : XNode} {r : Option Context} (h : parseContext dateOf re x [] s = .ok (r, ps)) : r.isSome = (partsOf x).isSome := by
  cases hp : partsOf x with
  | none => rw [(parseContext_none hp h).1]; rfl
  | some pe =>
    cases r with
    | some ctx => rfl
    | none =>
      exfalso
      have := (C39_none_iff h).1.1 rfl
      unfold partsOf at hp
      rcases this with e | e
      · rw [e] at hp; cases hp
      · rw [e] at hp
        cases hq : x.find "period" with
        | none => rw [hq] at hp; cases hp
        | some q => rw [hq] at hp; cases hp

theorem declaredContext_cons (x : XNode) (xs : List XNode) (j : String) :
    declaredContext (x :: xs) j = (if x.attr? "id" = some j ∧ (partsOf x).isSome then some x else none).or (declaredContext xs j) := by
  unfold declaredContext
  rw [List.find?_cons]
  by_cases h : x.attr? "id" = some j ∧ (partsOf x).isSome = true
  · rw [if_pos h]; simp [h.1, h.2]
  · rw [if_neg h]
    have : (decide (x.attr? "id" = some j) && (partsOf x).isSome) = false := by
      rw [Bool.eq_false_iff]
      intro hh
      rw [Bool.and_eq_true, decide_eq_true_iff] at hh
      exact h hh
    rw [this]; rfl

/-- The pass over the context elements. -/
theorem contexts_pass (ys : List XNode) (xs : List XNode) : ∀ {s s' : InlineState}, (∀ x ∈ xs, x ∈ ys) → Ctxs s → xs.foldlM (parseInlineContext dateOf re) s = .ok s' →
    Pass s s' (idsOf xs) ∧ Ctxs s' ∧ s'.facts = s.facts ∧ s'.last = s.last ∧ (∀ i, s'.ps.chars.get? (i, .unit) = s.ps.chars.get? (i, .unit)) ∧
    (∀ j, (s'.contexts.get? j).isSome = ((s.contexts.get? j).isSome || (declaredContext xs j).isSome)) ∧ Reach dateOf re ys s.ps s'.ps ∧
    (Reach dateOf re ys {} s.ps → Unambiguous re ys → ∀ j, s'.contexts.get? j =
      (s.contexts.get? j).or ((declaredContext xs j).map (fun cx => (statedBy dateOf re cx).foldl Context.add (Context.new j)))) := by
  induction xs with
  | nil =>
    intro s s' _ hc h
    cases h
    exact ⟨.nil rfl rfl, hc, rfl, rfl, fun _ => rfl, fun j => by simp [declaredContext], .refl _, fun _ _ j => by simp [declaredContext]⟩
  | cons x xs ih =>
    intro s s' hy hc h
    rw [List.foldlM_cons] at h
    cases hx : parseInlineContext dateOf re s x with
    | error e => rw [hx] at h; cases h
    | ok s1 =>
      rw [hx] at h
      obtain ⟨i, r, ps, hi, hp, p1, c1, f1, l1, ⟨more, hps⟩, g1⟩ := context_pass hx hc
      obtain ⟨p2, c2, f2, l2, u2, d2, r2, v2⟩ := ih (fun y h => hy y (List.mem_cons_of_mem _ h)) c1 h
      have hids : idsOf [x] = [i] := by simp [idsOf, hi]
      have hreach : Reach dateOf re ys s.ps s1.ps := by
        refine (reach_use s i ys).trans (Reach.trans (Reach.step (.context x []) (s' := ps) ?_ ?_) (Reach.errs more hps))
        · simp [CtxOp.apply, hp, Except.map]
        · intro y hy'
          have : y = x := by simpa [contextsOf] using hy'
          subst this
          exact hy _ List.mem_cons_self
      refine ⟨?_, c2, f2.trans f1, l2.trans l1, ?_, ?_, hreach.trans r2, ?_⟩
      · rw [idsOf_cons, hids]; exact p1.trans p2
      · intro j
        rw [u2 j, hps]
        rw [parseContext_other hp j .unit (by unfold CharKind.parsed; simp)]
        rw [use_ps]
      · intro j
        rw [d2 j, g1 j, declaredContext_cons, Option.isSome_or, Option.isSome_or, hi, Bool.or_assoc]
        congr 1
        congr 1
        rw [← context_some hp]
        by_cases e : j = i
        · subst e; cases r <;> simp
        · rw [if_neg e, if_neg (by rintro ⟨e', _⟩; exact e (Option.some.inj e').symm)]; rfl
      · intro h0 hu j
        rw [v2 (h0.trans hreach) hu j, g1 j, declaredContext_cons, Option.or_assoc]
        congr 1
        rw [Option.map_or]
        congr 1
        have hv := context_value (h0.trans (reach_use s i ys)) hu (hy x List.mem_cons_self) hi hp
        by_cases e : j = i
        · subst e
          rw [if_pos rfl, hv]
          cases partsOf x with
          | none => simp
          | some pe => simp [hi]
        · rw [if_neg e, if_neg (by rw [hi]; rintro ⟨e', _⟩; exact e (Option.some.inj e').symm)]; rfl

/-! ### Units -/

/-- Every stored unit was declared with its id. -/
def UnitsTaken (s : InlineState) : Prop := ∀ i c, s.ps.chars.get? (i, .unit) = some c → i ∈ s.taken

theorem unit_pass {s s' : InlineState} {x : XNode} (h : parseInlineUnit s x = .ok s') (hu : UnitsTaken s) :
    ∃ i, x.attr? "id" = some i ∧ Pass s s' [i] ∧ UnitsTaken s' ∧ s'.contexts = s.contexts ∧ s'.facts = s.facts ∧ s'.last = s.last ∧
      ∀ j, s'.ps.chars.get? (j, .unit) = (if j = i then unitOf x else none).or (s.ps.chars.get? (j, .unit)) := by
  unfold parseInlineUnit at h
  simp only [bind, Except.bind, pure, Except.pure] at h
  cases hi : x.attr? "id" with
  | none =>
    exfalso
    rw [hi] at h
    split at h
    · cases h
    · next hp => obtain ⟨i, _, hi', _⟩ := parseUnit_dup hp; rw [hi] at hi'; cases hi'
  | some i =>
    rw [hi] at h
    dsimp only at h
    obtain ⟨hch, _, hcx, hfa, hla, hta⟩ := use_rest s i
    cases hp : parseUnit x (s.use i).ps with
    | error e => rw [hp] at h; cases h
    | ok rp =>
      obtain ⟨r, ps⟩ := rp
      rw [hp] at h
      obtain ⟨i', more, hi', he, hc⟩ := parseUnit_dup hp
      rw [hi] at hi'
      cases hi'
      obtain ⟨more2, hps, _, hun, hform⟩ := parseUnit_spec hp
      have hchars : ps.chars = s.ps.chars := by rw [hps]; exact hch
      have hkey : (s.use i).ps.chars.hasKey i .unit = true → i ∈ s.taken := by
        intro hk
        unfold CharStore.hasKey at hk
        rw [hch, Dict.has_eq] at hk
        obtain ⟨c, hg⟩ := Option.isSome_iff_exists.1 hk
        exact hu i c hg
      have hcount : ∃ k, ps.errs.count duplicateId = s.ps.errs.count duplicateId + k ∧ (if i ∈ s.taken then 1 ≤ k ∧ k ≤ 2 else k = 0) := by
        rw [he, use_errs]
        refine ⟨(if i ∈ s.taken then 1 else 0) + (if (s.use i).ps.chars.hasKey i .unit = true then 1 else 0), ?_, ?_⟩
        · simp only [List.count_append, count_clean hc]
          by_cases h1 : i ∈ s.taken <;> by_cases h2 : (s.use i).ps.chars.hasKey i .unit = true <;> simp [h1, h2] <;> omega
        · by_cases h1 : i ∈ s.taken
          · rw [if_pos h1, if_pos h1]; split <;> omega
          · rw [if_neg h1, if_neg h1, if_neg (fun hh => h1 (hkey hh))]
      obtain ⟨k, hk, hk2⟩ := hcount
      refine ⟨i, rfl, ?_⟩
      cases r with
      | none =>
        cases h
        refine ⟨Pass.one hta hk hk2, ?_, hcx, hfa, hla, ?_⟩
        · intro j c hj
          dsimp only at hj ⊢
          rw [hchars] at hj
          rw [hta, mem_appendNew]; exact Or.inl (hu j c hj)
        · intro j
          dsimp only
          rw [hchars, hun]; simp
      | some c =>
        obtain ⟨i', a, b, hi', hcf⟩ := hform c rfl
        rw [hi] at hi'
        cases hi'
        have hname : c.unitName = i := by rw [hcf]; rfl
        have hkind : c.kind = .unit := by rw [hcf]; rfl
        cases h
        refine ⟨Pass.one hta hk hk2, ?_, hcx, hfa, hla, ?_⟩
        · intro j c' hj
          dsimp only at hj ⊢
          unfold ParseState.put at hj
          rw [get?_upsert, hname, hkind, hchars] at hj
          rw [hta, mem_appendNew]
          split at hj
          · next e => exact Or.inr (congrArg Prod.fst e).symm
          · exact Or.inl (hu j c' hj)
        · intro j
          dsimp only
          unfold ParseState.put
          rw [get?_upsert, hname, hkind, hchars, hun]
          by_cases e : j = i
          · subst e; rw [if_pos rfl, if_pos rfl]; rfl
          · rw [if_neg e, if_neg (fun e' => e (congrArg Prod.fst e').symm)]; rfl

theorem declaredUnit_cons (x : XNode) (xs : List XNode) (j : String) :
    declaredUnit (x :: xs) j = (declaredUnit xs j).or (if x.attr? "id" = some j then unitOf x else none) := by
  unfold declaredUnit
  cases hx : (if x.attr? "id" = some j then unitOf x else none) with
  | none => rw [List.filterMap_cons_none (f := fun x => if x.attr? "id" = some j then unitOf x else none) hx, Option.or_none]
  | some c =>
    rw [List.filterMap_cons_some (f := fun x => if x.attr? "id" = some j then unitOf x else none) hx, List.getLast?_cons]
    cases (List.filterMap (fun x => if x.attr? "id" = some j then unitOf x else none) xs).getLast? <;> rfl

/-- The pass over the unit elements. -/
theorem units_pass (xs : List XNode) : ∀ {s s' : InlineState}, UnitsTaken s → xs.foldlM parseInlineUnit s = .ok s' →
    Pass s s' (idsOf xs) ∧ UnitsTaken s' ∧ s'.contexts = s.contexts ∧ s'.facts = s.facts ∧ s'.last = s.last ∧
    ∀ j, s'.ps.chars.get? (j, .unit) = (declaredUnit xs j).or (s.ps.chars.get? (j, .unit)) := by
  induction xs with
  | nil => intro s s' hu h; cases h; exact ⟨.nil rfl rfl, hu, rfl, rfl, rfl, fun j => by simp [declaredUnit]⟩
  | cons x xs ih =>
    intro s s' hu h
    rw [List.foldlM_cons] at h
    cases hx : parseInlineUnit s x with
    | error e => rw [hx] at h; cases h
    | ok s1 =>
      rw [hx] at h
      obtain ⟨i, hi, p1, u1, cx1, f1, l1, g1⟩ := unit_pass hx hu
      obtain ⟨p2, u2, cx2, f2, l2, g2⟩ := ih u1 h
      have hids : idsOf [x] = [i] := by simp [idsOf, hi]
      refine ⟨by rw [idsOf_cons, hids]; exact p1.trans p2, u2, cx2.trans cx1, f2.trans f1, l2.trans l1, ?_⟩
      intro j
      rw [g2 j, g1 j, declaredUnit_cons, Option.or_assoc, hi]
      congr 2
      by_cases e : j = i
      · subst e; rw [if_pos rfl, if_pos rfl]
      · rw [if_neg e, if_neg (fun e' => e (Option.some.inj e').symm)]

theorem unitOf_kind {x : XNode} {c : Characteristic} (h : unitOf x = some c) : c.kind = .unit := by
  unfold unitOf at h
  split at h
  · next hp =>
    cases h
    obtain ⟨_, _, _, _, hform⟩ := parseUnit_spec hp
    obtain ⟨i, a, b, _, hc⟩ := hform c rfl
    rw [hc]; rfl
  · cases h

theorem declaredUnit_kind {xs : List XNode} {j : String} {c : Characteristic} (h : declaredUnit xs j = some c) : c.kind = .unit := by
  have hm := List.mem_of_getLast? h
  rw [List.mem_filterMap] at hm
  obtain ⟨x, _, hx⟩ := hm
  split at hx
  · exact unitOf_kind hx
  · cases hx

/-! ### Facts -/

/-- The report of a unit that is not declared. -/
def unknownUnit : String := "IXBRL_INVALID_FACT_UNIT_ID"

theorem inlineUnit_spec {units : List XNode} (e : InlineElem) (tag : String) {s : InlineState} (hun : ∀ j, s.ps.chars.get? (j, .unit) = declaredUnit units j) :
    ∃ more, inlineUnit e tag s = (inlineUnits units e.node, { s with ps := { s.ps with errs := s.ps.errs ++ more } }) ∧ duplicateId ∉ more ∧
      (∀ u, truthy (e.node.attr? "unitRef") = some u → declaredUnit units u = none → unknownUnit ∈ more) := by
  unfold inlineUnit inlineUnits
  cases hr : e.node.attr? "unitRef" with
  | none =>
    dsimp only [truthy]
    split
    · exact ⟨_, rfl, by decide, by intro u hu; cases hu⟩
    · exact ⟨[], by simp, by simp, by intro u hu; cases hu⟩
  | some u =>
    by_cases h0 : u = ""
    · subst h0
      have ht : truthy (some "") = none := rfl
      rw [ht]
      dsimp only
      split
      · exact ⟨_, rfl, by decide, by intro u hu; cases hu⟩
      · exact ⟨[], by simp, by simp, by intro u hu; cases hu⟩
    · have ht : truthy (some u) = some u := by
        unfold truthy
        split
        · next h => cases h; exact absurd rfl h0
        · rfl
      rw [ht]
      dsimp only
      cases hd : declaredUnit units u with
      | none =>
        have hl : s.ps.chars.lookup u .unit = .error .valueError := by
          unfold CharStore.lookup; rw [hun u, hd]
        rw [hl]
        dsimp only
        refine ⟨[unknownUnit], ?_, by decide, fun _ _ _ => List.mem_singleton.2 rfl⟩
        split
        · next h => cases h
        · next h => cases h; exact absurd rfl h0
        · next h => cases h; rw [hd]; rfl
      | some c =>
        have hl : s.ps.chars.lookup u .unit = .ok c := by
          unfold CharStore.lookup; rw [hun u, hd]; dsimp only; rw [if_pos (declaredUnit_kind hd)]
        rw [hl]
        dsimp only
        refine ⟨[], ?_, by simp, ?_⟩
        · split
          · next h => cases h
          · next h => cases h; exact absurd rfl h0
          · next h => cases h; rw [hd]; simp
        · intro u' hu hn
          cases hu
          rw [hd] at hn; cases hn

/-- The id of a fact is used when the fact is made. -/
theorem pass_dup {s s' : InlineState} {x : XNode} {more more2 : ErrNames} (he : s'.ps.errs = s.ps.errs ++ more2 ++ (dupReport (x.attr? "id") s.taken ++ more)) (hc : duplicateId ∉ more)
    (hc2 : duplicateId ∉ more2) (ht : s'.taken = seenWith (x.attr? "id") s.taken) : Pass s s' (idsOf [x]) := by
  cases hi : x.attr? "id" with
  | none =>
    rw [hi] at he ht
    have : idsOf [x] = [] := by simp [idsOf, hi]
    rw [this]
    refine .nil ht ?_
    rw [he]
    simp [dupReport, count_clean hc, count_clean hc2]
  | some i =>
    rw [hi] at he ht
    have : idsOf [x] = [i] := by simp [idsOf, hi]
    rw [this]
    refine .one ht (k := if i ∈ s.taken then 1 else 0) ?_ ?_
    · rw [he]
      by_cases h : i ∈ s.taken <;> simp [dupReport, h, count_clean hc, count_clean hc2]
    · split <;> simp

/-- What making the fact of an element of a kind does. -/
theorem inlineFact_kind {dig : Char → Option Nat} {flt : String → Option Bool} {chain : List Elem} {e : InlineElem} {tag : String} {ctx : Context} {s s' : InlineState} {k : FactKind}
    (hk : kindOf e = some k) (ht : e.node.prefixTag = .ok tag) (h : inlineFact dig flt chain e tag ctx s = .ok s') :
    ∃ v more, inlineValue dig flt chain e k = some v ∧ duplicateId ∉ more ∧ s'.facts = s.facts.upsert { id := e.node.attr? "id", value := v, context := ctx } ∧
      s'.ps = { s.ps with errs := s.ps.errs ++ (dupReport (e.node.attr? "id") s.taken ++ more) } ∧ s'.taken = seenWith (e.node.attr? "id") s.taken ∧ s'.contexts = s.contexts := by
  unfold kindOf at hk
  rw [ht] at hk
  unfold inlineFact at h
  simp only [Except.toOption, Option.some.injEq] at hk
  by_cases h1 : tag = "ix:nonNumeric"
  · rw [if_pos h1] at hk h
    cases hk
    rcases parseNonNumeric_spec dig e.txt chain with ⟨err, hp⟩ | ⟨v, more, hc, hp⟩
    · rw [hp] at h; cases h
    · rw [hp] at h
      cases h
      refine ⟨String.ofList v, more, ?_, hc, rfl, rfl, rfl, rfl⟩
      unfold inlineValue
      rw [hp]; rfl
  · rw [if_neg h1] at hk h
    by_cases h2 : tag = "ix:nonFraction"
    · rw [if_pos h2] at hk h
      cases hk
      rcases parseNonFraction_spec dig flt e.num with ⟨err, hp⟩ | ⟨f, more, hid, hc, hp⟩
      · rw [hp] at h; cases h
      · rw [hp] at h
        cases h
        refine ⟨f.value, more, ?_, hc, ?_, rfl, rfl, rfl⟩
        · unfold inlineValue
          rw [hp]; rfl
        · dsimp only
          rw [hid]; rfl
    · rw [if_neg h2] at hk; cases hk

theorem inlineFact_other {dig : Char → Option Nat} {flt : String → Option Bool} {chain : List Elem} {e : InlineElem} {tag : String} {ctx : Context} {s s' : InlineState}
    (hk : kindOf e = none) (ht : e.node.prefixTag = .ok tag) (h : inlineFact dig flt chain e tag ctx s = .ok s') :
    s'.ps = s.ps ∧ s'.taken = s.taken ∧ s'.contexts = s.contexts := by
  unfold kindOf at hk
  rw [ht] at hk
  unfold inlineFact at h
  simp only [Except.toOption, Option.some.injEq] at hk
  by_cases h1 : tag = "ix:nonNumeric"
  · rw [if_pos h1] at hk; cases hk
  · rw [if_neg h1] at hk h
    by_cases h2 : tag = "ix:nonFraction"
    · rw [if_pos h2] at hk; cases hk
    · rw [if_neg h2] at h
      split at h
      · cases h
      · cases h; exact ⟨rfl, rfl, rfl⟩

/-- What one fact element does. -/
structure FactStep (data : ReportElement → Concept) (dig : Char → Option Nat) (flt : String → Option Bool) (re : ElemStore) (contexts units : List XNode) (chainOf : Nat → List Elem)
    (s s' : InlineState) (e : InlineElem) : Prop where
  ctxs : s'.contexts = s.contexts
  unit : ∀ j, s'.ps.chars.get? (j, .unit) = s.ps.chars.get? (j, .unit)
  errs : ∃ more, s'.ps.errs = s.ps.errs ++ more ∧ ((kindOf e).isSome → usable data re contexts e = false → more ≠ []) ∧
    (∀ u, (inlineConcept data re e.node).isSome → truthy (e.node.attr? "unitRef") = some u → declaredUnit units u = none → unknownUnit ∈ more)
  pass : Pass s s' (if usable data re contexts e then idsOf [e.node] else [])
  dropped : (kindOf e).isSome → usable data re contexts e = false → s'.facts = s.facts
  made : usable data re contexts e → ∃ k c ref ctx v, kindOf e = some k ∧ inlineConcept data re e.node = some c ∧ e.node.attr? "contextRef" = some ref ∧ s.contexts.get? ref = some ctx ∧
    inlineValue dig flt (chainOf e.cont.oid) e k = some v ∧
    s'.facts = s.facts.upsert { id := e.node.attr? "id", value := v, context := (Characteristic.ofConcept c :: inlineUnits units e.node).foldl Context.add ctx }

theorem fact_step {data : ReportElement → Concept} {dig : Char → Option Nat} {flt : String → Option Bool} {contexts units : List XNode} {chainOf : Nat → List Elem}
    {s s' : InlineState} {e : InlineElem} (hcx : ∀ j, (s.contexts.get? j).isSome = (declaredContext contexts j).isSome)
    (hun : ∀ j, s.ps.chars.get? (j, .unit) = declaredUnit units j) (h : parseInlineFact data dig flt re chainOf s e = .ok s') :
    FactStep data dig flt re contexts units chainOf s s' e := by
  unfold parseInlineFact at h
  simp only [bind, Except.bind, pure, Except.pure] at h
  cases htag : e.node.prefixTag with
  | error x => rw [htag] at h; cases h
  | ok tag =>
    rw [htag] at h
    dsimp only at h
    cases hn : e.node.attr? "name" with
    | none =>
      rw [hn] at h
      cases h
      have hc : inlineConcept data re e.node = none := by simp [inlineConcept, hn]
      have hu : usable data re contexts e = false := by simp [usable, hc]
      refine ⟨rfl, fun _ => rfl, ⟨_, rfl, fun _ _ => by simp, ?_⟩, ?_, fun _ _ => rfl, ?_⟩
      · intro u h; rw [hc] at h; cases h
      · rw [hu]; exact .nil rfl (err_count s (by decide))
      · intro h; rw [hu] at h; cases h
    | some name =>
      rw [hn] at h
      dsimp only at h
      cases hq : qnameFromStr name e.node.ns with
      | error x => rw [hq] at h; cases h
      | ok q =>
        rw [hq] at h
        dsimp only at h
        rw [getTyped_eq] at h
        cases hel : elementOf re .concept q with
        | none =>
          rw [hel] at h
          have hc : inlineConcept data re e.node = none := by simp [inlineConcept, hn, hq, hel, Except.toOption]
          have hu : usable data re contexts e = false := by simp [usable, hc]
          have h : s' = s.err "IXBRL_FACT_INVALID_CONCEPT" := by
            dsimp only at h
            by_cases hb : (re.byName.get? q).isSome = true
            · rw [if_pos hb] at h; cases h; rfl
            · rw [if_neg hb] at h; cases h; rfl
          subst h
          refine ⟨rfl, fun _ => rfl, ⟨_, rfl, fun _ _ => by simp, ?_⟩, ?_, fun _ _ => rfl, ?_⟩
          · intro u h; rw [hc] at h; cases h
          · rw [hu]; exact .nil rfl (err_count s (by decide))
          · intro h; rw [hu] at h; cases h
        | some el =>
          rw [hel] at h
          dsimp only at h
          have hc : inlineConcept data re e.node = some (conceptFor data el) := by simp [inlineConcept, hn, hq, hel, Except.toOption]
          have hput : ∀ j, (s.ps.put name (Characteristic.ofConcept (conceptFor data el))).chars.get? (j, .unit) = s.ps.chars.get? (j, .unit) := by
            intro j
            unfold ParseState.put
            rw [get?_upsert, if_neg]
            intro hh
            have := congrArg Prod.snd hh
            exact absurd this (by simp [Characteristic.ofConcept, Characteristic.kind])
          obtain ⟨more, hus, hcl, hbad⟩ := inlineUnit_spec (units := units) e tag (s := { s with ps := s.ps.put name (Characteristic.ofConcept (conceptFor data el)) })
            (fun j => (hput j).trans (hun j))
          rw [hus] at h
          dsimp only at h
          cases hr : e.node.attr? "contextRef" with
          | none =>
            rw [hr] at h
            cases h
            have hu : usable data re contexts e = false := by simp [usable, hr]
            refine ⟨rfl, hput, ⟨more ++ ["IXBRL_FACT_WITHOUT_CONTEXT"], by simp [InlineState.err, ParseState.err, ParseState.put], fun _ _ => by simp, ?_⟩, ?_, fun _ _ => rfl, ?_⟩
            · intro u _ hu hd; exact List.mem_append.2 (Or.inl (hbad u hu hd))
            · rw [hu]
              refine .nil rfl ((err_count _ (by decide)).trans ?_)
              simp [ParseState.put, count_clean hcl]
            · intro h; rw [hu] at h; cases h
          | some ref =>
            rw [hr] at h
            dsimp only at h
            cases hg : s.contexts.get? ref with
            | none =>
              rw [hg] at h
              cases h
              have hu : usable data re contexts e = false := by
                have := hcx ref
                rw [hg] at this
                unfold usable
                rw [hr, Option.bind_some, ← this]; simp
              refine ⟨rfl, hput, ⟨more ++ ["IXBRL_INVALID_FACT_CONTEXT_ID"], by simp [InlineState.err, ParseState.err, ParseState.put], fun _ _ => by simp, ?_⟩, ?_, fun _ _ => rfl, ?_⟩
              · intro u _ hu hd; exact List.mem_append.2 (Or.inl (hbad u hu hd))
              · rw [hu]
                refine .nil rfl ((err_count _ (by decide)).trans ?_)
                simp [ParseState.put, count_clean hcl]
              · intro h; rw [hu] at h; cases h
            | some ctx =>
              rw [hg] at h
              dsimp only at h
              have hsome : (declaredContext contexts ref).isSome = true := by rw [← hcx ref, hg]; rfl
              cases hk : kindOf e with
              | none =>
                obtain ⟨hps, htk, hcs⟩ := inlineFact_other hk htag h
                have hu : usable data re contexts e = false := by simp [usable, hk]
                refine ⟨hcs, fun j => by rw [hps]; exact hput j, ⟨more, by rw [hps]; rfl, fun h => (by rw [hk] at h; cases h), fun u _ hu hd => hbad u hu hd⟩, ?_, fun h => (by rw [hk] at h; cases h), ?_⟩
                · rw [hu]
                  refine .nil htk ?_
                  rw [hps]
                  simp [ParseState.put, count_clean hcl]
                · intro h; rw [hu] at h; cases h
              | some k =>
                obtain ⟨v, more2, hv, hc2, hf, hps, htk, hcs⟩ := inlineFact_kind hk htag h
                have hu : usable data re contexts e = true := by
                  unfold usable
                  rw [hk, hc, hr, Option.bind_some, hsome]; rfl
                refine ⟨hcs, fun j => by rw [hps]; exact hput j,
                  ⟨more ++ (dupReport (e.node.attr? "id") s.taken ++ more2), by rw [hps]; simp [ParseState.put], fun _ h => (by rw [hu] at h; cases h),
                    fun u _ hu hd => List.mem_append.2 (Or.inl (hbad u hu hd))⟩, ?_, fun _ h => (by rw [hu] at h; cases h), ?_⟩
                · rw [hu, if_pos rfl]
                  refine pass_dup (more := more2) (more2 := more) ?_ hc2 hcl htk
                  rw [hps]
                  simp [ParseState.put]
                · intro _
                  exact ⟨k, _, ref, ctx, v, hk, hc, hr, hg, hv, hf⟩

/-! ## C83 -/

theorem withTag_nil (t : String) : withTag t [] = [] := rfl
theorem withTag_append (t : String) (xs ys : List XNode) : withTag t (xs ++ ys) = withTag t xs ++ withTag t ys := List.filter_append ..
theorem withoutTags_append (ts : List String) (xs ys : List XNode) : withoutTags ts (xs ++ ys) = withoutTags ts xs ++ withoutTags ts ys := List.filter_append ..
theorem withTag_cons {c : XNode} {tag : String} (h : c.prefixTag = .ok tag) (t : String) (cs : List XNode) :
    withTag t (c :: cs) = if tag = t then c :: withTag t cs else withTag t cs := by
  unfold withTag
  rw [List.filter_cons, h]
  simp [Except.toOption]
theorem withoutTags_cons {c : XNode} {tag : String} (h : c.prefixTag = .ok tag) (ts : List String) (cs : List XNode) :
    withoutTags ts (c :: cs) = if tag ∈ ts then withoutTags ts cs else c :: withoutTags ts cs := by
  unfold withoutTags
  rw [List.filter_cons, h]
  by_cases hm : tag ∈ ts
  · rw [if_pos hm, if_neg]
    intro hh
    exact of_decide_eq_true hh tag hm rfl
  · rw [if_neg hm, if_pos]
    apply decide_eq_true
    intro t ht he
    exact hm (by rw [Option.some.inj he]; exact ht)

theorem header_children (cs : List XNode) : ∀ {acc r : HeaderParts × ErrNames}, cs.foldlM headerChild acc = .ok r →
    r.1.hidden = acc.1.hidden ++ withTag "ix:hidden" cs ∧ r.1.resources = acc.1.resources ++ withTag "ix:resources" cs ∧ r.1.references = acc.1.references ++ withTag "ix:references" cs ∧
    r.2 = acc.2 ++ List.replicate (withoutTags ["ix:hidden", "ix:resources", "ix:references"] cs).length "IXBRL_INVALID_HEADER_CHILD" := by
  induction cs with
  | nil => intro acc r h; cases h; simp [withTag, withoutTags]
  | cons c cs ih =>
    intro acc r h
    rw [List.foldlM_cons] at h
    cases hc : headerChild acc c with
    | error e => rw [hc] at h; cases h
    | ok a1 =>
      rw [hc] at h
      obtain ⟨i1, i2, i3, i4⟩ := ih h
      rw [i1, i2, i3, i4]
      unfold headerChild at hc
      simp only [bind, Except.bind, pure, Except.pure] at hc
      cases ht : c.prefixTag with
      | error e => rw [ht] at hc; cases hc
      | ok tag =>
        rw [ht] at hc
        dsimp only at hc
        rw [withTag_cons ht, withTag_cons ht, withTag_cons ht, withoutTags_cons ht]
        by_cases h1 : tag = "ix:hidden"
        · rw [if_pos h1] at hc; cases hc; subst h1; simp
        · rw [if_neg h1] at hc
          by_cases h2 : tag = "ix:resources"
          · rw [if_pos h2] at hc; cases hc; subst h2; simp
          · rw [if_neg h2] at hc
            by_cases h3 : tag = "ix:references"
            · rw [if_pos h3] at hc; cases hc; subst h3; simp
            · rw [if_neg h3] at hc; cases hc; simp [h1, h2, h3, List.replicate_succ]

/-- The reports of one header. -/
def headerReports (x : XNode) : ErrNames :=
  List.replicate (withoutTags ["ix:hidden", "ix:resources", "ix:references"] x.children).length "IXBRL_INVALID_HEADER_CHILD" ++
  (if (withTag "ix:hidden" x.children).length > 1 then ["IXBRL_MORE_THAN_ONE_HIDDEN_HEADER_CHILD"] else []) ++
  (if (withTag "ix:resources" x.children).length > 1 then ["IXBRL_MORE_THAN_ONE_RESOURCES_HEADER_CHILD"] else [])

theorem parseHeader_spec {x : XNode} {r : HeaderParts × ErrNames} (h : parseHeader x = .ok r) :
    r = (⟨withTag "ix:hidden" x.children, withTag "ix:resources" x.children, withTag "ix:references" x.children⟩, headerReports x) := by
  unfold parseHeader at h
  simp only [bind, Except.bind, pure, Except.pure] at h
  split at h
  · cases h
  · next v hv =>
    obtain ⟨i1, i2, i3, i4⟩ := header_children _ hv
    cases h
    obtain ⟨⟨a, b, c⟩, d⟩ := v
    simp only [List.nil_append] at i1 i2 i3 i4
    subst i1 i2 i3 i4
    simp only [headerReports, Prod.mk.injEq, true_and]
    split <;> split <;> simp

theorem headers_fold (hs : List XNode) : ∀ {acc r : HeaderParts × ErrNames}, hs.foldlM headerStep acc = .ok r →
    r.1.hidden = acc.1.hidden ++ withTag "ix:hidden" (hs.flatMap XNode.children) ∧ r.1.resources = acc.1.resources ++ withTag "ix:resources" (hs.flatMap XNode.children) ∧
    r.1.references = acc.1.references ++ withTag "ix:references" (hs.flatMap XNode.children) ∧ r.2 = acc.2 ++ hs.flatMap headerReports := by
  induction hs with
  | nil => intro acc r h; cases h; simp [withTag]
  | cons x hs ih =>
    intro acc r h
    rw [List.foldlM_cons] at h
    cases hc : headerStep acc x with
    | error e => rw [hc] at h; cases h
    | ok a1 =>
      rw [hc] at h
      obtain ⟨i1, i2, i3, i4⟩ := ih h
      unfold headerStep at hc
      simp only [bind, Except.bind, pure, Except.pure] at hc
      split at hc
      · cases hc
      · next v hv =>
        rw [parseHeader_spec hv] at hc
        cases hc
        rw [i1, i2, i3, i4]
        simp [withTag_append]

theorem parseHeaders_spec {docs : List InlineDoc} {parts : HeaderParts} {errs : ErrNames} (h : parseHeaders (docs.map (·.root)) = .ok (parts, errs)) :
    parts.hidden = headerElems docs "ix:hidden" ∧ parts.resources = headerElems docs "ix:resources" ∧ parts.references = headerElems docs "ix:references" ∧
    errs = (headers docs).flatMap headerReports ++ (if (headers docs).isEmpty then ["IXBRL_NO_HEADER_ELEMENTS"] else []) ++
      (if (headerElems docs "ix:resources").isEmpty then ["IXBRL_NO_RESOURCES_ELEMENTS"] else []) := by
  unfold parseHeaders at h
  simp only [bind, Except.bind, pure, Except.pure] at h
  have hd : (docs.map (·.root)).flatMap headersOf = headers docs := by unfold headers; rw [List.flatMap_map]
  rw [hd] at h
  split at h
  · cases h
  · next v hv =>
    obtain ⟨i1, i2, i3, i4⟩ := headers_fold _ hv
    cases h
    simp only [List.nil_append] at i1 i2 i3 i4
    refine ⟨i1, i2, i3, ?_⟩
    rw [i2, i4]
    unfold headerElems
    split <;> split <;> simp

theorem count_flatMap (f : XNode → ErrNames) (n : XNode → Nat) (e : String) (h : ∀ x, (f x).count e = n x) (l : List XNode) : (l.flatMap f).count e = (l.map n).sum := by
  induction l with
  | nil => rfl
  | cons x l ih => rw [List.flatMap_cons, List.count_append, ih, h, List.map_cons, List.sum_cons]

theorem withoutTags_flatMap (ts : List String) (l : List XNode) : (withoutTags ts (l.flatMap XNode.children)).length = (l.map (fun x => (withoutTags ts x.children).length)).sum := by
  induction l with
  | nil => rfl
  | cons x l ih => rw [List.flatMap_cons, withoutTags_append, List.length_append, ih, List.map_cons, List.sum_cons]

theorem sum_zeros (l : List XNode) : (l.map (fun _ => 0)).sum = 0 := by
  induction l with
  | nil => rfl
  | cons x l ih => rw [List.map_cons, List.sum_cons, ih]

theorem sum_ite_filter (p : XNode → Bool) (l : List XNode) : (l.map (fun x => if p x then 1 else 0)).sum = (l.filter p).length := by
  induction l with
  | nil => rfl
  | cons x l ih =>
    rw [List.map_cons, List.sum_cons, ih, List.filter_cons]
    split
    · rw [List.length_cons]; omega
    · omega

/-- C83 for headers: every child of every header is taken as hidden, resources or references element, in document order, or reported; headers with several hidden or several
resources elements, documents without headers and headers without resources are reported, once each. -/
theorem C83_headers {docs : List InlineDoc} {parts : HeaderParts} {errs : ErrNames} (h : parseHeaders (docs.map (·.root)) = .ok (parts, errs)) :
    parts.hidden = headerElems docs "ix:hidden" ∧ parts.resources = headerElems docs "ix:resources" ∧ parts.references = headerElems docs "ix:references" ∧
    errs.count "IXBRL_INVALID_HEADER_CHILD" = (withoutTags ["ix:hidden", "ix:resources", "ix:references"] ((headers docs).flatMap XNode.children)).length ∧
    errs.count "IXBRL_MORE_THAN_ONE_HIDDEN_HEADER_CHILD" = ((headers docs).filter (fun x => decide ((withTag "ix:hidden" x.children).length > 1))).length ∧
    errs.count "IXBRL_MORE_THAN_ONE_RESOURCES_HEADER_CHILD" = ((headers docs).filter (fun x => decide ((withTag "ix:resources" x.children).length > 1))).length ∧
    errs.count "IXBRL_NO_HEADER_ELEMENTS" = (if (headers docs).isEmpty then 1 else 0) ∧
    errs.count "IXBRL_NO_RESOURCES_ELEMENTS" = (if (headerElems docs "ix:resources").isEmpty then 1 else 0) := by
  obtain ⟨h1, h2, h3, he⟩ := parseHeaders_spec h
  refine ⟨h1, h2, h3, ?_, ?_, ?_, ?_, ?_⟩
  · rw [he, List.count_append, List.count_append, count_flatMap _ (fun x => (withoutTags ["ix:hidden", "ix:resources", "ix:references"] x.children).length), withoutTags_flatMap]
    · split <;> split <;> simp
    · intro x; unfold headerReports; split <;> split <;> simp
  · rw [he, List.count_append, List.count_append, count_flatMap _ (fun x => if decide ((withTag "ix:hidden" x.children).length > 1) then 1 else 0), sum_ite_filter]
    · split <;> split <;> simp
    · intro x; unfold headerReports; simp only [decide_eq_true_eq]; split <;> split <;> simp [List.count_replicate]
  · rw [he, List.count_append, List.count_append, count_flatMap _ (fun x => if decide ((withTag "ix:resources" x.children).length > 1) then 1 else 0), sum_ite_filter]
    · split <;> split <;> simp
    · intro x; unfold headerReports; simp only [decide_eq_true_eq]; split <;> split <;> simp [List.count_replicate]
  · rw [he, List.count_append, List.count_append, count_flatMap _ (fun _ => 0), sum_zeros]
    · split <;> split <;> simp
    · intro x; unfold headerReports; split <;> split <;> simp [List.count_replicate]
  · rw [he, List.count_append, List.count_append, count_flatMap _ (fun _ => 0), sum_zeros]
    · split <;> split <;> simp
    · intro x; unfold headerReports; split <;> split <;> simp [List.count_replicate]

theorem resource_children (cs : List XNode) : ∀ {acc r : Resources × ErrNames}, cs.foldlM resourceChild acc = .ok r →
    r.1.relationships = acc.1.relationships ++ withTag "ix:relationship" cs ∧ r.1.roleRefs = acc.1.roleRefs ++ withTag "link:roleRef" cs ∧
    r.1.arcroleRefs = acc.1.arcroleRefs ++ withTag "link:arcroleRef" cs ∧ r.1.contexts = acc.1.contexts ++ withTag "xbrli:context" cs ∧ r.1.units = acc.1.units ++ withTag "xbrli:unit" cs ∧
    r.2 = acc.2 ++ List.replicate (withoutTags ["ix:relationship", "link:roleRef", "link:arcroleRef", "xbrli:context", "xbrli:unit"] cs).length "IXBRL_INVALID_RESOURCES_CHILD" := by
  induction cs with
  | nil => intro acc r h; cases h; simp [withTag, withoutTags]
  | cons c cs ih =>
    intro acc r h
    rw [List.foldlM_cons] at h
    cases hc : resourceChild acc c with
    | error e => rw [hc] at h; cases h
    | ok a1 =>
      rw [hc] at h
      obtain ⟨i1, i2, i3, i4, i5, i6⟩ := ih h
      rw [i1, i2, i3, i4, i5, i6]
      unfold resourceChild at hc
      simp only [bind, Except.bind, pure, Except.pure] at hc
      cases ht : c.prefixTag with
      | error e => rw [ht] at hc; cases hc
      | ok tag =>
        rw [ht] at hc
        dsimp only at hc
        rw [withTag_cons ht, withTag_cons ht, withTag_cons ht, withTag_cons ht, withTag_cons ht, withoutTags_cons ht]
        by_cases h1 : tag = "ix:relationship"
        · rw [if_pos h1] at hc; cases hc; subst h1; simp
        · rw [if_neg h1] at hc
          by_cases h2 : tag = "link:roleRef"
          · rw [if_pos h2] at hc; cases hc; subst h2; simp
          · rw [if_neg h2] at hc
            by_cases h3 : tag = "link:arcroleRef"
            · rw [if_pos h3] at hc; cases hc; subst h3; simp
            · rw [if_neg h3] at hc
              by_cases h4 : tag = "xbrli:context"
              · rw [if_pos h4] at hc; cases hc; subst h4; simp
              · rw [if_neg h4] at hc
                by_cases h5 : tag = "xbrli:unit"
                · rw [if_pos h5] at hc; cases hc; subst h5; simp
                · rw [if_neg h5] at hc; cases hc; simp [h1, h2, h3, h4, h5, List.replicate_succ]

/-- C83 for resources: every child of every resources element is taken as a relationship, role reference, arc role reference, context or unit, in document order, or reported. -/
theorem C83_resources {rs : List XNode} {errs errs' : ErrNames} {res : Resources} (h : parseResources rs errs = .ok (res, errs')) :
    res.relationships = withTag "ix:relationship" (rs.flatMap XNode.children) ∧ res.roleRefs = withTag "link:roleRef" (rs.flatMap XNode.children) ∧
    res.arcroleRefs = withTag "link:arcroleRef" (rs.flatMap XNode.children) ∧ res.contexts = withTag "xbrli:context" (rs.flatMap XNode.children) ∧
    res.units = withTag "xbrli:unit" (rs.flatMap XNode.children) ∧
    errs' = errs ++ List.replicate (withoutTags ["ix:relationship", "link:roleRef", "link:arcroleRef", "xbrli:context", "xbrli:unit"] (rs.flatMap XNode.children)).length
      "IXBRL_INVALID_RESOURCES_CHILD" := by
  have := resource_children _ h
  simpa using this

/-- C83 for hidden elements, the part that holds: if an instance is read at all, every child of a hidden element is a footnote or a fact, or a fraction
or tuple, each of which is reported as not supported. Other children are not reported, see `C83_hidden_false`. -/
theorem C83_hidden_partial {hs : List XNode} {errs errs' : ErrNames} (h : validateHidden hs errs = .ok errs') :
    errs' = errs ++ List.replicate ((withTag "ix:fraction" (hs.flatMap XNode.children)).length + (withTag "ix:tuple" (hs.flatMap XNode.children)).length) "IXBRL_ELEMENT_NOT_SUPPORTED" ∧
    withoutTags ["ix:footnote", "ix:nonFraction", "ix:nonNumeric", "ix:fraction", "ix:tuple"] (hs.flatMap XNode.children) = [] := by
  unfold validateHidden at h
  generalize hs.flatMap XNode.children = cs at h ⊢
  induction cs generalizing errs with
  | nil => cases h; exact ⟨by simp [withTag], rfl⟩
  | cons c cs ih =>
    rw [List.foldlM_cons] at h
    cases hc : hiddenChild errs c with
    | error e => rw [hc] at h; cases h
    | ok a1 =>
      rw [hc] at h
      obtain ⟨i1, i2⟩ := ih h
      unfold hiddenChild at hc
      simp only [bind, Except.bind, pure, Except.pure] at hc
      cases ht : c.prefixTag with
      | error e => rw [ht] at hc; cases hc
      | ok tag =>
        rw [ht] at hc
        dsimp only at hc
        rw [withTag_cons ht, withTag_cons ht, withoutTags_cons ht]
        by_cases h1 : tag ∈ ["ix:footnote", "ix:nonFraction", "ix:nonNumeric"]
        · rw [if_pos h1] at hc
          cases hc
          simp only [List.mem_cons, List.not_mem_nil, or_false] at h1
          refine ⟨?_, ?_⟩
          · rw [i1]; rcases h1 with e | e | e <;> subst e <;> simp
          · rw [i2]; rcases h1 with e | e | e <;> subst e <;> simp
        · rw [if_neg h1] at hc
          by_cases h2 : tag ∈ ["ix:fraction", "ix:tuple"]
          · rw [if_pos h2] at hc
            cases hc
            simp only [List.mem_cons, List.not_mem_nil, or_false] at h2
            refine ⟨?_, ?_⟩
            · rw [i1, List.append_assoc]
              congr 1
              rcases h2 with e | e <;> subst e <;> simp <;> rw [← List.replicate_succ] <;> congr 1 <;> omega
            · rw [i2]; rcases h2 with e | e <;> subst e <;> simp
          · rw [if_neg h2] at hc
            cases hc

theorem foldlM_error_only {α σ : Type} {f : σ → α → Except PyErr σ} {E : PyErr} : ∀ {cs : List α}, (∀ s, ∀ c ∈ cs, ∀ e, f s c = .error e → e = E) →
    ∀ s, (∀ s', cs.foldlM f s ≠ .ok s') → cs.foldlM f s = .error E := by
  intro cs
  induction cs with
  | nil => intro _ s hs; exact absurd rfl (hs s)
  | cons c cs ih =>
    intro hf s hs
    rw [List.foldlM_cons] at hs ⊢
    cases hc : f s c with
    | error e => rw [hf s c List.mem_cons_self e hc]; rfl
    | ok s1 =>
      rw [hc] at hs
      exact ih (fun s c' hc' => hf s c' (List.mem_cons_of_mem _ hc')) s1 hs

/-- C83 fails for hidden elements: a child that is no inline element is not reported; an exception is raised, as the arguments of the report do not fit
its message. -/
theorem C83_hidden_false {hs : List XNode} (h : withoutTags ["ix:footnote", "ix:nonFraction", "ix:nonNumeric", "ix:fraction", "ix:tuple"] (hs.flatMap XNode.children) ≠ []) :
    (∀ errs errs', validateHidden hs errs ≠ .ok errs') ∧
    ((∀ c ∈ hs.flatMap XNode.children, ∃ t, c.prefixTag = .ok t) → ∀ errs, validateHidden hs errs = .error .valueError) := by
  refine ⟨fun _ _ hh => h (C83_hidden_partial hh).2, fun ht errs => foldlM_error_only ?_ errs (fun _ hh => h (C83_hidden_partial hh).2)⟩
  intro s c hc e he
  obtain ⟨t, ht⟩ := ht c hc
  unfold hiddenChild at he
  rw [ht] at he
  simp only [bind, Except.bind] at he
  split at he
  · cases he
  · split at he
    · cases he
    · cases he; rfl

example : withoutTags ["ix:footnote", "ix:nonFraction", "ix:nonNumeric", "ix:fraction", "ix:tuple"]
    ([XNode.mk (some "{http://www.xbrl.org/2013/inlineXBRL}hidden") [] none [] [.mk (some "{h}div") [] none [(some "h", "h")] []]].flatMap XNode.children) ≠ [] := by
  decide +kernel

/-- C83 for references, the part that holds: if an instance is read at all, the children of a references element are schema and linkbase references, and
an element without children is reported. Other children are not reported, see `C83_references_false`. -/
theorem C83_references_partial {s s' : InlineState} {x : XNode} (h : parseReference s x = .ok s') :
    s'.ps.errs = s.ps.errs ++ ((match x.attr? "id" with | some i => if i ∈ s.taken then [duplicateId] else [] | none => []) ++
      (if x.children = [] then ["IXBRL_REFERENCES_ELEMENT_WITHOUT_CHILDREN"] else [])) ∧
    withoutTags ["link:schemaRef", "link:linkbaseRef"] x.children = [] := by
  have kids : ∀ (cs : List XNode) (s s' : InlineState), cs.foldlM referenceChild s = .ok s' → s' = s ∧ withoutTags ["link:schemaRef", "link:linkbaseRef"] cs = [] := by
    intro cs
    induction cs with
    | nil => intro s s' h; cases h; exact ⟨rfl, rfl⟩
    | cons c cs ih =>
      intro s s' h
      rw [List.foldlM_cons] at h
      cases hc : referenceChild s c with
      | error e => rw [hc] at h; cases h
      | ok s1 =>
        rw [hc] at h
        obtain ⟨i1, i2⟩ := ih _ _ h
        unfold referenceChild at hc
        simp only [bind, Except.bind, pure, Except.pure] at hc
        cases ht : c.prefixTag with
        | error e => rw [ht] at hc; cases hc
        | ok tag =>
          rw [ht] at hc
          dsimp only at hc
          rw [withoutTags_cons ht]
          by_cases h1 : tag ∈ ["link:schemaRef", "link:linkbaseRef"]
          · rw [if_pos h1] at hc; cases hc; rw [if_pos h1]; exact ⟨i1, i2⟩
          · rw [if_neg h1] at hc; cases hc
  unfold parseReference at h
  dsimp only at h
  obtain ⟨k1, k2⟩ := kids _ _ _ h
  refine ⟨?_, k2⟩
  rw [k1]
  have hu : (s.useOpt (x.attr? "id")).ps.errs = s.ps.errs ++ (match x.attr? "id" with | some i => if i ∈ s.taken then [duplicateId] else [] | none => []) := by
    cases x.attr? "id" with
    | none => simp [InlineState.useOpt]
    | some i => exact use_errs s i
  by_cases h0 : x.children = []
  · rw [if_pos (by rw [h0]; rfl), if_pos h0]
    simp [InlineState.err, ParseState.err, hu]
  · rw [if_neg (by intro hh; exact h0 (List.length_eq_zero_iff.1 hh)), if_neg h0, hu]
    simp

/-- C83 fails for references: a child that is neither a schema nor a linkbase reference is not reported; an exception is raised, as the arguments of
the report do not fit its message. -/
theorem C83_references_false {x : XNode} (h : withoutTags ["link:schemaRef", "link:linkbaseRef"] x.children ≠ []) :
    (∀ s s', parseReference s x ≠ .ok s') ∧ ((∀ c ∈ x.children, ∃ t, c.prefixTag = .ok t) → ∀ s, parseReference s x = .error .valueError) := by
  refine ⟨fun _ _ hh => h (C83_references_partial hh).2, fun ht s => ?_⟩
  have hno : ∀ s', parseReference s x ≠ .ok s' := fun _ hh => h (C83_references_partial hh).2
  unfold parseReference at hno ⊢
  refine foldlM_error_only ?_ _ hno
  intro s c hc e he
  obtain ⟨t, ht⟩ := ht c hc
  unfold referenceChild at he
  rw [ht] at he
  simp only [bind, Except.bind] at he
  split at he
  · cases he
  · cases he; rfl

example : withoutTags ["link:schemaRef", "link:linkbaseRef"]
    (XNode.mk (some "{http://www.xbrl.org/2013/inlineXBRL}references") [] none [] [.mk (some "{l}roleRef") [] none [(some "link", "l")] []]).children ≠ [] := by
  decide +kernel

/-! ## C48 and C41 for inline documents -/

theorem headerReports_clean (x : XNode) : duplicateId ∉ headerReports x := by
  unfold headerReports
  simp only [List.mem_append, List.mem_replicate]
  rintro ((⟨_, h⟩ | h) | h)
  · exact absurd h (by decide)
  · exact ite_clean _ _ (by decide) h
  · exact ite_clean _ _ (by decide) h

/-- The state after the declarations. -/
structure Declared (dateOf : String → Option Date) (re : ElemStore) (docs : List InlineDoc) (s : InlineState) : Prop where
  pass : Pass {} s (idsOf (headerElems docs "ix:references") ++ idsOf (resourceElems docs "xbrli:context") ++ idsOf (resourceElems docs "xbrli:unit"))
  facts : s.facts = {}
  domain : ∀ j, (s.contexts.get? j).isSome = (declaredContext (resourceElems docs "xbrli:context") j).isSome
  units : ∀ j, s.ps.chars.get? (j, .unit) = declaredUnit (resourceElems docs "xbrli:unit") j
  content : Unambiguous re (resourceElems docs "xbrli:context") → ∀ j, s.contexts.get? j =
    (declaredContext (resourceElems docs "xbrli:context") j).map (fun cx => (statedBy dateOf re cx).foldl Context.add (Context.new j))

theorem Pass.reports_clean {s s' : InlineState} {ids : List String} (h : Pass s s' ids) {more : ErrNames} (hc : duplicateId ∉ more) {s2 : InlineState}
    (he : s2.ps.errs = s'.ps.errs ++ more) (ht : s2.taken = s'.taken) : Pass s s2 ids := by
  obtain ⟨t, n, c, r⟩ := h
  exact ⟨ht.trans t, n, by rw [he, List.count_append, count_clean hc, c]; rfl, r⟩

theorem parseDeclarations_spec {docs : List InlineDoc} {s : InlineState} (h : parseDeclarations dateOf re docs = .ok s) : Declared dateOf re docs s := by
  unfold parseDeclarations at h
  simp only [bind, Except.bind, pure, Except.pure] at h
  cases hh : parseHeaders (docs.map (·.root)) with
  | error e => rw [hh] at h; cases h
  | ok pe =>
    obtain ⟨parts, errs⟩ := pe
    rw [hh] at h
    dsimp only at h
    obtain ⟨e1, e2, e3, e4⟩ := parseHeaders_spec hh
    cases hr : parts.references.foldlM parseReference { ps := { errs := errs } } with
    | error e => rw [hr] at h; cases h
    | ok s1 =>
      rw [hr] at h
      dsimp only at h
      obtain ⟨q1, p1⟩ := references_pass _ hr
      cases hres : parseResources parts.resources s1.ps.errs with
      | error e => rw [hres] at h; cases h
      | ok re' =>
        obtain ⟨res, errs2⟩ := re'
        rw [hres] at h
        dsimp only at h
        obtain ⟨_, _, _, r4, r5, r6⟩ := C83_resources hres
        rw [e2] at r4 r5 r6
        cases hc : res.contexts.foldlM (parseInlineContext dateOf re) { s1 with ps := { s1.ps with errs := errs2 } } with
        | error e => rw [hc] at h; cases h
        | ok s2 =>
          rw [hc] at h
          dsimp only at h
          have hchars : s1.ps.chars = [] := q1.chars
          have hasp : s1.ps.aspects = [] := q1.aspects
          have hctx : s1.contexts = [] := q1.contexts
          have hc0 : Ctxs { s1 with ps := { s1.ps with errs := errs2 } } := by
            refine ⟨fun j c hj => ?_⟩
            dsimp only at hj
            rw [hctx] at hj; cases hj
          obtain ⟨p2, _, f2, _, u2, d2, _, v2⟩ := contexts_pass res.contexts res.contexts (fun _ h => h) hc0 hc
          cases hu : res.units.foldlM parseInlineUnit s2 with
          | error e => rw [hu] at h; cases h
          | ok s3 =>
            rw [hu] at h
            dsimp only at h
            have hu0 : UnitsTaken s2 := by
              intro i c hi
              rw [u2 i] at hi
              dsimp only at hi
              rw [hchars] at hi; cases hi
            obtain ⟨p3, _, cx3, f3, _, u3⟩ := units_pass _ hu0 hu
            cases hv : validateHidden parts.hidden s3.ps.errs with
            | error e => rw [hv] at h; cases h
            | ok errs3 =>
              rw [hv] at h
              cases h
              obtain ⟨m1, _⟩ := C83_hidden_partial hv
              obtain ⟨more, hmore⟩ : ∃ more, List.replicate ((withTag "ix:fraction" (parts.hidden.flatMap XNode.children)).length +
                (withTag "ix:tuple" (parts.hidden.flatMap XNode.children)).length) "IXBRL_ELEMENT_NOT_SUPPORTED" = more := ⟨_, rfl⟩
              rw [hmore] at m1
              have cl : duplicateId ∉ more := by
                intro hm
                rw [← hmore, List.mem_replicate] at hm
                exact absurd hm.2 (by decide)
              have hctxs : res.contexts = resourceElems docs "xbrli:context" := r4
              have hunits : res.units = resourceElems docs "xbrli:unit" := r5
              rw [hctxs] at p2 d2 v2
              rw [hunits] at p3 u3
              rw [e3] at p1
              refine ⟨?_, ?_, ?_, ?_, ?_⟩
              · have start : Pass {} { ps := { errs := errs } } [] := by
                  refine .nil rfl ?_
                  dsimp only
                  rw [e4, count_clean]
                  · rfl
                  · simp only [List.mem_append, List.mem_flatMap, not_or, not_exists, not_and]
                    exact ⟨⟨fun x _ => headerReports_clean x, ite_clean _ _ (by decide)⟩, ite_clean _ _ (by decide)⟩
                have p1' : Pass {} { s1 with ps := { s1.ps with errs := errs2 } } (idsOf (headerElems docs "ix:references")) := by
                  refine Pass.reports_clean (start.trans p1) (more := List.replicate _ "IXBRL_INVALID_RESOURCES_CHILD") ?_ r6 rfl
                  rw [List.mem_replicate]
                  rintro ⟨_, e⟩
                  exact absurd e (by decide)
                exact Pass.reports_clean ((p1'.trans p2).trans p3) cl m1 rfl
              · dsimp only
                rw [f3, f2]; exact q1.facts
              · intro j
                dsimp only
                rw [cx3, d2 j]
                dsimp only
                rw [hctx]; rfl
              · intro j
                dsimp only
                rw [u3 j, u2 j]
                dsimp only
                rw [hchars]; exact Option.or_none
              · intro hun j
                dsimp only
                rw [cx3, v2 ?_ hun j]
                · dsimp only
                  rw [hctx]; rfl
                · refine Reach.errs errs2 ?_
                  dsimp only
                  rw [hchars, hasp]; rfl

theorem idStep_fold (cs : List ContElem) : ∀ (acc : ErrNames × List String),
    (cs.foldl idStep acc).2 = (cs.filterMap (·.id)).foldl appendNew acc.2 ∧ ∃ n, (cs.foldl idStep acc).1.count duplicateId = acc.1.count duplicateId + n ∧ Reported acc.2 (cs.filterMap (·.id)) n := by
  induction cs with
  | nil => intro acc; exact ⟨rfl, 0, rfl, rfl⟩
  | cons c cs ih =>
    intro acc
    rw [List.foldl_cons]
    obtain ⟨i1, n, i2, i3⟩ := ih (idStep acc c)
    cases hc : c.id with
    | none =>
      have hs : idStep acc c = (acc.1 ++ ["IXBRL_CONTINUATION_WITHOUT_ID"], acc.2) := by unfold idStep; rw [hc]
      rw [hs] at i1 i2 i3 ⊢
      rw [List.filterMap_cons_none (f := fun c : ContElem => c.id) hc]
      refine ⟨i1, n, ?_, i3⟩
      rw [i2, List.count_append, count_clean (l := ["IXBRL_CONTINUATION_WITHOUT_ID"]) (by decide)]; rfl
    | some i =>
      have hs : idStep acc c = (acc.1 ++ (if i ∈ acc.2 then [duplicateId] else []), appendNew acc.2 i) := by unfold idStep; rw [hc]; rfl
      rw [hs] at i1 i2 i3 ⊢
      rw [List.filterMap_cons_some (f := fun c : ContElem => c.id) hc]
      refine ⟨i1, (if i ∈ acc.2 then 1 else 0) + n, ?_, _, n, rfl, by split <;> simp, reported_congr (fun j => ?_) _ _ i3⟩
      · rw [i2, List.count_append]
        split <;> simp <;> omega
      · rw [mem_appendNew, List.mem_cons]
        exact or_comm

theorem ite_clean' (p : Prop) [Decidable p] : duplicateId ∉ (if p then ([] : ErrNames) else ["IXBRL_UNUSED_CONTINUATION_ELEMENTS"]) := by
  split <;> decide

theorem createChains_spec {fuel : Nat} {fs ns cs : List ContElem} {taken taken' : List String} {chains : List (ContElem × List ContElem)} {errs : ErrNames}
    (h : createChains fuel fs ns cs taken = some (chains, errs, taken')) :
    taken' = (cs.filterMap (·.id)).foldl appendNew taken ∧ Reported taken (cs.filterMap (·.id)) (errs.count duplicateId) ∧
    ∃ errs0 taken0, createChains fuel fs ns cs [] = some (chains, errs0, taken0) := by
  unfold createChains at h ⊢
  dsimp only [buildIndex] at h ⊢
  cases hf : followAll (cs.foldl indexStep []) fuel (fs.filter (fun f => isInfix "nonNumeric".toList f.name.toList) ++ ns) [] [] with
  | none => rw [hf] at h; cases h
  | some r =>
    rw [hf] at h
    dsimp only at h
    cases h
    obtain ⟨i1, n, i2, i3⟩ := idStep_fold cs ([], taken)
    refine ⟨i1, ?_, _, _, rfl⟩
    have c1 := followAll_clean _ _ _ _ _ _ hf (by simp)
    have c2 := nestedErrors_clean r.1
    rw [List.count_append, List.count_append, List.count_append, i2, count_clean c1, count_clean c2, count_clean (ite_clean' _)]
    simpa using i3

theorem facts_pass {data : ReportElement → Concept} {dig : Char → Option Nat} {flt : String → Option Bool} {contexts units : List XNode} {chainOf : Nat → List Elem} (es : List InlineElem) :
    ∀ {s s' : InlineState}, (∀ j, (s.contexts.get? j).isSome = (declaredContext contexts j).isSome) → (∀ j, s.ps.chars.get? (j, .unit) = declaredUnit units j) →
    es.foldlM (parseInlineFact data dig flt re chainOf) s = .ok s' →
    Pass s s' (idsOf ((es.filter (usable data re contexts)).map (·.node))) ∧
    (∃ more, s'.ps.errs = s.ps.errs ++ more ∧ (es.filter (fun e => (kindOf e).isSome && !usable data re contexts e)).length ≤ more.length ∧
      (es.filter (fun e => (inlineConcept data re e.node).isSome && unitMissing units e.node)).length ≤
        more.count unknownUnit) ∧
    ((∀ e ∈ es, (kindOf e).isSome) →
      (∀ j, s.contexts.get? j = (declaredContext contexts j).map (fun cx => (statedBy dateOf re cx).foldl Context.add (Context.new j))) →
      s'.facts = (es.filterMap (inlineFactOf data dateOf dig flt re contexts units chainOf)).foldl FactStore.upsert s.facts ∧
      ∀ e ∈ es, (inlineFactOf data dateOf dig flt re contexts units chainOf e).isSome = usable data re contexts e) := by
  induction es with
  | nil => intro s s' _ _ h; cases h; exact ⟨.nil rfl rfl, ⟨[], by simp, by simp, by simp⟩, fun _ _ => ⟨rfl, by simp⟩⟩
  | cons e es ih =>
    intro s s' hcx hun h
    rw [List.foldlM_cons] at h
    cases he : parseInlineFact data dig flt re chainOf s e with
    | error x => rw [he] at h; cases h
    | ok s1 =>
      rw [he] at h
      have st := fact_step hcx hun he
      obtain ⟨p2, ⟨more2, m1, m2, m3⟩, f2⟩ := ih (s := s1) (fun j => by rw [st.ctxs]; exact hcx j) (fun j => (st.unit j).trans (hun j)) h
      refine ⟨?_, ?_, ?_⟩
      · have := st.pass.trans p2
        rw [List.filter_cons]
        cases hu : usable data re contexts e with
        | true =>
          rw [hu, if_pos rfl] at this
          rw [if_pos rfl, List.map_cons, idsOf_cons]; exact this
        | false =>
          rw [hu] at this
          simpa using this
      · obtain ⟨more, n1, n2, n3⟩ := st.errs
        refine ⟨more ++ more2, by rw [m1, n1, List.append_assoc], ?_, ?_⟩
        · rw [List.filter_cons, List.length_append]
          split
          · next hb =>
            rw [Bool.and_eq_true, Bool.not_eq_true'] at hb
            have := List.length_pos_iff.2 (n2 hb.1 hb.2)
            rw [List.length_cons]; omega
          · omega
        · rw [List.filter_cons, List.count_append]
          split
          · next hb =>
            rw [Bool.and_eq_true] at hb
            have : unknownUnit ∈ more := by
              unfold unitMissing at hb
              cases ht : truthy (e.node.attr? "unitRef") with
              | none => rw [ht] at hb; cases hb.2
              | some u =>
                rw [ht] at hb
                exact n3 u hb.1 ht (Option.isNone_iff_eq_none.1 hb.2)
            have := List.count_pos_iff.2 this
            rw [List.length_cons]; omega
          · omega
      · intro hk hcont
        obtain ⟨g1, g2⟩ := f2 (fun e' h' => hk e' (List.mem_cons_of_mem _ h')) (fun j => by rw [st.ctxs]; exact hcont j)
        cases hu : usable data re contexts e with
        | true =>
          obtain ⟨k, c, ref, ctx, v, k1, k2, k3, k4, k5, k6⟩ := st.made hu
          have hcr := hcont ref
          rw [k4] at hcr
          cases hd : declaredContext contexts ref with
          | none => rw [hd] at hcr; cases hcr
          | some cx =>
            rw [hd, Option.map_some] at hcr
            have hf : inlineFactOf data dateOf dig flt re contexts units chainOf e = some { id := e.node.attr? "id", value := v, context := (Characteristic.ofConcept c :: inlineUnits units e.node).foldl Context.add ctx } := by
              unfold inlineFactOf
              simp only [bind, Option.bind, k1, k2, k3, hd, k5, pure, List.foldl_append]
              rw [Option.some.inj hcr]
            refine ⟨?_, ?_⟩
            · rw [List.filterMap_cons_some hf, List.foldl_cons, g1, k6]
            · intro e' h'
              rcases List.mem_cons.1 h' with rfl | h'
              · rw [hf, hu]; rfl
              · exact g2 e' h'
        | false =>
          have hf : inlineFactOf data dateOf dig flt re contexts units chainOf e = none := by
            cases hf : inlineFactOf data dateOf dig flt re contexts units chainOf e with
            | none => rfl
            | some f =>
              exfalso
              unfold inlineFactOf at hf
              simp only [bind, Option.bind_eq_some_iff] at hf
              obtain ⟨k, k1, c, k2, ref, k3, cx, k4, _⟩ := hf
              unfold usable at hu
              rw [k1, k2, k3, Option.bind_some, k4] at hu
              cases hu
          refine ⟨?_, ?_⟩
          · rw [List.filterMap_cons_none hf, g1, st.dropped (hk e List.mem_cons_self) hu]
          · intro e' h'
            rcases List.mem_cons.1 h' with rfl | h'
            · rw [hf, hu]; rfl
            · exact g2 e' h'

/-- The ids an inline filing uses, in the order they are used: of references, contexts, units, continuations and of the facts that are made. -/
def usedIds (data : ReportElement → Concept) (re : ElemStore) (docs : List InlineDoc) : List String :=
  idsOf (headerElems docs "ix:references") ++ idsOf (resourceElems docs "xbrli:context") ++ idsOf (resourceElems docs "xbrli:unit") ++ idsOf ((inlineConts docs).map (·.node)) ++
  idsOf (((inlineFacts docs).filter (usable data re (resourceElems docs "xbrli:context"))).map (·.node))

theorem linkIds (es : List InlineElem) : (es.map (·.link)).filterMap (·.id) = idsOf (es.map (·.node)) := by
  unfold idsOf
  rw [List.filterMap_map, List.filterMap_map]
  rfl

/-- What a whole filing does. -/
structure Whole (fuel : Nat) (data : ReportElement → Concept) (dateOf : String → Option Date) (dig : Char → Option Nat) (flt : String → Option Bool) (re : ElemStore) (docs : List InlineDoc)
    (s' : InlineState) : Prop where
  pass : Pass {} s' (usedIds data re docs)
  dropped : ((inlineFacts docs).filter (fun e => (kindOf e).isSome && !usable data re (resourceElems docs "xbrli:context") e)).length ≤ s'.ps.errs.length
  units : ((inlineFacts docs).filter (fun e => (inlineConcept data re e.node).isSome && unitMissing (resourceElems docs "xbrli:unit") e.node)).length ≤ s'.ps.errs.count unknownUnit
  facts : Unambiguous re (resourceElems docs "xbrli:context") → (∀ e ∈ inlineFacts docs, (kindOf e).isSome) →
    ∃ chains errs taken, createChains fuel ((inlineFacts docs).map (·.link)) ((inlineFootnotes docs).map (·.link)) ((inlineConts docs).map (·.link)) [] = some (chains, errs, taken) ∧
      s'.facts = FactStore.run ((inlineFacts docs).filterMap
        (inlineFactOf data dateOf dig flt re (resourceElems docs "xbrli:context") (resourceElems docs "xbrli:unit") (chainElems (inlineConts docs) chains))) ∧
      ∀ e ∈ inlineFacts docs, (inlineFactOf data dateOf dig flt re (resourceElems docs "xbrli:context") (resourceElems docs "xbrli:unit") (chainElems (inlineConts docs) chains) e).isSome =
        usable data re (resourceElems docs "xbrli:context") e

theorem parseFactsXhtml_spec {fuel : Nat} {data : ReportElement → Concept} {dig : Char → Option Nat} {flt : String → Option Bool} {docs : List InlineDoc} {s' : InlineState}
    (h : parseFactsXhtml fuel data dateOf dig flt re docs = some (.ok s')) : Whole fuel data dateOf dig flt re (docs.filter isInstance) s' := by
  unfold parseFactsXhtml at h
  dsimp only at h
  generalize docs.filter isInstance = ds at h ⊢
  cases hd : parseDeclarations dateOf re ds with
  | error e => rw [hd] at h; cases h
  | ok s =>
    rw [hd] at h
    dsimp only at h
    have D := parseDeclarations_spec hd
    cases hc : createChains fuel ((inlineFacts ds).map (·.link)) ((inlineFootnotes ds).map (·.link)) ((inlineConts ds).map (·.link)) s.taken with
    | none => rw [hc] at h; cases h
    | some r =>
      obtain ⟨chains, errs, taken⟩ := r
      rw [hc] at h
      dsimp only at h
      have h := Option.some.inj h
      obtain ⟨c1, c2, errs0, taken0, c3⟩ := createChains_spec hc
      rw [linkIds] at c1 c2
      obtain ⟨p2, ⟨more, m1, m2, m3⟩, f2⟩ := facts_pass (dateOf := dateOf) (contexts := resourceElems ds "xbrli:context") (units := resourceElems ds "xbrli:unit") _
        (s := { s with ps := { s.ps with errs := s.ps.errs ++ errs }, taken := taken }) D.domain D.units h
      have p1 : Pass s { s with ps := { s.ps with errs := s.ps.errs ++ errs }, taken := taken } (idsOf ((inlineConts ds).map (·.node))) :=
        ⟨c1, _, by rw [List.count_append], c2⟩
      refine ⟨?_, ?_, ?_, ?_⟩
      · exact (D.pass.trans p1).trans p2
      · rw [m1, List.length_append]; omega
      · rw [m1, List.count_append]; omega
      · intro hun hk
        obtain ⟨g1, g2⟩ := f2 hk (D.content hun)
        refine ⟨chains, errs0, taken0, c3, ?_, g2⟩
        rw [g1]
        dsimp only
        rw [D.facts]; rfl

/-- C48: the ids used by references, contexts, units, continuations and facts are reported once or twice at each use after the first, and only then. -/
theorem C48_partial {fuel : Nat} {data : ReportElement → Concept} {dig : Char → Option Nat} {flt : String → Option Bool} {docs : List InlineDoc} {s' : InlineState}
    (h : parseFactsXhtml fuel data dateOf dig flt re docs = some (.ok s')) :
    Reported [] (usedIds data re (docs.filter isInstance)) (s'.ps.errs.count duplicateId) ∧ ∀ i, i ∈ s'.taken ↔ i ∈ usedIds data re (docs.filter isInstance) := by
  have p := (parseFactsXhtml_spec h).pass
  refine ⟨?_, fun i => (p.mem i).trans (by simp)⟩
  obtain ⟨_, n, hn, hr⟩ := p
  rw [hn, show (({} : InlineState).ps.errs.count duplicateId) = 0 from rfl, Nat.zero_add]
  exact hr

theorem reported_zero : ∀ (l seen : List String), Reported seen l 0 ↔ l.Nodup ∧ ∀ i ∈ l, i ∉ seen := by
  intro l
  induction l with
  | nil => intro seen; simp [Reported]
  | cons i l ih =>
    intro seen
    constructor
    · rintro ⟨k, m, hn, hk, hm⟩
      have h0 : k = 0 ∧ m = 0 := by omega
      rw [h0.2] at hm
      obtain ⟨h1, h2⟩ := (ih _).1 hm
      refine ⟨List.nodup_cons.2 ⟨fun h => h2 i h List.mem_cons_self, h1⟩, ?_⟩
      intro j hj hs
      rcases List.mem_cons.1 hj with rfl | hj
      · rw [if_pos hs] at hk; omega
      · exact h2 j hj (List.mem_cons_of_mem _ hs)
    · rintro ⟨h1, h2⟩
      obtain ⟨h3, h4⟩ := List.nodup_cons.1 h1
      refine ⟨0, 0, rfl, by rw [if_neg (h2 i List.mem_cons_self)], (ih _).2 ⟨h4, ?_⟩⟩
      intro j hj hs
      rcases List.mem_cons.1 hs with rfl | hs
      · exact h3 hj
      · exact h2 j (List.mem_cons_of_mem _ hj) hs

/-- C48: no duplicate is reported exactly if all these ids are different. -/
theorem C48_none_partial {fuel : Nat} {data : ReportElement → Concept} {dig : Char → Option Nat} {flt : String → Option Bool} {docs : List InlineDoc} {s' : InlineState}
    (h : parseFactsXhtml fuel data dateOf dig flt re docs = some (.ok s')) : duplicateId ∉ s'.ps.errs ↔ (usedIds data re (docs.filter isInstance)).Nodup := by
  have hr := (C48_partial h).1
  constructor
  · intro hn
    rw [count_clean hn] at hr
    exact ((reported_zero _ _).1 hr).1
  · intro hn hm
    have hpos := List.count_pos_iff.2 hm
    have h0 : Reported [] (usedIds data re (docs.filter isInstance)) 0 := (reported_zero _ _).2 ⟨hn, by simp⟩
    have uniq : ∀ (l seen : List String) (n : Nat), Reported seen l 0 → Reported seen l n → n = 0 := by
      intro l
      induction l with
      | nil => intro seen n _ h; exact h
      | cons i l ih =>
        rintro seen n ⟨k, m, e, hk, hm⟩ ⟨k', m', e', hk', hm'⟩
        have hkm : k = 0 ∧ m = 0 := by omega
        rw [hkm.1] at hk
        rw [hkm.2] at hm
        have := ih _ _ hm hm'
        by_cases hs : i ∈ seen
        · rw [if_pos hs] at hk; omega
        · rw [if_neg hs] at hk'; omega
    have := uniq _ _ _ h0 hr
    omega

theorem parseFootnote_dup {validUri : String → Bool} {f : FootnoteElem} {chain : List Elem} {taken : List String} {r : Option Footnote × ErrNames × List String}
    (h : parseFootnote validUri f chain taken = .ok r) :
    r.2.2 = seenWith (truthy f.id) taken ∧ ∃ more, r.2.1 = dupReport (truthy f.id) taken ++ more ∧ duplicateId ∉ more := by
  unfold parseFootnote at h
  cases hi : truthy f.id with
  | none => rw [hi] at h; cases h; exact ⟨rfl, _, rfl, by decide⟩
  | some i =>
    rw [hi] at h
    simp only [bind, Except.bind] at h
    split at h
    · cases h
    · cases h
      refine ⟨rfl, _, List.append_assoc .., ?_⟩
      rw [List.mem_append]
      rintro (hm | hm)
      · revert hm
        split
        · simp
        · split
          · simp
          · decide
      · revert hm
        split
        · simp
        · decide

/-- C48 for footnotes, which are parsed after everything else. -/
theorem C48_footnotes {validUri : String → Bool} (fs : List (FootnoteElem × List Elem)) {taken : List String} {r : FootnoteState} (h : parseFootnotes validUri fs taken = .ok r) :
    Reported taken (fs.filterMap (fun f => truthy f.1.id)) (r.2.1.count duplicateId) := by
  have gen : ∀ (fs : List (FootnoteElem × List Elem)) (st r : FootnoteState), fs.foldlM (footnoteStep validUri) st = .ok r →
      ∃ n, r.2.1.count duplicateId = st.2.1.count duplicateId + n ∧ Reported st.2.2 (fs.filterMap (fun f => truthy f.1.id)) n := by
    intro fs
    induction fs with
    | nil => intro st r h; cases h; exact ⟨0, rfl, rfl⟩
    | cons f fs ih =>
      intro st r h
      rw [List.foldlM_cons] at h
      cases hs : footnoteStep validUri st f with
      | error e => rw [hs] at h; cases h
      | ok st1 =>
        rw [hs] at h
        obtain ⟨n, i1, i2⟩ := ih _ _ h
        unfold footnoteStep at hs
        cases hp : parseFootnote validUri f.1 f.2 st.2.2 with
        | error e => rw [hp] at hs; cases hs
        | ok v =>
          rw [hp] at hs
          cases hs
          obtain ⟨d1, more, d2, d3⟩ := parseFootnote_dup hp
          dsimp only at i1 i2
          cases hi : truthy f.1.id with
          | none =>
            rw [hi] at d1 d2
            rw [List.filterMap_cons_none (f := fun f : FootnoteElem × List Elem => truthy f.1.id) hi]
            refine ⟨n, ?_, by rw [d1] at i2; exact i2⟩
            rw [i1, d2, List.count_append, List.count_append, count_clean d3]
            simp [dupReport]
          | some i =>
            rw [hi] at d1 d2
            rw [List.filterMap_cons_some (f := fun f : FootnoteElem × List Elem => truthy f.1.id) hi]
            refine ⟨(if i ∈ st.2.2 then 1 else 0) + n, ?_, _, n, rfl, by split <;> simp, reported_congr (fun j => ?_) _ _ (d1 ▸ i2)⟩
            · rw [i1, d2, List.count_append, List.count_append, count_clean d3]
              unfold dupReport
              dsimp only
              split <;> simp <;> omega
            · unfold seenWith
              dsimp only
              rw [mem_appendNew, List.mem_cons]
              exact or_comm
  obtain ⟨n, h1, h2⟩ := gen fs _ _ h
  rw [h1, show (([], [], taken) : FootnoteState).2.1.count duplicateId = 0 from rfl, Nat.zero_add]
  exact h2

/-- C41 for inline documents: under the condition that no two context elements can be mistaken for each other and every fact element is written with the prefix `ix`, the facts are
exactly those the fact elements state, in order; fact elements that state none are reported, and so are references to units that are not declared. -/
theorem C41_inline_partial {fuel : Nat} {data : ReportElement → Concept} {dig : Char → Option Nat} {flt : String → Option Bool} {docs : List InlineDoc} {s' : InlineState}
    (hun : Unambiguous re (resourceElems (docs.filter isInstance) "xbrli:context")) (hk : ∀ e ∈ inlineFacts (docs.filter isInstance), (kindOf e).isSome)
    (h : parseFactsXhtml fuel data dateOf dig flt re docs = some (.ok s')) :
    ∃ chains errs taken, createChains fuel ((inlineFacts (docs.filter isInstance)).map (·.link)) ((inlineFootnotes (docs.filter isInstance)).map (·.link))
        ((inlineConts (docs.filter isInstance)).map (·.link)) [] = some (chains, errs, taken) ∧
      s'.facts = FactStore.run ((inlineFacts (docs.filter isInstance)).filterMap (inlineFactOf data dateOf dig flt re (resourceElems (docs.filter isInstance) "xbrli:context")
        (resourceElems (docs.filter isInstance) "xbrli:unit") (chainElems (inlineConts (docs.filter isInstance)) chains))) ∧
      ((inlineFacts (docs.filter isInstance)).filter (fun e => (inlineFactOf data dateOf dig flt re (resourceElems (docs.filter isInstance) "xbrli:context")
        (resourceElems (docs.filter isInstance) "xbrli:unit") (chainElems (inlineConts (docs.filter isInstance)) chains) e).isNone)).length ≤ s'.ps.errs.length ∧
      ((inlineFacts (docs.filter isInstance)).filter (fun e => (inlineConcept data re e.node).isSome && unitMissing (resourceElems (docs.filter isInstance) "xbrli:unit") e.node)).length ≤
        s'.ps.errs.count unknownUnit := by
  have W := parseFactsXhtml_spec h
  obtain ⟨chains, errs, taken, h1, h2, h3⟩ := W.facts hun hk
  refine ⟨chains, errs, taken, h1, h2, ?_, W.units⟩
  refine Nat.le_trans (Nat.le_of_eq ?_) W.dropped
  congr 1
  apply List.filter_congr
  intro e he
  have h4 := h3 e he
  rw [hk e he, Bool.true_and, ← h4]
  cases inlineFactOf data dateOf dig flt re (resourceElems (docs.filter isInstance) "xbrli:context") (resourceElems (docs.filter isInstance) "xbrli:unit")
    (chainElems (inlineConts (docs.filter isInstance)) chains) e <;> rfl

/-- C41 for inline documents: the fact elements are the `nonNumeric` and `nonFraction` elements, in the namespace the root binds to `ix`, of the documents that are no schema and no
linkbase; they are taken document by document in document order. -/
theorem C41_inline_elements (docs : List InlineDoc) :
    (∀ e, e ∈ inlineFacts (docs.filter isInstance) ↔ ∃ d ∈ docs, (∀ t, d.root.tag = some t → ¬ "schema".toList <:+ t.toList ∧ ¬ "linkbase".toList <:+ t.toList) ∧ e ∈ d.elems ∧
      ∃ u, Dict.get? d.root.ns (some "ix") = some u ∧ (e.node.tag = some ("{" ++ u ++ "}nonNumeric") ∨ e.node.tag = some ("{" ++ u ++ "}nonFraction"))) ∧
    (inlineFacts (docs.filter isInstance)).Sublist (docs.flatMap (·.elems)) := by
  constructor
  · intro e
    have hq : ∀ d : InlineDoc, e ∈ d.query ["nonNumeric", "nonFraction"] ↔ e ∈ d.elems ∧
        ∃ u, Dict.get? d.root.ns (some "ix") = some u ∧ (e.node.tag = some ("{" ++ u ++ "}nonNumeric") ∨ e.node.tag = some ("{" ++ u ++ "}nonFraction")) := by
      intro d
      unfold InlineDoc.query
      cases hu : Dict.get? d.root.ns (some "ix") with
      | none => simp
      | some u =>
        simp only [List.mem_filter, List.any_cons, List.any_nil, Bool.or_false, Bool.or_eq_true, decide_eq_true_iff, Option.some.injEq, exists_eq_left', String.append_assoc]
        exact Iff.rfl
    have hi : ∀ d : InlineDoc, isInstance d = true ↔ ∀ t, d.root.tag = some t → ¬ "schema".toList <:+ t.toList ∧ ¬ "linkbase".toList <:+ t.toList := by
      intro d
      unfold isInstance
      cases d.root.tag with
      | none => simp
      | some t => simp only [Bool.and_eq_true, Bool.not_eq_true', ← Bool.not_eq_true, endsWith_iff, Option.some.injEq, forall_eq']
    unfold inlineFacts
    rw [List.mem_flatMap]
    constructor
    · rintro ⟨d, hd, he⟩
      obtain ⟨h1, h2⟩ := List.mem_filter.1 hd
      obtain ⟨h3, h4⟩ := (hq d).1 he
      exact ⟨d, h1, (hi d).1 h2, h3, h4⟩
    · rintro ⟨d, h1, h2, h3, h4⟩
      exact ⟨d, List.mem_filter.2 ⟨h1, (hi d).2 h2⟩, (hq d).2 ⟨h3, h4⟩⟩
  · have hq : ∀ d : InlineDoc, (d.query ["nonNumeric", "nonFraction"]).Sublist d.elems := by
      intro d
      unfold InlineDoc.query
      split
      · exact List.nil_sublist _
      · exact List.filter_sublist
    unfold inlineFacts
    induction docs with
    | nil => exact List.Sublist.refl _
    | cons d ds ih =>
      rw [List.flatMap_cons]
      by_cases hd : isInstance d = true
      · rw [List.filter_cons_of_pos hd, List.flatMap_cons]
        exact (hq d).append ih
      · rw [List.filter_cons_of_neg hd]
        exact ih.trans (List.sublist_append_right _ _)

/-- C33 for inline documents: the continuations read for a fact or footnote are the elements its `continuedAt` leads to, one after the other, in that order. The condition
says that objects are told apart by identity. -/
theorem C33_elements {fuel : Nat} {docs : List InlineDoc} {chains : List (ContElem × List ContElem)} {errs : ErrNames} {taken : List String}
    (h : createChains fuel ((inlineFacts docs).map (·.link)) ((inlineFootnotes docs).map (·.link)) ((inlineConts docs).map (·.link)) [] = some (chains, errs, taken))
    (hn : ((inlineConts docs).map (·.cont.oid)).Nodup) (hh : (chains.map (·.1.oid)).Nodup) {p : ContElem × List ContElem} (hp : p ∈ chains) :
    ∃ cs : List InlineElem, (∀ c ∈ cs, c ∈ inlineConts docs) ∧ cs.map (·.link) = p.2 ∧ Path (continuationOf ((inlineConts docs).map (·.link))) p.1.continuedAt (cs.map (·.link)) ∧
      chainElems (inlineConts docs) chains p.1.oid = cs.map (·.nonNumeric.elem) := by
  have hpath := (C33_chains h).2 p hp
  have hmem : ∀ (idx : String → Option ContElem) (hidx : ∀ i c, idx i = some c → c ∈ (inlineConts docs).map (·.link)) o (l : List ContElem), Path idx o l →
      ∃ cs : List InlineElem, (∀ c ∈ cs, c ∈ inlineConts docs) ∧ cs.map (·.link) = l := by
    intro idx hidx o l hl
    induction hl with
    | done => exact ⟨[], by simp, rfl⟩
    | unknown _ => exact ⟨[], by simp, rfl⟩
    | step hi _ ih =>
      obtain ⟨cs, h1, h2⟩ := ih
      obtain ⟨c, hc, hl⟩ := List.mem_map.1 (hidx _ _ hi)
      refine ⟨c :: cs, ?_, by rw [List.map_cons, hl, h2]⟩
      intro x hx
      rcases List.mem_cons.1 hx with rfl | hx
      · exact hc
      · exact h1 x hx
  obtain ⟨cs, h1, h2⟩ := hmem _ (fun i c hc => (List.mem_filter.1 (List.mem_of_getLast? hc)).1) _ _ hpath
  refine ⟨cs, h1, h2, by rw [h2]; exact hpath, ?_⟩
  have hfind : chains.find? (fun q => q.1.oid = p.1.oid) = some p := by
    cases hf : chains.find? (fun q => q.1.oid = p.1.oid) with
    | none => exact absurd (List.find?_eq_none.1 hf p hp) (by simp)
    | some q =>
      have := List.find?_some hf
      rw [inj_on_of_nodup_map hh (List.mem_of_find?_eq_some hf) hp (by simpa using this)]
  unfold chainElems
  rw [hfind]
  dsimp only
  rw [← h2]
  clear hpath h2 hfind
  induction cs with
  | nil => rfl
  | cons c cs ih =>
    have hc : (inlineConts docs).find? (fun e => e.cont.oid = c.link.oid) = some c := by
      have hcm := h1 c List.mem_cons_self
      cases hf : (inlineConts docs).find? (fun e => e.cont.oid = c.link.oid) with
      | none => exact absurd (List.find?_eq_none.1 hf c hcm) (by simp [InlineElem.link])
      | some q =>
        have := List.find?_some hf
        rw [inj_on_of_nodup_map hn (List.mem_of_find?_eq_some hf) hcm (of_decide_eq_true this)]
    rw [List.map_cons, List.filterMap_cons, hc, List.map_cons, ih (fun x hx => h1 x (List.mem_cons_of_mem _ hx))]
    rfl

/-- C41 for inline documents: a number without a unit is reported, a text without a unit is not. -/
theorem C41_inline_unitless (e : InlineElem) (tag : String) (s : InlineState) (hu : e.node.attr? "unitRef" = none) :
    (inlineUnit e tag s).1 = [] ∧ (inlineUnit e tag s).2.ps.errs = s.ps.errs ++ (if tag = "ix:nonFraction" then ["IXBRL_NON_FRACTION_WITHOUT_UNIT"] else []) := by
  unfold inlineUnit
  rw [hu]
  dsimp only [truthy]
  by_cases ht : tag = "ix:nonFraction"
  · rw [if_pos ht, if_pos ht]; exact ⟨rfl, rfl⟩
  · rw [if_neg ht, if_neg ht]; exact ⟨rfl, (List.append_nil _).symm⟩

/-- C41 for inline documents, without conditions on the contexts: a fact element that names no known concept or refers to no known context is reported. -/
theorem C41_inline_reported {fuel : Nat} {data : ReportElement → Concept} {dig : Char → Option Nat} {flt : String → Option Bool} {docs : List InlineDoc} {s' : InlineState}
    (h : parseFactsXhtml fuel data dateOf dig flt re docs = some (.ok s')) :
    ((inlineFacts (docs.filter isInstance)).filter (fun e => (kindOf e).isSome && !usable data re (resourceElems (docs.filter isInstance) "xbrli:context") e)).length ≤ s'.ps.errs.length :=
  (parseFactsXhtml_spec h).dropped

/-- What the lookups of a fact of an inline document answer. -/
theorem C41_inline_fact {data : ReportElement → Concept} {dig : Char → Option Nat} {flt : String → Option Bool} {contexts units : List XNode} {chainOf : Nat → List Elem}
    {e : InlineElem} {f : Fact} (h : inlineFactOf data dateOf dig flt re contexts units chainOf e = some f)
    (hd : ∀ x ∈ contexts, ∀ c ∈ statedBy dateOf re x, c.aspect.name ∉ ["concept", "unit"]) :
    f.id = e.node.attr? "id" ∧ (∃ k, kindOf e = some k ∧ inlineValue dig flt (chainOf e.cont.oid) e k = some f.value) ∧
    (∃ c, inlineConcept data re e.node = some c ∧ f.context.getCharacteristic .concept = some (.ofConcept c)) ∧
    (∀ u c, e.node.attr? "unitRef" = some u → u ≠ "" → declaredUnit units u = some c → f.context.getCharacteristic .unit = some c) ∧
    (∃ ref cx p y, e.node.attr? "contextRef" = some ref ∧ declaredContext contexts ref = some cx ∧ f.context.id = ref ∧ cx.find "period" = some p ∧ cx.find "entity" = some y ∧
      (∀ q, periodOf dateOf p = some q → f.context.getCharacteristic .period = some (.ofPeriod q)) ∧
      (∀ i sc, entityOf y = some (i, sc) → f.context.getCharacteristic .entity = some (.ofEntity i sc)) ∧
      (∀ a c, a.name ∉ ["concept", "unit", "period", "entity"] → ((segmentOf y).filterMap (dimensionOf re)).find? (fun c => c.aspect.name = a.name) = some c →
        f.context.getCharacteristic a = some c)) := by
  unfold inlineFactOf at h
  simp only [bind, Option.bind_eq_some_iff] at h
  obtain ⟨k, hk, c, hc, ref, href, cx, hcx, v, hv, hf⟩ := h
  cases hf
  have hmem : cx ∈ contexts := List.mem_of_find?_eq_some hcx
  have hst := hd cx hmem
  have hpe : (partsOf cx).isSome = true := by
    have := List.find?_some hcx
    rw [Bool.and_eq_true] at this
    exact this.2
  obtain ⟨pe, hpe⟩ := Option.isSome_iff_exists.1 hpe
  obtain ⟨p, y⟩ := pe
  have hpe' := hpe
  unfold partsOf at hpe'
  simp only [bind, Option.bind_eq_some_iff] at hpe'
  obtain ⟨p', hp, y', hy, hh⟩ := hpe'
  cases hh
  have none_of : ∀ n, n ∈ ["concept", "unit"] → (statedBy dateOf re cx).find? (fun c => decide (c.aspect.name = n)) = none := by
    intro n hn
    rw [List.find?_eq_none]
    intro c' hc' hh
    exact hst c' hc' (of_decide_eq_true hh ▸ hn)
  have over : ∀ a c', (∀ id, ((statedBy dateOf re cx).foldl Context.add (Context.new id)).getCharacteristic a = some c') →
      ((statedBy dateOf re cx ++ Characteristic.ofConcept c :: inlineUnits units e.node).foldl Context.add (Context.new ref)).getCharacteristic a = some c' := by
    intro a c' hid
    have := hid ref
    rw [C01_first_characteristic_wins] at this ⊢
    rw [List.find?_append, this]; rfl
  have L := fun id => lookup_stated (dateOf := dateOf) (re := re) (given := []) id hp hy (by simp)
  simp only [List.nil_append] at L
  refine ⟨rfl, ⟨k, hk, hv⟩, ⟨c, hc, ?_⟩, ?_, ref, cx, p, y, href, hcx, foldl_add_id _ _, hp, hy, ?_, ?_, ?_⟩
  · rw [C01_first_characteristic_wins, List.find?_append, none_of _ (by decide)]; rfl
  · intro u cu hu hne hdu
    have hus : inlineUnits units e.node = [cu] := by
      unfold inlineUnits
      rw [hu]
      split
      · next h => cases h
      · next h => cases h; exact absurd rfl hne
      · next h => cases h; rw [hdu]; rfl
    have ha : cu.aspect = .unit := by
      have hm := List.mem_of_getLast? hdu
      rw [List.mem_filterMap] at hm
      obtain ⟨x, _, hx⟩ := hm
      split at hx
      · exact unitOf_aspect hx
      · cases hx
    rw [C01_first_characteristic_wins, List.find?_append, none_of _ (by decide), hus, Option.none_or, List.find?_cons_of_neg (by intro hh; cases hh),
      List.find?_cons_of_pos (by rw [ha]; rfl)]
  · exact fun q hq => over _ _ (fun id => (L id).1 q hq)
  · exact fun i sc hi => over _ _ (fun id => (L id).2.1 i sc hi)
  · exact fun a c' ha hf => over _ _ (fun id => (L id).2.2 a c' ha hf)

/-! ### Samples -/

/-- The prefixes of the samples. -/
def sampleNs : NsMap := [(some "ix", ixNs), (some "xbrli", "http://www.xbrl.org/2003/instance"), (some "link", "http://www.xbrl.org/2003/linkbase"), (some "p", "u")]

/-- An element of the namespace of inline XBRL. -/
def ixel (name : String) (attrs : Dict String String) (ns : NsMap) (children : List XNode) : XNode := .mk (some ("{" ++ ixNs ++ "}" ++ name)) attrs none ns children

/-- `sampleContext` with the prefixes of the samples. -/
def inlineContext (id : String) : XNode :=
  .mk (some "{http://www.xbrl.org/2003/instance}context") [("id", id)] none sampleNs [xentity (some "1") "lei" [xexplicit "u" "p:Axis" "p:M"], xduration "2020-01-01" "2020-12-31"]

/-- A unit element with the prefixes of the samples. -/
def inlineUnitElem (id : String) : XNode := .mk (some "{http://www.xbrl.org/2003/instance}unit") [("id", id)] none sampleNs [xmeasure "p:EUR"]

/-- A header with a context, a unit and a references element. -/
def sampleHeader : XNode :=
  ixel "header" [] sampleNs [ixel "references" [("id", "r1")] sampleNs [.mk (some "{http://www.xbrl.org/2003/linkbase}schemaRef") [] none sampleNs []],
    ixel "resources" [] sampleNs [inlineContext "c1", inlineUnitElem "EUR"]]

/-- An element of a document, with the content the fact parsers read. -/
def inlineElem (oid : Nat) (node : XNode) (value : String) (cont : List Nat) : InlineElem :=
  { node := node, cont := ⟨oid, "", none, none, cont⟩, nonNumeric := ⟨.mk "ix:nonNumeric" [] (some value.toList) none [], none, none, none⟩,
    nonFraction := ⟨⟨none, none, none, some value⟩, none, some "0", none, none, none, [], none⟩ }

/-- A numeric fact element. -/
def numberElem (oid : Nat) (id concept : String) (ns : NsMap) (value : String) : InlineElem :=
  inlineElem oid (ixel "nonFraction" [("id", id), ("name", concept), ("contextRef", "c1"), ("unitRef", "EUR")] ns []) value []

/-- A text fact element that is continued. -/
def textElem (oid : Nat) (id next value : String) : InlineElem :=
  inlineElem oid (ixel "nonNumeric" [("id", id), ("name", "p:Assets"), ("contextRef", "c1"), ("continuedAt", next)] sampleNs []) value []

/-- A continuation element. -/
def contElem (oid : Nat) (id value : String) : InlineElem := inlineElem oid (ixel "continuation" [("id", id)] sampleNs []) value []

/-- An inline document. -/
def inlineDoc (rootNs : NsMap) (elems : List InlineElem) : InlineDoc := { root := .mk (some "{http://www.w3.org/1999/xhtml}html") [] none rootNs [sampleHeader], elems := elems }

/-- Two numeric facts, one of an unknown concept, and a text fact with a continuation. -/
def sampleDoc : InlineDoc := inlineDoc sampleNs [numberElem 1 "f1" "p:Assets" sampleNs "100", numberElem 2 "f2" "p:Nothing" sampleNs "200", textElem 3 "f3" "k1" "a", contElem 4 "k1" "b"]

/-- The digits. -/
def sampleDigits (c : Char) : Option Nat := if c.isDigit then some (c.toNat - '0'.toNat) else none

/-- All numbers of the samples are positive. -/
def sampleFloat (_ : String) : Option Bool := some false

/-- The sample document is parsed: two facts, with the values written and continued, and one report. -/
theorem sampleDoc_parsed : ∃ s', parseFactsXhtml 5 sampleData sampleDates sampleDigits sampleFloat factElems [sampleDoc] = some (.ok s') ∧
    s'.facts.getAll.map (fun f => (f.id, f.value)) = [(some "f1", "100"), (some "f3", "ab")] ∧ s'.ps.errs = ["IXBRL_FACT_INVALID_CONCEPT"] ∧
    s'.facts.getAll.map (fun f => f.context.aspects.map (·.name)) = [["concept", "entity", "p:Axis", "period", "unit"], ["concept", "entity", "p:Axis", "period"]] := by
  refine ⟨_, by rfl, by decide +kernel, by decide +kernel, by decide +kernel⟩

example : Unambiguous factElems (resourceElems ([sampleDoc].filter isInstance) "xbrli:context") := by
  have h : resourceElems ([sampleDoc].filter isInstance) "xbrli:context" = [inlineContext "c1"] := by rfl
  rw [h]
  refine unambiguous_single _ _ (inlineContext "c1") _ _ (xexplicit "u" "p:Axis" "p:M") (fun y hy => Or.inl (List.mem_singleton.1 hy)) rfl rfl ?_ (by intro a h; cases h; decide)
  intro p e hp
  have h : partsOf (inlineContext "c1") = some (xduration "2020-01-01" "2020-12-31", xentity (some "1") "lei" [xexplicit "u" "p:Axis" "p:M"]) := by rfl
  rw [h] at hp
  cases hp
  intro c hc t ht
  simp only [xduration, xel, XNode.children, List.mem_cons, List.not_mem_nil, or_false] at hc
  rcases hc with rfl | rfl <;> (cases ht; decide)

example : ∀ e ∈ inlineFacts ([sampleDoc].filter isInstance), (kindOf e).isSome := by
  have h : (inlineFacts ([sampleDoc].filter isInstance)).all (fun e => (kindOf e).isSome) = true := by decide +kernel
  exact List.all_eq_true.1 h

/-- The sample document meets the conditions of `C33_elements`: one fact with one continuation. -/
example : ∃ chains errs taken, createChains 5 ((inlineFacts [sampleDoc]).map (·.link)) ((inlineFootnotes [sampleDoc]).map (·.link)) ((inlineConts [sampleDoc]).map (·.link)) [] =
    some (chains, errs, taken) ∧ ((inlineConts [sampleDoc]).map (·.cont.oid)).Nodup ∧ (chains.map (·.1.oid)).Nodup ∧ chains.map (fun p => p.2.length) = [1] :=
  ⟨_, _, _, by rfl, by decide +kernel, by decide +kernel, by decide +kernel⟩

example : usedIds sampleData factElems [sampleDoc] = ["r1", "c1", "EUR", "k1", "f1", "f3"] := by decide +kernel

/-- Ids used again are reported: a unit named like the context, facts named like the unit and like each other. -/
example : ∃ s', parseFactsXhtml 5 sampleData sampleDates sampleDigits sampleFloat factElems
    [inlineDoc sampleNs [numberElem 1 "EUR" "p:Assets" sampleNs "100", numberElem 2 "f" "p:Assets" sampleNs "200", numberElem 3 "f" "p:Assets" sampleNs "300"]] = some (.ok s') ∧
    s'.ps.errs = [duplicateId, duplicateId] := ⟨_, by rfl, by decide +kernel⟩

/-- C48 fails for facts that are not made: the id of a fact element of an unknown concept may be used again without a report. -/
theorem C48_false : ¬ ∀ (fuel : Nat) (data : ReportElement → Concept) (dateOf : String → Option Date) (dig : Char → Option Nat) (flt : String → Option Bool) (re : ElemStore)
    (docs : List InlineDoc) (s' : InlineState), parseFactsXhtml fuel data dateOf dig flt re docs = some (.ok s') → duplicateId ∉ s'.ps.errs →
    (idsOf ((inlineFacts (docs.filter isInstance)).map (·.node))).Nodup := by
  intro h
  have := h 5 sampleData sampleDates sampleDigits sampleFloat factElems
    [inlineDoc sampleNs [numberElem 1 "f" "p:Nothing" sampleNs "100", numberElem 2 "f" "p:Assets" sampleNs "200"]] _ (by rfl) (by decide +kernel)
  exact absurd this (by decide +kernel)

/-- C41 fails for fact elements written with another prefix than `ix`: the element is not parsed, the fact parsed before it is stored once more, and nothing is reported. -/
theorem C41_prefix_false : ¬ ∀ (fuel : Nat) (data : ReportElement → Concept) (dateOf : String → Option Date) (dig : Char → Option Nat) (flt : String → Option Bool) (re : ElemStore)
    (docs : List InlineDoc) (s' : InlineState), parseFactsXhtml fuel data dateOf dig flt re docs = some (.ok s') → s'.ps.errs = [] →
    ∀ e ∈ inlineFacts (docs.filter isInstance), ∀ i, e.node.attr? "id" = some i → ∃ f ∈ s'.facts.getAll, f.id = some i := by
  intro h
  have := h 5 sampleData sampleDates sampleDigits sampleFloat factElems
    [inlineDoc sampleNs [numberElem 1 "f1" "p:Assets" sampleNs "100", numberElem 2 "f2" "p:Assets" [(some "i", ixNs), (some "p", "u")] "200"]] _ (by rfl) (by decide +kernel)
    (numberElem 2 "f2" "p:Assets" [(some "i", ixNs), (some "p", "u")] "200") (List.mem_cons_of_mem _ List.mem_cons_self) "f2" (by rfl)
  exact absurd this (by decide +kernel)

/-- C41 fails for documents whose root element does not bind the prefix `ix`: no fact is found, and nothing is reported. -/
theorem C41_root_false : ¬ ∀ (fuel : Nat) (data : ReportElement → Concept) (dateOf : String → Option Date) (dig : Char → Option Nat) (flt : String → Option Bool) (re : ElemStore)
    (docs : List InlineDoc) (s' : InlineState), parseFactsXhtml fuel data dateOf dig flt re docs = some (.ok s') → s'.ps.errs = [] →
    ∀ d ∈ docs, ∀ e ∈ d.elems, e.node.tag = some ("{" ++ ixNs ++ "}nonFraction") → ∃ f ∈ s'.facts.getAll, f.id = e.node.attr? "id" := by
  intro h
  have := h 5 sampleData sampleDates sampleDigits sampleFloat factElems [inlineDoc [] [numberElem 1 "f1" "p:Assets" sampleNs "100"]] _ (by rfl) (by decide +kernel)
    _ List.mem_cons_self (numberElem 1 "f1" "p:Assets" sampleNs "100") List.mem_cons_self (by rfl)
  exact absurd this (by decide +kernel)

/-- C83 fails for elements written with another prefix than `ix`: a resources element is reported as an invalid child of the header and its contexts and units are lost. -/
theorem C83_prefix_false : ¬ ∀ (docs : List InlineDoc) (parts : HeaderParts) (errs : ErrNames), parseHeaders (docs.map (·.root)) = .ok (parts, errs) →
    ∀ x ∈ (headers docs).flatMap XNode.children, x.tag = some ("{" ++ ixNs ++ "}resources") → parts.resources ≠ [] := by
  intro h
  have := h [⟨.mk (some "html") [] none [] [ixel "header" [] sampleNs [ixel "resources" [] [(some "i", ixNs)] [inlineContext "c1"]]], []⟩] ⟨[], [], []⟩ _ (by rfl)
    (ixel "resources" [] [(some "i", ixNs)] [inlineContext "c1"]) (List.mem_singleton.2 rfl) (by rfl)
  exact this rfl

/-- C83 fails for headers with comments: they raise an exception. -/
theorem C83_comment_false : ¬ ∀ (docs : List InlineDoc), ∃ r, parseHeaders (docs.map (·.root)) = .ok r := by
  intro h
  obtain ⟨r, hr⟩ := h [⟨.mk (some "html") [] none [] [ixel "header" [] sampleNs [.mk none [] (some "a comment") sampleNs []]], []⟩]
  have : parseHeaders [.mk (some "html") [] none [] [ixel "header" [] sampleNs [.mk none [] (some "a comment") sampleNs []]]] = .error .typeError := by rfl
  rw [List.map_cons, List.map_nil, this] at hr
  cases hr

/-- Headers, with children of every kind. -/
example : ∃ parts errs, parseHeaders [(inlineDoc sampleNs []).root, .mk (some "html") [] none [] [ixel "header" [] sampleNs [ixel "hidden" [] sampleNs [], ixel "hidden" [] sampleNs [], xel "p" none []]]]
    = .ok (parts, errs) ∧ parts.hidden.length = 2 ∧ parts.resources.length = 1 ∧ parts.references.length = 1 := ⟨_, _, by rfl, by decide +kernel, by decide +kernel, by decide +kernel⟩

end Brel
