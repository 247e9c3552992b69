import Verif.Spec.XmlFacts
import Verif.Lemmas.Preserve
import Verif.Lemmas.Repos
import Verif.Props.XmlContext
import Verif.Props.Repos

/-! C41, C82: the facts of XML instances. -/

namespace Brel
open Spec

/-! ## Units -/

theorem parseDivide_indep (cs : List XNode) : ∀ (nums dens : List QName) (errs : ErrNames) (r : Option (List QName × List QName)) (errs' : ErrNames),
    parseDivide cs nums dens errs = .ok (r, errs') → (r = none → errs' ≠ errs) ∧ ∀ errs2, ∃ errs2', parseDivide cs nums dens errs2 = .ok (r, errs2') := by
  induction cs with
  | nil => intro nums dens errs r errs' h; cases h; exact ⟨by simp, fun e => ⟨e, rfl⟩⟩
  | cons c cs ih =>
    intro nums dens errs r errs' h
    refine ⟨?_, ?_⟩
    · intro hr
      subst hr
      intro he
      rw [he] at h
      obtain ⟨m, ms, q, _, _, hh⟩ := parseDivide_silent h
      rcases hh with ⟨_, hh⟩ | ⟨_, _, hh⟩ <;> exact (ih _ _ _ _ _ hh).1 rfl rfl
    · intro errs2
      simp only [parseDivide, bind, Except.bind, pure, Except.pure] at h ⊢
      cases hn : c.tagHas "unitNumerator" with
      | error e => rw [hn] at h; cases h
      | ok num =>
        cases hd : c.tagHas "unitDenominator" with
        | error e => rw [hn, hd] at h; cases h
        | ok den =>
          rw [hn, hd] at h
          dsimp only at h ⊢
          cases hc : c.children with
          | nil => rw [hc] at h; cases h
          | cons m ms =>
            rw [hc] at h
            dsimp only at h ⊢
            rw [parseMeasure_eq] at h ⊢
            dsimp only at h ⊢
            cases hm : measureOf m with
            | none => rw [hm] at h; cases h; exact ⟨_, rfl⟩
            | some q =>
              rw [hm] at h
              dsimp only at h ⊢
              cases num with
              | true => simp only [if_true] at h ⊢; exact (ih _ _ _ _ _ h).2 _
              | false =>
                cases den with
                | true => simp only [if_true, if_false, Bool.false_eq_true] at h ⊢; exact (ih _ _ _ _ _ h).2 _
                | false => simp only [if_false, Bool.false_eq_true] at h ⊢; exact (ih _ _ _ _ _ h).2 _

/-- Parsing a unit only adds reports, adds one if it fails, and yields the unit the element states. -/
theorem parseUnit_spec {x : XNode} {s s' : ParseState} {r : Option Characteristic} (h : parseUnit x s = .ok (r, s')) :
    ∃ more, s' = { s with errs := s.errs ++ more } ∧ (r = none → more ≠ []) ∧ unitOf x = r ∧ ∀ c, r = some c → ∃ id a b, x.attr? "id" = some id ∧ c = .ofUnit id a b := by
  unfold unitOf
  unfold parseUnit at h ⊢
  simp only [bind, Except.bind, pure, Except.pure] at h ⊢
  cases hid : x.attr "id" with
  | error e => rw [hid] at h; cases h
  | ok id =>
    rw [hid] at h
    dsimp only at h ⊢
    have hid' := attr_ok hid
    obtain ⟨m0, hm0⟩ : ∃ m0, (if s.chars.hasKey id .unit = true then s.err "IXBRL_DUPLICATE_ELEMENT_ID" else s) = { s with errs := s.errs ++ m0 } := by
      split
      · exact ⟨["IXBRL_DUPLICATE_ELEMENT_ID"], rfl⟩
      · exact ⟨[], by simp⟩
    rw [hm0] at h
    have he : CharStore.hasKey ({} : ParseState).chars id .unit = false := rfl
    rw [he]
    simp only [Bool.false_eq_true, if_false]
    split at h
    · next c hc =>
      try rw [hc]
      try dsimp only
      cases hme : c.tagHas "measure" with
      | error e => rw [hme] at h; cases h
      | ok me =>
        rw [hme] at h
        dsimp only at h ⊢
        cases me with
        | true =>
          rw [if_pos rfl, parseMeasure_eq] at h ⊢
          dsimp only at h ⊢
          cases hq : measureOf c with
          | none =>
            rw [hq, if_pos (measureOf_none.1 hq)] at h
            rw [if_pos (measureOf_none.1 hq)]
            cases h
            exact ⟨m0 ++ ["XML_MISSING_UNIT_MEASURE"], by simp, by simp, rfl, by simp⟩
          | some q =>
            have hmt : c.text ≠ none := by intro hh; rw [measureOf_none.2 hh] at hq; cases hq
            rw [hq, if_neg hmt] at h
            rw [if_neg hmt]
            cases h
            exact ⟨m0, rfl, by simp, rfl, by intro c hh; cases hh; exact ⟨id, _, _, hid', rfl⟩⟩
        | false =>
          rw [if_neg (by simp)] at h ⊢
          cases hdi : c.tagHas "divide" with
          | error e => rw [hdi] at h; cases h
          | ok di =>
            rw [hdi] at h
            dsimp only at h ⊢
            cases di with
            | false =>
              rw [if_neg (by simp)] at h ⊢
              cases h
              exact ⟨m0 ++ ["XML_INVALID_UNIT_ELEMENT_CHILDREN"], by simp [ParseState.err], by simp, rfl, by intro c hh; cases hh; exact ⟨id, _, _, hid', rfl⟩⟩
            | true =>
              rw [if_pos rfl] at h ⊢
              obtain ⟨m1, hm1⟩ : ∃ m1, (if c.children.length ≠ 2 then (s.errs ++ m0) ++ ["XML_DIVIDE_ELEMENT_WITHOUT_TWO_CHILDREN"] else s.errs ++ m0) = s.errs ++ m1 := by
                split
                · exact ⟨m0 ++ ["XML_DIVIDE_ELEMENT_WITHOUT_TWO_CHILDREN"], by simp⟩
                · exact ⟨m0, rfl⟩
              rw [hm1] at h
              cases hp : parseDivide c.children [] [] (s.errs ++ m1) with
              | error e => rw [hp] at h; cases h
              | ok rs =>
                obtain ⟨rr, errs⟩ := rs
                rw [hp] at h
                obtain ⟨m2, hm2⟩ := parseDivide_grows _ _ _ _ _ _ hp
                obtain ⟨hne, hind⟩ := parseDivide_indep _ _ _ _ _ _ hp
                obtain ⟨errs2, hp2⟩ := hind (if c.children.length ≠ 2 then ([] : ErrNames) ++ ["XML_DIVIDE_ELEMENT_WITHOUT_TWO_CHILDREN"] else [])
                rw [hp2]
                subst hm2
                cases rr with
                | none =>
                  cases h
                  have : m2 ≠ [] := by intro hh; apply hne rfl; rw [hh]; simp
                  exact ⟨m1 ++ m2, by simp, by simp [this], rfl, by simp⟩
                | some nd =>
                  obtain ⟨nums, dens⟩ := nd
                  dsimp only at h ⊢
                  cases hst : sameTags c.children with
                  | error e => rw [hst] at h; cases h
                  | ok same =>
                    rw [hst] at h
                    cases same with
                    | true => cases h
                    | false =>
                      cases h
                      exact ⟨m1 ++ m2, by simp, by simp, rfl, by intro c hh; cases hh; exact ⟨id, _, _, hid', rfl⟩⟩
    · next hc =>
      cases h
      refine ⟨m0 ++ ["XML_UNIT_ELEMENT_WITHOUT_ONE_CHILD"], by simp [ParseState.err], by simp, ?_, by intro c hh; cases hh; exact ⟨id, _, _, hid', rfl⟩⟩
      cases hcc : x.children with
      | nil => rfl
      | cons a as =>
        cases as with
        | nil => exact absurd hcc (hc a)
        | cons b bs => rfl

/-! ## Steps of the history -/

/-- A state is reached by steps that parse only contexts of a list. -/
def Reach (dateOf : String → Option Date) (re : ElemStore) (xs : List XNode) (s s' : ParseState) : Prop :=
  ∃ ops, ops.foldlM (CtxOp.apply dateOf re) s = .ok s' ∧ ∀ y ∈ contextsOf ops, y ∈ xs

variable {dateOf : String → Option Date} {re : ElemStore} {xs : List XNode}

theorem Reach.refl (s : ParseState) : Reach dateOf re xs s s := ⟨[], rfl, by intro y hy; cases hy⟩

theorem Reach.trans {s s1 s2 : ParseState} (h1 : Reach dateOf re xs s s1) (h2 : Reach dateOf re xs s1 s2) : Reach dateOf re xs s s2 := by
  obtain ⟨o1, e1, c1⟩ := h1
  obtain ⟨o2, e2, c2⟩ := h2
  refine ⟨o1 ++ o2, ?_, ?_⟩
  · rw [List.foldlM_append, e1]; exact e2
  · intro y hy
    unfold contextsOf at hy
    rw [List.filterMap_append, List.mem_append] at hy
    exact hy.elim (c1 y) (c2 y)

theorem Reach.step {s s' : ParseState} (o : CtxOp) (h : o.apply dateOf re s = .ok s') (hc : ∀ y ∈ contextsOf [o], y ∈ xs) : Reach dateOf re xs s s' :=
  ⟨[o], by rw [List.foldlM_cons, h]; rfl, hc⟩

theorem Reach.errs {s s' : ParseState} (more : ErrNames) : s' = { s with errs := s.errs ++ more } → Reach dateOf re xs s s' := by
  induction more generalizing s with
  | nil => intro h; rw [List.append_nil] at h; rw [h]; exact Reach.refl s
  | cons e es ih =>
    intro h
    refine (Reach.step (.report e) rfl (by intro y hy; cases hy)).trans (ih ?_)
    rw [h]; simp [ParseState.err]

/-! ## One fact element -/

theorem ite_err (p : Prop) [Decidable p] (s : FactState) (e : String) :
    (if p then s.err e else s) = ⟨{ s.ps with errs := s.ps.errs ++ (if p then [e] else []) }, s.facts⟩ := by
  by_cases h : p <;> simp [h, FactState.err, ParseState.err]

/-- What parsing the context of a fact and the fact itself does. -/
theorem parseFactContext_spec {root x : XNode} {given : List Characteristic} {s s' : FactState} (h : parseFactContext dateOf re root x given s = .ok s') :
    Reach dateOf re root.children s.ps s'.ps ∧ (∀ i k, ¬ CharKind.parsed k → s'.ps.chars.get? (i, k) = s.ps.chars.get? (i, k)) ∧
    ∃ more, s'.ps.errs = s.ps.errs ++ more ∧
      ((contextOf root x = none ∧ s'.facts = s.facts ∧ more ≠ []) ∨
       ∃ ref cx ctx ps, x.attr? "contextRef" = some ref ∧ findById root "context" ref = some cx ∧ contextOf root x = some cx ∧
         parseContext dateOf re cx given s.ps = .ok (some ctx, ps) ∧ s'.facts = s.facts.upsert { id := x.attr? "id", context := ctx, value := x.text.getD "" } ∧
         (noValue x { id := x.attr? "id", context := ctx, value := x.text.getD "" } = true → "MISSING_FACT_VALUE" ∈ more)) := by
  unfold parseFactContext at h
  simp only [bind, Except.bind, pure, Except.pure] at h
  cases hr : x.attr "contextRef" with
  | error e => rw [hr] at h; cases h
  | ok ref =>
    have hr' := attr_ok hr
    rw [hr] at h
    dsimp only at h
    cases hf : findById root "context" ref with
    | none =>
      rw [hf] at h
      cases h
    | some cx =>
      rw [hf] at h
      dsimp only at h
      have hmem : cx ∈ root.children := List.mem_of_find?_eq_some hf
      cases hp : parseContext dateOf re cx given s.ps with
      | error e => rw [hp] at h; cases h
      | ok rp =>
        obtain ⟨r, ps⟩ := rp
        rw [hp] at h
        have hreach : Reach dateOf re root.children s.ps ps :=
          Reach.step (.context cx given) (by show (parseContext _ _ _ _ _).map _ = _; rw [hp]; rfl) (by intro y hy; simp [contextsOf] at hy; exact hy ▸ hmem)
        have hother := fun i k hk => parseContext_other (i := i) (k := k) hp hk
        obtain ⟨m1, hm1⟩ := parseContext_errs hp
        obtain ⟨hnone, hrep⟩ := C39_none_iff hp
        have hparts : partsOf cx = none ↔ cx.find "period" = none ∨ cx.find "entity" = none := by
          unfold partsOf
          cases cx.find "period" <;> cases cx.find "entity" <;> simp
        cases r with
        | none =>
          cases h
          refine ⟨hreach, hother, m1, hm1, Or.inl ⟨?_, rfl, ?_⟩⟩
          · unfold contextOf
            rw [hr']
            simp [hf, hparts.2 (hnone.1 rfl)]
          · obtain ⟨e, _, he⟩ := hrep rfl
            rw [he] at hm1
            intro hh
            rw [hh] at hm1
            simp at hm1
        | some ctx =>
          dsimp only at h
          unfold parseFactXml at h
          simp only [bind, Except.bind, pure, Except.pure] at h
          have hco : contextOf root x = some cx := by
            unfold contextOf
            rw [hr']
            have hsome : partsOf cx ≠ none := by intro hh; have := hnone.2 (hparts.1 hh); cases this
            simp [hf, Option.isSome_iff_ne_none, hsome]
          cases hc : ctx.conceptValue with
          | error e => rw [hc] at h; cases h
          | ok c =>
            rw [hc] at h
            dsimp only at h
            have key : ∃ m2, s'.ps = { ps with errs := ps.errs ++ m2 } ∧ s'.facts = s.facts.upsert { id := x.attr? "id", context := ctx, value := x.text.getD "" } ∧
                (x.text.isNone && !c.nillable → "MISSING_FACT_VALUE" ∈ m2) := by
              simp only [ite_err] at h
              cases h
              refine ⟨_, by simp only [List.append_assoc]; rfl, rfl, ?_⟩
              intro hh
              rw [if_pos hh]
              simp
            obtain ⟨m2, hps, hfacts, hmiss⟩ := key
            have hnv : noValue x { id := x.attr? "id", context := ctx, value := x.text.getD "" } = true → "MISSING_FACT_VALUE" ∈ m1 ++ m2 := by
              intro hh
              refine List.mem_append.2 (Or.inr (hmiss ?_))
              unfold noValue at hh
              unfold Context.conceptValue at hc
              dsimp only at hh
              split at hc
              · next he => rw [he] at hh; cases hc; exact hh
              · cases hc
            refine ⟨hreach.trans (Reach.errs m2 hps), ?_, m1 ++ m2, ?_, Or.inr ⟨ref, cx, ctx, ps, hr', hf, hco, hp, hfacts, hnv⟩⟩
            · intro i k hk; rw [hps]; exact hother i k hk
            · rw [hps]; dsimp only; rw [hm1]; simp

/-- What is known of the repositories between two fact elements. -/
structure FactInv (data : ReportElement → Concept) (dateOf : String → Option Date) (re : ElemStore) (roots : List XNode) (s : FactState) : Prop where
  history : Reach dateOf re (roots.flatMap XNode.children) {} s.ps
  concepts : ∀ t c, s.ps.chars.get? (t, CharKind.concept) = some c → ∃ ns q e, qnameFromStr t ns = .ok q ∧ elementOf re .concept q = some e ∧ c = .ofConcept (conceptFor data e)
  units : ∀ u c, s.ps.chars.get? (u, CharKind.unit) = some c → ∃ r ∈ roots, ∃ ux, findById r "unit" u = some ux ∧ unitOf ux = some c

theorem unambiguous_mono {re : ElemStore} {xs ys : List XNode} (h : Unambiguous re ys) (hs : ∀ x ∈ xs, x ∈ ys) : Unambiguous re xs := by
  have he : ∀ a ∈ entitiesOf xs, a ∈ entitiesOf ys := by
    intro a ha
    obtain ⟨x, hx, hy⟩ := List.mem_filterMap.1 ha
    exact List.mem_filterMap.2 ⟨x, hs x hx, hy⟩
  have hm : ∀ a ∈ membersOf xs, a ∈ membersOf ys := by
    intro a ha
    obtain ⟨x, hx, hy⟩ := List.mem_flatMap.1 ha
    exact List.mem_flatMap.2 ⟨x, hs x hx, hy⟩
  exact ⟨fun x hx => h.dates x (hs x hx), fun a ha b hb => h.entities a (he a ha) b (he b hb), fun m hx => h.axes m (hm m hx),
    fun m hx m' hx' => h.explicit m (hm m hx) m' (hm m' hx'), fun m hx m' hx' => h.typed m (hm m hx) m' (hm m' hx')⟩

theorem Reach.mono {ys : List XNode} {s s' : ParseState} (h : Reach dateOf re xs s s') (hs : ∀ x ∈ xs, x ∈ ys) : Reach dateOf re ys s s' := by
  obtain ⟨ops, h1, h2⟩ := h
  exact ⟨ops, h1, fun y hy => hs y (h2 y hy)⟩

/-- The fact a fact element states, once its concept and its units are known. -/
theorem factOf_of_context {data : ReportElement → Concept} {roots : List XNode} {root x : XNode} {c : Concept} {us : List Characteristic} {s s' : FactState}
    (hun : Unambiguous re (roots.flatMap XNode.children)) (hroot : root ∈ roots) (hist : Reach dateOf re (roots.flatMap XNode.children) {} s.ps)
    (hc : conceptOf data re x = some c) (hu : unitsOf root x = some us) (h : parseFactContext dateOf re root x (Characteristic.ofConcept c :: us) s = .ok s') :
    Reach dateOf re (roots.flatMap XNode.children) {} s'.ps ∧ (∀ i k, ¬ CharKind.parsed k → s'.ps.chars.get? (i, k) = s.ps.chars.get? (i, k)) ∧
    ∃ more, s'.ps.errs = s.ps.errs ++ more ∧ match factOf data dateOf re root x with
      | some f => s'.facts = s.facts.upsert f
      | none => s'.facts = s.facts ∧ more ≠ [] := by
  have hsub : ∀ y ∈ root.children, y ∈ roots.flatMap XNode.children := fun y hy => List.mem_flatMap.2 ⟨root, hroot, hy⟩
  obtain ⟨h1, h2, more, hm, h3⟩ := parseFactContext_spec h
  refine ⟨hist.trans (h1.mono hsub), h2, more, hm, ?_⟩
  rcases h3 with ⟨hn, hf, hmore⟩ | ⟨ref, cx, ctx, ps, href, hfind, hco, hp, hf, _⟩
  · have : factOf data dateOf re root x = none := by unfold factOf; rw [hc, hu, hn]; rfl
    rw [this]; exact ⟨hf, hmore⟩
  · obtain ⟨ops, ho, hops⟩ := hist
    have hcx : cx ∈ root.children := List.mem_of_find?_eq_some hfind
    obtain ⟨id, hid, hctx⟩ := C39_content_partial (ops := ops) ho (unambiguous_mono hun (by
      intro y hy
      rcases List.mem_append.1 hy with hy | hy
      · exact hops y hy
      · rw [List.mem_singleton.1 hy]; exact hsub cx hcx)) hp
    have hidref : id = ref := by
      have := List.find?_some hfind
      simp only [Bool.and_eq_true, decide_eq_true_eq] at this
      rw [hid] at this
      exact Option.some.inj this.2
    have : factOf data dateOf re root x = some { id := x.attr? "id", context := ctx, value := x.text.getD "" } := by
      unfold factOf
      rw [hc, hu, hco, hctx, href, hidref]
      rfl
    rw [this]; exact hf

theorem get?_put_other {s : ParseState} {i : String} {c : Characteristic} {j : String} {k : CharKind} (h : c.kind ≠ k) :
    (s.put i c).chars.get? (j, k) = s.chars.get? (j, k) := by
  unfold ParseState.put
  rw [get?_upsert, if_neg]
  intro e; exact h (congrArg Prod.snd e)

theorem unitRef_some {o : Option String} {u : String} (h : truthy o = some u) : o = some u ∧ u ≠ "" := by
  unfold truthy at h
  split at h
  · cases h
  · next hx => exact ⟨h, fun hh => hx (by rw [h, hh])⟩

theorem unitRef_none {o : Option String} (h : truthy o = none) : o = none ∨ o = some "" := by
  unfold truthy at h
  split at h
  · exact Or.inr rfl
  · exact Or.inl h

theorem unitsOf_none {root x : XNode} (h : truthy (x.attr? "unitRef") = none) : unitsOf root x = some [] := by
  unfold unitsOf
  rcases unitRef_none h with h | h <;> rw [h] <;> rfl

theorem unitsOf_some {root x : XNode} {u : String} (h : truthy (x.attr? "unitRef") = some u) :
    unitsOf root x = ((findById root "unit" u).bind unitOf).map (fun c => [c]) := by
  unfold unitsOf
  obtain ⟨h1, h2⟩ := unitRef_some h
  rw [h1]
  split
  · next hh => cases hh
  · next hh => cases hh; exact absurd rfl h2
  · next hh => cases hh; rfl

/-- The effect of one fact element: the fact it states is stored, or it is reported. -/
theorem parseFactElement_spec {data : ReportElement → Concept} {roots : List XNode} {root x : XNode} {s s' : FactState}
    (ht : TagsUnambiguous re) (hua : UnitsAgree roots) (hun : Unambiguous re (roots.flatMap XNode.children)) (hroot : root ∈ roots)
    (inv : FactInv data dateOf re roots s) (h : parseFactElement data dateOf re root s x = .ok s') :
    FactInv data dateOf re roots s' ∧ ∃ more, s'.ps.errs = s.ps.errs ++ more ∧ match factOf data dateOf re root x with
      | some f => s'.facts = s.facts.upsert f
      | none => s'.facts = s.facts ∧ more ≠ [] := by
  unfold parseFactElement at h
  simp only [bind, Except.bind, pure, Except.pure] at h
  obtain ⟨q, hq⟩ := qnameFromStr_total (x.tag.getD "") x.ns
  rw [hq] at h
  dsimp only at h
  rw [hasTyped_eq, getTyped_eq] at h
  cases he : elementOf re .concept q with
  | none =>
    rw [he] at h
    cases h
    refine ⟨⟨inv.history.trans (Reach.errs ["XML_FACT_INVALID_CONCEPT"] rfl), inv.concepts, inv.units⟩, ["XML_FACT_INVALID_CONCEPT"], rfl, ?_⟩
    have : factOf data dateOf re root x = none := by
      unfold factOf conceptOf; rw [hq]; simp [Except.toOption, he]
    rw [this]
    exact ⟨rfl, by simp⟩
  | some e =>
    rw [he] at h
    simp only [Option.isSome_some, Bool.not_true, Bool.false_eq_true, if_false] at h
    have hc : conceptOf data re x = some (conceptFor data e) := by unfold conceptOf; rw [hq]; simp [Except.toOption, he]
    -- the concept
    have hs1 : ∃ s1, s1 = (if s.ps.chars.hasKey (x.tag.getD "") .concept = true then s else { s with ps := s.ps.put (x.tag.getD "") (.ofConcept (conceptFor data e)) }) ∧
        FactInv data dateOf re roots s1 ∧ s1.ps.errs = s.ps.errs ∧ s1.facts = s.facts := by
      refine ⟨_, rfl, ?_⟩
      split
      · exact ⟨inv, rfl, rfl⟩
      · refine ⟨⟨inv.history.trans (Reach.step (.concept _ _) rfl (by intro y hy; cases hy)), ?_, ?_⟩, rfl, rfl⟩
        · intro t c hg
          have hg' : Dict.get? (s.ps.chars.upsert (x.tag.getD "") (.ofConcept (conceptFor data e))) (t, CharKind.concept) = some c := hg
          rw [get?_upsert] at hg'
          split at hg'
          · next hh =>
            cases hg'
            have : x.tag.getD "" = t := congrArg Prod.fst hh
            exact ⟨x.ns, q, e, this ▸ hq, he, rfl⟩
          · exact inv.concepts t c hg'
        · intro u c hg
          rw [show Dict.get? _ _ = Dict.get? s.ps.chars (u, CharKind.unit) from get?_put_other (by intro hh; cases hh)] at hg
          exact inv.units u c hg
    obtain ⟨s1, hs1, inv1, herr1, hfact1⟩ := hs1
    rw [← hs1] at h
    cases hl : s1.ps.chars.lookup (x.tag.getD "") .concept with
    | error e => rw [hl] at h; cases h
    | ok cc =>
      rw [hl] at h
      dsimp only at h
      obtain ⟨ns', q', e', hq', he', hcc⟩ := inv1.concepts _ _ (lookup_ok hl)
      have hee : e' = e := ht _ _ _ _ _ _ _ hq' hq he' he
      subst hee
      rw [hcc] at h
      rw [← herr1, ← hfact1]
      -- the unit
      unfold parseFactUnit at h
      cases hu : truthy (x.attr? "unitRef") with
      | none =>
        rw [hu] at h
        obtain ⟨h1, h2, more, hm, h3⟩ := factOf_of_context hun hroot inv1.history hc (unitsOf_none hu) h
        refine ⟨⟨h1, ?_, ?_⟩, more, hm, h3⟩
        · intro t c hg; exact inv1.concepts t c (by rw [← h2 t .concept (by rintro ⟨hh, _⟩; exact hh rfl)]; exact hg)
        · intro u c hg; exact inv1.units u c (by rw [← h2 u .unit (by rintro ⟨_, hh⟩; exact hh rfl)]; exact hg)
      | some u =>
        rw [hu] at h
        dsimp only at h
        have hus := unitsOf_some (root := root) hu
        cases hfu : findById root "unit" u with
        | none =>
          rw [hfu] at h hus
          cases h
        | some ux =>
          rw [hfu] at h hus
          dsimp only [Option.bind] at h hus
          -- once the unit is in the repository
          have fin : ∀ (s2 : FactState) (uc : Characteristic), FactInv data dateOf re roots s2 → s2.ps.chars.lookup u .unit = .ok uc →
              (∃ m0, s2.ps.errs = s1.ps.errs ++ m0) → s2.facts = s1.facts → parseFactContext dateOf re root x [.ofConcept (conceptFor data e'), uc] s2 = .ok s' →
              FactInv data dateOf re roots s' ∧ ∃ more, s'.ps.errs = s1.ps.errs ++ more ∧ match factOf data dateOf re root x with
                | some f => s'.facts = s1.facts.upsert f
                | none => s'.facts = s1.facts ∧ more ≠ [] := by
            intro s2 uc inv2 hl2 ⟨m0, hm0⟩ hf2 hp2
            obtain ⟨r, hr, ux', hfx, hux⟩ := inv2.units _ _ (lookup_ok hl2)
            have hagree := hua _ hr _ hroot _ _ _ hfx hfu
            rw [← hagree, hux] at hus
            obtain ⟨h1, h2, more, hm, h3⟩ := factOf_of_context hun hroot inv2.history hc hus hp2
            refine ⟨⟨h1, ?_, ?_⟩, m0 ++ more, by rw [hm, hm0]; simp, ?_⟩
            · intro t c hg; exact inv2.concepts t c (by rw [← h2 t .concept (by rintro ⟨hh, _⟩; exact hh rfl)]; exact hg)
            · intro u c hg; exact inv2.units u c (by rw [← h2 u .unit (by rintro ⟨_, hh⟩; exact hh rfl)]; exact hg)
            · rw [hf2] at h3
              cases hfo : factOf data dateOf re root x with
              | none => rw [hfo] at h3; exact ⟨h3.1, by simp [h3.2]⟩
              | some f => rw [hfo] at h3; exact h3
          by_cases hk : s1.ps.chars.hasKey u .unit = true
          · rw [if_pos hk] at h
            cases hl2 : s1.ps.chars.lookup u .unit with
            | error e => simp [hl2, bind, Except.bind] at h
            | ok uc =>
              simp only [hl2, bind, Except.bind] at h
              exact fin s1 uc inv1 hl2 ⟨[], by simp⟩ rfl h
          · rw [if_neg hk] at h
            simp only [bind, Except.bind, pure, Except.pure] at h
            cases hpu : parseUnit ux s1.ps with
            | error e => rw [hpu] at h; cases h
            | ok rp =>
              obtain ⟨r, ps⟩ := rp
              obtain ⟨m0, hps, hrn, hrv, hrc⟩ := parseUnit_spec hpu
              rw [hpu] at h
              cases r with
              | none =>
                cases h
                refine ⟨⟨inv1.history.trans (Reach.errs m0 hps), ?_, ?_⟩, m0, by rw [hps], ?_⟩
                · rw [hps]; exact inv1.concepts
                · rw [hps]; exact inv1.units
                · have : factOf data dateOf re root x = none := by unfold factOf; rw [hc, hus, hrv]; rfl
                  rw [this]
                  exact ⟨rfl, hrn rfl⟩
              | some c =>
                obtain ⟨id, a, b, hid, hcu⟩ := hrc c rfl
                subst hcu
                dsimp only at h
                have inv2 : FactInv data dateOf re roots { s1 with ps := ps.put u (.ofUnit id a b) } := by
                  refine ⟨(inv1.history.trans (Reach.errs m0 hps)).trans (Reach.step (.unit u id a b) rfl (by intro y hy; cases hy)), ?_, ?_⟩
                  · intro t c hg
                    rw [show Dict.get? _ _ = Dict.get? ps.chars (t, CharKind.concept) from get?_put_other (by intro hh; cases hh), hps] at hg
                    exact inv1.concepts t c hg
                  · intro u' c hg
                    have hg' : Dict.get? (ps.chars.upsert u (.ofUnit id a b)) (u', CharKind.unit) = some c := hg
                    rw [get?_upsert] at hg'
                    split at hg'
                    · next hh =>
                      cases hg'
                      have : u = u' := congrArg Prod.fst hh
                      exact ⟨root, hroot, ux, this ▸ hfu, hrv⟩
                    · rw [hps] at hg'; exact inv1.units u' c hg'
                cases hl2 : (ps.put u (.ofUnit id a b)).chars.lookup u .unit with
                | error e => rw [hl2] at h; cases h
                | ok uc =>
                  rw [hl2] at h
                  exact fin _ uc inv2 hl2 ⟨m0, by rw [hps]; rfl⟩ rfl h

/-! ## C41 -/

/-- The number of fact elements that state no fact. -/
theorem foldl_elements {data : ReportElement → Concept} {roots : List XNode} (ht : TagsUnambiguous re) (hua : UnitsAgree roots)
    (hun : Unambiguous re (roots.flatMap XNode.children)) {root : XNode} (hroot : root ∈ roots) (l : List XNode) : ∀ {s s' : FactState},
    FactInv data dateOf re roots s → l.foldlM (parseFactElement data dateOf re root) s = .ok s' →
    FactInv data dateOf re roots s' ∧ s'.facts = (l.filterMap (factOf data dateOf re root)).foldl FactStore.upsert s.facts ∧
    ∃ more, s'.ps.errs = s.ps.errs ++ more ∧ (l.filter (fun x => (factOf data dateOf re root x).isNone)).length ≤ more.length := by
  induction l with
  | nil => intro s s' inv h; cases h; exact ⟨inv, rfl, [], by simp, by simp⟩
  | cons x xs ih =>
    intro s s' inv h
    rw [List.foldlM_cons] at h
    cases hx : parseFactElement data dateOf re root s x with
    | error e => rw [hx] at h; cases h
    | ok s1 =>
      rw [hx] at h
      obtain ⟨inv1, m1, hm1, hf1⟩ := parseFactElement_spec ht hua hun hroot inv hx
      obtain ⟨inv2, hf2, m2, hm2, hlen⟩ := ih inv1 h
      refine ⟨inv2, ?_, m1 ++ m2, by rw [hm2, hm1]; simp, ?_⟩
      · rw [hf2]
        cases hfo : factOf data dateOf re root x with
        | none => rw [hfo] at hf1; rw [List.filterMap_cons_none hfo, hf1.1]
        | some f => rw [hfo] at hf1; rw [List.filterMap_cons_some hfo, List.foldl_cons, hf1]
      · rw [List.filter_cons, List.length_append]
        cases hfo : factOf data dateOf re root x with
        | none =>
          rw [hfo] at hf1
          have := List.length_pos_iff.2 hf1.2
          simp only [Option.isNone_none, if_true, List.length_cons]
          omega
        | some f => simp only [Option.isNone_some, Bool.false_eq_true, if_false]; omega

theorem foldl_roots {data : ReportElement → Concept} {roots : List XNode} (ht : TagsUnambiguous re) (hua : UnitsAgree roots)
    (hun : Unambiguous re (roots.flatMap XNode.children)) (l : List XNode) (hl : ∀ r ∈ l, r ∈ roots) : ∀ {s s' : FactState},
    FactInv data dateOf re roots s → parseFactsXml data dateOf re l s = .ok s' →
    FactInv data dateOf re roots s' ∧ s'.facts = ((elementsOf l).filterMap (fun p => factOf data dateOf re p.1 p.2)).foldl FactStore.upsert s.facts ∧
    ∃ more, s'.ps.errs = s.ps.errs ++ more ∧ ((elementsOf l).filter (fun p => (factOf data dateOf re p.1 p.2).isNone)).length ≤ more.length := by
  induction l with
  | nil => intro s s' inv h; cases h; exact ⟨inv, rfl, [], by simp, by simp [elementsOf]⟩
  | cons r rs ih =>
    intro s s' inv h
    unfold parseFactsXml at h
    rw [List.foldlM_cons] at h
    cases hx : (factElements r).foldlM (parseFactElement data dateOf re r) s with
    | error e => rw [hx] at h; cases h
    | ok s1 =>
      rw [hx] at h
      obtain ⟨inv1, hf1, m1, hm1, hlen1⟩ := foldl_elements ht hua hun (hl r (by simp)) (factElements r) inv hx
      obtain ⟨inv2, hf2, m2, hm2, hlen2⟩ := ih (fun y hy => hl y (by simp [hy])) inv1 h
      have he : elementsOf (r :: rs) = (factElements r).map (fun x => (r, x)) ++ elementsOf rs := by unfold elementsOf; rw [List.flatMap_cons]
      refine ⟨inv2, ?_, m1 ++ m2, by rw [hm2, hm1]; simp, ?_⟩
      · rw [hf2, hf1, he, List.filterMap_append, List.foldl_append, List.filterMap_map]
        rfl
      · rw [he, List.filter_append, List.length_append, List.length_append, List.filter_map, List.length_map]
        exact Nat.add_le_add hlen1 hlen2

/-- C41 for XML instances, the part that holds: in a filing whose texts have one meaning each, the stored facts are exactly those that
its fact elements state, in document order, each with the concept, the unit and the context its element refers to. The fact elements
that state no fact are reported: there are at least as many errors. -/
theorem C41_xml_partial {data : ReportElement → Concept} {roots : List XNode} {s' : FactState} (ht : TagsUnambiguous re) (hua : UnitsAgree roots)
    (hun : Unambiguous re (roots.flatMap XNode.children)) (h : parseFactsXml data dateOf re roots {} = .ok s') :
    s'.facts = FactStore.run ((elementsOf roots).filterMap (fun p => factOf data dateOf re p.1 p.2)) ∧
    ((elementsOf roots).filter (fun p => (factOf data dateOf re p.1 p.2).isNone)).length ≤ s'.ps.errs.length := by
  have inv0 : FactInv data dateOf re roots {} := ⟨Reach.refl _, (by intro t c h; cases h), (by intro t c h; cases h)⟩
  obtain ⟨_, hf, m, hm, hlen⟩ := foldl_roots ht hua hun roots (fun _ h => h) inv0 h
  refine ⟨hf, ?_⟩
  have : s'.ps.errs = m := hm
  rw [this]; exact hlen

theorem unitOf_aspect {x : XNode} {c : Characteristic} (h : unitOf x = some c) : c.aspect = .unit := by
  unfold unitOf at h
  split at h
  · next hp =>
    cases h
    obtain ⟨_, _, _, _, hc⟩ := parseUnit_spec hp
    obtain ⟨_, _, _, _, rfl⟩ := hc c rfl
    rfl
  · cases h

theorem foldl_add_id (cs : List Characteristic) : ∀ ctx : Context, (cs.foldl Context.add ctx).id = ctx.id := by
  induction cs with
  | nil => intro ctx; rfl
  | cons c cs ih =>
    intro ctx
    rw [List.foldl_cons, ih]
    unfold Context.add
    split <;> rfl

/-- C41: what a fact element states: its own id and text, its concept, the unit with the id it refers to, and the context with the id it refers to,
with the period and the entity that context states. -/
theorem C41_fact {data : ReportElement → Concept} {root x : XNode} {f : Fact} (h : factOf data dateOf re root x = some f) :
    f.id = x.attr? "id" ∧ f.value = x.text.getD "" ∧
    (∃ c, conceptOf data re x = some c ∧ f.context.getCharacteristic .concept = some (.ofConcept c)) ∧
    (∀ u, x.attr? "unitRef" = some u → u ≠ "" → ∃ ux c, findById root "unit" u = some ux ∧ unitOf ux = some c ∧ f.context.getCharacteristic .unit = some c) ∧
    (∃ ref cx p e, x.attr? "contextRef" = some ref ∧ findById root "context" ref = some cx ∧ f.context.id = ref ∧ cx.find "period" = some p ∧ cx.find "entity" = some e ∧
      (∀ q, periodOf dateOf p = some q → f.context.getCharacteristic .period = some (.ofPeriod q)) ∧
      (∀ i sc, entityOf e = some (i, sc) → f.context.getCharacteristic .entity = some (.ofEntity i sc)) ∧
      (∀ a c, a.name ∉ ["concept", "unit", "period", "entity"] → ((segmentOf e).filterMap (dimensionOf re)).find? (fun c => c.aspect.name = a.name) = some c →
        f.context.getCharacteristic a = some c)) := by
  unfold factOf at h
  simp only [bind, Option.bind_eq_some_iff] at h
  obtain ⟨c, hc, us, hus, cx, hcx, hf⟩ := h
  cases hf
  unfold contextOf at hcx
  simp only [bind, Option.bind_eq_some_iff] at hcx
  obtain ⟨cx', ⟨ref, href, hfind⟩, hparts⟩ := hcx
  split at hparts
  · next hsome =>
    cases hparts
    obtain ⟨pe, hpe⟩ := Option.isSome_iff_exists.1 hsome
    have hpe' := hpe
    obtain ⟨p, e⟩ := pe
    unfold partsOf at hpe'
    simp only [bind, Option.bind_eq_some_iff] at hpe'
    obtain ⟨p', hp, e', he, hh⟩ := hpe'
    cases hh
    have husn : ∀ c ∈ us, c.aspect = .unit := by
      unfold unitsOf at hus
      split at hus
      · cases hus; intro c hc; cases hc
      · cases hus; intro c hc; cases hc
      · simp only [Option.map_eq_some_iff, Option.bind_eq_some_iff] at hus
        obtain ⟨u', ⟨ux, _, hux⟩, rfl⟩ := hus
        intro c hc
        rw [List.mem_singleton.1 hc]
        exact unitOf_aspect hux
    have hgiven : ∀ c' ∈ Characteristic.ofConcept c :: us, c'.aspect.name = "concept" ∨ c'.aspect.name = "unit" := by
      intro c' hc'
      rcases List.mem_cons.1 hc' with rfl | hc'
      · exact Or.inl rfl
      · exact Or.inr (by rw [husn c' hc']; rfl)
    refine ⟨rfl, rfl, ⟨c, hc, ?_⟩, ?_, ref, cx, p, e, href, hfind, ?_, hp, he, lookup_stated _ hp he hgiven⟩
    · rw [C01_first_characteristic_wins]; rfl
    · intro u hu hne
      have htr : truthy (x.attr? "unitRef") = some u := by
        rw [hu]; unfold truthy; split
        · next hh => cases hh; exact absurd rfl hne
        · rfl
      rw [unitsOf_some htr] at hus
      simp only [Option.map_eq_some_iff, Option.bind_eq_some_iff] at hus
      obtain ⟨u', ⟨ux, hfx, hux⟩, rfl⟩ := hus
      refine ⟨ux, u', hfx, hux, ?_⟩
      rw [C01_first_characteristic_wins, List.cons_append, List.find?_cons_of_neg (by intro hh; cases hh), List.cons_append,
        List.find?_cons_of_pos (by rw [unitOf_aspect hux]; rfl)]
    · rw [href]
      exact foldl_add_id _ _
  · cases hparts

/-- Facts with distinct ids are all listed, in the order in which they were stored. -/
theorem getAll_of_distinct (hs : List Fact) (hn : (hs.map (·.id)).Nodup) (hid : ∀ f ∈ hs, f.id ≠ none) : (FactStore.run hs).getAll = hs := by
  have hkeys : (hs.filterMap (·.id)).Nodup := by
    rw [List.Nodup, List.pairwise_filterMap]
    refine (List.pairwise_map.1 hn).imp ?_
    intro a b hab i hi j hj hij
    exact hab (by rw [hi, hj, hij])
  rw [(C06_get_all_partial hs).1, firstOccurrences_of_nodup _ hkeys, List.filterMap_filterMap]
  have key : ∀ f ∈ hs, (f.id.bind (fun i => latest (·.id) hs (some i))) = some f := by
    intro f hf
    cases hi : f.id with
    | none => exact absurd hi (hid f hf)
    | some i =>
      show latest _ hs (some i) = some f
      cases hl : latest (fun f : Fact => f.id) hs (some i) with
      | none => exact absurd hi ((latest_none _ _ _).1 hl f hf)
      | some g =>
        obtain ⟨hg, hgi⟩ := latest_some _ _ _ _ hl
        rw [inj_on_of_nodup_map hn hg hf (by rw [hgi, hi])]
  calc hs.filterMap (fun f => f.id.bind (fun i => latest (·.id) hs (some i))) = hs.filterMap some := filterMap_congr' _ _ _ key
    _ = hs := List.filterMap_some

/-- C41 for XML instances, as seen by the user: if nothing is reported and the fact elements have distinct ids, `get_all` lists for every fact
element the fact it states, in document order, and nothing else. -/
theorem C41_listed_partial {data : ReportElement → Concept} {roots : List XNode} {s' : FactState} (ht : TagsUnambiguous re) (hua : UnitsAgree roots)
    (hun : Unambiguous re (roots.flatMap XNode.children)) (h : parseFactsXml data dateOf re roots {} = .ok s') (he : s'.ps.errs = [])
    (hid : ∀ p ∈ elementsOf roots, p.2.attr? "id" ≠ none) (hd : ((elementsOf roots).map (fun p => p.2.attr? "id")).Nodup) :
    s'.facts.getAll.map some = (elementsOf roots).map (fun p => factOf data dateOf re p.1 p.2) := by
  obtain ⟨hf, hlen⟩ := C41_xml_partial ht hua hun h
  rw [he] at hlen
  have hall : ∀ p ∈ elementsOf roots, ∃ f, factOf data dateOf re p.1 p.2 = some f := by
    intro p hp
    cases hfo : factOf data dateOf re p.1 p.2 with
    | some f => exact ⟨f, rfl⟩
    | none =>
      have : p ∈ (elementsOf roots).filter (fun p => (factOf data dateOf re p.1 p.2).isNone) := List.mem_filter.2 ⟨hp, by rw [hfo]; rfl⟩
      have := List.length_pos_of_mem this
      have hlen : _ ≤ 0 := hlen
      omega
  have hmap : ((elementsOf roots).filterMap (fun p => factOf data dateOf re p.1 p.2)).map some = (elementsOf roots).map (fun p => factOf data dateOf re p.1 p.2) := by
    clear hf hlen hid hd h hun hua
    revert hall
    induction elementsOf roots with
    | nil => intro _; rfl
    | cons p ps ih =>
      intro hall
      obtain ⟨f, hf⟩ := hall p (by simp)
      rw [List.filterMap_cons_some (f := fun p : XNode × XNode => factOf data dateOf re p.1 p.2) hf, List.map_cons, List.map_cons, hf, ih (fun q hq => hall q (by simp [hq]))]
  have hids : ((elementsOf roots).filterMap (fun p => factOf data dateOf re p.1 p.2)).map (·.id) = (elementsOf roots).map (fun p => p.2.attr? "id") := by
    clear hf hlen hid hd h hun hua hmap
    revert hall
    induction elementsOf roots with
    | nil => intro _; rfl
    | cons p ps ih =>
      intro hall
      obtain ⟨f, hf⟩ := hall p (by simp)
      rw [List.filterMap_cons_some (f := fun p : XNode × XNode => factOf data dateOf re p.1 p.2) hf, List.map_cons, List.map_cons, (C41_fact hf).1, ih (fun q hq => hall q (by simp [hq]))]
  rw [← hmap, hf, getAll_of_distinct _ (hids ▸ hd)]
  intro f hf
  obtain ⟨p, hp, hfo⟩ := List.mem_filterMap.1 hf
  rw [(C41_fact hfo).1]
  exact hid p hp

/-! ### Nothing is dropped silently -/

/-- Whatever the document, a fact element is stored under its own id with its own text, or reported. -/
theorem parseFactElement_stored {data : ReportElement → Concept} {root x : XNode} {s s' : FactState} (h : parseFactElement data dateOf re root s x = .ok s') :
    ∃ more, s'.ps.errs = s.ps.errs ++ more ∧
      ((s'.facts = s.facts ∧ more ≠ []) ∨ ∃ f, f.id = x.attr? "id" ∧ f.value = x.text.getD "" ∧ s'.facts = s.facts.upsert f ∧ (noValue x f = true → "MISSING_FACT_VALUE" ∈ more)) := by
  have hctx : ∀ (given : List Characteristic) (s1 : FactState) (m0 : ErrNames), s1.ps.errs = s.ps.errs ++ m0 → s1.facts = s.facts →
      parseFactContext dateOf re root x given s1 = .ok s' → ∃ more, s'.ps.errs = s.ps.errs ++ more ∧
      ((s'.facts = s.facts ∧ more ≠ []) ∨ ∃ f, f.id = x.attr? "id" ∧ f.value = x.text.getD "" ∧ s'.facts = s.facts.upsert f ∧ (noValue x f = true → "MISSING_FACT_VALUE" ∈ more)) := by
    intro given s1 m0 h0 hf0 hc
    obtain ⟨_, _, more, hm, h3⟩ := parseFactContext_spec hc
    refine ⟨m0 ++ more, by rw [hm, h0]; simp, ?_⟩
    rcases h3 with ⟨_, hf, hne⟩ | ⟨ref, cx, ctx, ps, _, _, _, _, hf, hnv⟩
    · exact Or.inl ⟨hf.trans hf0, by simp [hne]⟩
    · exact Or.inr ⟨_, rfl, rfl, by rw [hf, hf0], fun hh => List.mem_append.2 (Or.inr (hnv hh))⟩
  unfold parseFactElement at h
  simp only [bind, Except.bind, pure, Except.pure] at h
  split at h
  · cases h
  · split at h
    · cases h; exact ⟨["XML_FACT_INVALID_CONCEPT"], rfl, Or.inl ⟨rfl, by simp⟩⟩
    · split at h
      · cases h
      · next e _ =>
        generalize hs1 : (if s.ps.chars.hasKey (x.tag.getD "") .concept = true then s else { s with ps := s.ps.put (x.tag.getD "") (.ofConcept (conceptFor data e)) }) = s1 at h
        have he1 : s1.ps.errs = s.ps.errs := by rw [← hs1]; split <;> rfl
        have hf1 : s1.facts = s.facts := by rw [← hs1]; split <;> rfl
        split at h
        · cases h
        · next cc _ =>
          unfold parseFactUnit at h
          split at h
          · exact hctx _ _ [] (by rw [he1]; simp) hf1 h
          · split at h
            · cases h
            · next ux _ =>
              split at h
              · simp only [bind, Except.bind] at h
                split at h
                · cases h
                · exact hctx _ _ [] (by rw [he1]; simp) hf1 h
              · simp only [bind, Except.bind, pure, Except.pure] at h
                cases hp : parseUnit ux s1.ps with
                | error e => rw [hp] at h; cases h
                | ok rp =>
                  obtain ⟨r, ps⟩ := rp
                  rw [hp] at h
                  obtain ⟨m0, hps, hrn, _, _⟩ := parseUnit_spec hp
                  cases r with
                  | none => cases h; exact ⟨m0, by rw [hps, he1], Or.inl ⟨hf1, hrn rfl⟩⟩
                  | some c =>
                    dsimp only at h
                    split at h
                    · cases h
                    · refine hctx _ _ m0 ?_ ?_ h
                      · rw [hps, ← he1]; rfl
                      · exact hf1

/-- C41 for XML instances, whatever the filing contains: there is a record of what became of every fact element, in document order. The stored facts are
those of the record, each with the id and the text of its element, and there are at least as many errors as elements without a fact.
A fact without a value whose concept must have one is reported as such, once per fact. -/
theorem C41_reported {data : ReportElement → Concept} {roots : List XNode} {s' : FactState} (h : parseFactsXml data dateOf re roots {} = .ok s') :
    ∃ record : List (XNode × Option Fact), record.map (·.1) = (elementsOf roots).map (·.2) ∧ s'.facts = FactStore.run (record.filterMap (·.2)) ∧
      (∀ r ∈ record, ∀ f, r.2 = some f → f.id = r.1.attr? "id" ∧ f.value = r.1.text.getD "") ∧ (record.filter (fun r => r.2.isNone)).length ≤ s'.ps.errs.length ∧
      (record.filter (fun r => r.2.any (noValue r.1))).length ≤ s'.ps.errs.count "MISSING_FACT_VALUE" := by
  have elems : ∀ (root : XNode) (l : List XNode) (s s' : FactState), l.foldlM (parseFactElement data dateOf re root) s = .ok s' →
      ∃ (record : List (XNode × Option Fact)) (more : ErrNames), record.map (·.1) = l ∧ s'.facts = (record.filterMap (·.2)).foldl FactStore.upsert s.facts ∧
      (∀ r ∈ record, ∀ f, r.2 = some f → f.id = r.1.attr? "id" ∧ f.value = r.1.text.getD "") ∧ s'.ps.errs = s.ps.errs ++ more ∧ (record.filter (fun r => r.2.isNone)).length ≤ more.length ∧
      (record.filter (fun r => r.2.any (noValue r.1))).length ≤ more.count "MISSING_FACT_VALUE" := by
    intro root l
    induction l with
    | nil => intro s s' h; cases h; exact ⟨[], [], rfl, rfl, by simp, by simp, by simp, by simp⟩
    | cons x xs ih =>
      intro s s' h
      rw [List.foldlM_cons] at h
      cases hx : parseFactElement data dateOf re root s x with
      | error e => rw [hx] at h; cases h
      | ok s1 =>
        rw [hx] at h
        obtain ⟨m1, hm1, h1⟩ := parseFactElement_stored hx
        obtain ⟨rec, m2, hr, hf, hall, hm2, hlen, hcnt⟩ := ih s1 s' h
        rcases h1 with ⟨hf1, hne⟩ | ⟨f, hid, hv, hf1, hnv⟩
        · refine ⟨(x, none) :: rec, m1 ++ m2, by rw [List.map_cons, hr], ?_, ?_, by rw [hm2, hm1]; simp, ?_, ?_⟩
          · rw [hf, hf1]; rfl
          · intro r hr f hf
            rcases List.mem_cons.1 hr with rfl | hr
            · cases hf
            · exact hall r hr f hf
          · have := List.length_pos_iff.2 hne
            simp only [List.filter_cons, Option.isNone_none, if_true, List.length_cons, List.length_append]
            omega
          · rw [List.count_append]
            simp only [List.filter_cons, Option.any_none, Bool.false_eq_true, if_false]
            omega
        · refine ⟨(x, some f) :: rec, m1 ++ m2, by rw [List.map_cons, hr], ?_, ?_, by rw [hm2, hm1]; simp, ?_, ?_⟩
          · rw [hf, hf1]; rfl
          · intro r hr g hg
            rcases List.mem_cons.1 hr with rfl | hr
            · cases hg; exact ⟨hid, hv⟩
            · exact hall r hr g hg
          · simp only [List.filter_cons, Option.isNone_some, Bool.false_eq_true, if_false, List.length_append]
            omega
          · rw [List.count_append]
            simp only [List.filter_cons, Option.any_some]
            split
            · next hh =>
              have := List.count_pos_iff.2 (hnv hh)
              rw [List.length_cons]
              omega
            · omega
  have docs : ∀ (l : List XNode) (s s' : FactState), parseFactsXml data dateOf re l s = .ok s' →
      ∃ (record : List (XNode × Option Fact)) (more : ErrNames), record.map (·.1) = (elementsOf l).map (·.2) ∧ s'.facts = (record.filterMap (·.2)).foldl FactStore.upsert s.facts ∧
      (∀ r ∈ record, ∀ f, r.2 = some f → f.id = r.1.attr? "id" ∧ f.value = r.1.text.getD "") ∧ s'.ps.errs = s.ps.errs ++ more ∧ (record.filter (fun r => r.2.isNone)).length ≤ more.length ∧
      (record.filter (fun r => r.2.any (noValue r.1))).length ≤ more.count "MISSING_FACT_VALUE" := by
    intro l
    induction l with
    | nil => intro s s' h; cases h; exact ⟨[], [], rfl, rfl, by simp, by simp, by simp, by simp⟩
    | cons r rs ih =>
      intro s s' h
      unfold parseFactsXml at h
      rw [List.foldlM_cons] at h
      cases hx : (factElements r).foldlM (parseFactElement data dateOf re r) s with
      | error e => rw [hx] at h; cases h
      | ok s1 =>
        rw [hx] at h
        obtain ⟨rec1, m1, hr1, hf1, hall1, hm1, hlen1, hcnt1⟩ := elems r _ _ _ hx
        obtain ⟨rec2, m2, hr2, hf2, hall2, hm2, hlen2, hcnt2⟩ := ih s1 s' h
        refine ⟨rec1 ++ rec2, m1 ++ m2, ?_, ?_, ?_, by rw [hm2, hm1]; simp, ?_, ?_⟩
        · rw [List.map_append, hr1, hr2]
          unfold elementsOf
          rw [List.flatMap_cons, List.map_append, List.map_map]
          congr 1
          exact (List.map_id _).symm
        · rw [hf2, hf1, List.filterMap_append, List.foldl_append]
        · intro q hq f hf
          rcases List.mem_append.1 hq with hq | hq
          · exact hall1 q hq f hf
          · exact hall2 q hq f hf
        · rw [List.filter_append, List.length_append, List.length_append]
          omega
        · rw [List.filter_append, List.length_append, List.count_append]
          omega
  obtain ⟨rec, m, h1, h2, h3, h4, h5, h6⟩ := docs roots {} s' h
  refine ⟨rec, h1, h2, h3, ?_⟩
  have : s'.ps.errs = m := h4
  rw [this]; exact ⟨h5, h6⟩

theorem foldlM_raises {σ α : Type} (f : σ → α → Except PyErr σ) (x : α) (hf : ∀ s r, f s x ≠ .ok r) : ∀ (l : List α), x ∈ l → ∀ s r, l.foldlM f s ≠ .ok r := by
  intro l
  induction l with
  | nil => intro hx; cases hx
  | cons y ys ih =>
    intro hx s r h
    rw [List.foldlM_cons] at h
    cases hy : f s y with
    | error e => rw [hy] at h; cases h
    | ok s1 =>
      rw [hy] at h
      rcases List.mem_cons.1 hx with rfl | hx
      · exact hf _ _ hy
      · exact ih hx _ _ h

/-- A fact element of a known concept reaches its unit. -/
theorem parseFactElement_raises {data : ReportElement → Concept} {root x : XNode} {c : Concept} (hc : conceptOf data re x = some c)
    (hu : ∀ cc s r, parseFactUnit dateOf re root x cc s ≠ .ok r) : ∀ s r, parseFactElement data dateOf re root s x ≠ .ok r := by
  intro s r h
  unfold parseFactElement at h
  simp only [bind, Except.bind, pure, Except.pure] at h
  split at h
  · cases h
  · next q hq =>
    split at h
    · next hn =>
      unfold conceptOf at hc
      simp only [bind, Option.bind_eq_some_iff] at hc
      obtain ⟨q', hq', hc⟩ := hc
      rw [hq] at hq'
      cases hq'
      rw [Option.map_eq_some_iff] at hc
      obtain ⟨e, he, _⟩ := hc
      rw [hasTyped_eq, he] at hn
      cases hn
    · split at h
      · cases h
      · split at h
        · cases h
        · exact hu _ _ _ h

/-- C41 fails: a fact element that refers to a context its document does not have is not reported; an exception is raised and the whole filing is
not loaded, as the registry of errors describes the report of a unit under the code of this report. -/
theorem C41_context_false {data : ReportElement → Concept} {roots : List XNode} {root x : XNode} {c : Concept} {ref : String} (hr : root ∈ roots) (hx : x ∈ factElements root)
    (hc : conceptOf data re x = some c) (hu : truthy (x.attr? "unitRef") = none) (ha : x.attr? "contextRef" = some ref) (hf : findById root "context" ref = none) :
    ∀ s s', parseFactsXml data dateOf re roots s ≠ .ok s' := by
  unfold parseFactsXml
  refine foldlM_raises _ root (foldlM_raises _ x ?_ _ hx) _ hr
  refine parseFactElement_raises hc ?_
  intro cc s r h
  unfold parseFactUnit at h
  rw [hu] at h
  unfold parseFactContext at h
  simp only [bind, Except.bind, pure, Except.pure] at h
  split at h
  · cases h
  · next ref' hr' =>
    rw [attr_ok hr'] at ha
    cases ha
    rw [hf] at h
    cases h

/-- C41 fails: a fact element that refers to a unit its document does not have is not reported; an exception is raised and the whole filing is not
loaded, as the registry of errors has no entry for the code of the report. -/
theorem C41_unknown_unit_false {data : ReportElement → Concept} {roots : List XNode} {root x : XNode} {c : Concept} {u : String} (hr : root ∈ roots) (hx : x ∈ factElements root)
    (hc : conceptOf data re x = some c) (hu : x.attr? "unitRef" = some u) (hu' : u ≠ "") (hf : findById root "unit" u = none) :
    ∀ s s', parseFactsXml data dateOf re roots s ≠ .ok s' := by
  unfold parseFactsXml
  refine foldlM_raises _ root (foldlM_raises _ x ?_ _ hx) _ hr
  refine parseFactElement_raises hc ?_
  intro cc s r h
  unfold parseFactUnit at h
  have : truthy (x.attr? "unitRef") = some u := by rw [hu]; simp [truthy, hu']
  rw [this] at h
  dsimp only at h
  rw [hf] at h
  cases h

/-! ### A filing with facts -/

/-- `<p:Assets id=… contextRef=… unitRef=…>value</p:Assets>` -/
def xfact (uri id ctx unit value : String) : XNode :=
  .mk (some ("{" ++ uri ++ "}Assets")) [("id", id), ("contextRef", ctx), ("unitRef", unit)] (some value) [(some "p", uri)] []

/-- The elements of `sampleElems` and a concept. -/
def factElems : ElemStore := sampleElems.upsert { kind := .concept, name := ⟨"u", "p", "Assets"⟩, tag := 9 }

/-- The attributes of concepts. -/
def sampleData (e : ReportElement) : Concept := { name := e.name, nillable := false }

/-- An instance document with a context, a unit, two facts and an element that is named after no concept. -/
def sampleInstance : XNode :=
  xel "xbrl" none [sampleContext, xunit "EUR" [xmeasure "p:EUR"], xfact "u" "f1" "c1" "EUR" "100", xfact "u" "f2" "c1" "EUR" "200", xfact "w" "f3" "c1" "EUR" "300"]


theorem factElems_tags : TagsUnambiguous factElems := by
  have one : ∀ q e, elementOf factElems .concept q = some e → e = { kind := .concept, name := ⟨"u", "p", "Assets"⟩, tag := 9 } := by
    intro q e h
    unfold elementOf at h
    obtain ⟨h1, h2⟩ := Option.filter_eq_some_iff.1 h
    have hm := Dict.mem_get? _ h1
    have hk : e.kind = .concept := by simpa using h2
    have : ∀ p ∈ factElems.byName, p.2.kind = .concept → p.2 = { kind := .concept, name := ⟨"u", "p", "Assets"⟩, tag := 9 } := by decide
    exact this _ hm hk
  intro t ns ns' q q' e e' _ _ h1 h2
  rw [one _ _ h1, one _ _ h2]

theorem unitsAgree_single (r : XNode) : UnitsAgree [r] := by
  intro a ha b hb u x x' h1 h2
  rw [List.mem_singleton.1 ha] at h1
  rw [List.mem_singleton.1 hb, h1] at h2
  rw [Option.some.inj h2]

/-- The contexts and other parts of a document have one meaning each if it has one context. -/
theorem unambiguous_single (re : ElemStore) (xs : List XNode) (x : XNode) (p e m : XNode) (hxs : ∀ y ∈ xs, y = x ∨ partsOf y = none) (hp : partsOf x = some (p, e))
    (hs : segmentOf e = [m]) (hd : PlainDates x) (ha : ∀ a, m.attr? "dimension" = some a → ' ' ∉ a.toList) : Unambiguous re xs := by
  have hm : ∀ y ∈ membersOf xs, y = m := by
    intro y hy
    obtain ⟨z, hz, hy⟩ := List.mem_flatMap.1 hy
    rcases hxs z hz with rfl | hn
    · rw [hp] at hy
      dsimp only at hy
      rw [hs] at hy
      simpa using hy
    · rw [hn] at hy; cases hy
  refine ⟨?_, ?_, fun y hy => hm y hy ▸ ha, ?_, ?_⟩
  · intro y hy
    rcases hxs y hy with rfl | hn
    · exact hd
    · intro p e h; rw [hn] at h; cases h
  · intro a hA b hB _
    obtain ⟨z, hz, hA⟩ := List.mem_filterMap.1 hA
    obtain ⟨w, hw, hB⟩ := List.mem_filterMap.1 hB
    rcases hxs z hz with rfl | hn
    · rcases hxs w hw with rfl | hn
      · rw [hA] at hB; cases hB; rfl
      · rw [hn] at hB; cases hB
    · rw [hn] at hA; cases hA
  · intro a hA b hB _ _ _ _; rw [hm a hA, hm b hB]
  · intro a hA b hB _ _ _ _; rw [hm a hA, hm b hB]

theorem sampleInstance_unambiguous : Unambiguous factElems ([sampleInstance].flatMap XNode.children) := by
  refine unambiguous_single _ _ sampleContext _ _ (xexplicit "u" "p:Axis" "p:M") ?_ rfl rfl sampleContext_plain (by intro a h; cases h; decide)
  intro y hy
  have : y ∈ sampleInstance.children := by simpa using hy
  simp only [sampleInstance, xel, XNode.children, List.mem_cons, List.not_mem_nil, or_false] at this
  rcases this with rfl | rfl | rfl | rfl | rfl
  · exact Or.inl rfl
  all_goals exact Or.inr rfl

example : ∃ s', parseFactsXml sampleData sampleDates factElems [sampleInstance] {} = .ok s' ∧ s'.ps.errs = ["XML_FACT_INVALID_CONCEPT"] ∧
    s'.facts.getAll.map (fun f => (f.id, f.value, f.context.aspects.map (·.name))) =
      [(some "f1", "100", ["concept", "entity", "p:Axis", "period", "unit"]), (some "f2", "200", ["concept", "entity", "p:Axis", "period", "unit"])] := by
  refine ⟨_, by rfl, by decide +kernel, by decide +kernel⟩

/-- A document with one fact element, of a known concept, that refers to an unknown context and no unit. -/
def danglingFact : XNode := .mk (some "{u}Assets") [("id", "f1"), ("contextRef", "c9")] (some "1") [(some "p", "u")] []

example : danglingFact ∈ factElements (xel "xbrl" none [sampleContext, danglingFact]) ∧ conceptOf sampleData factElems danglingFact ≠ none ∧
    truthy (danglingFact.attr? "unitRef") = none ∧ danglingFact.attr? "contextRef" = some "c9" ∧ findById (xel "xbrl" none [sampleContext, danglingFact]) "context" "c9" = none :=
  ⟨List.mem_singleton.2 rfl, (by intro h; cases h), rfl, rfl, rfl⟩

example : xfact "u" "f1" "c1" "EUR" "1" ∈ factElements (xel "xbrl" none [sampleContext, xfact "u" "f1" "c1" "EUR" "1"]) ∧ conceptOf sampleData factElems (xfact "u" "f1" "c1" "EUR" "1") ≠ none ∧
    (xfact "u" "f1" "c1" "EUR" "1").attr? "unitRef" = some "EUR" ∧ findById (xel "xbrl" none [sampleContext, xfact "u" "f1" "c1" "EUR" "1"]) "unit" "EUR" = none :=
  ⟨List.mem_singleton.2 rfl, (by intro h; cases h), rfl, rfl⟩

/-- C41 fails for fact elements without an id: nothing is reported, and no listed fact has their value. -/
theorem C41_no_id_false : ¬ ∀ (data : ReportElement → Concept) (dateOf : String → Option Date) (re : ElemStore) (roots : List XNode) (s' : FactState),
    parseFactsXml data dateOf re roots {} = .ok s' → s'.ps.errs = [] → ∀ p ∈ elementsOf roots, ∃ f ∈ s'.facts.getAll, f.value = p.2.text.getD "" := by
  intro h
  have := h sampleData sampleDates factElems [xel "xbrl" none [sampleContext, .mk (some "{u}Assets") [("contextRef", "c1")] (some "100") [(some "p", "u")] []]] _
    (by rfl) (by decide +kernel) (_, .mk (some "{u}Assets") [("contextRef", "c1")] (some "100") [(some "p", "u")] []) (List.mem_singleton.2 rfl)
  exact absurd this (by decide +kernel)

/-- C41 fails for fact elements that share an id: only the last one is listed, and nothing is reported. -/
theorem C41_duplicate_false : ¬ ∀ (data : ReportElement → Concept) (dateOf : String → Option Date) (re : ElemStore) (roots : List XNode) (s' : FactState),
    parseFactsXml data dateOf re roots {} = .ok s' → s'.ps.errs = [] → (∀ p ∈ elementsOf roots, p.2.attr? "id" ≠ none) →
    ∀ p ∈ elementsOf roots, ∃ f ∈ s'.facts.getAll, f.value = p.2.text.getD "" := by
  intro h
  have := h sampleData sampleDates factElems [xel "xbrl" none [sampleContext, xunit "EUR" [xmeasure "p:EUR"], xfact "u" "f" "c1" "EUR" "1", xfact "u" "f" "c1" "EUR" "2"]] _
    (by rfl) (by decide +kernel) (by decide +kernel) (_, xfact "u" "f" "c1" "EUR" "1") (List.mem_cons.2 (Or.inl rfl))
  exact absurd this (by decide +kernel)

/-- C41 fails for filings of several documents: a fact has the unit of the first document that has a unit of that id, not the unit of its own document. -/
theorem C41_unit_false : ¬ ∀ (data : ReportElement → Concept) (dateOf : String → Option Date) (re : ElemStore) (r r' : XNode) (s' : FactState) (x ux : XNode) (u : String) (c : Characteristic),
    parseFactsXml data dateOf re [r, r'] {} = .ok s' → s'.ps.errs = [] → x ∈ factElements r' → x.attr? "unitRef" = some u → findById r' "unit" u = some ux → unitOf ux = some c →
    ∃ f ∈ s'.facts.getAll, f.id = x.attr? "id" ∧ f.context.getCharacteristic .unit = some c := by
  intro h
  have := h sampleData sampleDates factElems (xel "xbrl" none [sampleContext, xunit "U" [xmeasure "p:EUR"], xfact "u" "f1" "c1" "U" "1"])
    (xel "xbrl" none [sampleContext, xunit "U" [xmeasure "p:USD"], xfact "u" "f2" "c1" "U" "2"]) _ (xfact "u" "f2" "c1" "U" "2") _ "U" _
    (by rfl) (by decide +kernel) (List.mem_singleton.2 rfl) rfl rfl rfl
  exact absurd this (by decide +kernel)

/-! ## C82 -/

/-- C82 fails: a fact element whose document binds another prefix to the namespace of its concept is dropped, because names with different prefixes
are different to the repository of report elements. -/
theorem C82_prefix_false : ¬ ∀ (data : ReportElement → Concept) (dateOf : String → Option Date) (re : ElemStore) (root : XNode) (s' : FactState) (x : XNode) (q : QName) (e : ReportElement),
    parseFactsXml data dateOf re [root] {} = .ok s' → elementOf re .concept q = some e → x ∈ factElements root → x.tag = some q.clark →
    ∃ f ∈ s'.facts.getAll, f.id = x.attr? "id" := by
  intro h
  have := h sampleData sampleDates factElems (xel "xbrl" none [sampleContext, .mk (some "{u}Assets") [("id", "f1"), ("contextRef", "c1")] (some "1") [(some "q", "u")] []]) _
    (.mk (some "{u}Assets") [("id", "f1"), ("contextRef", "c1")] (some "1") [(some "q", "u")] []) ⟨"u", "p", "Assets"⟩ _ (by rfl) rfl (List.mem_singleton.2 rfl) (by decide +kernel)
  exact absurd this (by decide +kernel)

/-- C82, the part that holds: a fact element of a namespace to which its document binds the prefix the concept is named with, and no other one, is about that concept. -/
theorem C82_concept_partial {data : ReportElement → Concept} {x : XNode} {q : QName} {e : ReportElement} (he : elementOf re .concept q = some e)
    (ht : x.tag = some q.clark) (hq : IsClark q.uri q.localName) (hx : q.uri ≠ xmlNs) (hb : (some q.pfx, q.uri) ∈ x.ns) (hone : ∀ p, (p, q.uri) ∈ x.ns → p = some q.pfx) :
    conceptOf data re x = some (conceptFor data e) := by
  obtain ⟨p, hp, hi⟩ := invertNs_bound x.ns q.uri _ hb
  have : qnameFromStr (x.tag.getD "") x.ns = .ok q := by
    rw [ht]
    show qnameFromStr ("{" ++ q.uri ++ "}" ++ q.localName) x.ns = .ok q
    rw [qnameFromStr_clark _ _ _ hq, if_neg hx, hi, hone p hp]
    rfl
  unfold conceptOf; rw [this]; simp [Except.toOption, he]

example : conceptOf sampleData factElems (xfact "u" "f1" "c1" "EUR" "100") = some { name := ⟨"u", "p", "Assets"⟩, nillable := false } := by decide +kernel

end Brel
