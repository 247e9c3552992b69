import Verif.Props.XhtmlFacts
import Verif.Props.Instance
import Verif.Spec.InlineInstance

/-! C98: valid inline filings are read completely and without reports. -/

namespace Brel
open Brel.Spec

variable {dateOf : String → Option Date} {re : ElemStore}

/-- There are no reports but those of ids used twice. -/
def OnlyDup (l : ErrNames) : Prop := ∀ e ∈ l, e = duplicateId

theorem OnlyDup.nil : OnlyDup [] := by intro e h; cases h
theorem OnlyDup.append {a b : ErrNames} (ha : OnlyDup a) (hb : OnlyDup b) : OnlyDup (a ++ b) := by
  intro e h
  rcases List.mem_append.1 h with h | h
  · exact ha e h
  · exact hb e h
theorem OnlyDup.ite (p : Prop) [Decidable p] : OnlyDup (if p then [duplicateId] else []) := by
  split
  · intro e h; exact List.mem_singleton.1 h
  · exact .nil
theorem OnlyDup.silent {l : ErrNames} (h : OnlyDup l) (hn : duplicateId ∉ l) : l = [] := by
  cases l with
  | nil => rfl
  | cons e l => exact absurd (h e List.mem_cons_self ▸ List.mem_cons_self) hn
theorem OnlyDup.use {s : InlineState} (h : OnlyDup s.ps.errs) (i : String) : OnlyDup (s.use i).ps.errs := by
  rw [use_errs]; exact h.append (.ite _)

/-! ## Continuations -/

theorem filterMap_unique {α β : Type} {f : α → Option β} {l : List α} (h : (l.filterMap f).Nodup) {a b : α} {x : β} (ha : a ∈ l) (hb : b ∈ l) (fa : f a = some x) (fb : f b = some x) : a = b := by
  induction l with
  | nil => cases ha
  | cons y l ih =>
    cases hy : f y with
    | none =>
      rw [List.filterMap_cons_none hy] at h
      rcases List.mem_cons.1 ha with rfl | ha
      · rw [hy] at fa; cases fa
      · rcases List.mem_cons.1 hb with rfl | hb
        · rw [hy] at fb; cases fb
        · exact ih h ha hb
    | some z =>
      rw [List.filterMap_cons_some hy, List.nodup_cons] at h
      rcases List.mem_cons.1 ha with rfl | ha
      · rcases List.mem_cons.1 hb with rfl | hb
        · rfl
        · rw [hy] at fa; cases fa
          exact absurd (List.mem_filterMap.2 ⟨b, hb, fb⟩) h.1
      · rename_i ha'
        rcases List.mem_cons.1 hb with rfl | hb
        · rw [hy] at fb; cases fb
          exact absurd (List.mem_filterMap.2 ⟨a, (by assumption : a ∈ l), fa⟩) h.1
        · exact ih h.2 (by assumption) hb

/-- An id was referred to by one of some elements, or by a continuation whose own id was used. -/
def Provenance (S conts : List ContElem) (used : List String) (u : String) : Prop :=
  (∃ e ∈ S, e.continuedAt = some u) ∨ ∃ c ∈ conts, ∃ k ∈ used, c.id = some k ∧ c.continuedAt = some u

theorem Provenance.mono {S S' conts : List ContElem} {used used' : List String} {u : String} (h : Provenance S conts used u) (hS : S ⊆ S') (hu : used ⊆ used') : Provenance S' conts used' u := by
  rcases h with ⟨e, he, h⟩ | ⟨c, hc, k, hk, h⟩
  · exact Or.inl ⟨e, hS he, h⟩
  · exact Or.inr ⟨c, hc, k, hu hk, h⟩

theorem followChain_silent {S conts : List ContElem} {idx : Dict String ContElem} (hidx : idx.get? = continuationOf conts) (hnd : ((S ++ conts).filterMap (·.continuedAt)).Nodup)
    (hknown : ∀ e ∈ conts, ∀ i, e.continuedAt = some i → ∃ c ∈ conts, c.id = some i) : ∀ (fuel : Nat) (start : Option String) (st st' : ChainState),
    followChain idx fuel start st = some st' → (∀ i, start = some i → i ∉ st.used ∧ Provenance S conts st.used i ∧ ∃ c ∈ conts, c.id = some i) → (∀ u ∈ st.used, Provenance S conts st.used u) →
    st'.errs = st.errs ∧ (∀ u ∈ st'.used, Provenance S conts st'.used u) ∧ st.used ⊆ st'.used ∧ (∀ c ∈ st'.chain, c ∈ st.chain ∨ ∃ i ∈ st'.used, c.id = some i) := by
  intro fuel
  induction fuel with
  | zero =>
    intro start st st' h hs hu
    cases start with
    | none => simp only [followChain, Option.some.injEq] at h; subst h; exact ⟨rfl, hu, fun _ h => h, fun c hc => Or.inl hc⟩
    | some i => simp [followChain] at h
  | succ fuel ih =>
    intro start st st' h hs hu
    cases start with
    | none => simp only [followChain, Option.some.injEq] at h; subst h; exact ⟨rfl, hu, fun _ h => h, fun c hc => Or.inl hc⟩
    | some i =>
      obtain ⟨hni, hpi, c0, hc0, hid0⟩ := hs i rfl
      rw [followChain] at h
      simp only [if_neg hni, List.append_nil] at h
      cases hi : idx.get? i with
      | none =>
        exfalso
        rw [hidx] at hi
        unfold continuationOf at hi
        rw [List.getLast?_eq_none_iff] at hi
        have : c0 ∈ conts.filter (fun c => c.id = some i) := List.mem_filter.2 ⟨hc0, by simpa using hid0⟩
        rw [hi] at this; cases this
      | some c =>
        rw [hi] at h
        dsimp only at h
        rw [hidx] at hi
        obtain ⟨hc, hcid⟩ := continuationOf_mem hi
        have hsub : st.used ⊆ appendNew st.used i := fun u h => mem_appendNew.2 (Or.inl h)
        have hi' : i ∈ appendNew st.used i := mem_appendNew.2 (Or.inr rfl)
        have hA : ∀ j, c.continuedAt = some j → j ∉ appendNew st.used i ∧ Provenance S conts (appendNew st.used i) j ∧ ∃ c ∈ conts, c.id = some j := by
          intro j hj
          refine ⟨?_, Or.inr ⟨c, hc, i, hi', hcid, hj⟩, hknown c hc j hj⟩
          intro hm
          have hpj : Provenance S conts st.used j := by
            rcases mem_appendNew.1 hm with hm | rfl
            · exact hu j hm
            · exact hpi
          rcases hpj with ⟨e, he, hej⟩ | ⟨c2, hc2, k, hk, h2, h2j⟩
          · rw [List.filterMap_append, List.nodup_append] at hnd
            exact hnd.2.2 j (List.mem_filterMap.2 ⟨e, he, hej⟩) j (List.mem_filterMap.2 ⟨c, hc, hj⟩) rfl
          · have : c2 = c := filterMap_unique hnd (List.mem_append.2 (Or.inr hc2)) (List.mem_append.2 (Or.inr hc)) h2j hj
            rw [this, hcid] at h2
            cases h2
            exact hni hk
        have hB : ∀ u ∈ appendNew st.used i, Provenance S conts (appendNew st.used i) u := by
          intro u hm
          rcases mem_appendNew.1 hm with hm | rfl
          · exact (hu u hm).mono (fun _ h => h) hsub
          · exact hpi.mono (fun _ h => h) hsub
        obtain ⟨r1, r2, r3, r4⟩ := ih c.continuedAt ⟨st.chain ++ [c], appendNew st.used i, st.errs⟩ st' h hA hB
        refine ⟨r1, r2, fun u hu => r3 (hsub hu), ?_⟩
        intro d hd
        rcases r4 d hd with hd | hd
        · rcases List.mem_append.1 hd with hd | hd
          · exact Or.inl hd
          · rw [List.mem_singleton.1 hd]; exact Or.inr ⟨i, r3 hi', hcid⟩
        · exact Or.inr hd

theorem followAll_silent {conts : List ContElem} {idx : Dict String ContElem} (hidx : idx.get? = continuationOf conts) {fuel : Nat} : ∀ (es S : List ContElem) (used : List String) (errs : ErrNames)
    (r : List (ContElem × List ContElem) × List String × ErrNames), ((S ++ es ++ conts).filterMap (·.continuedAt)).Nodup →
    (∀ e ∈ es ++ conts, ∀ i, e.continuedAt = some i → ∃ c ∈ conts, c.id = some i) → followAll idx fuel es used errs = some r → (∀ u ∈ used, Provenance S conts used u) →
    r.2.2 = errs ∧ used ⊆ r.2.1 ∧ ∀ p ∈ r.1, ∀ c ∈ p.2, ∃ i ∈ r.2.1, c.id = some i := by
  intro es
  induction es with
  | nil => intro S used errs r _ _ h _; simp only [followAll, Option.some.injEq] at h; subst h; exact ⟨rfl, fun _ h => h, by simp⟩
  | cons e es ih =>
    intro S used errs r hnd hk h hu
    simp only [followAll, Option.bind_eq_bind, Option.bind_eq_some_iff, Option.some.injEq] at h
    obtain ⟨st, h1, r', h2, rfl⟩ := h
    have hnd1 : ((S ++ [e] ++ conts).filterMap (·.continuedAt)).Nodup := by
      refine hnd.sublist (List.Sublist.filterMap _ ?_)
      rw [List.append_assoc, List.append_assoc]
      refine (List.Sublist.refl S).append ?_
      rw [List.cons_append, List.cons_append, List.nil_append]
      exact (List.sublist_append_right es conts).cons_cons e
    have hS : S ⊆ S ++ [e] := fun _ h => List.mem_append.2 (Or.inl h)
    obtain ⟨a1, a2, a3, a4⟩ := followChain_silent hidx hnd1 (fun c hc => hk c (by simp [hc])) _ _ _ _ h1 (by
      intro i hi
      refine ⟨?_, Or.inl ⟨e, by simp, hi⟩, hk e (by simp) i hi⟩
      intro hm
      have he : i ∈ ([e] : List ContElem).filterMap (·.continuedAt) := List.mem_filterMap.2 ⟨e, by simp, hi⟩
      rw [List.filterMap_append, List.filterMap_append, List.nodup_append, List.nodup_append] at hnd1
      rcases hu i hm with ⟨e', he', h'⟩ | ⟨c, hc, k, _, _, h'⟩
      · exact hnd1.1.2.2 i (List.mem_filterMap.2 ⟨e', he', h'⟩) i he rfl
      · exact hnd1.2.2 i (List.mem_append.2 (Or.inr he)) i (List.mem_filterMap.2 ⟨c, hc, h'⟩) rfl) (fun u h => (hu u h).mono hS (fun _ h => h))
    obtain ⟨b1, b2, b3⟩ := ih (S ++ [e]) st.used st.errs r' (by rw [List.append_assoc S [e] es]; exact hnd) (fun x hx => hk x (by
      rcases List.mem_append.1 hx with h | h <;> simp [h])) h2 a2
    refine ⟨b1.trans a1, fun u h => b2 (a3 h), ?_⟩
    intro p hp c hc
    rcases List.mem_cons.1 hp with rfl | hp
    · rcases a4 c hc with h | ⟨i, hi, hci⟩
      · cases h
      · exact ⟨i, b2 hi, hci⟩
    · exact b3 p hp c hc

/-- Whatever is reported of valid continuations is that of an id used before. -/
theorem createChains_silent {facts footnotes conts : List ContElem} {taken taken' : List String} {fuel : Nat} {chains : List (ContElem × List ContElem)} {errs : ErrNames}
    (hv : ValidContinuations (canContinue facts footnotes) conts) (h : createChains fuel facts footnotes conts taken = some (chains, errs, taken')) : OnlyDup errs := by
  unfold createChains at h
  dsimp only at h
  split at h
  · cases h
  · next r hr =>
    cases h
    have hr : followAll (buildIndex conts taken).1 fuel (canContinue facts footnotes) [] [] = some r := hr
    obtain ⟨g1, g2⟩ := followAll_chains _ _ _ _ hr
    rw [buildIndex_get?] at g2
    obtain ⟨s1, s2, s3⟩ := followAll_silent (buildIndex_get? conts taken) (canContinue facts footnotes) [] [] [] r hv.once hv.known hr (by simp)
    have hnest : nestedErrors r.1 = [] := by
      unfold nestedErrors
      rw [List.flatMap_eq_nil_iff]
      intro p hp
      rw [List.flatMap_eq_nil_iff]
      intro a ha
      rw [List.map_eq_nil_iff, List.filter_eq_nil_iff]
      intro o ho hm
      have hm := of_decide_eq_true hm
      obtain ⟨b, hb, rfl⟩ := List.mem_map.1 hm
      exact hv.apart p.1 (g1 ▸ List.mem_map.2 ⟨p, hp, rfl⟩) p.2 (g2 p hp) a ha b hb ho
    have hunused : (buildIndex conts taken).1.keys.filter (fun k => decide (k ∉ r.2.1)) = [] := by
      rw [List.filter_eq_nil_iff]
      intro k hk hm
      have hm := of_decide_eq_true hm
      rw [← Dict.has_iff_mem_keys, Dict.has_eq, buildIndex_get?] at hk
      obtain ⟨c, hc⟩ := Option.isSome_iff_exists.1 hk
      obtain ⟨hcm, hcid⟩ := continuationOf_mem hc
      obtain ⟨e, he, cs, hpath, hccs⟩ := hv.used c hcm
      rw [← g1] at he
      obtain ⟨p, hp, rfl⟩ := List.mem_map.1 he
      have huniq : p.2 = cs := by
        have h1 := g2 p hp
        rw [← buildIndex_get? conts taken] at h1 hpath
        exact path_unique h1 hpath
      obtain ⟨i, hi, hci⟩ := s3 p hp c (huniq ▸ hccs)
      rw [hcid] at hci
      cases hci
      exact hm hi
    have hids : ∀ (cs : List ContElem) (acc : ErrNames × List String), (∀ c ∈ cs, c.id.isSome) → OnlyDup acc.1 → OnlyDup (cs.foldl idStep acc).1 := by
      intro cs
      induction cs with
      | nil => intro acc _ h; exact h
      | cons c cs ih =>
        intro acc h ha
        rw [List.foldl_cons]
        refine ih _ (fun x hx => h x (List.mem_cons_of_mem _ hx)) ?_
        obtain ⟨i, hi⟩ := Option.isSome_iff_exists.1 (h c List.mem_cons_self)
        unfold idStep
        rw [hi]
        exact ha.append (.ite _)
    rw [s1, hnest, hunused]
    simp only [List.append_nil, if_true]
    exact hids conts ([], taken) hv.ids .nil

/-- C33: valid continuations are followed to their end without a report, other than that of an id used before. -/
theorem C33_accepted {facts footnotes conts : List ContElem} {taken : List String} {fuel : Nat} (hv : ValidContinuations (canContinue facts footnotes) conts) (hf : conts.length < fuel) :
    ∃ chains errs taken', createChains fuel facts footnotes conts taken = some (chains, errs, taken') ∧ OnlyDup errs := by
  obtain ⟨r, hr⟩ := followAll_ok (idx := (buildIndex conts taken).1) (canContinue facts footnotes) fuel [] [] (by
    rw [buildIndex_get?]
    intro e _
    cases he : e.continuedAt with
    | none => exact ⟨[], .done, by simp; omega⟩
    | some i =>
      obtain ⟨cs, h1, h2⟩ := path_of_noCircle hv.circle conts.length [] i (by simp) (by simp) (by simp) (by simp)
      exact ⟨cs, h1, by omega⟩)
  have h : ∃ x, createChains fuel facts footnotes conts taken = some x := by
    unfold canContinue at hr
    unfold createChains
    simp only [hr]
    exact ⟨_, rfl⟩
  obtain ⟨⟨chains, errs, taken'⟩, h⟩ := h
  exact ⟨chains, errs, taken', h, createChains_silent hv h⟩

/-! ## Declarations -/

theorem foldlM_keeps {α β : Type} {f : β → α → Except PyErr β} (P : β → Prop) (xs : List α) : ∀ (s : β), (∀ x ∈ xs, ∀ s, P s → ∃ s', f s x = .ok s' ∧ P s') → P s →
    ∃ s', xs.foldlM f s = .ok s' ∧ P s' := by
  induction xs with
  | nil => intro s _ h; exact ⟨s, rfl, h⟩
  | cons x xs ih =>
    intro s hf h
    obtain ⟨s1, h1, p1⟩ := hf x List.mem_cons_self s h
    obtain ⟨s2, h2, p2⟩ := ih s1 (fun y hy => hf y (List.mem_cons_of_mem _ hy)) p1
    exact ⟨s2, by rw [List.foldlM_cons, h1]; exact h2, p2⟩

theorem withoutTags_only {ts : List String} {xs : List XNode} (h : OnlyTags ts xs) : withoutTags ts xs = [] := by
  unfold withoutTags
  rw [List.filter_eq_nil_iff]
  intro x hx hd
  obtain ⟨t, ht, hp⟩ := h x hx
  have := of_decide_eq_true hd t ht
  rw [hp] at this
  exact this rfl

theorem parseHeaders_accepts {docs : List InlineDoc} (hv : ValidDeclarations dateOf re docs) : ∃ parts, parseHeaders (docs.map (·.root)) = .ok (parts, []) := by
  have hd : (docs.map (·.root)).flatMap headersOf = headers docs := by unfold headers; rw [List.flatMap_map]
  have hone : ∀ x ∈ headers docs, ∃ r, parseHeader x = .ok r := by
    intro x hx
    obtain ⟨r, hr, _⟩ := foldlM_keeps (f := headerChild) (fun _ => True) x.children ({}, []) (by
      intro c hc s _
      obtain ⟨t, ht, hp⟩ := (hv.children x hx).1 c hc
      unfold headerChild
      simp only [bind, Except.bind, pure, Except.pure, hp]
      split
      · exact ⟨_, rfl, trivial⟩
      · split
        · exact ⟨_, rfl, trivial⟩
        · split <;> exact ⟨_, rfl, trivial⟩) trivial
    unfold parseHeader
    simp only [bind, Except.bind, pure, Except.pure, hr]
    exact ⟨_, rfl⟩
  obtain ⟨r, hr, _⟩ := foldlM_keeps (f := headerStep) (fun _ => True) (headers docs) ({}, []) (by
    intro x hx s _
    obtain ⟨r, hr⟩ := hone x hx
    unfold headerStep
    simp only [bind, Except.bind, pure, Except.pure, hr]
    exact ⟨_, rfl, trivial⟩) trivial
  have hok : ∃ pe, parseHeaders (docs.map (·.root)) = .ok pe := by
    unfold parseHeaders
    rw [hd]
    simp only [bind, Except.bind, pure, Except.pure, hr]
    exact ⟨_, rfl⟩
  obtain ⟨⟨parts, errs⟩, hpe⟩ := hok
  obtain ⟨_, _, _, h4⟩ := parseHeaders_spec hpe
  suffices h : errs = [] by exact ⟨parts, by rw [hpe, h]⟩
  have h1 : (headers docs).flatMap headerReports = [] := by
    rw [List.flatMap_eq_nil_iff]
    intro x hx
    obtain ⟨a, b, c⟩ := hv.children x hx
    unfold headerReports
    rw [withoutTags_only a, if_neg (by omega), if_neg (by omega)]
    rfl
  rw [h4, h1, if_neg (by simp [hv.header]), if_neg (by simp [hv.resources])]
  rfl

theorem reference_accepts {s : InlineState} {x : XNode} (hs : OnlyDup s.ps.errs) (hne : x.children ≠ []) (hx : OnlyTags ["link:schemaRef", "link:linkbaseRef"] x.children) :
    ∃ s', parseReference s x = .ok s' ∧ OnlyDup s'.ps.errs := by
  unfold parseReference
  dsimp only
  rw [if_neg (by simpa using hne)]
  refine foldlM_keeps (f := referenceChild) (fun s => OnlyDup s.ps.errs) x.children _ ?_ ?_
  · intro c hc s h
    obtain ⟨t, ht, hp⟩ := hx c hc
    unfold referenceChild
    simp only [bind, Except.bind, pure, Except.pure, hp, if_pos ht]
    exact ⟨s, rfl, h⟩
  · cases x.attr? "id" with
    | none => exact hs
    | some i => exact hs.use i

theorem resources_accept {rs : List XNode} {errs : ErrNames} (h : ∀ x ∈ rs, OnlyTags ["ix:relationship", "link:roleRef", "link:arcroleRef", "xbrli:context", "xbrli:unit"] x.children) :
    ∃ res, parseResources rs errs = .ok (res, errs) := by
  have hall : OnlyTags ["ix:relationship", "link:roleRef", "link:arcroleRef", "xbrli:context", "xbrli:unit"] (rs.flatMap XNode.children) := by
    intro c hc
    obtain ⟨x, hx, hc⟩ := List.mem_flatMap.1 hc
    exact h x hx c hc
  obtain ⟨r, hr, _⟩ := foldlM_keeps (f := resourceChild) (fun _ => True) (rs.flatMap XNode.children) ({}, errs) (by
    intro c hc s _
    obtain ⟨t, ht, hp⟩ := hall c hc
    unfold resourceChild
    simp only [bind, Except.bind, pure, Except.pure, hp]
    repeat' split
    all_goals exact ⟨_, rfl, trivial⟩) trivial
  obtain ⟨res, e⟩ := r
  have hp : parseResources rs errs = .ok (res, e) := hr
  have := (C83_resources hp).2.2.2.2.2
  rw [withoutTags_only hall] at this
  exact ⟨res, by rw [hp, this]; simp⟩

theorem hidden_accepts {hs : List XNode} {errs : ErrNames} (h : ∀ x ∈ hs, OnlyTags ["ix:footnote", "ix:nonFraction", "ix:nonNumeric"] x.children) : validateHidden hs errs = .ok errs := by
  obtain ⟨r, hr, rfl⟩ := foldlM_keeps (f := hiddenChild) (fun e => e = errs) (hs.flatMap XNode.children) errs (by
    intro c hc s hs
    obtain ⟨x, hx, hc⟩ := List.mem_flatMap.1 hc
    obtain ⟨t, ht, hp⟩ := h x hx c hc
    unfold hiddenChild
    simp only [bind, Except.bind, pure, Except.pure, hp, if_pos ht]
    exact ⟨s, rfl, hs⟩) rfl
  exact hr

theorem inlineContext_accepts {ys : List XNode} {s : InlineState} {x : XNode} (hs : OnlyDup s.ps.errs) (hr : Reach dateOf re ys {} s.ps) (hu : Unambiguous re ys) (hx : x ∈ ys)
    (hid : (x.attr? "id").isSome) (hv : ValidContext dateOf re x) : ∃ s', parseInlineContext dateOf re s x = .ok s' ∧ OnlyDup s'.ps.errs ∧ Reach dateOf re ys {} s'.ps := by
  obtain ⟨i, hi⟩ := Option.isSome_iff_exists.1 hid
  have hr' := hr.trans (reach_use s i ys)
  obtain ⟨ops, hops, hctxs⟩ := hr'
  have hu' : Unambiguous re (contextsOf ops ++ [x]) := unambiguous_mono hu (by
    intro y hy
    rcases List.mem_append.1 hy with hy | hy
    · exact hctxs y hy
    · exact List.mem_singleton.1 hy ▸ hx)
  obtain ⟨ctx, ps, hp, he⟩ := parseContext_accepts (given := []) hops hu' hid hv
  have hstep : Reach dateOf re ys {} ps := Reach.trans ⟨ops, hops, hctxs⟩ (Reach.step (.context x []) (by show (parseContext _ _ _ _ _).map _ = _; rw [hp]; rfl)
      (by intro y hy; simp [contextsOf] at hy; exact hy ▸ hx))
  have hps : OnlyDup ps.errs := by rw [he]; exact hs.use i
  unfold parseInlineContext
  rw [hi]
  simp only [Option.isNone_some, Bool.false_eq_true, if_false, Option.getD_some, bind, Except.bind, pure, Except.pure, hp]
  split
  · refine ⟨_, rfl, ?_, ?_⟩
    · exact hps.append (b := [duplicateId]) (by intro e h; exact List.mem_singleton.1 h)
    · exact hstep.trans (Reach.errs [duplicateId] rfl)
  · exact ⟨_, rfl, hps, hstep⟩

theorem units_accept (xs : List XNode) : ∀ (s : InlineState), OnlyDup s.ps.errs → UnitsTaken s → (∀ x ∈ xs, (x.attr? "id").isSome ∧ ValidUnit x) → (idsOf xs).Nodup →
    (∀ i ∈ idsOf xs, i ∉ s.taken) → ∃ s', xs.foldlM parseInlineUnit s = .ok s' ∧ OnlyDup s'.ps.errs := by
  induction xs with
  | nil => intro s h _ _ _ _; exact ⟨s, rfl, h⟩
  | cons x xs ih =>
    intro s hs hu hv hn hf
    obtain ⟨hid, hval⟩ := hv x List.mem_cons_self
    obtain ⟨i, hi⟩ := Option.isSome_iff_exists.1 hid
    have hids : idsOf (x :: xs) = i :: idsOf xs := by unfold idsOf; rw [List.filterMap_cons_some (f := fun x : XNode => x.attr? "id") hi]
    rw [hids] at hn hf
    have hit := hf i List.mem_cons_self
    have hkey : (s.use i).ps.chars.hasKey i .unit = false := by
      rw [hasKey_eq, (use_rest s i).1]
      cases hg : Dict.get? s.ps.chars (i, .unit) with
      | none => rfl
      | some c => exact absurd (hu i c hg) hit
    obtain ⟨a, b, hp⟩ := parseUnit_accepts hi hkey hval
    obtain ⟨s1, h1, e1⟩ : ∃ s1, parseInlineUnit s x = .ok s1 ∧ s1.ps.errs = (s.use i).ps.errs := by
      unfold parseInlineUnit
      rw [hi]
      simp only [bind, Except.bind, pure, Except.pure, hp]
      exact ⟨_, rfl, rfl⟩
    obtain ⟨i', hi', p1, u1, _⟩ := unit_pass h1 hu
    rw [hi] at hi'
    cases hi'
    rw [List.nodup_cons] at hn
    obtain ⟨s2, h2, e2⟩ := ih s1 (by rw [e1]; exact hs.use i) u1 (fun y hy => hv y (List.mem_cons_of_mem _ hy)) hn.2 (by
      intro j hj hm
      rcases (p1.mem j).1 hm with hm | hm
      · exact hf j (List.mem_cons_of_mem _ hj) hm
      · rw [List.mem_singleton] at hm; subst hm; exact hn.1 hj)
    exact ⟨s2, by rw [List.foldlM_cons, h1]; exact h2, e2⟩

theorem idsOf_append (xs ys : List XNode) : idsOf (xs ++ ys) = idsOf xs ++ idsOf ys := List.filterMap_append ..

/-- Valid declarations with distinct ids are read without a report. -/
theorem parseDeclarations_accepts {docs : List InlineDoc} (hv : ValidDeclarations dateOf re docs) (hun : Unambiguous re (resourceElems docs "xbrli:context"))
    (hids : (idsOf (headerElems docs "ix:references" ++ resourceElems docs "xbrli:context" ++ resourceElems docs "xbrli:unit")).Nodup) :
    ∃ s, parseDeclarations dateOf re docs = .ok s ∧ OnlyDup s.ps.errs := by
  obtain ⟨parts, hh⟩ := parseHeaders_accepts hv
  obtain ⟨e1, e2, e3, _⟩ := parseHeaders_spec hh
  obtain ⟨s1, hr, d1⟩ := foldlM_keeps (f := parseReference) (fun s => OnlyDup s.ps.errs) parts.references { ps := { errs := [] } } (by
    intro x hx s hs
    rw [e3] at hx
    exact reference_accepts hs (hv.references x hx).1 (hv.references x hx).2) .nil
  obtain ⟨q1, p1⟩ := references_pass _ hr
  obtain ⟨res, hres⟩ := resources_accept (rs := parts.resources) (errs := s1.ps.errs) (by rw [e2]; exact hv.inside)
  obtain ⟨_, _, _, r4, r5, _⟩ := C83_resources hres
  rw [e2] at r4 r5
  have hctxs : res.contexts = resourceElems docs "xbrli:context" := r4
  have hunits : res.units = resourceElems docs "xbrli:unit" := r5
  have hchars : s1.ps.chars = [] := q1.chars
  have hasp : s1.ps.aspects = [] := q1.aspects
  have hctx : s1.contexts = [] := q1.contexts
  obtain ⟨s2, hc, d2, _⟩ := foldlM_keeps (f := parseInlineContext dateOf re) (fun s => OnlyDup s.ps.errs ∧ Reach dateOf re (resourceElems docs "xbrli:context") {} s.ps) res.contexts s1 (by
    intro x hx s hs
    rw [hctxs] at hx
    exact inlineContext_accepts hs.1 hs.2 hun hx (hv.contexts x hx).1 (hv.contexts x hx).2) ⟨d1, Reach.errs s1.ps.errs (by
      cases hps : s1.ps with
      | mk a b c => rw [hps] at hchars hasp; dsimp only at hchars hasp ⊢; rw [hchars, hasp]; rfl)⟩
  obtain ⟨p2, _, _, _, u2, _⟩ := contexts_pass res.contexts res.contexts (fun _ h => h) ⟨fun j c hj => by rw [hctx] at hj; cases hj⟩ hc
  rw [idsOf_append, List.nodup_append] at hids
  obtain ⟨s3, hu, d3⟩ := units_accept res.units s2 d2 (by
    intro i c hi
    rw [u2 i, hchars] at hi; cases hi) (by rw [hunits]; exact hv.units) (by rw [hunits]; exact hids.2.1) (by
    intro i hi hm
    rw [hunits] at hi
    refine hids.2.2 i ?_ i hi rfl
    rw [idsOf_append, List.mem_append]
    rcases (p2.mem i).1 hm with hm | hm
    · rcases (p1.mem i).1 hm with hm | hm
      · cases hm
      · exact Or.inl (e3 ▸ hm)
    · exact Or.inr (hctxs ▸ hm))
  refine ⟨s3, ?_, d3⟩
  unfold parseDeclarations
  simp only [bind, Except.bind, pure, Except.pure, hh]
  rw [hr]
  dsimp only
  rw [hres]
  dsimp only
  rw [show ({ s1 with ps := { s1.ps with errs := s1.ps.errs } } : InlineState) = s1 from rfl, hc]
  dsimp only
  rw [hu]
  dsimp only
  rw [hidden_accepts (by rw [e1]; exact hv.hidden)]

/-! ## Facts -/

theorem inlineUnit_accepts {units : List XNode} {e : InlineElem} {tag : String} {s : InlineState} (hun : ∀ j, s.ps.chars.get? (j, .unit) = declaredUnit units j)
    (hu : ∀ u, e.node.attr? "unitRef" = some u → u ≠ "" → (declaredUnit units u).isSome) (hk : tag = "ix:nonFraction" → ∃ u, e.node.attr? "unitRef" = some u ∧ u ≠ "") :
    ∃ us, inlineUnit e tag s = (us, s) := by
  unfold inlineUnit
  cases ht : truthy (e.node.attr? "unitRef") with
  | none =>
    dsimp only
    by_cases h : tag = "ix:nonFraction"
    · obtain ⟨u, h1, h2⟩ := hk h
      rw [h1] at ht
      unfold truthy at ht
      split at ht
      · next h => exact absurd (Option.some.inj h) h2
      · cases ht
    · rw [if_neg h]; exact ⟨_, rfl⟩
  | some u =>
    obtain ⟨h1, h2⟩ := unitRef_some ht
    obtain ⟨c, hc⟩ := Option.isSome_iff_exists.1 (hu u h1 h2)
    dsimp only
    rw [lookup_eq ((hun u).trans hc) (declaredUnit_kind hc)]
    exact ⟨_, rfl⟩

theorem inlineFact_accepts {dig : Char → Option Nat} {flt : String → Option Bool} {chain : List Elem} {e : InlineElem} {tag : String} {ctx : Context} {s : InlineState} {k : FactKind}
    (hk : kindOf e = some k) (ht : e.node.prefixTag = .ok tag) (hr : Readable dig flt chain e k) (hs : OnlyDup s.ps.errs) :
    ∃ s', inlineFact dig flt chain e tag ctx s = .ok s' ∧ OnlyDup s'.ps.errs := by
  have hd : ∀ i taken, OnlyDup (dupReport i taken) := by
    intro i taken
    cases i with
    | none => exact .nil
    | some i => exact .ite _
  unfold kindOf at hk
  rw [ht] at hk
  unfold inlineFact
  simp only [Except.toOption, Option.some.injEq] at hk
  by_cases h1 : tag = "ix:nonNumeric"
  · rw [if_pos h1] at hk ⊢
    cases hk
    obtain ⟨r, hr, he⟩ := hr
    rcases parseNonNumeric_spec dig e.txt chain with ⟨err, hp⟩ | ⟨v, more, hc, hp⟩
    · rw [hp] at hr; cases hr
    · rw [hp] at hr ⊢
      cases hr
      have hm : more = [] := (List.append_eq_nil_iff.1 he).2
      subst hm
      refine ⟨_, rfl, ?_⟩
      dsimp only
      rw [List.append_nil]
      exact hs.append (hd _ _)
  · rw [if_neg h1] at hk ⊢
    by_cases h2 : tag = "ix:nonFraction"
    · rw [if_pos h2] at hk ⊢
      cases hk
      obtain ⟨r, hr, he⟩ := hr
      rcases parseNonFraction_spec dig flt e.num with ⟨err, hp⟩ | ⟨f, more, hid, hc, hp⟩
      · rw [hp] at hr; cases hr
      · rw [hp] at hr ⊢
        cases hr
        have hm : more = [] := (List.append_eq_nil_iff.1 he).2
        subst hm
        refine ⟨_, rfl, ?_⟩
        dsimp only
        rw [List.append_nil]
        exact hs.append (hd _ _)
    · rw [if_neg h2] at hk; cases hk

theorem kindOf_tag {e : InlineElem} {k : FactKind} (h : kindOf e = some k) :
    (k = .text ∧ e.node.prefixTag = .ok "ix:nonNumeric") ∨ (k = .number ∧ e.node.prefixTag = .ok "ix:nonFraction") := by
  unfold kindOf at h
  cases ht : e.node.prefixTag with
  | error x => rw [ht] at h; simp [Except.toOption] at h
  | ok t =>
    rw [ht] at h
    simp only [Except.toOption, Option.some.injEq] at h
    by_cases h1 : t = "ix:nonNumeric"
    · rw [if_pos h1] at h; cases h; exact Or.inl ⟨rfl, by rw [h1]⟩
    · rw [if_neg h1] at h
      by_cases h2 : t = "ix:nonFraction"
      · rw [if_pos h2] at h; cases h; exact Or.inr ⟨rfl, by rw [h2]⟩
      · rw [if_neg h2] at h; cases h

theorem parseInlineFact_accepts {data : ReportElement → Concept} {dig : Char → Option Nat} {flt : String → Option Bool} {docs : List InlineDoc} {chainOf : Nat → List Elem} {e : InlineElem}
    {s : InlineState} (hcx : ∀ j, (s.contexts.get? j).isSome = (declaredContext (resourceElems docs "xbrli:context") j).isSome)
    (hun : ∀ j, s.ps.chars.get? (j, .unit) = declaredUnit (resourceElems docs "xbrli:unit") j) (hs : OnlyDup s.ps.errs) (hv : ValidInlineFact data dig flt re docs e)
    (hr : ∀ k, kindOf e = some k → Readable dig flt (chainOf e.cont.oid) e k) : ∃ s', parseInlineFact data dig flt re chainOf s e = .ok s' ∧ OnlyDup s'.ps.errs := by
  obtain ⟨k, hk, hku⟩ : ∃ k, kindOf e = some k ∧ (k = .number → ∃ u, e.node.attr? "unitRef" = some u ∧ u ≠ "") := by
    rcases hv.value with ⟨h, _⟩ | ⟨h, hu, _⟩
    · exact ⟨_, h, by intro h; cases h⟩
    · exact ⟨_, h, fun _ => hu⟩
  obtain ⟨c, hc⟩ := Option.isSome_iff_exists.1 hv.concept
  obtain ⟨ref, href, hctx⟩ := hv.context
  obtain ⟨tag, htag⟩ : ∃ tag, e.node.prefixTag = .ok tag := by
    rcases kindOf_tag hk with ⟨_, h⟩ | ⟨_, h⟩ <;> exact ⟨_, h⟩
  unfold inlineConcept at hc
  simp only [bind, Option.bind_eq_some_iff, Option.map_eq_some_iff] at hc
  obtain ⟨name, hn, q, hq, el, hel, rfl⟩ := hc
  have hq : qnameFromStr name e.node.ns = .ok q := by
    cases h : qnameFromStr name e.node.ns with
    | error x => rw [h] at hq; cases hq
    | ok q' => rw [h] at hq; cases hq; rfl
  unfold parseInlineFact
  simp only [bind, Except.bind, pure, Except.pure, htag, hn, hq]
  rw [getTyped_eq, hel]
  dsimp only
  have hput : ∀ j, (s.ps.put name (Characteristic.ofConcept (conceptFor data el))).chars.get? (j, .unit) = s.ps.chars.get? (j, .unit) := by
    intro j
    unfold ParseState.put
    rw [get?_upsert, if_neg]
    intro hh
    have := congrArg Prod.snd hh
    exact absurd this (by simp [Characteristic.ofConcept, Characteristic.kind])
  obtain ⟨us, hus⟩ := inlineUnit_accepts (units := resourceElems docs "xbrli:unit") (e := e) (tag := tag)
    (s := { s with ps := s.ps.put name (Characteristic.ofConcept (conceptFor data el)) }) (fun j => (hput j).trans (hun j)) hv.unit (by
      intro ht
      rcases kindOf_tag hk with ⟨_, h⟩ | ⟨h, _⟩
      · rw [htag, ht] at h
        exact absurd (Except.ok.inj h) (by decide)
      · exact hku h)
  rw [hus, href]
  dsimp only
  rw [← hcx ref] at hctx
  obtain ⟨ctx, hctx⟩ := Option.isSome_iff_exists.1 hctx
  rw [hctx]
  exact inlineFact_accepts hk htag (hr k hk) hs

theorem continuable_links {docs : List InlineDoc} (hk : ∀ e ∈ inlineFacts docs, (kindOf e).isSome) :
    canContinue ((inlineFacts docs).map (·.link)) ((inlineFootnotes docs).map (·.link)) = (continuable docs).map (·.link) := by
  unfold canContinue continuable
  rw [List.map_append, List.filter_map]
  congr 2
  apply List.filter_congr
  intro e he
  obtain ⟨k, hk⟩ := Option.isSome_iff_exists.1 (hk e he)
  rcases kindOf_tag hk with ⟨rfl, ht⟩ | ⟨rfl, ht⟩
  · simp only [Function.comp_apply, InlineElem.link, ht, hk, Except.toOption, Option.getD_some, decide_true]
    decide +kernel
  · simp only [Function.comp_apply, InlineElem.link, ht, hk, Except.toOption, Option.getD_some]
    decide +kernel

/-- C98. A valid inline filing whose ids are distinct and whose texts have one meaning each is read without an exception and without a report, and the facts stored are those
its fact elements state, one for each, in document order, the text facts with the content of the elements their `continuedAt` leads to. -/
theorem C98_accepted_partial {fuel : Nat} {data : ReportElement → Concept} {dig : Char → Option Nat} {flt : String → Option Bool} {docs : List InlineDoc}
    (hv : ValidInline data dateOf dig flt re (docs.filter isInstance)) (hun : Unambiguous re (resourceElems (docs.filter isInstance) "xbrli:context"))
    (hids : (allIds (docs.filter isInstance)).Nodup) (hf : (inlineConts (docs.filter isInstance)).length < fuel) :
    ∃ (chainOf : Nat → List Elem) (fs : List Fact) (s' : InlineState), parseFactsXhtml fuel data dateOf dig flt re docs = some (.ok s') ∧ s'.ps.errs = [] ∧
      (inlineFacts (docs.filter isInstance)).map (inlineFactOf data dateOf dig flt re (resourceElems (docs.filter isInstance) "xbrli:context")
        (resourceElems (docs.filter isInstance) "xbrli:unit") chainOf) = fs.map some ∧ s'.facts = FactStore.run fs ∧
      ((∀ e ∈ inlineFacts (docs.filter isInstance), e.node.attr? "id" ≠ none) → s'.facts.getAll = fs) ∧
      ∀ e ∈ inlineFacts (docs.filter isInstance), kindOf e = some .text → ∃ cs : List InlineElem, (∀ c ∈ cs, c ∈ inlineConts (docs.filter isInstance)) ∧
        Path (continuationOf ((inlineConts (docs.filter isInstance)).map (·.link))) e.link.continuedAt (cs.map (·.link)) ∧ chainOf e.cont.oid = cs.map (·.nonNumeric.elem) := by
  have key : ∃ (s' : InlineState), parseFactsXhtml fuel data dateOf dig flt re docs = some (.ok s') ∧ OnlyDup s'.ps.errs ∧
      ∀ chains errs taken, createChains fuel ((inlineFacts (docs.filter isInstance)).map (·.link)) ((inlineFootnotes (docs.filter isInstance)).map (·.link))
        ((inlineConts (docs.filter isInstance)).map (·.link)) [] = some (chains, errs, taken) →
        ∀ e ∈ inlineFacts (docs.filter isInstance), kindOf e = some .text → ∃ cs : List InlineElem, (∀ c ∈ cs, c ∈ inlineConts (docs.filter isInstance)) ∧
        Path (continuationOf ((inlineConts (docs.filter isInstance)).map (·.link))) e.link.continuedAt (cs.map (·.link)) ∧
        chainElems (inlineConts (docs.filter isInstance)) chains e.cont.oid = cs.map (·.nonNumeric.elem) := by
    unfold parseFactsXhtml
    dsimp only
    generalize docs.filter isInstance = ds at hv hun hids hf ⊢
    have hkind : ∀ e ∈ inlineFacts ds, (kindOf e).isSome := by
      intro e he
      rcases (hv.facts e he).value with ⟨hk, _⟩ | ⟨hk, _⟩ <;> (rw [hk]; rfl)
    have hlinks := continuable_links hkind
    have htext : ∀ chains errs taken, createChains fuel ((inlineFacts ds).map (·.link)) ((inlineFootnotes ds).map (·.link)) ((inlineConts ds).map (·.link)) [] = some (chains, errs, taken) →
        ∀ e ∈ inlineFacts ds, kindOf e = some .text → ∃ cs : List InlineElem, (∀ c ∈ cs, c ∈ inlineConts ds) ∧
        Path (continuationOf ((inlineConts ds).map (·.link))) e.link.continuedAt (cs.map (·.link)) ∧ chainElems (inlineConts ds) chains e.cont.oid = cs.map (·.nonNumeric.elem) := by
      intro chains errs taken hc e he ht
      have hfirst := (C33_chains hc).1
      dsimp only at hfirst
      rw [hlinks] at hfirst
      have hoids : (chains.map (·.1.oid)).Nodup := by
        have : chains.map (·.1.oid) = (continuable ds).map (·.cont.oid) := by
          rw [show chains.map (fun p => p.1.oid) = (chains.map (·.1)).map (·.oid) from by rw [List.map_map]; rfl, hfirst, List.map_map]
          rfl
        rw [this]
        refine hv.objects.1.sublist (List.Sublist.map _ ?_)
        exact List.filter_sublist.append (List.Sublist.refl _)
      have hmem : e.link ∈ chains.map (·.1) := by
        rw [hfirst]
        refine List.mem_map.2 ⟨e, ?_, rfl⟩
        unfold continuable
        rw [List.mem_append, List.mem_filter]
        exact Or.inl ⟨he, by simpa using ht⟩
      obtain ⟨p, hp, hpe⟩ := List.mem_map.1 hmem
      obtain ⟨cs, c1, _, c3, c4⟩ := C33_elements hc hv.objects.2 hoids hp
      rw [hpe] at c3 c4
      exact ⟨cs, c1, c3, c4⟩
    have hids1 : (idsOf (headerElems ds "ix:references" ++ resourceElems ds "xbrli:context" ++ resourceElems ds "xbrli:unit")).Nodup := by
      unfold allIds at hids
      rw [idsOf_append, idsOf_append, List.nodup_append, List.nodup_append] at hids
      exact hids.1.1
    obtain ⟨s, hd, ds1⟩ := parseDeclarations_accepts hv.declarations hun hids1
    have D := parseDeclarations_spec hd
    rw [hd]
    dsimp only
    obtain ⟨chains, errs, taken, hc, ds2⟩ := C33_accepted (taken := s.taken) (fuel := fuel) (by rw [hlinks]; exact hv.continuations) (by rw [List.length_map]; exact hf)
    rw [hc]
    dsimp only
    obtain ⟨_, _, errs0, taken0, c3⟩ := createChains_spec hc
    obtain ⟨s', h', d', _⟩ := foldlM_keeps (f := parseInlineFact data dig flt re (chainElems (inlineConts ds) chains)) (fun s => OnlyDup s.ps.errs ∧
        (∀ j, (s.contexts.get? j).isSome = (declaredContext (resourceElems ds "xbrli:context") j).isSome) ∧ ∀ j, s.ps.chars.get? (j, .unit) = declaredUnit (resourceElems ds "xbrli:unit") j)
      (inlineFacts ds) { s with ps := { s.ps with errs := s.ps.errs ++ errs }, taken := taken } (by
        intro e he s ⟨i1, i2, i3⟩
        obtain ⟨s', h1, h2⟩ := parseInlineFact_accepts i2 i3 i1 (hv.facts e he) (chainOf := chainElems (inlineConts ds) chains) (by
          intro k hk
          rcases (hv.facts e he).value with ⟨hk', hr⟩ | ⟨hk', _, hr⟩
          · rw [hk] at hk'
            cases hk'
            obtain ⟨cs, a, b, c⟩ := htext _ _ _ c3 e he hk
            rw [c]
            exact hr cs a b
          · rw [hk] at hk'
            cases hk'
            exact hr)
        have st := fact_step i2 i3 h1
        exact ⟨s', h1, h2, fun j => by rw [st.ctxs]; exact i2 j, fun j => (st.unit j).trans (i3 j)⟩) ⟨ds1.append ds2, D.domain, D.units⟩
    exact ⟨s', by rw [h'], d', htext⟩
  obtain ⟨s', h1, h2, h3⟩ := key
  have W := parseFactsXhtml_spec h1
  have hkind : ∀ e ∈ inlineFacts (docs.filter isInstance), (kindOf e).isSome := by
    intro e he
    rcases (hv.facts e he).value with ⟨hk, _⟩ | ⟨hk, _⟩ <;> (rw [hk]; rfl)
  have huse : ∀ e ∈ inlineFacts (docs.filter isInstance), usable data re (resourceElems (docs.filter isInstance) "xbrli:context") e = true := by
    intro e he
    obtain ⟨ref, a, b⟩ := (hv.facts e he).context
    unfold usable
    rw [hkind e he, (hv.facts e he).concept, a, Option.bind_some, b]
    rfl
  obtain ⟨chains, errs, taken, w1, w2, w3⟩ := W.facts hun hkind
  have hsilent : s'.ps.errs = [] := by
    refine h2.silent ((C48_none_partial h1).2 ?_)
    unfold usedIds
    rw [List.filter_eq_self.2 huse]
    unfold allIds at hids
    simpa only [idsOf_append] using hids
  generalize docs.filter isInstance = ds at *
  generalize hg : inlineFactOf data dateOf dig flt re (resourceElems ds "xbrli:context") (resourceElems ds "xbrli:unit") (chainElems (inlineConts ds) chains) = g at w2 w3
  have hall : (inlineFacts ds).map g = ((inlineFacts ds).filterMap g).map some := by
    have : ∀ l : List InlineElem, (∀ e ∈ l, (g e).isSome) → l.map g = (l.filterMap g).map some := by
      intro l
      induction l with
      | nil => intro _; rfl
      | cons e l ih =>
        intro h
        obtain ⟨f, hf⟩ := Option.isSome_iff_exists.1 (h e List.mem_cons_self)
        rw [List.filterMap_cons_some hf, List.map_cons, List.map_cons, hf, ih (fun x hx => h x (List.mem_cons_of_mem _ hx))]
    exact this _ (fun e he => by rw [w3 e he]; exact huse e he)
  refine ⟨chainElems (inlineConts ds) chains, (inlineFacts ds).filterMap g, s', h1, hsilent, by rw [hg]; exact hall, w2, ?_, h3 _ _ _ w1⟩
  intro hid
  have hgid : ∀ e f, g e = some f → f.id = e.node.attr? "id" := by
    intro e f hf
    rw [← hg] at hf
    unfold inlineFactOf at hf
    simp only [bind, Option.bind_eq_some_iff] at hf
    obtain ⟨_, _, _, _, _, _, _, _, _, _, hf⟩ := hf
    cases hf
    rfl
  have hfids : ((inlineFacts ds).filterMap g).map (·.id) = ((inlineFacts ds).map (·.node)).map (fun x => x.attr? "id") := by
    have : (((inlineFacts ds).filterMap g).map some).map (fun o : Option Fact => o.bind (·.id)) = (inlineFacts ds).map (fun e => e.node.attr? "id") := by
      rw [← hall, List.map_map]
      apply List.map_congr_left
      intro e he
      have : (g e).isSome := by rw [w3 e he]; exact huse e he
      obtain ⟨f, hf⟩ := Option.isSome_iff_exists.1 this
      rw [Function.comp_apply, hf]
      exact hgid e f hf
    rw [List.map_map] at this
    rw [List.map_map]
    exact this
  rw [w2]
  refine getAll_of_distinct _ ?_ ?_
  · rw [hfids]
    have hn : (idsOf ((inlineFacts ds).map (·.node))).Nodup := by
      unfold allIds at hids
      rw [idsOf_append, List.nodup_append] at hids
      exact hids.2.1
    have hsome : (idsOf ((inlineFacts ds).map (·.node))).map some = ((inlineFacts ds).map (·.node)).map (fun x => x.attr? "id") := by
      have : ∀ l : List XNode, (∀ x ∈ l, x.attr? "id" ≠ none) → (idsOf l).map some = l.map (fun x => x.attr? "id") := by
        intro l
        induction l with
        | nil => intro _; rfl
        | cons x l ih =>
          intro h
          obtain ⟨i, hi⟩ := Option.ne_none_iff_exists'.1 (h x List.mem_cons_self)
          unfold idsOf
          rw [List.filterMap_cons_some (f := fun x : XNode => x.attr? "id") hi, List.map_cons, List.map_cons, hi]
          congr 1
          exact ih (fun y hy => h y (List.mem_cons_of_mem _ hy))
      refine this _ ?_
      intro x hx
      obtain ⟨e, he, rfl⟩ := List.mem_map.1 hx
      exact hid e he
    rw [← hsome]
    exact List.pairwise_map.2 (hn.imp (fun h e => h (Option.some.inj e)))
  · intro f hf
    obtain ⟨e, he, hfe⟩ := List.mem_filterMap.1 hf
    rw [hgid e f hfe]
    exact hid e he

/-! ## A valid filing -/

/-- A unit. -/
def validUnit : XNode := writeUnit sampleNs ⟨"EUR", ⟨"u", "p", "EUR"⟩, none⟩

/-- A header with a context, a unit and a references element. -/
def validHeader : XNode :=
  ixel "header" [] sampleNs [ixel "references" [("id", "r1")] sampleNs [.mk (some "{http://www.xbrl.org/2003/linkbase}schemaRef") [] none sampleNs []],
    ixel "resources" [] sampleNs [inlineContext "c1", validUnit]]

/-- A numeric fact and a text fact with a continuation. -/
def validDoc : InlineDoc := { root := .mk (some "{http://www.w3.org/1999/xhtml}html") [] none sampleNs [validHeader], elems := [numberElem 1 "f1" "p:Assets" sampleNs "100", textElem 3 "f3" "k1" "a", contElem 4 "k1" "b"] }

theorem validDoc_continuations : (inlineConts [validDoc]).map (·.link) = [(contElem 4 "k1" "b").link] := by rfl

theorem validDoc_paths {o : Option String} {cs : List ContElem} (h : Path (continuationOf [(contElem 4 "k1" "b").link]) o cs) : cs = [] ∨ cs = [(contElem 4 "k1" "b").link] := by
  cases h with
  | done => exact Or.inl rfl
  | unknown h => exact Or.inl rfl
  | step hi hp =>
    have hm := (continuationOf_mem hi).1
    rw [List.mem_singleton] at hm
    subst hm
    have : (contElem 4 "k1" "b").link.continuedAt = none := by rfl
    rw [this] at hp
    cases hp
    exact Or.inr rfl

theorem validDoc_valid : ValidInline sampleData sampleDates sampleDigits sampleFloat factElems [validDoc] := by
  have hh : headers [validDoc] = [validHeader] := by rfl
  have hr : headerElems [validDoc] "ix:references" = [ixel "references" [("id", "r1")] sampleNs [.mk (some "{http://www.xbrl.org/2003/linkbase}schemaRef") [] none sampleNs []]] := by rfl
  have hs : headerElems [validDoc] "ix:resources" = [ixel "resources" [] sampleNs [inlineContext "c1", validUnit]] := by rfl
  have hd : headerElems [validDoc] "ix:hidden" = [] := by rfl
  have hc : resourceElems [validDoc] "xbrli:context" = [inlineContext "c1"] := by rfl
  have hu : resourceElems [validDoc] "xbrli:unit" = [validUnit] := by rfl
  have hfacts : inlineFacts [validDoc] = [numberElem 1 "f1" "p:Assets" sampleNs "100", textElem 3 "f3" "k1" "a"] := by rfl
  have hcont : inlineConts [validDoc] = [contElem 4 "k1" "b"] := by rfl
  refine ⟨⟨?_, ?_, ?_, ?_, ?_, ?_, ?_, ?_⟩, ?_, ?_, ?_⟩
  · rw [hh]; simp
  · rw [hh]
    intro h hm
    rw [List.mem_singleton.1 hm]
    refine ⟨?_, by decide +kernel, by decide +kernel⟩
    intro x hx
    simp only [validHeader, ixel, XNode.children, List.mem_cons, List.not_mem_nil, or_false] at hx
    rcases hx with rfl | rfl
    · exact ⟨"ix:references", by simp, by rfl⟩
    · exact ⟨"ix:resources", by simp, by rfl⟩
  · rw [hs]; simp
  · rw [hr]
    intro x hm
    rw [List.mem_singleton.1 hm]
    refine ⟨by simp [ixel, XNode.children], ?_⟩
    intro x hx
    simp only [ixel, XNode.children, List.mem_cons, List.not_mem_nil, or_false] at hx
    subst hx
    exact ⟨"link:schemaRef", by simp, by rfl⟩
  · rw [hd]; simp
  · rw [hs]
    intro x hm
    rw [List.mem_singleton.1 hm]
    intro x hx
    simp only [ixel, XNode.children, List.mem_cons, List.not_mem_nil, or_false] at hx
    rcases hx with rfl | rfl
    · exact ⟨"xbrli:context", by simp, by rfl⟩
    · exact ⟨"xbrli:unit", by simp, by rfl⟩
  · rw [hc]
    intro x hm
    rw [List.mem_singleton.1 hm]
    refine ⟨by rfl, ⟨_, _, by rfl, by decide +kernel, by decide +kernel, ?_⟩⟩
    intro m hm
    have : segmentOf (xentity (some "1") "lei" [xexplicit "u" "p:Axis" "p:M"]) = [xexplicit "u" "p:Axis" "p:M"] := by rfl
    rw [this] at hm
    rw [List.mem_singleton.1 hm]
    exact ⟨by decide +kernel, by decide +kernel⟩
  · rw [hu]
    intro x hm
    rw [List.mem_singleton.1 hm]
    exact ⟨by rfl, .simple _ rfl rfl rfl⟩
  · rw [validDoc_continuations]
    have hst : (continuable [validDoc]).map (·.link) = [(textElem 3 "f3" "k1" "a").link] := by rfl
    rw [hst]
    refine ⟨?_, ?_, ?_, ?_, ?_, ?_⟩
    · intro c hm; rw [List.mem_singleton.1 hm]; rfl
    · intro e he i hi
      refine ⟨_, List.mem_singleton.2 rfl, ?_⟩
      simp only [List.cons_append, List.nil_append, List.mem_cons, List.not_mem_nil, or_false] at he
      rcases he with rfl | rfl
      · exact hi
      · cases hi
    · decide +kernel
    · intro i n hv
      cases hv with
      | succ h _ =>
        obtain ⟨c, hc, hn⟩ := h
        have hm := (continuationOf_mem hc).1
        rw [List.mem_singleton] at hm
        subst hm
        cases hn
    · intro c hm
      rw [List.mem_singleton.1 hm]
      exact ⟨_, List.mem_singleton.2 rfl, [(contElem 4 "k1" "b").link], .step (i := "k1") (by rfl) .done, by simp⟩
    · intro e he cs hp a ha b hb
      have hin : ∀ a ∈ e :: cs, a.inside = [] := by
        intro a ha
        rw [List.mem_singleton.1 he] at ha
        rcases validDoc_paths hp with rfl | rfl <;> simp only [List.mem_cons, List.not_mem_nil, or_false] at ha
        · rw [ha]; rfl
        · rcases ha with rfl | rfl <;> rfl
      rw [hin a ha]; simp
  · rw [hfacts]
    intro e he
    simp only [List.mem_cons, List.not_mem_nil, or_false] at he
    rcases he with rfl | rfl
    · refine ⟨by decide +kernel, ⟨"c1", by rfl, by decide +kernel⟩, ?_, Or.inr ⟨by decide +kernel, ⟨"EUR", by rfl, by decide⟩, _, by rfl, by decide +kernel⟩⟩
      intro u hu _
      have : u = "EUR" := Option.some.inj (hu.symm.trans (by rfl))
      subst this
      decide +kernel
    · refine ⟨by decide +kernel, ⟨"c1", by rfl, by decide +kernel⟩, ?_, Or.inl ⟨by decide +kernel, ?_⟩⟩
      · intro u hu _
        cases hu
      · intro cs hcs hp
        rw [hcont] at hcs
        have hcs' : ∃ n, cs = List.replicate n (contElem 4 "k1" "b") := ⟨cs.length, List.eq_replicate_iff.2 ⟨rfl, fun c hc => List.mem_singleton.1 (hcs c hc)⟩⟩
        obtain ⟨n, rfl⟩ := hcs'
        rw [validDoc_continuations, List.map_replicate] at hp
        rcases validDoc_paths hp with h | h
        · have : n = 0 := by cases n with | zero => rfl | succ n => rw [List.replicate_succ] at h; cases h
          subst this
          exact ⟨_, by rfl, by decide +kernel⟩
        · have : n = 1 := by
            have := congrArg List.length h
            simpa using this
          subst this
          exact ⟨_, by rfl, by decide +kernel⟩
  · exact ⟨by decide +kernel, by decide +kernel⟩

example : (allIds ([validDoc].filter isInstance)).Nodup ∧ (inlineConts ([validDoc].filter isInstance)).length < 2 ∧ [validDoc].filter isInstance = [validDoc] :=
  ⟨by decide +kernel, by decide +kernel, by rfl⟩

example : Unambiguous factElems (resourceElems ([validDoc].filter isInstance) "xbrli:context") := by
  have h : resourceElems ([validDoc].filter isInstance) "xbrli:context" = [inlineContext "c1"] := by rfl
  rw [h]
  refine unambiguous_single _ _ (inlineContext "c1") _ _ (xexplicit "u" "p:Axis" "p:M") (fun y hy => Or.inl (List.mem_singleton.1 hy)) rfl rfl ?_ (by intro a h; cases h; decide)
  intro p e hp
  have h : partsOf (inlineContext "c1") = some (xduration "2020-01-01" "2020-12-31", xentity (some "1") "lei" [xexplicit "u" "p:Axis" "p:M"]) := by rfl
  rw [h] at hp
  cases hp
  intro c hc t ht
  simp only [xduration, xel, XNode.children, List.mem_cons, List.not_mem_nil, or_false] at hc
  rcases hc with rfl | rfl <;> (cases ht; decide)

end Brel
