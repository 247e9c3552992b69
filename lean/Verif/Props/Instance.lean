import Verif.Props.XmlFacts
import Verif.Props.Names
import Verif.Spec.Instance

/-! C96, C97: valid instance documents are read completely and without errors. -/

namespace Brel
open Spec

variable {dateOf : String → Option Date} {re : ElemStore}

/-! ## Parsers that succeed are silent -/

theorem parseInstant_silent {x : XNode} {s s' : ParseState} {c : Characteristic} (h : parseInstant dateOf x s = .ok (some c, s')) : s'.errs = s.errs := by
  unfold parseInstant contextDate at h
  by_cases hx : isDate dateOf x.text = true
  · rw [if_pos hx] at h
    cases ht : x.text with
    | none => rw [ht] at h; cases h
    | some t =>
      rw [ht] at h
      dsimp only at h
      split at h
      · cases hl : s.chars.lookup t .period with
        | error e => rw [hl] at h; cases h
        | ok v => rw [hl] at h; cases h; rfl
      · cases hl : mkInstant dateOf t with
        | error e => rw [hl] at h; cases h
        | ok v => rw [hl] at h; cases h; rfl
  · rw [if_neg hx] at h; cases h

theorem parseDuration_silent {x y : XNode} {s s' : ParseState} {c : Characteristic} (h : parseDuration dateOf x y s = .ok (some c, s')) : s'.errs = s.errs := by
  unfold parseDuration contextDate at h
  by_cases hx : isDate dateOf x.text = true
  · by_cases hy : isDate dateOf y.text = true
    · rw [if_pos hx] at h
      dsimp only at h
      rw [if_pos hy] at h
      dsimp only at h
      split at h
      · split at h
        · cases hl : s.chars.lookup _ .period with
          | error e => rw [hl] at h; cases h
          | ok v => rw [hl] at h; cases h; rfl
        · split at h
          · cases h; rfl
          · cases h
          · cases h
      · cases h
    · rw [if_pos hx] at h
      dsimp only at h
      rw [if_neg hy] at h
      dsimp only at h
      split at h
      · next hh => cases hh
      · cases h
  · rw [if_neg hx] at h
    dsimp only at h
    split at h <;> cases h

theorem parsePeriod_silent {x : XNode} {s s' : ParseState} {c : Characteristic} (h : parsePeriod dateOf x s = .ok (some c, s')) : s'.errs = s.errs := by
  unfold parsePeriod at h
  split at h
  · exact parseInstant_silent h
  · split at h
    · cases h
    · split at h
      · cases h
      · exact parseDuration_silent h

theorem parseEntity_silent {x : XNode} {s s' : ParseState} {c : Characteristic} (h : parseEntity x s = .ok (some c, s')) : s'.errs = s.errs := by
  unfold parseEntity at h
  split at h
  · cases h
  · split at h
    · cases h
    · split at h
      · cases h
      · split at h
        · cases hl : s.chars.lookup _ .entity with
          | error e => rw [hl] at h; cases h
          | ok v => rw [hl] at h; cases h; rfl
        · cases h; rfl

/-! ## Members of segments -/

/-- The keys of cached explicit dimensions contain a space. -/
def SpaceKeys (s : ParseState) : Prop := ∀ k c, s.chars.get? (k, CharKind.explicit) = some c → ' ' ∈ k.toList

theorem space_in_key (a b : String) : ' ' ∈ (dimensionKey a b).toList := by
  unfold dimensionKey
  simp

/-- The cache step both dimension parsers end with succeeds. -/
theorem cache_ok {s1 : ParseState} {i : String} {k : CharKind} {v : Characteristic} (inv : ParseInv dateOf s1) (hk : v.kind = k) :
    ∃ c, (if s1.chars.hasKey i k then s1 else s1.put i v).chars.lookup i k = .ok c := by
  cases hg : Dict.get? s1.chars (i, k) with
  | some c' =>
    rw [if_pos (by rw [hasKey_eq, hg]; rfl)]
    exact ⟨_, lookup_eq hg (inv.kinds _ _ hg)⟩
  | none =>
    rw [if_neg (by rw [hasKey_eq, hg]; simp)]
    refine ⟨v, lookup_eq ?_ hk⟩
    unfold ParseState.put
    rw [get?_upsert, hk, if_pos rfl]

theorem ite_put_errs (p : Prop) [Decidable p] (s : ParseState) (i : String) (v : Characteristic) : (if p then s else s.put i v).errs = s.errs := by
  split <;> rfl

theorem parseExplicit_accepts {x : XNode} {s : ParseState} {c : Characteristic} (inv : ParseInv dateOf s) (hsk : SpaceKeys s)
    (hax : ∀ a, x.attr? "dimension" = some a → ' ' ∉ a.toList) (hc : explicitOf re x = some c) :
    ∃ v s', parseExplicit re x s = .ok (some v, s') ∧ s'.errs = s.errs := by
  unfold explicitOf at hc
  simp only [bind, Option.bind_eq_some_iff] at hc
  obtain ⟨axis, ha, dq, hdq, dim, hdim, m, hm, hc⟩ := hc
  obtain ⟨dq', hdq'⟩ := qnameFromStr_total axis x.ns
  rw [hdq'] at hdq
  cases hdq
  have hattr : x.attr "dimension" = .ok axis := by unfold XNode.attr XNode.attr? at *; rw [ha]
  have hno : ¬ s.chars.hasKey axis .explicit = true := by
    rw [hasKey_eq]
    cases hg : Dict.get? s.chars (axis, CharKind.explicit) with
    | none => simp
    | some c' => exact absurd (hsk _ _ hg) (hax axis ha)
  by_cases hme : m = ""
  · rw [if_pos hme] at hc; cases hc
  rw [if_neg hme] at hc
  simp only [Option.bind_eq_some_iff] at hc
  obtain ⟨mq, hmq, mem, hmem, _⟩ := hc
  obtain ⟨mq', hmq'⟩ := qnameFromStr_total m x.ns
  rw [hmq'] at hmq
  cases hmq
  have hne : nonEmpty? x.text = some m := by rw [hm]; unfold nonEmpty?; dsimp only; rw [if_neg hme]
  have hasp : Dict.get (s.aspects.upsert { name := axis }) axis = .ok { name := axis } := by
    unfold Dict.get AspectStore.upsert
    rw [Dict.get?_set, if_pos rfl]
  unfold parseExplicit
  simp only [bind, Except.bind, pure, Except.pure, hattr]
  rw [if_neg hno]
  simp only [hasp, hdq', hasTyped_eq, getTyped_eq, hdim, hne, hmq', hmem, Option.isSome_some, Bool.not_true, Bool.false_eq_true, if_false]
  obtain ⟨v, hv⟩ := cache_ok (i := dimensionKey axis m) (v := .ofExplicit dim mem { name := axis }) (inv_aspect inv axis) (k := .explicit) rfl
  rw [hv]
  exact ⟨v, _, rfl, ite_put_errs _ _ _ _⟩

theorem parseTyped_accepts {x : XNode} {s : ParseState} {c : Characteristic} (inv : ParseInv dateOf s) (hlen : x.children.length ≤ 1) (hc : typedOf re x = some c) :
    ∃ v s', parseTyped re x s = .ok (some v, s') ∧ s'.errs = s.errs := by
  unfold typedOf at hc
  simp only [bind, Option.bind_eq_some_iff] at hc
  obtain ⟨axis, ha, dq, hdq, dim, hdim, ch, hch, v, hv, _⟩ := hc
  obtain ⟨dq', hdq'⟩ := qnameFromStr_total axis x.ns
  rw [hdq'] at hdq
  cases hdq
  have hattr : x.attr "dimension" = .ok axis := by unfold XNode.attr XNode.attr? at *; rw [ha]
  obtain ⟨rest, hcs⟩ : ∃ rest, x.children = ch :: rest := by
    cases hx : x.children with
    | nil => rw [hx] at hch; cases hch
    | cons a as => rw [hx] at hch; cases hch; exact ⟨_, rfl⟩
  unfold parseTyped
  simp only [bind, Except.bind, pure, Except.pure, hattr]
  have inv1 : ParseInv dateOf (if Dict.has s.aspects axis = true then s else { s with aspects := s.aspects.upsert { name := axis } }) := by
    split
    · exact inv
    · exact inv_aspect inv axis
  have he1 : (if Dict.has s.aspects axis = true then s else { s with aspects := s.aspects.upsert { name := axis } }).errs = s.errs := by split <;> rfl
  have hasp : ∃ a, Dict.get (if Dict.has s.aspects axis = true then s else { s with aspects := s.aspects.upsert { name := axis } }).aspects axis = .ok a := by
    split
    · next hh =>
      rw [Dict.has_eq] at hh
      obtain ⟨a, ha⟩ := Option.isSome_iff_exists.1 hh
      exact ⟨a, by unfold Dict.get; rw [ha]⟩
    · refine ⟨{ name := axis }, ?_⟩
      unfold Dict.get AspectStore.upsert
      rw [Dict.get?_set, if_pos rfl]
  generalize (if Dict.has s.aspects axis = true then s else { s with aspects := s.aspects.upsert { name := axis } }) = s1 at inv1 he1 hasp ⊢
  obtain ⟨asp, hasp⟩ := hasp
  simp only [hasp, hdq', hasTyped_eq, getTyped_eq, hdim, Option.isSome_some, if_true]
  rw [if_neg (by omega : ¬ x.children.length > 1), hcs]
  dsimp only
  rw [hv]
  dsimp only
  obtain ⟨w, hw⟩ := cache_ok (i := dimensionKey axis v) (v := .ofTyped dim v asp) inv1 (k := .typed) rfl
  rw [hw]
  exact ⟨w, _, rfl, (ite_put_errs _ _ _ _).trans he1⟩

theorem parseDimension_accepts {x : XNode} {s : ParseState} (inv : ParseInv dateOf s) (hsk : SpaceKeys s)
    (hax : ∀ a, x.attr? "dimension" = some a → ' ' ∉ a.toList) (hc : (dimensionOf re x).isSome) (hlen : x.children.length ≤ 1) :
    ∃ v s', parseDimension re x s = .ok (some v, s') ∧ s'.errs = s.errs := by
  obtain ⟨c, hc⟩ := Option.isSome_iff_exists.1 hc
  unfold dimensionOf at hc
  simp only [bind, Option.bind_eq_some_iff] at hc
  obtain ⟨t, ht, hc⟩ := hc
  unfold parseDimension XNode.tagHas
  simp only [bind, Except.bind, ht]
  by_cases h1 : isInfix "explicitMember".toList t.toList = true
  · rw [if_pos h1] at hc ⊢
    exact parseExplicit_accepts inv hsk hax hc
  · rw [if_neg h1] at hc ⊢
    by_cases h2 : isInfix "typedMember".toList t.toList = true
    · rw [if_pos h2] at hc ⊢
      exact parseTyped_accepts inv hlen hc
    · rw [if_neg h2] at hc; cases hc

theorem spaceKeys_cached {s s' : ParseState} {r : Option Characteristic} {x : XNode} (hs : SpaceKeys s) (hc : Cached s s' r (dimensionEntry re x)) : SpaceKeys s' := by
  intro k c hk
  cases he : dimensionEntry re x with
  | none => rw [he] at hc; rw [hc.2] at hk; exact hs _ _ hk
  | some e =>
    rw [he] at hc
    have := hc.1 (k, CharKind.explicit)
    rw [hk] at this
    cases hg : s.chars.get? (k, CharKind.explicit) with
    | some c' => exact hs _ _ hg
    | none =>
      rw [hg] at this
      by_cases hek : e.1 = (k, CharKind.explicit)
      · rcases dimensionEntry_cases he with ⟨a, t, c, _, _, _, rfl⟩ | ⟨a, t, c, _, _, _, rfl⟩
        · cases hek; exact space_in_key _ _
        · cases hek
      · rw [if_neg hek] at this; cases this

theorem parseSegment_accepts (xs : List XNode) : ∀ (ctx : Context) (s : ParseState), ParseInv dateOf s → SpaceKeys s →
    (∀ m ∈ xs, ∀ a, m.attr? "dimension" = some a → ' ' ∉ a.toList) → (∀ m ∈ xs, (dimensionOf re m).isSome ∧ m.children.length ≤ 1) →
    ∃ ctx' s', parseSegment re xs ctx s = .ok (ctx', s') ∧ s'.errs = s.errs := by
  induction xs with
  | nil => intro ctx s _ _ _ _; exact ⟨_, _, rfl, rfl⟩
  | cons x xs ih =>
    intro ctx s inv hsk hax hv
    obtain ⟨v, s1, h1, he1⟩ := parseDimension_accepts inv hsk (hax x (by simp)) (hv x (by simp)).1 (hv x (by simp)).2
    obtain ⟨inv1, hc1⟩ := parseDimension_spec inv h1
    obtain ⟨ctx', s', h2, he2⟩ := ih (ctx.addOpt (some v)) s1 inv1 (spaceKeys_cached hsk hc1) (fun m hm => hax m (by simp [hm])) (fun m hm => hv m (by simp [hm]))
    refine ⟨ctx', s', ?_, he2.trans he1⟩
    simp only [parseSegment, bind, Except.bind, h1]
    exact h2

/-- After any history of a filing whose texts have one meaning each, a valid context is accepted without a report. -/
theorem parseContext_accepts {ops : List CtxOp} {s : ParseState} {x : XNode} {given : List Characteristic} (hr : runOps dateOf re ops = .ok s)
    (hu : Unambiguous re (contextsOf ops ++ [x])) (hid : (x.attr? "id").isSome) (hv : ValidContext dateOf re x) :
    ∃ ctx s', parseContext dateOf re x given s = .ok (some ctx, s') ∧ s'.errs = s.errs := by
  obtain ⟨p, e, hp, hper, hent, hseg⟩ := hv.parts
  obtain ⟨id, hid⟩ := Option.isSome_iff_exists.1 hid
  have hattr : x.attr "id" = .ok id := by unfold XNode.attr XNode.attr? at *; rw [hid]
  obtain ⟨inv, hst⟩ := runOps_spec (fun y hy => hu.dates y (by simp [hy])) hr
  have hsk : SpaceKeys s := by
    intro k c hk
    rw [hst _ ⟨(by intro hh; cases hh), (by intro hh; cases hh)⟩] at hk
    obtain ⟨y, hy, hmem⟩ := List.mem_flatMap.1 (Dict.mem_get? _ hk)
    obtain ⟨p', en, hpx, hc⟩ := mem_contextEntries hmem
    rcases hc with hc | hc | ⟨m, hm, hc⟩
    · rcases periodEntry_cases (hu.dates y (by simp [hy]) p' en hpx) hc with ⟨_, _, _, _, h⟩ | ⟨_, _, _, _, _, _, _, _, h⟩ <;> cases h
    · obtain ⟨_, _, _, h⟩ := entityEntry_cases hc; cases h
    · rcases dimensionEntry_cases hc with ⟨a, t, v, _, _, _, h⟩ | ⟨a, t, v, _, _, _, h⟩
      · cases h; exact space_in_key _ _
      · cases h
  have hfp : x.find "period" = some p ∧ x.find "entity" = some e := by
    unfold partsOf at hp
    simp only [bind, Option.bind_eq_some_iff] at hp
    obtain ⟨p', h1, e', h2, hh⟩ := hp
    cases hh
    exact ⟨h1, h2⟩
  obtain ⟨rp, s1, h1, h1r, inv1, _, c1⟩ := parsePeriod_spec inv (hu.dates x (by simp) p e hp)
  obtain ⟨q, hq⟩ := Option.isSome_iff_exists.1 hper
  rw [hq] at h1r
  subst h1r
  obtain ⟨re', s2, h2, inv2, _, c2⟩ := parseEntity_spec (x := e) inv1
  obtain ⟨ie, hie⟩ := Option.isSome_iff_exists.1 hent
  have hre : ∃ v, re' = some v := by
    unfold entityEntry at c2
    rw [hie] at c2
    exact Option.isSome_iff_exists.1 c2.2.2
  obtain ⟨v, rfl⟩ := hre
  have hsk1 : SpaceKeys s1 := by
    intro k c hk
    rw [cached_grows c1 (k, CharKind.explicit)] at hk
    cases hg : s.chars.get? (k, CharKind.explicit) with
    | some c' => exact hsk _ _ hg
    | none =>
      rw [hg] at hk
      cases hpe : periodEntry dateOf p with
      | none => rw [hpe] at hk; cases hk
      | some en =>
        rw [hpe] at hk
        have hmem := Dict.mem_get? (d := [en]) hk
        rcases periodEntry_cases (hu.dates x (by simp) p e hp) hpe with ⟨_, _, _, _, h⟩ | ⟨_, _, _, _, _, _, _, _, h⟩ <;> (rw [h] at hmem; simp at hmem)
  have hsk2 : SpaceKeys s2 := by
    intro k c hk
    rw [cached_grows c2 (k, CharKind.explicit)] at hk
    cases hg : s1.chars.get? (k, CharKind.explicit) with
    | some c' => exact hsk1 _ _ hg
    | none =>
      rw [hg] at hk
      cases hpe : entityEntry e with
      | none => rw [hpe] at hk; cases hk
      | some en =>
        rw [hpe] at hk
        have hmem := Dict.mem_get? (d := [en]) hk
        obtain ⟨_, _, _, h⟩ := entityEntry_cases hpe
        rw [h] at hmem; simp at hmem
  have hmem : ∀ m ∈ segmentOf e, m ∈ membersOf (contextsOf ops ++ [x]) := by
    intro m hm
    refine List.mem_flatMap.2 ⟨x, by simp, ?_⟩
    rw [hp]
    exact hm
  obtain ⟨ctx, s3, h3, he3⟩ := parseSegment_accepts (dateOf := dateOf) (re := re) (segmentOf e) (((given.foldl Context.add (Context.new id)).addOpt (some (.ofPeriod q))).addOpt (some v)) s2 inv2 hsk2
    (fun m hm => hu.axes m (hmem m hm)) hseg
  refine ⟨ctx, s3, ?_, he3.trans ((parseEntity_silent h2).trans (parsePeriod_silent h1))⟩
  unfold parseContext
  simp only [bind, Except.bind, pure, Except.pure, hattr, hfp.1, hfp.2, h1, h2, h3]
  simp only [Option.map_some, h1, h2, h3]

/-! ## Facts -/

theorem parseUnit_accepts {x : XNode} {id : String} {s : ParseState} (hid : x.attr? "id" = some id) (hn : s.chars.hasKey id .unit = false) (hv : ValidUnit x) :
    ∃ a b, parseUnit x s = .ok (some (.ofUnit id a b), s) := by
  rcases hv with ⟨m, one, tag, text⟩ | ⟨d, a, b, ma, mb, one, tag, two, num, den, na, nb, ta, tb⟩
  · cases hm : measureOf m with
    | none => rw [measureOf_none.1 hm] at text; cases text
    | some q => exact ⟨_, _, (C40_simple x m id q s hid one ⟨_, tag, by decide +kernel⟩ hm hn).1⟩
  · cases hma : measureOf ma with
    | none => rw [measureOf_none.1 hma] at ta; cases ta
    | some qa =>
      cases hmb : measureOf mb with
      | none => rw [measureOf_none.1 hmb] at tb; cases tb
      | some qb =>
        refine ⟨_, _, C40_divide x d a b ma mb [] [] id qa qb s hid one ⟨_, tag, by decide +kernel⟩ ?_ ⟨_, num, by decide +kernel⟩ ⟨_, den, by decide +kernel⟩ ?_ (Or.inl two)
          na nb hma hmb hn⟩
        · rintro ⟨t, ht, hi⟩
          rw [tag] at ht
          cases ht
          revert hi
          decide +kernel
        · rintro ⟨t, ht, hi⟩
          rw [den] at ht
          cases ht
          revert hi
          decide +kernel

theorem unitOf_valid {x : XNode} {id : String} (hid : x.attr? "id" = some id) (hv : ValidUnit x) : ∃ a b, unitOf x = some (.ofUnit id a b) := by
  obtain ⟨a, b, h⟩ := parseUnit_accepts (s := {}) hid rfl hv
  exact ⟨a, b, by unfold unitOf; rw [h]⟩

theorem findById_id {root x : XNode} {n i : String} (h : findById root n i = some x) : x.attr? "id" = some i := by
  have := List.find?_some h
  simp only [Bool.and_eq_true, decide_eq_true_eq] at this
  exact this.2

/-- What is known of the repositories between two fact elements. -/
structure AcceptInv (data : ReportElement → Concept) (dateOf : String → Option Date) (re : ElemStore) (roots : List XNode) (s : FactState) : Prop where
  history : Reach dateOf re (roots.flatMap XNode.children) {} s.ps
  concepts : ∀ t c, s.ps.chars.get? (t, CharKind.concept) = some c →
    ∃ x ∈ (elementsOf roots).map (·.2), ∃ k, x.tag = some t ∧ conceptOf data re x = some k ∧ c = .ofConcept k
  units : ∀ u c, s.ps.chars.get? (u, CharKind.unit) = some c → ∃ r ∈ roots, ∃ ux, findById r "unit" u = some ux ∧ unitOf ux = some c
  silent : s.ps.errs = []

theorem parseFactContext_accepts {data : ReportElement → Concept} {roots : List XNode} {root x : XNode} {c : Concept} {us : List Characteristic} {s : FactState}
    (hun : Unambiguous re (roots.flatMap XNode.children)) (hroot : root ∈ roots) (hreach : Reach dateOf re (roots.flatMap XNode.children) {} s.ps)
    (hc : conceptOf data re x = some c) (hus : unitsOf root x = some us) (hv : ValidFact data dateOf re root x) :
    ∃ f s', factOf data dateOf re root x = some f ∧ parseFactContext dateOf re root x (.ofConcept c :: us) s = .ok s' ∧ s'.ps.errs = s.ps.errs ∧ s'.facts = s.facts.upsert f ∧
      Reach dateOf re (roots.flatMap XNode.children) {} s'.ps ∧ (∀ i k, ¬ CharKind.parsed k → s'.ps.chars.get? (i, k) = s.ps.chars.get? (i, k)) := by
  obtain ⟨ref, cx, href, hfind, hcx⟩ := hv.context
  obtain ⟨ops, hops, hctxs⟩ := hreach
  have hmem : cx ∈ roots.flatMap XNode.children := List.mem_flatMap.2 ⟨root, hroot, List.mem_of_find?_eq_some hfind⟩
  have hu : Unambiguous re (contextsOf ops ++ [cx]) := unambiguous_mono hun (by
    intro y hy
    rcases List.mem_append.1 hy with hy | hy
    · exact hctxs y hy
    · exact List.mem_singleton.1 hy ▸ hmem)
  have hid := findById_id hfind
  obtain ⟨ctx, ps, hp, hpe⟩ := parseContext_accepts (given := .ofConcept c :: us) hops hu (by rw [hid]; rfl) hcx
  obtain ⟨id, hid', hctx⟩ := C39_content_partial hops hu hp
  rw [hid] at hid'
  cases hid'
  have hparts : (partsOf cx).isSome := by
    obtain ⟨p, e, h, _⟩ := hcx.parts
    rw [h]; rfl
  have hco : contextOf root x = some cx := by
    unfold contextOf
    rw [href]
    simp [hfind, hparts]
  have hfo : factOf data dateOf re root x = some { id := x.attr? "id", value := x.text.getD "", context := ctx } := by
    unfold factOf
    rw [hc, hus, hco, href, hctx]
    rfl
  obtain ⟨_, _, ⟨c', hc', hcc⟩, hunit, _⟩ := C41_fact hfo
  rw [hc] at hc'
  cases hc'
  dsimp only at hcc hunit
  have hcv : ctx.conceptValue = .ok c := by
    unfold Context.conceptValue
    rw [hcc]
    rfl
  obtain ⟨c', hc', htag, hval⟩ := hv.concept
  rw [hc] at hc'
  cases hc'
  have hmis : unitMismatch ctx (x.attr? "unitRef") = false := by
    unfold unitMismatch
    cases ht : truthy (x.attr? "unitRef") with
    | none => split <;> first | rfl | (next hh => cases hh)
    | some u =>
      obtain ⟨h1, h2⟩ := unitRef_some ht
      obtain ⟨ux, hux, hvu⟩ := hv.unit u h1 h2
      obtain ⟨a, b, hun⟩ := unitOf_valid (findById_id hux) hvu
      obtain ⟨ux', cu, hfx, hu1, hu2⟩ := hunit u h1 h2
      rw [hux] at hfx
      cases hfx
      rw [hun] at hu1
      cases hu1
      rw [hu2]
      simp [Characteristic.ofUnit]
  have hnv : (x.text.isNone && !c.nillable) = false := by
    rcases hval with h | h
    · cases ht : x.text with
      | none => rw [ht] at h; cases h
      | some t => rfl
    · rw [h]; simp
  have hr : x.attr "contextRef" = .ok ref := by unfold XNode.attr XNode.attr? at *; rw [href]
  refine ⟨_, { s with ps := ps, facts := s.facts.upsert { id := x.attr? "id", value := x.text.getD "", context := ctx } }, hfo, ?_, hpe, rfl, ?_, ?_⟩
  · unfold parseFactContext
    simp only [bind, Except.bind, hr, hfind, hp]
    unfold parseFactXml
    simp only [bind, Except.bind, pure, Except.pure, hcv, hnv, hmis, htag, ne_eq, not_true_eq_false, if_false, Bool.false_eq_true]
  · exact Reach.trans ⟨ops, hops, hctxs⟩ (Reach.step (.context cx (.ofConcept c :: us)) (by show (parseContext _ _ _ _ _).map _ = _; rw [hp]; rfl)
      (by intro y hy; simp [contextsOf] at hy; exact hy ▸ hmem))
  · intro i k hk
    exact parseContext_other hp i k hk

theorem lookup_put {s : ParseState} {i : String} {c : Characteristic} {k : CharKind} (hk : c.kind = k) : (s.put i c).chars.lookup i k = .ok c := by
  refine lookup_eq ?_ hk
  unfold ParseState.put
  rw [get?_upsert, hk, if_pos rfl]

theorem AcceptInv.inv {data : ReportElement → Concept} {roots : List XNode} {s : FactState} (h : AcceptInv data dateOf re roots s)
    (hun : Unambiguous re (roots.flatMap XNode.children)) : ParseInv dateOf s.ps := by
  obtain ⟨ops, hops, hctxs⟩ := h.history
  exact (runOps_spec (fun y hy => hun.dates y (hctxs y hy)) hops).1

theorem parseFactUnit_accepts {data : ReportElement → Concept} {roots : List XNode} {root x : XNode} {c : Concept} {s : FactState}
    (hun : Unambiguous re (roots.flatMap XNode.children)) (hua : UnitsAgree roots) (hroot : root ∈ roots) (inv : AcceptInv data dateOf re roots s)
    (hc : conceptOf data re x = some c) (hv : ValidFact data dateOf re root x) :
    ∃ f s', factOf data dateOf re root x = some f ∧ parseFactUnit dateOf re root x (.ofConcept c) s = .ok s' ∧ s'.facts = s.facts.upsert f ∧ AcceptInv data dateOf re roots s' := by
  unfold parseFactUnit
  cases ht : truthy (x.attr? "unitRef") with
  | none =>
    obtain ⟨f, s', h1, h2, h3, h4, h5, h6⟩ := parseFactContext_accepts (s := s) hun hroot inv.history hc (unitsOf_none ht) hv
    refine ⟨f, s', h1, h2, h4, h5, ?_, ?_, h3.trans inv.silent⟩
    · intro t k hg; rw [h6 t .concept (fun h => h.1 rfl)] at hg; exact inv.concepts t k hg
    · intro t k hg; rw [h6 t .unit (fun h => h.2 rfl)] at hg; exact inv.units t k hg
  | some u =>
    obtain ⟨hu1, hu2⟩ := unitRef_some ht
    obtain ⟨ux, hux, hvu⟩ := hv.unit u hu1 hu2
    obtain ⟨a, b, huo⟩ := unitOf_valid (findById_id hux) hvu
    have hus : unitsOf root x = some [.ofUnit u a b] := by rw [unitsOf_some ht, hux]; simp [huo]
    dsimp only
    rw [hux]
    dsimp only
    cases hg : s.ps.chars.get? (u, CharKind.unit) with
    | some cu =>
      rw [if_pos (by rw [hasKey_eq, hg]; rfl), lookup_eq hg ((inv.inv hun).kinds _ _ hg)]
      obtain ⟨r, hr, ux', hf', huo'⟩ := inv.units u cu hg
      have := hua r hr root hroot u ux' ux hf' hux
      rw [huo, huo'] at this
      cases this
      obtain ⟨f, s', h1, h2, h3, h4, h5, h6⟩ := parseFactContext_accepts (s := s) hun hroot inv.history hc hus hv
      refine ⟨f, s', h1, h2, h4, h5, ?_, ?_, h3.trans inv.silent⟩
      · intro t k hg; rw [h6 t .concept (fun h => h.1 rfl)] at hg; exact inv.concepts t k hg
      · intro t k hg; rw [h6 t .unit (fun h => h.2 rfl)] at hg; exact inv.units t k hg
    | none =>
      have hnk : s.ps.chars.hasKey u .unit = false := by rw [hasKey_eq, hg]; rfl
      obtain ⟨a', b', hpu⟩ := parseUnit_accepts (s := s.ps) (findById_id hux) hnk hvu
      have huo' := (parseUnit_spec hpu).choose_spec.2.2.1
      rw [huo] at huo'
      cases huo'
      rw [if_neg (by rw [hnk]; simp), hpu]
      simp only [bind, Except.bind]
      rw [lookup_put (k := .unit) rfl]
      have hreach : Reach dateOf re (roots.flatMap XNode.children) {} (s.ps.put u (.ofUnit u a b)) :=
        inv.history.trans (Reach.step (.unit u u a b) rfl (by intro y hy; cases hy))
      obtain ⟨f, s', h1, h2, h3, h4, h5, h6⟩ := parseFactContext_accepts (s := { s with ps := s.ps.put u (.ofUnit u a b) }) hun hroot hreach hc hus hv
      refine ⟨f, s', h1, h2, h4, h5, ?_, ?_, h3.trans inv.silent⟩
      · intro t k hg
        rw [h6 t .concept (fun h => h.1 rfl)] at hg
        exact inv.concepts t k ((get?_put_other (by intro hh; cases hh)).symm.trans hg)
      · intro t k hg
        rw [h6 t .unit (fun h => h.2 rfl)] at hg
        have hg' : Dict.get? (s.ps.chars.upsert u (.ofUnit u a b)) (t, CharKind.unit) = some k := hg
        rw [get?_upsert] at hg'
        split at hg'
        · next e => cases e; cases hg'; exact ⟨root, hroot, ux, hux, huo⟩
        · exact inv.units t k hg'

theorem parseFactElement_accepts {data : ReportElement → Concept} {roots : List XNode} {root x : XNode} {s : FactState}
    (hun : Unambiguous re (roots.flatMap XNode.children)) (hua : UnitsAgree roots) (hsc : SameConcepts data re ((elementsOf roots).map (·.2))) (hroot : root ∈ roots)
    (hx : (root, x) ∈ elementsOf roots) (inv : AcceptInv data dateOf re roots s) (hv : ValidFact data dateOf re root x) :
    ∃ f s', factOf data dateOf re root x = some f ∧ parseFactElement data dateOf re root s x = .ok s' ∧ s'.facts = s.facts.upsert f ∧ AcceptInv data dateOf re roots s' := by
  obtain ⟨c, hc, htag, _⟩ := hv.concept
  have hmem : x ∈ (elementsOf roots).map (·.2) := List.mem_map.2 ⟨_, hx, rfl⟩
  have hc' := hc
  unfold conceptOf at hc'
  obtain ⟨q, hq⟩ := qnameFromStr_total (x.tag.getD "") x.ns
  rw [hq] at hc'
  simp only [Except.toOption, bind, Option.bind_some, Option.map_eq_some_iff] at hc'
  obtain ⟨e, he, hce⟩ := hc'
  subst hce
  unfold parseFactElement
  simp only [bind, Except.bind, pure, Except.pure, hq, hasTyped_eq, getTyped_eq, he, Option.isSome_some, Bool.not_true, Bool.false_eq_true, if_false]
  have htag' : x.tag.getD "" = (conceptFor data e).name.clark := by rw [htag]; rfl
  cases hg : s.ps.chars.get? (x.tag.getD "", CharKind.concept) with
  | some cu =>
    rw [if_pos (by rw [hasKey_eq, hg]; rfl), lookup_eq hg ((inv.inv hun).kinds _ _ hg)]
    obtain ⟨y, hy, k, hyt, hyc, rfl⟩ := inv.concepts _ _ hg
    have := hsc x hmem y hy (by rw [hyt, htag']; exact htag)
    rw [hc, hyc] at this
    cases this
    exact parseFactUnit_accepts hun hua hroot inv hc hv
  | none =>
    rw [if_neg (by rw [hasKey_eq, hg]; simp)]
    dsimp only
    rw [lookup_put (k := .concept) rfl]
    refine parseFactUnit_accepts (s := { s with ps := s.ps.put (x.tag.getD "") (.ofConcept (conceptFor data e)) }) hun hua hroot ⟨?_, ?_, ?_, inv.silent⟩ hc hv
    · exact inv.history.trans (Reach.step (.concept _ _) rfl (by intro y hy; cases hy))
    · intro t k hk
      have hk' : Dict.get? (s.ps.chars.upsert (x.tag.getD "") (.ofConcept (conceptFor data e))) (t, CharKind.concept) = some k := hk
      rw [get?_upsert] at hk'
      split at hk'
      · next e' => cases e'; cases hk'; exact ⟨x, hmem, _, by rw [htag']; exact htag, hc, rfl⟩
      · exact inv.concepts t k hk'
    · intro t k hk
      exact inv.units t k ((get?_put_other (by intro hh; cases hh)).symm.trans hk)

theorem foldlM_accepts {data : ReportElement → Concept} {roots : List XNode} {root : XNode} (hun : Unambiguous re (roots.flatMap XNode.children)) (hua : UnitsAgree roots)
    (hsc : SameConcepts data re ((elementsOf roots).map (·.2))) (hroot : root ∈ roots) (l : List XNode) :
    ∀ s, (∀ x ∈ l, (root, x) ∈ elementsOf roots ∧ ValidFact data dateOf re root x) → AcceptInv data dateOf re roots s →
    ∃ (fs : List Fact) (s' : FactState), l.map (factOf data dateOf re root) = fs.map some ∧ l.foldlM (parseFactElement data dateOf re root) s = .ok s' ∧ s'.facts = fs.foldl FactStore.upsert s.facts ∧
      AcceptInv data dateOf re roots s' := by
  induction l with
  | nil => intro s _ inv; exact ⟨[], s, rfl, rfl, rfl, inv⟩
  | cons x xs ih =>
    intro s hl inv
    obtain ⟨f, s1, h1, h2, h3, h4⟩ := parseFactElement_accepts hun hua hsc hroot (hl x (by simp)).1 inv (hl x (by simp)).2
    obtain ⟨fs, s', g1, g2, g3, g4⟩ := ih s1 (fun y hy => hl y (by simp [hy])) h4
    refine ⟨f :: fs, s', by simp [h1, g1], ?_, by rw [g3, h3]; rfl, g4⟩
    rw [List.foldlM_cons, h2]
    exact g2

theorem parseFactsXml_accepts {data : ReportElement → Concept} {roots : List XNode} (hun : Unambiguous re (roots.flatMap XNode.children)) (hua : UnitsAgree roots)
    (hsc : SameConcepts data re ((elementsOf roots).map (·.2))) (l : List XNode) :
    ∀ s, (∀ r ∈ l, r ∈ roots ∧ ∀ x ∈ factElements r, ValidFact data dateOf re r x) → AcceptInv data dateOf re roots s →
    ∃ (fs : List Fact) (s' : FactState), (elementsOf l).map (fun p => factOf data dateOf re p.1 p.2) = fs.map some ∧ parseFactsXml data dateOf re l s = .ok s' ∧
      s'.facts = fs.foldl FactStore.upsert s.facts ∧ AcceptInv data dateOf re roots s' := by
  induction l with
  | nil => intro s _ inv; exact ⟨[], s, rfl, rfl, rfl, inv⟩
  | cons r rs ih =>
    intro s hl inv
    have hmem : ∀ x ∈ factElements r, (r, x) ∈ elementsOf roots := fun x hx => List.mem_flatMap.2 ⟨r, (hl r (by simp)).1, List.mem_map.2 ⟨x, hx, rfl⟩⟩
    obtain ⟨fs, s1, h1, h2, h3, h4⟩ := foldlM_accepts hun hua hsc (hl r (by simp)).1 (factElements r) s (fun x hx => ⟨hmem x hx, (hl r (by simp)).2 x hx⟩) inv
    obtain ⟨gs, s', g1, g2, g3, g4⟩ := ih s1 (fun y hy => hl y (by simp [hy])) h4
    refine ⟨fs ++ gs, s', ?_, ?_, by rw [g3, h3, List.foldl_append], g4⟩
    · have he : elementsOf (r :: rs) = (factElements r).map (fun x => (r, x)) ++ elementsOf rs := by unfold elementsOf; rw [List.flatMap_cons]
      rw [he, List.map_append, List.map_append, g1, List.map_map, ← h1]
      rfl
    · unfold parseFactsXml
      rw [List.foldlM_cons, h2]
      exact g2

/-- C96. A filing whose fact elements are valid, in a filing whose texts have one meaning each, is read without an exception and without a report,
and the facts stored are those its elements state, one for each, in document order. -/
theorem C96_accepted_partial {data : ReportElement → Concept} {roots : List XNode} (hun : Unambiguous re (roots.flatMap XNode.children)) (hua : UnitsAgree roots)
    (hsc : SameConcepts data re ((elementsOf roots).map (·.2))) (hv : ∀ p ∈ elementsOf roots, ValidFact data dateOf re p.1 p.2) :
    ∃ (fs : List Fact) (s' : FactState), parseFactsXml data dateOf re roots {} = .ok s' ∧ s'.ps.errs = [] ∧
      (elementsOf roots).map (fun p => factOf data dateOf re p.1 p.2) = fs.map some ∧ s'.facts = FactStore.run fs ∧
      ((∀ p ∈ elementsOf roots, p.2.attr? "id" ≠ none) → ((elementsOf roots).map (fun p => p.2.attr? "id")).Nodup → s'.facts.getAll = fs) := by
  have inv0 : AcceptInv data dateOf re roots {} := ⟨Reach.refl _, (by intro t c h; cases h), (by intro t c h; cases h), rfl⟩
  obtain ⟨fs, s', h1, h2, h3, h4⟩ := parseFactsXml_accepts hun hua hsc roots {} (fun r hr => ⟨hr, fun x hx => hv (r, x) (List.mem_flatMap.2 ⟨r, hr, List.mem_map.2 ⟨x, hx, rfl⟩⟩)⟩) inv0
  refine ⟨fs, s', h2, h4.silent, h1, h3, ?_⟩
  intro hid hnd
  have hids : fs.map (·.id) = (elementsOf roots).map (fun p => p.2.attr? "id") := by
    have : (fs.map some).map (fun o : Option Fact => o.bind (·.id)) = (elementsOf roots).map (fun p => p.2.attr? "id") := by
      rw [← h1, List.map_map]
      apply List.map_congr_left
      intro p hp
      have : ∃ f, factOf data dateOf re p.1 p.2 = some f := by
        have : factOf data dateOf re p.1 p.2 ∈ fs.map some := h1 ▸ List.mem_map.2 ⟨p, hp, rfl⟩
        obtain ⟨f, _, hf⟩ := List.mem_map.1 this
        exact ⟨f, hf.symm⟩
      obtain ⟨f, hf⟩ := this
      simp only [Function.comp_apply, hf, Option.bind_some]
      exact (C41_fact hf).1
    rw [← this, List.map_map]
    rfl
  rw [h3]
  refine getAll_of_distinct fs (hids ▸ hnd) ?_
  intro f hf
  have : f.id ∈ (elementsOf roots).map (fun p => p.2.attr? "id") := hids ▸ List.mem_map.2 ⟨f, hf, rfl⟩
  obtain ⟨p, hp, hpf⟩ := List.mem_map.1 this
  rw [← hpf]
  exact hid p hp

/-! ## Writing and reading -/

theorem toList_localPart (s : String) (r : List Char) (h : s.toList = '{' :: r) : XNode.localPart s = String.ofList ((r.dropWhile (· ≠ '}')).drop 1) := by
  unfold XNode.localPart
  rw [h]
  rfl

theorem localPart_xbrli (n : String) : XNode.localPart (xbrli n) = n := by
  rw [toList_localPart (xbrli n) ("http://www.xbrl.org/2003/instance}".toList ++ n.toList) (by unfold xbrli; rw [String.toList_append]; rfl)]
  have : ("http://www.xbrl.org/2003/instance}".toList ++ n.toList).dropWhile (· ≠ '}') = '}' :: n.toList := by
    rw [List.dropWhile_append]
    rfl
  rw [this]
  simp

theorem hasLocal_mk (t : String) (a : Dict String String) (x : Option String) (ns : NsMap) (cs : List XNode) (n : String) :
    XNode.hasLocal (.mk (some t) a x ns cs) n = decide (XNode.localPart t = n) := rfl

theorem descendantsOfAll_append (a b : List XNode) : XNode.descendantsOfAll (a ++ b) = XNode.descendantsOfAll a ++ XNode.descendantsOfAll b := by
  induction a with
  | nil => simp [XNode.descendantsOfAll]
  | cons c cs ih => simp [XNode.descendantsOfAll, ih]

theorem descendantsOfAll_map {α : Type} (f : α → XNode) (g : α → List XNode) (h : ∀ a, XNode.descendantsOfAll [f a] = g a) (l : List α) :
    XNode.descendantsOfAll (l.map f) = l.flatMap g := by
  induction l with
  | nil => simp [XNode.descendantsOfAll]
  | cons a as ih =>
    have := h a
    simp only [XNode.descendantsOfAll, List.append_nil] at this
    simp [XNode.descendantsOfAll, ih, ← this]

/-- An element that can be a fact. -/
def refers (x : XNode) : Bool := x.tag.isSome && (x.attr? "contextRef").isSome

theorem noRef_all (l : List XNode) (h : ∀ x ∈ l, ∀ y ∈ XNode.descendantsOfAll [x], refers y = false) : (XNode.descendantsOfAll l).filter refers = [] := by
  induction l with
  | nil => simp [XNode.descendantsOfAll]
  | cons x xs ih =>
    rw [show x :: xs = [x] ++ xs from rfl, descendantsOfAll_append, List.filter_append, ih (fun y hy => h y (by simp [hy]))]
    rw [List.append_nil, List.filter_eq_nil_iff]
    intro y hy
    rw [h x (by simp) y hy]
    simp

theorem refers_of_attrs {x : XNode} (h : x.attr? "contextRef" = none) : refers x = false := by unfold refers; rw [h]; simp

theorem attr_mk (t : Option String) (a : Dict String String) (x : Option String) (ns : NsMap) (cs : List XNode) (n : String) : XNode.attr? (.mk t a x ns cs) n = a.get? n := rfl

theorem dim_noRef (ns : NsMap) (d : StatedDim) : ∀ y ∈ XNode.descendantsOfAll [writeDim ns d], refers y = false := by
  intro y hy
  apply refers_of_attrs
  cases d <;> simp only [writeDim, XNode.descendantsOfAll, XNode.descendants, List.mem_cons, List.append_nil, List.not_mem_nil, or_false] at hy
  · subst hy; rfl
  · rcases hy with rfl | rfl <;> rfl

theorem context_noRef (ns : NsMap) (c : StatedContext) : ∀ y ∈ XNode.descendantsOfAll [writeContext ns c], refers y = false := by
  intro y hy
  have hseg : (XNode.descendantsOfAll (c.dims.map (writeDim ns))).filter refers = [] := noRef_all _ (by
    intro x hx
    obtain ⟨d, _, rfl⟩ := List.mem_map.1 hx
    exact dim_noRef ns d)
  rw [List.filter_eq_nil_iff] at hseg
  simp only [writeContext, XNode.descendantsOfAll, XNode.descendants, List.mem_cons, List.mem_append, List.append_nil, List.not_mem_nil] at hy
  rcases hy with rfl | rfl | (rfl | hy) | hy
  · rfl
  · rfl
  · rfl
  · have : y = .mk (some (xbrli "segment")) [] none ns (c.dims.map (writeDim ns)) ∨ y ∈ XNode.descendantsOfAll (c.dims.map (writeDim ns)) := by
      split at hy
      · simp [XNode.descendantsOfAll] at hy
      · simpa [XNode.descendantsOfAll, XNode.descendants] using hy
    rcases this with rfl | h
    · rfl
    · have := hseg y h
      simpa using this
  · cases hp : c.period <;> simp only [hp, writePeriod, XNode.descendantsOfAll, XNode.descendants, List.mem_cons, List.append_nil, List.nil_append, List.not_mem_nil, or_false] at hy
    · rcases hy with rfl | rfl <;> rfl
    · rcases hy with rfl | rfl | rfl <;> rfl

theorem unit_noRef (ns : NsMap) (u : StatedUnit) : ∀ y ∈ XNode.descendantsOfAll [writeUnit ns u], refers y = false := by
  intro y hy
  cases hp : u.per <;> simp only [writeUnit, writeMeasure, hp, XNode.descendantsOfAll, XNode.descendants, List.mem_cons, List.mem_append, List.append_nil, List.not_mem_nil, or_false] at hy
  · rcases hy with rfl | rfl <;> rfl
  · rcases hy with rfl | rfl | (rfl | rfl) | rfl | rfl | rfl <;> rfl

theorem factElements_write (i : Instance) : factElements i.write = i.facts.map (writeFact i.ns) := by
  have hd : XNode.descendantsOfAll (i.facts.map (writeFact i.ns)) = i.facts.map (writeFact i.ns) := by
    rw [descendantsOfAll_map (writeFact i.ns) (fun f => [writeFact i.ns f]) (by intro f; simp [writeFact, XNode.descendantsOfAll, XNode.descendants])]
    rw [← List.flatMap_map (writeFact i.ns) (fun x => [x]), List.flatMap_singleton']
  show (XNode.descendants i.write).filter refers = _
  unfold Instance.write
  rw [XNode.descendants, descendantsOfAll_append, descendantsOfAll_append, List.filter_append, List.filter_append, hd, noRef_all _ (by
    intro x hx
    obtain ⟨c, _, rfl⟩ := List.mem_map.1 hx
    exact context_noRef _ c), noRef_all _ (by
    intro x hx
    obtain ⟨c, _, rfl⟩ := List.mem_map.1 hx
    exact unit_noRef _ c), List.nil_append, List.nil_append, List.filter_eq_self]
  intro x hx
  obtain ⟨f, _, rfl⟩ := List.mem_map.1 hx
  rfl
theorem find?_none_of {α : Type} {p : α → Bool} {l : List α} (h : ∀ a ∈ l, p a = false) : l.find? p = none := by
  rw [List.find?_eq_none]
  intro a ha
  rw [h a ha]
  simp

theorem findById_context (i : Instance) (ref : String) (h : ∃ c ∈ i.contexts, c.id = ref) :
    ∃ c ∈ i.contexts, i.contexts.find? (fun c => c.id = ref) = some c ∧ c.id = ref ∧ findById i.write "context" ref = some (writeContext i.ns c) := by
  obtain ⟨c0, hc0, h0⟩ := h
  cases hf : i.contexts.find? (fun c => c.id = ref) with
  | none => exact absurd h0 (by simpa using List.find?_eq_none.1 hf c0 hc0)
  | some c =>
    refine ⟨c, List.mem_of_find?_eq_some hf, rfl, by simpa using List.find?_some hf, ?_⟩
    unfold findById Instance.write XNode.children
    dsimp only
    rw [List.append_assoc, List.find?_append, List.find?_map]
    have : ((fun c : XNode => c.hasLocal "context" && decide (c.attr? "id" = some ref)) ∘ writeContext i.ns) = (fun c : StatedContext => decide (c.id = ref)) := by
      funext c
      simp only [Function.comp_apply, writeContext, hasLocal_mk, localPart_xbrli, attr_mk]
      simp [Dict.get?]
    rw [this, hf]
    rfl

theorem findById_unit (i : Instance) (ref : String) (h : ∃ c ∈ i.units, c.id = ref) :
    ∃ c ∈ i.units, i.units.find? (fun c => c.id = ref) = some c ∧ c.id = ref ∧ findById i.write "unit" ref = some (writeUnit i.ns c) := by
  obtain ⟨c0, hc0, h0⟩ := h
  cases hf : i.units.find? (fun c => c.id = ref) with
  | none => exact absurd h0 (by simpa using List.find?_eq_none.1 hf c0 hc0)
  | some c =>
    refine ⟨c, List.mem_of_find?_eq_some hf, rfl, by simpa using List.find?_some hf, ?_⟩
    unfold findById Instance.write XNode.children
    dsimp only
    rw [List.append_assoc, List.find?_append, find?_none_of, Option.none_or, List.find?_append, List.find?_map]
    · have : ((fun c : XNode => c.hasLocal "unit" && decide (c.attr? "id" = some ref)) ∘ writeUnit i.ns) = (fun c : StatedUnit => decide (c.id = ref)) := by
        funext c
        simp only [Function.comp_apply, writeUnit, hasLocal_mk, localPart_xbrli, attr_mk]
        simp [Dict.get?]
      rw [this, hf]
      rfl
    · intro x hx
      obtain ⟨c, _, rfl⟩ := List.mem_map.1 hx
      simp only [writeContext, hasLocal_mk, localPart_xbrli]
      simp

theorem find_mk (t : Option String) (a : Dict String String) (x : Option String) (ns : NsMap) (cs : List XNode) (n : String) :
    XNode.find (.mk t a x ns cs) n = cs.find? (fun c => c.hasLocal n) := rfl

theorem hasLocal_xbrli (t : String) (a : Dict String String) (x : Option String) (ns : NsMap) (cs : List XNode) (n : String) :
    XNode.hasLocal (.mk (some (xbrli t)) a x ns cs) n = decide (t = n) := by rw [hasLocal_mk, localPart_xbrli]

/-- The entity element of a written context. -/
def writtenEntity (ns : NsMap) (c : StatedContext) : XNode :=
  .mk (some (xbrli "entity")) [] none ns (.mk (some (xbrli "identifier")) [("scheme", c.scheme)] (some c.identifier) ns [] ::
       if c.dims = [] then [] else [.mk (some (xbrli "segment")) [] none ns (c.dims.map (writeDim ns))])

theorem hasLocal_period (ns : NsMap) (p : StatedPeriod) (n : String) : (writePeriod ns p).hasLocal n = decide ("period" = n) := by
  cases p <;> exact hasLocal_xbrli _ _ _ _ _ _

theorem partsOf_write (ns : NsMap) (c : StatedContext) : partsOf (writeContext ns c) = some (writePeriod ns c.period, writtenEntity ns c) := by
  unfold partsOf writeContext writtenEntity
  simp only [find_mk, List.find?_cons, hasLocal_xbrli, hasLocal_period]
  rfl

theorem periodOf_write (ns : NsMap) (p : StatedPeriod) (h : ∀ d ∈ p.dates, d ≠ "") : periodOf dateOf (writePeriod ns p) = p.meaning dateOf := by
  unfold periodOf
  cases p with
  | «at» d =>
    have hd : d ≠ "" := h d (by simp [StatedPeriod.dates])
    simp only [writePeriod, find_mk, List.find?_cons, hasLocal_xbrli, StatedPeriod.meaning]
    simp [dateIn, XNode.text, hd]
  | between a b =>
    have ha : a ≠ "" := h a (by simp [StatedPeriod.dates])
    have hb : b ≠ "" := h b (by simp [StatedPeriod.dates])
    simp only [writePeriod, find_mk, List.find?_cons, List.find?_nil, hasLocal_xbrli, StatedPeriod.meaning]
    simp [dateIn, XNode.text, ha, hb]

theorem entityOf_write (ns : NsMap) (c : StatedContext) : entityOf (writtenEntity ns c) = some (c.identifier, c.scheme) := by
  unfold entityOf writtenEntity
  simp only [find_mk, List.find?_cons, hasLocal_xbrli]
  rfl

theorem segmentOf_write (ns : NsMap) (c : StatedContext) : segmentOf (writtenEntity ns c) = c.dims.map (writeDim ns) := by
  unfold segmentOf writtenEntity
  simp only [find_mk, List.find?_cons, hasLocal_xbrli]
  by_cases h : c.dims = []
  · rw [if_pos h, h]; rfl
  · rw [if_neg h, List.find?_cons, hasLocal_xbrli]; rfl

theorem writable_str {ns : NsMap} {q : QName} (h : Writable ns q) : qnameFromStr q.prefixLocal ns = .ok q :=
  C27_prefix_declared q ns h.pfx.1 h.localName.1 h.pfx.2.2.1 h.localName.2 h.pfx.2.2.2 h.pfx.2.1 h.bound

theorem prefixLocal_ne (q : QName) : q.prefixLocal ≠ "" := by
  intro h
  have := congrArg String.toList h
  simp [QName.prefixLocal] at this

theorem dimensionOf_write {ns : NsMap} {d : StatedDim} (h : ∀ q ∈ d.names, Writable ns q) : dimensionOf re (writeDim ns d) = d.meaning re := by
  unfold dimensionOf
  cases d with
  | explicit a m =>
    have ha := writable_str (h a (by simp [StatedDim.names]))
    have hm := writable_str (h m (by simp [StatedDim.names]))
    simp only [writeDim, XNode.tag, bind, Option.bind_some]
    rw [if_pos (by decide +kernel)]
    unfold explicitOf
    simp only [attr_mk, XNode.ns, XNode.text, Dict.get?, List.find?_cons, decide_true, Option.map_some, bind, Option.bind_some, ha, hm, Except.toOption, prefixLocal_ne, if_false]
    rfl
  | typed a t v =>
    have ha := writable_str (h a (by simp [StatedDim.names]))
    simp only [writeDim, XNode.tag, bind, Option.bind_some]
    rw [if_neg (by decide +kernel), if_pos (by decide +kernel)]
    unfold typedOf
    simp only [attr_mk, XNode.ns, XNode.children, XNode.text, Dict.get?, List.find?_cons, decide_true, Option.map_some, bind, Option.bind_some, ha, Except.toOption, List.head?_cons]
    simp only [StatedDim.meaning]
    cases elementOf re .dimension a <;> rfl

theorem validUnit_write (ns : NsMap) (u : StatedUnit) : ValidUnit (writeUnit ns u) := by
  unfold writeUnit
  cases u.per with
  | none => exact .simple _ rfl rfl rfl
  | some d => exact .quotient _ _ _ _ _ rfl rfl rfl rfl rfl rfl rfl rfl rfl

theorem unitOf_write {ns : NsMap} {u : StatedUnit} (h : Writable ns u.measure) (h' : ∀ q ∈ u.per, Writable ns q) :
    unitOf (writeUnit ns u) = some (.ofUnit u.id [u.measure] u.per.toList) := by
  have hm : ∀ q, Writable ns q → measureOf (writeMeasure ns q) = some q := by
    intro q hq
    unfold measureOf writeMeasure
    simp only [XNode.text, XNode.ns, Option.bind_some, writable_str hq]
    rfl
  unfold unitOf
  cases hp : u.per with
  | none =>
    have : writeUnit ns u = .mk (some (xbrli "unit")) [("id", u.id)] none ns [writeMeasure ns u.measure] := by unfold writeUnit; rw [hp]
    rw [this, (C40_simple _ _ u.id u.measure {} (by simp [attr_mk, Dict.get?]) rfl ⟨_, rfl, by decide +kernel⟩ (hm _ h) rfl).1]
    rfl
  | some d =>
    have : writeUnit ns u = .mk (some (xbrli "unit")) [("id", u.id)] none ns [.mk (some (xbrli "divide")) [] none ns [.mk (some (xbrli "unitNumerator")) [] none ns [writeMeasure ns u.measure],
          .mk (some (xbrli "unitDenominator")) [] none ns [writeMeasure ns d]]] := by unfold writeUnit; rw [hp]
    rw [this, C40_divide _ _ _ _ _ _ [] [] u.id u.measure d {} (by simp [attr_mk, Dict.get?]) rfl ⟨_, rfl, by decide +kernel⟩ (by rintro ⟨t, ht, hi⟩; cases ht; revert hi; decide +kernel)
      ⟨_, rfl, by decide +kernel⟩ ⟨_, rfl, by decide +kernel⟩ (by rintro ⟨t, ht, hi⟩; cases ht; revert hi; decide +kernel) (Or.inl rfl) rfl rfl
      (hm _ h) (hm _ (h' d (by rw [hp]; rfl))) rfl]
    rfl
theorem partsOf_unit (ns : NsMap) (u : StatedUnit) : partsOf (writeUnit ns u) = none := by
  unfold partsOf writeUnit writeMeasure
  cases u.per <;> simp [find_mk, hasLocal_xbrli]

theorem partsOf_fact (ns : NsMap) (f : StatedFact) : partsOf (writeFact ns f) = none := rfl

theorem parts_write {i : Instance} {x p e : XNode} (hx : x ∈ i.write.children) (hp : partsOf x = some (p, e)) :
    ∃ c ∈ i.contexts, x = writeContext i.ns c ∧ p = writePeriod i.ns c.period ∧ e = writtenEntity i.ns c := by
  unfold Instance.write XNode.children at hx
  simp only [List.mem_append, List.mem_map] at hx
  rcases hx with (⟨c, hc, rfl⟩ | ⟨u, _, rfl⟩) | ⟨f, _, rfl⟩
  · rw [partsOf_write] at hp; cases hp; exact ⟨c, hc, rfl, rfl, rfl⟩
  · rw [partsOf_unit] at hp; cases hp
  · rw [partsOf_fact] at hp; cases hp

theorem member_write {i : Instance} {m : XNode} (hm : m ∈ membersOf i.write.children) : ∃ c ∈ i.contexts, ∃ d ∈ c.dims, m = writeDim i.ns d := by
  obtain ⟨x, hx, hm⟩ := List.mem_flatMap.1 hm
  split at hm
  · cases hm
  · next p e hp =>
    obtain ⟨c, hc, _, _, rfl⟩ := parts_write hx hp
    rw [segmentOf_write] at hm
    obtain ⟨d, hd, rfl⟩ := List.mem_map.1 hm
    exact ⟨c, hc, d, hd, rfl⟩

theorem entity_write {i : Instance} {a : String × String} (ha : a ∈ entitiesOf i.write.children) : ∃ c ∈ i.contexts, a = (c.identifier, c.scheme) := by
  obtain ⟨x, hx, ha⟩ := List.mem_filterMap.1 ha
  simp only [Option.bind_eq_some_iff] at ha
  obtain ⟨⟨p, e⟩, hp, ha⟩ := ha
  obtain ⟨c, hc, _, _, he⟩ := parts_write hx hp
  dsimp only at ha
  rw [he, entityOf_write] at ha
  cases ha
  exact ⟨c, hc, rfl⟩

theorem explicitOf_write (ns : NsMap) (d : StatedDim) : ∃ t a x cs, writeDim ns d = .mk t a x ns cs := by
  cases d <;> exact ⟨_, _, _, _, rfl⟩

theorem unambiguous_write {data : ReportElement → Concept} {i : Instance} (hv : i.Valid data dateOf re) : Unambiguous re i.write.children := by
  refine ⟨?_, ?_, ?_, ?_, ?_⟩
  · intro x hx p e hp c hc t ht
    obtain ⟨s, hs, _, rfl, _⟩ := parts_write hx hp
    have hd := (hv.periods s hs).2
    revert hc hd
    cases s.period with
    | «at» d =>
      intro hc hd
      simp only [writePeriod, XNode.children, List.mem_singleton] at hc
      subst hc
      cases ht
      exact (hd _ (by simp [StatedPeriod.dates])).2
    | between a b =>
      intro hc hd
      simp only [writePeriod, XNode.children, List.mem_cons, List.not_mem_nil, or_false] at hc
      rcases hc with rfl | rfl <;> cases ht
      · exact (hd _ (by simp [StatedPeriod.dates])).2
      · exact (hd _ (by simp [StatedPeriod.dates])).2
  · intro a ha b hb hab
    obtain ⟨c, hc, rfl⟩ := entity_write ha
    obtain ⟨c', hc', rfl⟩ := entity_write hb
    exact hv.entities c hc c' hc' hab
  · intro m hm a ha
    obtain ⟨c, hc, d, hd, rfl⟩ := member_write hm
    have hn := (hv.dims c hc d hd).2
    cases d with
    | explicit x y =>
      have ha' : some x.prefixLocal = some a := ha
      cases ha'
      exact (hn x (by simp [StatedDim.names])).2
    | typed x t v =>
      have ha' : some x.prefixLocal = some a := ha
      cases ha'
      exact (hn x (by simp [StatedDim.names])).2
  · intro m hm m' hm' h1 h2 _ _
    obtain ⟨c, hc, d, hd, rfl⟩ := member_write hm
    obtain ⟨c', hc', d', hd', rfl⟩ := member_write hm'
    have hns : ∀ d, (writeDim i.ns d).ns = i.ns := by intro d; cases d <;> rfl
    unfold explicitOf
    rw [h1, h2, hns, hns]
  · intro m hm m' hm' h1 h2 _ _
    obtain ⟨c, hc, d, hd, rfl⟩ := member_write hm
    obtain ⟨c', hc', d', hd', rfl⟩ := member_write hm'
    have hns : ∀ d, (writeDim i.ns d).ns = i.ns := by intro d; cases d <;> rfl
    have key : ∀ x : XNode, typedOf re x = (do
        let axis ← x.attr? "dimension"
        let dim ← elementOf re .dimension (← (qnameFromStr axis x.ns).toOption)
        let v ← x.children.head?.bind (·.text)
        return ⟨{ name := axis }, .typed dim.name [dim.tag] v⟩) := by
      intro x
      unfold typedOf
      cases x.children.head? <;> rfl
    rw [key, key, h1, h2, hns, hns]

theorem clark_str {ns : NsMap} {q : QName} (h1 : IsClark q.uri q.localName) (h2 : q.uri ≠ xmlNs) (h3 : LastPrefixOf ns (some q.pfx) q.uri) :
    qnameFromStr q.clark ns = .ok q := ((C27_clark_roundtrip_partial q ns h1 h2).1 q.pfx h3).2 rfl

theorem conceptOf_write {data : ReportElement → Concept} {ns : NsMap} {f : StatedFact} (h1 : IsClark f.concept.uri f.concept.localName) (h2 : f.concept.uri ≠ xmlNs)
    (h3 : LastPrefixOf ns (some f.concept.pfx) f.concept.uri) : conceptOf data re (writeFact ns f) = (elementOf re .concept f.concept).map (conceptFor data) := by
  have h := clark_str h1 h2 h3
  unfold conceptOf writeFact
  simp only [XNode.tag, XNode.ns, Option.getD_some, h, Except.toOption, bind, Option.bind_some]

theorem elementOf_name {es : List ReportElement} {k : ElemKind} {q : QName} {e : ReportElement} (h : elementOf (ElemStore.run es) k q = some e) : e.name = q := by
  unfold elementOf at h
  rw [ElemStore.run_get?_name, Option.filter_eq_some_iff] at h
  exact (latest_some _ _ _ _ h.1).2

theorem validContext_write {data : ReportElement → Concept} {i : Instance} (hv : i.Valid data dateOf re) {c : StatedContext} (hc : c ∈ i.contexts) :
    ValidContext dateOf re (writeContext i.ns c) := by
  refine ⟨_, _, partsOf_write i.ns c, ?_, ?_, ?_⟩
  · rw [periodOf_write i.ns c.period (fun d hd => ((hv.periods c hc).2 d hd).1)]
    exact (hv.periods c hc).1
  · rw [entityOf_write]; rfl
  · intro m hm
    rw [segmentOf_write] at hm
    obtain ⟨d, hd, rfl⟩ := List.mem_map.1 hm
    refine ⟨?_, ?_⟩
    · rw [dimensionOf_write (fun q hq => ((hv.dims c hc d hd).2 q hq).1)]
      exact (hv.dims c hc d hd).1
    · cases d <;> simp [writeDim, XNode.children]

theorem statedBy_write {data : ReportElement → Concept} {i : Instance} (hv : i.Valid data dateOf re) {c : StatedContext} (hc : c ∈ i.contexts) {p : Period}
    (hp : c.period.meaning dateOf = some p) :
    statedBy dateOf re (writeContext i.ns c) = Characteristic.ofPeriod p :: Characteristic.ofEntity c.identifier c.scheme :: c.dims.filterMap (StatedDim.meaning re) := by
  unfold statedBy
  rw [partsOf_write]
  dsimp only
  rw [periodOf_write i.ns c.period (fun d hd => ((hv.periods c hc).2 d hd).1), hp, entityOf_write, segmentOf_write, List.filterMap_map]
  have : c.dims.filterMap (dimensionOf re ∘ writeDim i.ns) = c.dims.filterMap (StatedDim.meaning re) := by
    apply filterMap_congr'
    intro d hd
    exact dimensionOf_write (fun q hq => ((hv.dims c hc d hd).2 q hq).1)
  rw [this]
  rfl

theorem unitRef_write (ns : NsMap) (f : StatedFact) : (writeFact ns f).attr? "unitRef" = f.unit := by
  unfold writeFact
  rw [attr_mk]
  cases f.unit with
  | none => rfl
  | some u => rfl

theorem factOf_write {data : ReportElement → Concept} {i : Instance} (hv : i.Valid data dateOf re) {f : StatedFact} (hf : f ∈ i.facts) :
    factOf data dateOf re i.write (writeFact i.ns f) = i.fact data dateOf re f := by
  obtain ⟨e, he, h1, h2, h3, hval⟩ := hv.concepts f hf
  obtain ⟨c, hc, hcf, hcid, hfc⟩ := findById_context i f.context (hv.contexts f hf)
  obtain ⟨p, hp⟩ := Option.isSome_iff_exists.1 (hv.periods c hc).1
  have hus : unitsOf i.write (writeFact i.ns f) = i.unitsFor f.unit := by
    unfold unitsOf
    rw [unitRef_write]
    cases hu : f.unit with
    | none => rfl
    | some u =>
      obtain ⟨x, hx, hxf, hxid, hfu⟩ := findById_unit i u (hv.units f hf u hu)
      have hne : u ≠ "" := hxid ▸ hv.unitIds x hx
      split
      · next hh => cases hh
      · next hh => cases hh; exact absurd rfl hne
      · next hh =>
        cases hh
        unfold Instance.unitsFor
        rw [hfu]
        dsimp only
        rw [hxf, Option.bind_some, Option.map_some, unitOf_write (hv.measures x hx).1 (hv.measures x hx).2, hxid]
        rfl
  have hco : contextOf i.write (writeFact i.ns f) = some (writeContext i.ns c) := by
    unfold contextOf
    have : (writeFact i.ns f).attr? "contextRef" = some f.context := rfl
    rw [this]
    simp [hfc, partsOf_write]
  unfold factOf Instance.fact
  rw [conceptOf_write h1 h2 h3, he, hus, hco, hcf]
  simp only [bind, Option.map_some, Option.bind_some, hp, pure, statedBy_write hv hc hp]
  have hid : (writeFact i.ns f).attr? "id" = some f.id := rfl
  have hcr : ((writeFact i.ns f).attr? "contextRef").getD "" = c.id := hcid.symm
  have htx : (writeFact i.ns f).text.getD "" = f.value := by
    unfold writeFact XNode.text
    dsimp only
    split
    · next h => rw [h]; rfl
    · rfl
  rw [hid, hcr, htx]

theorem validFact_write {data : ReportElement → Concept} {es : List ReportElement} {i : Instance} (hv : i.Valid data dateOf (ElemStore.run es)) {f : StatedFact} (hf : f ∈ i.facts) :
    ValidFact data dateOf (ElemStore.run es) i.write (writeFact i.ns f) := by
  obtain ⟨e, he, h1, h2, h3, hval⟩ := hv.concepts f hf
  obtain ⟨c, hc, hcf, hcid, hfc⟩ := findById_context i f.context (hv.contexts f hf)
  refine ⟨⟨conceptFor data e, ?_, ?_, ?_⟩, ?_, f.context, _, rfl, hfc, validContext_write hv hc⟩
  · rw [conceptOf_write h1 h2 h3, he]; rfl
  · show some f.concept.clark = some e.name.clark
    rw [elementOf_name he]
  · rcases hval with h | h
    · left
      unfold writeFact XNode.text
      dsimp only
      rw [if_neg h]
      rfl
    · exact Or.inr h
  · intro u hu _
    rw [unitRef_write] at hu
    obtain ⟨x, hx, _, _, hfu⟩ := findById_unit i u (hv.units f hf u hu)
    exact ⟨_, hfu, validUnit_write i.ns x⟩

/-- C97. Whatever a valid instance is to say, its document is read back as just that: without an exception, without a report, and with one fact for each
fact stated, in the same order, which has its id, its value, its concept, its unit, and the period, the entity and the dimensions of its context. -/
theorem C97_roundtrip (data : ReportElement → Concept) (dateOf : String → Option Date) (es : List ReportElement) (i : Instance) (hv : i.Valid data dateOf (ElemStore.run es)) :
    ∃ s', parseFactsXml data dateOf (ElemStore.run es) [i.write] {} = .ok s' ∧ s'.ps.errs = [] ∧
      s'.facts.getAll.map some = i.facts.map (i.fact data dateOf (ElemStore.run es)) := by
  have hel : elementsOf [i.write] = i.facts.map (fun f => (i.write, writeFact i.ns f)) := by
    unfold elementsOf
    rw [List.flatMap_cons, List.flatMap_nil, List.append_nil, factElements_write, List.map_map]
    rfl
  have hids : (elementsOf [i.write]).map (fun p => p.2.attr? "id") = (i.facts.map (·.id)).map some := by
    rw [hel, List.map_map, List.map_map]
    rfl
  have hsc : SameConcepts data (ElemStore.run es) ((elementsOf [i.write]).map (·.2)) := by
    intro x hx y hy hxy
    rw [hel, List.map_map] at hx hy
    obtain ⟨f, _, rfl⟩ := List.mem_map.1 hx
    obtain ⟨g, _, rfl⟩ := List.mem_map.1 hy
    have hxy' : some f.concept.clark = some g.concept.clark := hxy
    unfold conceptOf
    simp only [Function.comp_apply, writeFact, XNode.tag, XNode.ns, hxy']
  obtain ⟨fs, s', h1, h2, h3, h4, h5⟩ := C96_accepted_partial (dateOf := dateOf) (re := ElemStore.run es) (data := data) (roots := [i.write])
    (by rw [List.flatMap_cons, List.flatMap_nil, List.append_nil]; exact unambiguous_write hv) (unitsAgree_single _) hsc (by
      intro p hp
      rw [hel] at hp
      obtain ⟨f, hf, rfl⟩ := List.mem_map.1 hp
      exact validFact_write hv hf)
  refine ⟨s', h1, h2, ?_⟩
  rw [h5 (by
    intro p hp
    rw [hel] at hp
    obtain ⟨f, hf, rfl⟩ := List.mem_map.1 hp
    intro hh
    cases hh) (by rw [hids]; exact List.pairwise_map.2 (hv.factIds.imp (fun h hh => h (Option.some.inj hh)))), ← h3, hel, List.map_map]
  apply List.map_congr_left
  intro f hf
  exact factOf_write hv hf

theorem dim_aspect {d : StatedDim} {c : Characteristic} (h : d.meaning re = some c) : ':' ∈ c.aspect.name.toList := by
  have key : ∀ q : QName, ':' ∈ q.prefixLocal.toList := by intro q; simp [QName.prefixLocal]
  cases d with
  | explicit a m =>
    simp only [StatedDim.meaning, bind, Option.bind_eq_some_iff] at h
    obtain ⟨_, _, _, _, h⟩ := h
    cases h
    exact key a
  | typed a t v =>
    simp only [StatedDim.meaning, Option.map_eq_some_iff] at h
    obtain ⟨_, _, h⟩ := h
    subst h
    exact key a

theorem find?_dims (dims : List StatedDim) (n : String) (hn : ':' ∉ n.toList) : (dims.filterMap (StatedDim.meaning re)).find? (fun c => c.aspect.name = n) = none := by
  rw [List.find?_eq_none]
  intro c hc hh
  obtain ⟨d, _, hd⟩ := List.mem_filterMap.1 hc
  exact hn ((of_decide_eq_true hh) ▸ dim_aspect hd)

/-- C97. What the user finds in a fact that was read back: the id and the value stated, the concept of the taxonomy, the stated unit or none, and the period, the
entity and the dimensions of the context with the stated id; the first statement of a dimension counts. There is nothing else. -/
theorem C97_fact {data : ReportElement → Concept} {i : Instance} {f : StatedFact} {g : Fact} (h : i.fact data dateOf re f = some g) :
    g.id = some f.id ∧ g.value = f.value ∧
    (∃ e, elementOf re .concept f.concept = some e ∧ g.context.getCharacteristic .concept = some (.ofConcept (conceptFor data e))) ∧
    (f.unit = none → g.context.getCharacteristic .unit = none) ∧
    (∀ u, f.unit = some u → ∃ x ∈ i.units, x.id = u ∧ g.context.getCharacteristic .unit = some (.ofUnit u [x.measure] x.per.toList)) ∧
    ∃ c p, i.contexts.find? (fun c => c.id = f.context) = some c ∧ c.period.meaning dateOf = some p ∧ g.context.id = f.context ∧
      g.context.getCharacteristic .period = some (.ofPeriod p) ∧ g.context.getCharacteristic .entity = some (.ofEntity c.identifier c.scheme) ∧
      ∀ a : Aspect, a.name ∉ ["concept", "unit", "period", "entity"] →
        g.context.getCharacteristic a = (c.dims.filterMap (StatedDim.meaning re)).find? (fun x => x.aspect.name = a.name) := by
  unfold Instance.fact at h
  simp only [bind, Option.bind_eq_some_iff] at h
  obtain ⟨e, he, us, hus, c, hc, p, hp, hg⟩ := h
  cases hg
  have hcid : c.id = f.context := by simpa using List.find?_some hc
  have huu : (f.unit = none ∧ us = []) ∨ ∃ u x, f.unit = some u ∧ x ∈ i.units ∧ x.id = u ∧ us = [.ofUnit u [x.measure] x.per.toList] := by
    cases hf : f.unit with
    | none => rw [hf] at hus; cases hus; exact Or.inl ⟨rfl, rfl⟩
    | some u =>
      rw [hf] at hus
      simp only [Instance.unitsFor, Option.map_eq_some_iff] at hus
      obtain ⟨x, hx, rfl⟩ := hus
      exact Or.inr ⟨u, x, rfl, List.mem_of_find?_eq_some hx, by simpa using List.find?_some hx, rfl⟩
  refine ⟨rfl, rfl, ⟨e, he, ?_⟩, ?_, ?_, c, p, hc, hp, ?_, ?_, ?_, ?_⟩
  · dsimp only; rw [C01_first_characteristic_wins]; rfl
  · intro hn
    rcases huu with ⟨_, rfl⟩ | ⟨u, x, h, _⟩
    · dsimp only
      rw [C01_first_characteristic_wins]
      exact find?_dims c.dims "unit" (by decide)
    · rw [hn] at h; cases h
  · intro u hu
    rcases huu with ⟨h, _⟩ | ⟨u', x, h, hx, hxi, rfl⟩
    · rw [hu] at h; cases h
    · rw [hu] at h
      cases h
      refine ⟨x, hx, hxi, ?_⟩
      dsimp only; rw [C01_first_characteristic_wins]; rfl
  · exact (foldl_add_id _ _).trans hcid
  · dsimp only
    rw [C01_first_characteristic_wins]
    rcases huu with ⟨_, rfl⟩ | ⟨u, x, _, _, _, rfl⟩ <;> rfl
  · dsimp only
    rw [C01_first_characteristic_wins]
    rcases huu with ⟨_, rfl⟩ | ⟨u, x, _, _, _, rfl⟩ <;> rfl
  · intro a ha
    simp only [List.mem_cons, List.not_mem_nil, or_false, not_or] at ha
    have h1 : ¬ (Characteristic.ofConcept (conceptFor data e)).aspect.name = a.name := fun hh => ha.1 hh.symm
    have h2 : ¬ (Characteristic.ofPeriod p).aspect.name = a.name := fun hh => ha.2.2.1 hh.symm
    have h3 : ¬ (Characteristic.ofEntity c.identifier c.scheme).aspect.name = a.name := fun hh => ha.2.2.2 hh.symm
    dsimp only
    rw [C01_first_characteristic_wins]
    rcases huu with ⟨_, rfl⟩ | ⟨u, x, _, _, _, rfl⟩
    · simp [List.find?_cons, h1, h2, h3]
    · have h4 : ¬ (Characteristic.ofUnit u [x.measure] x.per.toList).aspect.name = a.name := fun hh => ha.2.1 hh.symm
      simp [List.find?_cons, h1, h2, h3, h4]

/-! ### An instance with two contexts, two units and three facts -/

/-- A concept that must have a value, one that may lack it, two dimensions and a member. -/
def bookElems : List ReportElement := [
  { kind := .concept, name := ⟨"u", "p", "Assets"⟩, tag := 0 }, { kind := .concept, name := ⟨"u", "p", "Note"⟩, tag := 1 },
  { kind := .dimension, name := ⟨"u", "p", "Axis"⟩, tag := 2 }, { kind := .member, name := ⟨"u", "p", "M"⟩, tag := 3 }, { kind := .dimension, name := ⟨"u", "p", "Day"⟩, tag := 4 }]

/-- Only notes may lack a value. -/
def bookData (e : ReportElement) : Concept := { name := e.name, nillable := e.name.localName = "Note" }

/-- A duration with two dimensions and an instant, Euros and Euros per share, and facts with either and without a unit. -/
def book : Instance where
  ns := [(none, "http://www.xbrl.org/2003/instance"), (some "p", "u"), (some "iso", "w")]
  contexts := [
    { id := "c1", scheme := "lei", identifier := "X1", period := .between "2020-01-01" "2020-12-31", dims := [.explicit ⟨"u", "p", "Axis"⟩ ⟨"u", "p", "M"⟩, .typed ⟨"u", "p", "Day"⟩ "{u}day" "7"] },
    { id := "c2", scheme := "lei", identifier := "X1", period := .at "2020-12-31", dims := [] }]
  units := [{ id := "EUR", measure := ⟨"w", "iso", "EUR"⟩, per := none }, { id := "EPS", measure := ⟨"w", "iso", "EUR"⟩, per := some ⟨"u", "p", "shares"⟩ }]
  facts := [
    { id := "f1", concept := ⟨"u", "p", "Assets"⟩, context := "c1", unit := some "EUR", value := "100" },
    { id := "f2", concept := ⟨"u", "p", "Assets"⟩, context := "c2", unit := some "EPS", value := "3" },
    { id := "f3", concept := ⟨"u", "p", "Note"⟩, context := "c1", unit := none, value := "" }]

theorem book_valid : book.Valid bookData sampleDates (ElemStore.run bookElems) := by
  have hw : ∀ q ∈ [(⟨"u", "p", "Axis"⟩ : QName), ⟨"u", "p", "M"⟩, ⟨"u", "p", "Day"⟩, ⟨"w", "iso", "EUR"⟩, ⟨"u", "p", "shares"⟩], Writable book.ns q ∧ ' ' ∉ q.prefixLocal.toList := by
    intro q hq
    simp only [List.mem_cons, List.not_mem_nil, or_false] at hq
    rcases hq with rfl | rfl | rfl | rfl | rfl <;> exact ⟨⟨by decide, by decide, by decide⟩, by decide⟩
  refine ⟨?_, ?_, ?_, ?_, ?_, ?_, ?_, ?_, ?_⟩
  · intro c hc
    simp only [book, List.mem_cons, List.not_mem_nil, or_false] at hc
    rcases hc with rfl | rfl <;> exact ⟨by decide, by decide⟩
  · intro c hc c' hc' _
    simp only [book, List.mem_cons, List.not_mem_nil, or_false] at hc hc'
    rcases hc with rfl | rfl <;> rcases hc' with rfl | rfl <;> rfl
  · intro c hc d hd
    simp only [book, List.mem_cons, List.not_mem_nil, or_false] at hc
    rcases hc with rfl | rfl <;> simp only [List.mem_cons, List.not_mem_nil, or_false] at hd
    rcases hd with rfl | rfl
    · refine ⟨by decide, ?_⟩
      intro q hq
      simp only [StatedDim.names, List.mem_cons, List.not_mem_nil, or_false] at hq
      rcases hq with rfl | rfl <;> exact hw _ (by simp)
    · refine ⟨by decide, ?_⟩
      intro q hq
      simp only [StatedDim.names, List.mem_cons, List.not_mem_nil, or_false] at hq
      subst hq
      exact hw _ (by simp)
  · intro u hu
    simp only [book, List.mem_cons, List.not_mem_nil, or_false] at hu
    rcases hu with rfl | rfl
    · exact ⟨(hw _ (by simp)).1, by intro q hq; cases hq⟩
    · exact ⟨(hw _ (by simp)).1, by intro q hq; cases hq; exact (hw _ (by simp)).1⟩
  · decide
  · decide
  · have hl : LastPrefixOf book.ns (some "p") "u" := ⟨[(none, "http://www.xbrl.org/2003/instance")], [(some "iso", "w")], rfl, by decide⟩
    intro f hf
    simp only [book, List.mem_cons, List.not_mem_nil, or_false] at hf
    rcases hf with rfl | rfl | rfl
    · exact ⟨_, rfl, ⟨by decide, by decide, by decide, by decide⟩, by decide, hl, Or.inl (by decide)⟩
    · exact ⟨_, rfl, ⟨by decide, by decide, by decide, by decide⟩, by decide, hl, Or.inl (by decide)⟩
    · exact ⟨_, rfl, ⟨by decide, by decide, by decide, by decide⟩, by decide, hl, Or.inr (by decide)⟩
  · intro f hf
    simp only [book, List.mem_cons, List.not_mem_nil, or_false] at hf
    rcases hf with rfl | rfl | rfl <;> first | exact ⟨_, List.mem_cons_self, rfl⟩ | exact ⟨_, List.mem_cons_of_mem _ List.mem_cons_self, rfl⟩
  · intro f hf u hu
    simp only [book, List.mem_cons, List.not_mem_nil, or_false] at hf
    rcases hf with rfl | rfl | rfl <;> cases hu <;> first | exact ⟨_, List.mem_cons_self, rfl⟩ | exact ⟨_, List.mem_cons_of_mem _ List.mem_cons_self, rfl⟩

example : ∃ s', parseFactsXml bookData sampleDates (ElemStore.run bookElems) [book.write] {} = .ok s' ∧ s'.ps.errs = [] ∧
    s'.facts.getAll.map some = book.facts.map (book.fact bookData sampleDates (ElemStore.run bookElems)) := C97_roundtrip _ _ _ _ book_valid

example : ∃ s', parseFactsXml bookData sampleDates (ElemStore.run bookElems) [book.write] {} = .ok s' ∧ s'.facts.getAll.map (fun f => (f.id, f.value)) =
    [(some "f1", "100"), (some "f2", "3"), (some "f3", "")] := by
  obtain ⟨s', h, _, hf⟩ := C97_roundtrip _ _ _ _ book_valid
  refine ⟨s', h, ?_⟩
  have : (s'.facts.getAll.map some).map (fun o : Option Fact => o.map (fun f => (f.id, f.value))) = [some (some "f1", "100"), some (some "f2", "3"), some (some "f3", "")] := by
    rw [hf]; decide +kernel
  rw [List.map_map] at this
  have h2 : (s'.facts.getAll.map (fun f => (f.id, f.value))).map some = [(some "f1", "100"), (some "f2", "3"), (some "f3", "")].map some := by
    rw [List.map_map]; exact this
  exact (List.map_inj_right (fun a b h => Option.some.inj h)).1 h2

/-- The fact elements of the written document meet the hypotheses of `C96_accepted_partial`. -/
example : ∀ p ∈ elementsOf [book.write], ValidFact bookData sampleDates (ElemStore.run bookElems) p.1 p.2 := by
  intro p hp
  obtain ⟨r, hr, hp⟩ := List.mem_flatMap.1 hp
  rw [List.mem_singleton.1 hr, factElements_write] at hp
  simp only [List.map_map, List.mem_map] at hp
  obtain ⟨f, hf, rfl⟩ := hp
  exact validFact_write book_valid hf

end Brel
