import Verif.Lemmas.XmlContext
import Verif.Props.Context

/-! C38, C39, C40, C47, C80, C81: contexts, their entities, periods and dimensions, and units, parsed from XML. -/

namespace Brel
open Spec

/-! ## Sample elements -/

/-- An element without attributes. -/
def xel (tag : String) (text : Option String) (children : List XNode) : XNode := .mk (some tag) [] text [] children

/-- `<context id="id">` with the given period and entity. -/
def xcontext (id : String) (period entity : XNode) : XNode := .mk (some "{http://www.xbrl.org/2003/instance}context") [("id", id)] none [] [entity, period]

/-- `<entity>` with identifier, scheme and segment. -/
def xentity (id : Option String) (scheme : String) (segment : List XNode) : XNode :=
  xel "entity" none [.mk (some "identifier") [("scheme", scheme)] id [] [], xel "segment" none segment]

/-- `<period><instant>…` -/
def xinstant (d : String) : XNode := xel "period" none [xel "instant" (some d) []]
/-- `<period><startDate>…<endDate>…` -/
def xduration (a b : String) : XNode := xel "period" none [xel "startDate" (some a) [], xel "endDate" (some b) []]

/-- A reader of three dates. -/
def sampleDates (s : String) : Option Date :=
  if s = "2020-01-01" then some ⟨2020, 1, 1⟩ else if s = "2020-12-31" then some ⟨2020, 12, 31⟩ else none

/-- `<explicitMember dimension="axis">member</explicitMember>` with the prefix `p` bound to `uri`. -/
def xexplicit (uri axis member : String) : XNode := .mk (some "{http://xbrl.org/2006/xbrldi}explicitMember") [("dimension", axis)] (some member) [(some "p", uri)] []

/-- A dimension and a member in each of two namespaces, `u` and `v`. -/
def sampleElems : ElemStore := ElemStore.run [
  { kind := .dimension, name := ⟨"u", "p", "Axis"⟩, tag := 0 }, { kind := .member, name := ⟨"u", "p", "M"⟩, tag := 1 },
  { kind := .dimension, name := ⟨"v", "p", "Axis"⟩, tag := 2 }, { kind := .member, name := ⟨"v", "p", "M"⟩, tag := 3 }]

/-! ## C39 -/

theorem C39_none_iff {dateOf : String → Option Date} {re : ElemStore} {x : XNode} {given : List Characteristic} {s s' : ParseState} {r : Option Context}
    (h : parseContext dateOf re x given s = .ok (r, s')) :
    (r = none ↔ x.find "period" = none ∨ x.find "entity" = none) ∧
    (r = none → ∃ e, e ∈ ["MISSING_CONTEXT_PERIOD", "MISSING_CONTEXT_ENTITY"] ∧ s'.errs = s.errs ++ [e]) := by
  unfold parseContext at h
  simp only [bind, Except.bind, pure, Except.pure] at h
  cases hi : x.attr "id" with
  | error e => rw [hi] at h; cases h
  | ok i =>
    rw [hi] at h
    cases hp : x.find "period" with
    | none => rw [hp] at h; cases h; exact ⟨by simp, fun _ => ⟨_, by simp, rfl⟩⟩
    | some p =>
      cases he : x.find "entity" with
      | none => rw [hp, he] at h; cases h; exact ⟨by simp, fun _ => ⟨_, by simp, rfl⟩⟩
      | some e =>
        rw [hp, he] at h
        dsimp only at h
        split at h
        · cases h
        · split at h
          · cases h
          · split at h
            · cases h
            · cases h; exact ⟨by simp, by intro h; cases h⟩

theorem mem_contextEntries {dateOf : String → Option Date} {re : ElemStore} {x : XNode} {e : Entry} (h : e ∈ contextEntries dateOf re x) :
    ∃ p en, partsOf x = some (p, en) ∧ (periodEntry dateOf p = some e ∨ entityEntry en = some e ∨ ∃ m ∈ segmentOf en, dimensionEntry re m = some e) := by
  unfold contextEntries at h
  cases hp : partsOf x with
  | none => rw [hp] at h; cases h
  | some pe =>
    obtain ⟨p, en⟩ := pe
    rw [hp] at h
    refine ⟨p, en, rfl, ?_⟩
    simp only [List.mem_append, Option.mem_toList, List.mem_filterMap, Option.mem_def, or_assoc] at h
    exact h

theorem periodEntry_cases {dateOf : String → Option Date} {p : XNode} {e : Entry} (hp : ∀ c ∈ p.children, ∀ t, c.text = some t → ' ' ∉ t.toList)
    (h : periodEntry dateOf p = some e) :
    (∃ t d, Plain t ∧ dateOf t = some d ∧ e = ((t, .period), .ofPeriod (.instant d))) ∨
    (∃ a b da db, Plain a ∧ Plain b ∧ dateOf a = some da ∧ dateOf b = some db ∧ e = ((durationKey a b, .period), .ofPeriod (.duration da db))) := by
  unfold periodEntry at h
  cases hi : p.find "instant" with
  | some i =>
    rw [hi] at h
    dsimp only at h
    cases hd : dateIn dateOf i with
    | none => rw [hd] at h; cases h
    | some d =>
      rw [hd] at h
      obtain ⟨t, ht, _, htd⟩ := dateIn_some hd
      rw [ht] at h
      cases h
      exact Or.inl ⟨t, d, hp i (find_mem hi) t ht, htd, rfl⟩
  | none =>
    rw [hi] at h
    simp only [bind, Option.bind] at h
    cases ha : p.find "startDate" with
    | none => rw [ha] at h; cases h
    | some a =>
      cases hb : p.find "endDate" with
      | none => rw [ha, hb] at h; cases h
      | some b =>
        rw [ha, hb] at h
        dsimp only at h
        cases hda : dateIn dateOf a with
        | none => rw [hda] at h; cases h
        | some da =>
          cases hdb : dateIn dateOf b with
          | none => rw [hda, hdb] at h; cases h
          | some db =>
            rw [hda, hdb] at h
            dsimp only at h
            obtain ⟨t, ht, _, htd⟩ := dateIn_some hda
            obtain ⟨u, hu, _, hud⟩ := dateIn_some hdb
            rw [ht, hu] at h
            split at h
            · cases h
              exact Or.inr ⟨t, u, da, db, hp a (find_mem ha) t ht, hp b (find_mem hb) u hu, htd, hud, rfl⟩
            · cases h

theorem entityEntry_cases {en : XNode} {e : Entry} (h : entityEntry en = some e) : ∃ i s, entityOf en = some (i, s) ∧ e = ((i, .entity), .ofEntity i s) := by
  unfold entityEntry at h
  cases he : entityOf en with
  | none => rw [he] at h; cases h
  | some p => rw [he] at h; cases h; exact ⟨p.1, p.2, rfl, rfl⟩

theorem explicitOf_axis {re : ElemStore} {m : XNode} {c : Characteristic} (h : explicitOf re m = some c) :
    ∃ a t, m.attr? "dimension" = some a ∧ m.text = some t := by
  unfold explicitOf at h
  simp only [bind, Option.bind_eq_some_iff] at h
  obtain ⟨a, ha, q, _, dim, _, t, ht, _⟩ := h
  exact ⟨a, t, ha, ht⟩

theorem typedOf_axis {re : ElemStore} {m : XNode} {c : Characteristic} (h : typedOf re m = some c) :
    ∃ a t, m.attr? "dimension" = some a ∧ m.children.head?.bind (·.text) = some t := by
  unfold typedOf at h
  simp only [bind, Option.bind_eq_some_iff] at h
  obtain ⟨a, ha, q, _, dim, _, v, hv, t, ht, _⟩ := h
  exact ⟨a, t, ha, by rw [hv]; exact ht⟩

theorem dimensionEntry_cases {re : ElemStore} {m : XNode} {e : Entry} (h : dimensionEntry re m = some e) :
    (∃ a t c, m.attr? "dimension" = some a ∧ m.text = some t ∧ explicitOf re m = some c ∧ e = ((dimensionKey a t, .explicit), c)) ∨
    (∃ a t c, m.attr? "dimension" = some a ∧ m.children.head?.bind (·.text) = some t ∧ typedOf re m = some c ∧ e = ((dimensionKey a t, .typed), c)) := by
  unfold dimensionEntry at h
  cases ht : m.tag with
  | none => rw [ht] at h; cases h
  | some t =>
    rw [ht] at h
    simp only [Option.bind] at h
    split at h
    · unfold explicitEntry at h
      cases hc : explicitOf re m with
      | none => rw [hc] at h; cases h
      | some c =>
        obtain ⟨a, u, h1, h2⟩ := explicitOf_axis hc
        rw [hc, h1, h2] at h
        cases h
        exact Or.inl ⟨a, u, c, h1, h2, rfl, rfl⟩
    · split at h
      · unfold typedEntry at h
        cases hc : typedOf re m with
        | none => rw [hc] at h; cases h
        | some c =>
          obtain ⟨a, u, h1, h2⟩ := typedOf_axis hc
          rw [hc, h1, h2] at h
          cases h
          exact Or.inr ⟨a, u, c, h1, h2, rfl, rfl⟩
      · cases h

theorem entries_consistent {dateOf : String → Option Date} {re : ElemStore} {xs : List XNode} (hu : Unambiguous re xs) {e e' : Entry}
    (he : e ∈ allEntries dateOf re xs) (he' : e' ∈ allEntries dateOf re xs) (hk : e.1 = e'.1) : e.2 = e'.2 := by
  obtain ⟨x, hx, he⟩ := List.mem_flatMap.1 he
  obtain ⟨y, hy, he'⟩ := List.mem_flatMap.1 he'
  obtain ⟨p, en, hpx, hc⟩ := mem_contextEntries he
  obtain ⟨p', en', hpy, hc'⟩ := mem_contextEntries he'
  have kd : ∀ {w : XNode} {q n : XNode} {f : Entry}, w ∈ xs → partsOf w = some (q, n) → periodEntry dateOf q = some f →
      (∃ t d, Plain t ∧ dateOf t = some d ∧ f = ((t, .period), .ofPeriod (.instant d))) ∨
      (∃ a b da db, Plain a ∧ Plain b ∧ dateOf a = some da ∧ dateOf b = some db ∧ f = ((durationKey a b, .period), .ofPeriod (.duration da db))) := by
    intro w q n f hw hq hf
    exact periodEntry_cases (hu.dates w hw q n hq) hf
  have km : ∀ {w q n m : XNode}, w ∈ xs → partsOf w = some (q, n) → m ∈ segmentOf n → m ∈ membersOf xs := by
    intro w q n m hw hq hm
    refine List.mem_flatMap.2 ⟨w, hw, ?_⟩
    rw [hq]; exact hm
  have ke : ∀ {w q n : XNode} {i : String × String}, w ∈ xs → partsOf w = some (q, n) → entityOf n = some i → i ∈ entitiesOf xs := by
    intro w q n i hw hq hm
    refine List.mem_filterMap.2 ⟨w, hw, ?_⟩
    rw [hq]; exact hm
  rcases hc with hc | hc | ⟨m, hm, hc⟩
  · rcases kd hx hpx hc with ⟨t, d, h1, h2, rfl⟩ | ⟨a, b, da, db, h1, h2, h3, h4, rfl⟩
    · rcases hc' with hc' | hc' | ⟨m', hm', hc'⟩
      · rcases kd hy hpy hc' with ⟨t', d', h1', h2', rfl⟩ | ⟨a', b', da', db', h1', h2', h3', h4', rfl⟩
        · have : t = t' := congrArg Prod.fst hk
          subst this
          rw [h2] at h2'; cases h2'; rfl
        · have e0 : t = durationKey a' b' := congrArg Prod.fst hk
          rw [e0] at h1
          exact absurd h1 (durationKey_not_plain a' b')
      · obtain ⟨_, _, _, rfl⟩ := entityEntry_cases hc'
        exact absurd (congrArg Prod.snd hk) (by intro hh; cases hh)
      · rcases dimensionEntry_cases hc' with ⟨_, _, _, _, _, _, rfl⟩ | ⟨_, _, _, _, _, _, rfl⟩ <;> exact absurd (congrArg Prod.snd hk) (by intro hh; cases hh)
    · rcases hc' with hc' | hc' | ⟨m', hm', hc'⟩
      · rcases kd hy hpy hc' with ⟨t', d', h1', h2', rfl⟩ | ⟨a', b', da', db', h1', h2', h3', h4', rfl⟩
        · have e0 : durationKey a b = t' := congrArg Prod.fst hk
          rw [← e0] at h1'
          exact absurd h1' (durationKey_not_plain a b)
        · obtain ⟨r1, r2⟩ := durationKey_inj h1 h1' (congrArg Prod.fst hk)
          subst r1; subst r2
          rw [h3] at h3'; rw [h4] at h4'
          cases h3'; cases h4'; rfl
      · obtain ⟨_, _, _, rfl⟩ := entityEntry_cases hc'
        exact absurd (congrArg Prod.snd hk) (by intro hh; cases hh)
      · rcases dimensionEntry_cases hc' with ⟨_, _, _, _, _, _, rfl⟩ | ⟨_, _, _, _, _, _, rfl⟩ <;> exact absurd (congrArg Prod.snd hk) (by intro hh; cases hh)
  · obtain ⟨i, sc, hi, rfl⟩ := entityEntry_cases hc
    rcases hc' with hc' | hc' | ⟨m', hm', hc'⟩
    · rcases kd hy hpy hc' with ⟨t', d', h1', h2', rfl⟩ | ⟨a', b', da', db', h1', h2', h3', h4', rfl⟩ <;> exact absurd (congrArg Prod.snd hk) (by intro hh; cases hh)
    · obtain ⟨i', sc', hi', rfl⟩ := entityEntry_cases hc'
      have e1 : i = i' := congrArg Prod.fst hk
      have e2 := hu.entities _ (ke hx hpx hi) _ (ke hy hpy hi') e1
      dsimp only at e2
      subst e1; subst e2; rfl
    · rcases dimensionEntry_cases hc' with ⟨_, _, _, _, _, _, rfl⟩ | ⟨_, _, _, _, _, _, rfl⟩ <;> exact absurd (congrArg Prod.snd hk) (by intro hh; cases hh)
  · have hm1 := km hx hpx hm
    rcases hc' with hc' | hc' | ⟨m', hm', hc'⟩
    · rcases kd hy hpy hc' with ⟨t', d', h1', h2', rfl⟩ | ⟨a', b', da', db', h1', h2', h3', h4', rfl⟩ <;>
        rcases dimensionEntry_cases hc with ⟨_, _, _, _, _, _, rfl⟩ | ⟨_, _, _, _, _, _, rfl⟩ <;> exact absurd (congrArg Prod.snd hk) (by intro hh; cases hh)
    · obtain ⟨_, _, _, rfl⟩ := entityEntry_cases hc'
      rcases dimensionEntry_cases hc with ⟨_, _, _, _, _, _, rfl⟩ | ⟨_, _, _, _, _, _, rfl⟩ <;> exact absurd (congrArg Prod.snd hk) (by intro hh; cases hh)
    · have hm2 := km hy hpy hm'
      rcases dimensionEntry_cases hc with ⟨a, t, c, ha, ht, hv, rfl⟩ | ⟨a, t, c, ha, ht, hv, rfl⟩ <;>
        rcases dimensionEntry_cases hc' with ⟨a', t', c', ha', ht', hv', rfl⟩ | ⟨a', t', c', ha', ht', hv', rfl⟩
      · obtain ⟨e1, e2⟩ := dimensionKey_inj (hu.axes m hm1 a ha) (hu.axes m' hm2 a' ha') (congrArg Prod.fst hk)
        subst e1; subst e2
        have := hu.explicit m hm1 m' hm2 (ha.trans ha'.symm) (ht.trans ht'.symm) (by rw [hv]; rfl) (by rw [hv']; rfl)
        rw [hv, hv'] at this
        exact Option.some.inj this
      · exact absurd (congrArg Prod.snd hk) (by intro hh; cases hh)
      · exact absurd (congrArg Prod.snd hk) (by intro hh; cases hh)
      · obtain ⟨e1, e2⟩ := dimensionKey_inj (hu.axes m hm1 a ha) (hu.axes m' hm2 a' ha') (congrArg Prod.fst hk)
        subst e1; subst e2
        have := hu.typed m hm1 m' hm2 (ha.trans ha'.symm) (ht.trans ht'.symm) (by rw [hv]; rfl) (by rw [hv']; rfl)
        rw [hv, hv'] at this
        exact Option.some.inj this

theorem entry_parsed {dateOf : String → Option Date} {re : ElemStore} {x : XNode} (hpl : PlainDates x) {e : Entry} (he : e ∈ contextEntries dateOf re x) :
    CharKind.parsed e.1.2 := by
  obtain ⟨p, en, hpx, hc⟩ := mem_contextEntries he
  rcases hc with hc | hc | ⟨m, hm, hc⟩
  · rcases periodEntry_cases (hpl p en hpx) hc with ⟨_, _, _, _, rfl⟩ | ⟨_, _, _, _, _, _, _, _, rfl⟩ <;> exact ⟨(by intro hh; cases hh), (by intro hh; cases hh)⟩
  · obtain ⟨_, _, _, rfl⟩ := entityEntry_cases hc; exact ⟨(by intro hh; cases hh), (by intro hh; cases hh)⟩
  · rcases dimensionEntry_cases hc with ⟨_, _, _, _, _, _, rfl⟩ | ⟨_, _, _, _, _, _, rfl⟩ <;> exact ⟨(by intro hh; cases hh), (by intro hh; cases hh)⟩

/-- After a history and a further context, the store holds for each key of a context the first entry with that key. -/
theorem store_after {dateOf : String → Option Date} {re : ElemStore} {ops : List CtxOp} {s s' : ParseState} {x : XNode} {given : List Characteristic} {r : Option Context}
    (hr : runOps dateOf re ops = .ok s) (hpl : ∀ y ∈ contextsOf ops ++ [x], PlainDates y) (h : parseContext dateOf re x given s = .ok (r, s')) :
    ParseInv dateOf s' ∧ (∀ k, CharKind.parsed k.2 → s'.chars.get? k = Dict.get? (allEntries dateOf re (contextsOf ops ++ [x])) k) ∧
    (∀ p e, partsOf x = some (p, e) → ∃ id, x.attr? "id" = some id ∧
      r = some ((given ++ resolve s' (contextEntries dateOf re x)).foldl Context.add (Context.new id))) := by
  obtain ⟨inv, hs⟩ := runOps_spec (fun y hy => hpl y (by simp [hy])) hr
  obtain ⟨inv', hg, hctx⟩ := parseContext_spec inv (hpl x (by simp)) h
  refine ⟨inv', ?_, fun p e hp => ?_⟩
  · intro k hk
    rw [hg k, hs k hk]
    unfold allEntries
    rw [List.flatMap_append]
    unfold Dict.get?
    rw [List.find?_append]
    simp only [List.flatMap_cons, List.flatMap_nil, List.append_nil]
    cases List.find? (fun e => decide (e.1 = k)) ((contextsOf ops).flatMap (contextEntries dateOf re)) <;> simp
  · obtain ⟨id, h1, h2, _⟩ := hctx p e hp
    exact ⟨id, h1, h2⟩

/-- C39, the part that holds: in a filing whose texts have one meaning each, the context parsed from an element after any history has exactly the given
characteristics and those the element states: its period, its entity and every dimension of its segment that names known elements. -/
theorem C39_content_partial {dateOf : String → Option Date} {re : ElemStore} {ops : List CtxOp} {s s' : ParseState} {x : XNode} {given : List Characteristic} {ctx : Context}
    (hr : runOps dateOf re ops = .ok s) (hu : Unambiguous re (contextsOf ops ++ [x])) (h : parseContext dateOf re x given s = .ok (some ctx, s')) :
    ∃ id, x.attr? "id" = some id ∧ ctx = (given ++ statedBy dateOf re x).foldl Context.add (Context.new id) := by
  obtain ⟨_, hst, hctx⟩ := store_after hr hu.dates h
  cases hp : partsOf x with
  | none => have := (parseContext_none hp h).1; cases this
  | some pe =>
    obtain ⟨p, e⟩ := pe
    obtain ⟨id, hid, hc⟩ := hctx p e hp
    refine ⟨id, hid, ?_⟩
    rw [Option.some.inj hc]
    congr 2
    rw [← contextEntries_values]
    unfold resolve
    rw [← List.filterMap_eq_map]
    apply filterMap_congr'
    intro en hen
    rw [hst _ (entry_parsed (hu.dates x (by simp)) hen)]
    have hmem : en ∈ allEntries dateOf re (contextsOf ops ++ [x]) := List.mem_flatMap.2 ⟨x, by simp, hen⟩
    cases hf : Dict.get? (allEntries dateOf re (contextsOf ops ++ [x])) en.1 with
    | none => exact absurd (List.mem_map_of_mem hmem) ((Dict.get?_eq_none_iff _ _).1 hf)
    | some v =>
      have hv := Dict.mem_get? _ hf
      have := entries_consistent hu hmem hv rfl
      simp only [Function.comp_apply]
      rw [this]


/-- A filing of two contexts with a dimension each meets the hypotheses. -/
def sampleContext : XNode := xcontext "c1" (xduration "2020-01-01" "2020-12-31") (xentity (some "1") "lei" [xexplicit "u" "p:Axis" "p:M"])

theorem sampleContext_plain : PlainDates sampleContext := by
  intro p e hp
  have : p = xduration "2020-01-01" "2020-12-31" := by
    have h : partsOf sampleContext = some (xduration "2020-01-01" "2020-12-31", xentity (some "1") "lei" [xexplicit "u" "p:Axis" "p:M"]) := by rfl
    rw [h] at hp; cases hp; rfl
  subst this
  intro c hc t ht
  simp only [xduration, xel, XNode.children, List.mem_cons, List.not_mem_nil, or_false] at hc
  rcases hc with rfl | rfl <;> (cases ht; decide)

theorem unambiguous_same (re : ElemStore) (x : XNode) (p e m : XNode) (hp : partsOf x = some (p, e)) (hs : segmentOf e = [m]) (hd : PlainDates x)
    (ha : ∀ a, m.attr? "dimension" = some a → ' ' ∉ a.toList) : Unambiguous re ([x] ++ [x]) := by
  have hx : ∀ y ∈ [x] ++ [x], y = x := by intro y hy; simpa using hy
  have hm : ∀ y ∈ membersOf ([x] ++ [x]), y = m := by
    intro y hy
    obtain ⟨z, hz, hy⟩ := List.mem_flatMap.1 hy
    rw [hx z hz, hp] at hy
    dsimp only at hy
    rw [hs] at hy
    simpa using hy
  refine ⟨fun y hy => hx y hy ▸ hd, ?_, fun y hy => hm y hy ▸ ha, ?_, ?_⟩
  · intro a hA b hB _
    obtain ⟨z, hz, hA⟩ := List.mem_filterMap.1 hA
    obtain ⟨w, hw, hB⟩ := List.mem_filterMap.1 hB
    rw [hx z hz] at hA; rw [hx w hw] at hB
    rw [hA] at hB; cases hB; rfl
  · intro a hA b hB _ _ _ _; rw [hm a hA, hm b hB]
  · intro a hA b hB _ _ _ _; rw [hm a hA, hm b hB]

example : Unambiguous sampleElems (contextsOf [.context sampleContext []] ++ [sampleContext]) :=
  unambiguous_same _ _ _ _ (xexplicit "u" "p:Axis" "p:M") rfl rfl sampleContext_plain (by intro a h; cases h; decide)

example : ∃ s, runOps sampleDates sampleElems [.context sampleContext []] = .ok s ∧ ∃ ctx s', parseContext sampleDates sampleElems sampleContext [] s = .ok (some ctx, s') ∧
    ctx.aspects.map (·.name) = ["entity", "p:Axis", "period"] ∧ s'.errs = [] := by
  refine ⟨_, by rfl, _, _, by rfl, by decide +kernel, by decide +kernel⟩

/-- The lookups of a context that has some given characteristics and those a context element states. -/
theorem lookup_stated {dateOf : String → Option Date} {re : ElemStore} {x p e : XNode} {given : List Characteristic} (id : String)
    (hx : x.find "period" = some p) (hy : x.find "entity" = some e)
    (hg : ∀ c ∈ given, c.aspect.name = "concept" ∨ c.aspect.name = "unit") :
    (∀ q, periodOf dateOf p = some q → ((given ++ statedBy dateOf re x).foldl Context.add (Context.new id)).getCharacteristic .period = some (.ofPeriod q)) ∧
    (∀ i sc, entityOf e = some (i, sc) → ((given ++ statedBy dateOf re x).foldl Context.add (Context.new id)).getCharacteristic .entity = some (.ofEntity i sc)) ∧
    (∀ a c, a.name ∉ ["concept", "unit", "period", "entity"] → ((segmentOf e).filterMap (dimensionOf re)).find? (fun c => c.aspect.name = a.name) = some c →
      ((given ++ statedBy dateOf re x).foldl Context.add (Context.new id)).getCharacteristic a = some c) := by
  have hst : statedBy dateOf re x = (periodOf dateOf p).toList.map Characteristic.ofPeriod
      ++ (entityOf e).toList.map (fun i => Characteristic.ofEntity i.1 i.2) ++ (segmentOf e).filterMap (dimensionOf re) := by
    unfold statedBy partsOf
    rw [hx, hy]
    rfl
  have hgn : ∀ n, n ≠ "concept" → n ≠ "unit" → given.find? (fun c => decide (c.aspect.name = n)) = none := by
    intro n h1 h2
    rw [List.find?_eq_none]
    intro c hc
    rcases hg c hc with hn | hn <;> rw [hn] <;> simp [Ne.symm h1, Ne.symm h2]
  rw [hst]
  refine ⟨?_, ?_, ?_⟩
  · intro q hq
    rw [C01_first_characteristic_wins, List.find?_append, hgn _ (by decide) (by decide), hq]
    rfl
  · intro i sc hi
    rw [C01_first_characteristic_wins, List.find?_append, hgn _ (by decide) (by decide), hi]
    cases periodOf dateOf p <;> rfl
  · intro a c ha hf
    simp only [List.mem_cons, List.not_mem_nil, or_false, not_or] at ha
    rw [C01_first_characteristic_wins, List.find?_append, hgn _ ha.1 ha.2.1, List.append_assoc, List.find?_append, List.find?_append, hf]
    have h1 : ((periodOf dateOf p).toList.map Characteristic.ofPeriod).find? (fun c => decide (c.aspect.name = a.name)) = none := by
      rw [List.find?_eq_none]
      intro c hc
      obtain ⟨q, _, rfl⟩ := List.mem_map.1 hc
      exact fun hh => ha.2.2.1 (of_decide_eq_true hh).symm
    have h2 : ((entityOf e).toList.map (fun i => Characteristic.ofEntity i.1 i.2)).find? (fun c => decide (c.aspect.name = a.name)) = none := by
      rw [List.find?_eq_none]
      intro c hc
      obtain ⟨q, _, rfl⟩ := List.mem_map.1 hc
      exact fun hh => ha.2.2.2 (of_decide_eq_true hh).symm
    rw [h1, h2]
    rfl

/-- C39: what the lookups of the context answer. -/
theorem C39_lookup_partial {dateOf : String → Option Date} {re : ElemStore} {ops : List CtxOp} {s s' : ParseState} {x p e : XNode} {given : List Characteristic} {ctx : Context}
    (hr : runOps dateOf re ops = .ok s) (hu : Unambiguous re (contextsOf ops ++ [x])) (h : parseContext dateOf re x given s = .ok (some ctx, s'))
    (hx : x.find "period" = some p) (hy : x.find "entity" = some e)
    (hg : ∀ c ∈ given, c.aspect.name = "concept" ∨ c.aspect.name = "unit") :
    (∀ q, periodOf dateOf p = some q → ctx.getCharacteristic .period = some (.ofPeriod q)) ∧
    (∀ i sc, entityOf e = some (i, sc) → ctx.getCharacteristic .entity = some (.ofEntity i sc)) ∧
    (∀ a c, a.name ∉ ["concept", "unit", "period", "entity"] → ((segmentOf e).filterMap (dimensionOf re)).find? (fun c => c.aspect.name = a.name) = some c →
      ctx.getCharacteristic a = some c) := by
  obtain ⟨id, _, hc⟩ := C39_content_partial hr hu h
  rw [hc]
  exact lookup_stated id hx hy hg

/-- C39 fails: an element whose period is `forever` yields a context, without a period. -/
theorem C39_iff_false : ¬ ∀ (dateOf : String → Option Date) (re : ElemStore) (x p e : XNode) (s s' : ParseState) (r : Option Context),
    x.find "period" = some p → x.find "entity" = some e → parseContext dateOf re x [] s = .ok (r, s') →
    (r.isSome ↔ (periodOf dateOf p).isSome ∧ (entityOf e).isSome) := by
  intro h
  have := h sampleDates sampleElems (xcontext "c" (xel "period" none [xel "forever" none []]) (xentity (some "1") "lei" [])) _ _ {} _ _ rfl rfl (by rfl)
  exact absurd this (by decide +kernel)

/-- C39 fails: an entity whose identifier is empty is not reported; the context simply has no entity. -/
theorem C39_reported_false : ¬ ∀ (dateOf : String → Option Date) (re : ElemStore) (x p e : XNode) (s s' : ParseState) (r : Option Context),
    x.find "period" = some p → x.find "entity" = some e → parseContext dateOf re x [] s = .ok (r, s') →
    entityOf e = none → s'.errs ≠ s.errs := by
  intro h
  exact h sampleDates sampleElems (xcontext "c" (xinstant "2020-01-01") (xentity none "lei" [])) _ _ {} _ _ rfl rfl (by rfl) (by decide +kernel) (by decide +kernel)

theorem parseSegment_raises (re : ElemStore) (xs : List XNode) (x : XNode) (hx : x ∈ xs) (hr : ∀ s r, parseDimension re x s ≠ .ok r) :
    ∀ ctx s r, parseSegment re xs ctx s ≠ .ok r := by
  induction xs with
  | nil => cases hx
  | cons y ys ih =>
    intro ctx s r h
    simp only [parseSegment, bind, Except.bind] at h
    cases hd : parseDimension re y s with
    | error e => rw [hd] at h; cases h
    | ok rs =>
      rw [hd] at h
      rcases List.mem_cons.1 hx with rfl | hx
      · exact hr s rs hd
      · exact ih hx _ _ _ h

theorem parseContext_raises {dateOf : String → Option Date} {re : ElemStore} {x p e : XNode} {given : List Characteristic} {s : ParseState} {m : XNode}
    (hx : x.find "period" = some p) (hy : x.find "entity" = some e) (hm : m ∈ segmentOf e) (hr : ∀ s r, parseDimension re m s ≠ .ok r) :
    ∀ r, parseContext dateOf re x given s ≠ .ok r := by
  intro r h
  unfold parseContext at h
  rw [hx, hy] at h
  simp only [bind, Except.bind, pure, Except.pure] at h
  split at h
  · cases h
  · split at h
    · cases h
    · split at h
      · cases h
      · split at h
        · cases h
        · next hs => exact parseSegment_raises re _ m hm hr _ _ _ hs

/-- C39 fails: a comment between the dimensions of a context raises an exception instead of being skipped. -/
theorem C39_comment_false (dateOf : String → Option Date) (re : ElemStore) (x p e c : XNode) (given : List Characteristic) (s : ParseState)
    (hx : x.find "period" = some p) (hy : x.find "entity" = some e) (hm : c ∈ segmentOf e) (hc : c.tag = none) :
    ∀ r, parseContext dateOf re x given s ≠ .ok r := by
  refine parseContext_raises hx hy hm ?_
  intro s r h
  unfold parseDimension XNode.tagHas at h
  rw [hc] at h
  cases h

example : segmentOf (xentity (some "1") "lei" [.mk none [] (some "a comment") [] []]) ≠ [] := by intro h; cases h

/-- C39 fails: a child of a segment that is neither an explicit nor a typed member is not reported; an exception is raised, as the
arguments of the report do not fit its message. -/
theorem C39_kind_false (dateOf : String → Option Date) (re : ElemStore) (x p e m : XNode) (given : List Characteristic) (s : ParseState) (t : String)
    (hx : x.find "period" = some p) (hy : x.find "entity" = some e) (hm : m ∈ segmentOf e) (ht : m.tag = some t)
    (h1 : isInfix "explicitMember".toList t.toList = false) (h2 : isInfix "typedMember".toList t.toList = false) :
    ∀ r, parseContext dateOf re x given s ≠ .ok r := by
  refine parseContext_raises hx hy hm ?_
  intro s r h
  unfold parseDimension XNode.tagHas at h
  simp only [bind, Except.bind, ht, h1, h2, Bool.false_eq_true, if_false] at h
  cases h

example : ∃ m t, m ∈ segmentOf (xentity (some "1") "lei" [.mk (some "{x}note") [] (some "a note") [] []]) ∧ m.tag = some t ∧
    isInfix "explicitMember".toList t.toList = false ∧ isInfix "typedMember".toList t.toList = false :=
  ⟨.mk (some "{x}note") [] (some "a note") [] [], _, List.Mem.head _, rfl, by decide +kernel, by decide +kernel⟩

/-- C39 fails: a typed member of an unknown dimension raises an exception instead of being reported. -/
theorem C39_unknown_typed_false (dateOf : String → Option Date) (re : ElemStore) (x p e m : XNode) (given : List Characteristic) (s : ParseState) (t axis : String)
    (hx : x.find "period" = some p) (hy : x.find "entity" = some e) (hm : m ∈ segmentOf e) (ht : m.tag = some t)
    (h1 : isInfix "explicitMember".toList t.toList = false) (h2 : isInfix "typedMember".toList t.toList = true) (ha : m.attr? "dimension" = some axis)
    (hd : ∀ q, qnameFromStr axis m.ns = .ok q → elementOf re .dimension q = none) :
    ∀ r, parseContext dateOf re x given s ≠ .ok r := by
  refine parseContext_raises hx hy hm ?_
  intro s r h
  unfold parseDimension XNode.tagHas at h
  simp only [bind, Except.bind, ht, h1, h2, if_true, Bool.false_eq_true, if_false] at h
  unfold parseTyped at h
  simp only [bind, Except.bind] at h
  split at h
  · cases h
  · next ax hax =>
    have := attr_ok hax
    rw [ha] at this
    cases this
    split at h
    · cases h
    · obtain ⟨q, hq⟩ := qnameFromStr_total axis m.ns
      rw [hq] at h
      dsimp only at h
      rw [getTyped_eq, hd q hq] at h
      dsimp only at h
      split at h
      · cases h
      · next hh => split at hh <;> cases hh

/-- A parser that adds reports at the end, and adds one whenever it returns nothing. -/
def Reports (f : ParseState → Parsed) : Prop := ∀ s r s', f s = .ok (r, s') → ∃ more, s'.errs = s.errs ++ more ∧ (r = none → more ≠ [])

theorem reports_none (s : ParseState) (e : String) : ∃ more, (s.err e).errs = s.errs ++ more ∧ ((none : Option Characteristic) = none → more ≠ []) :=
  ⟨[e], rfl, by simp⟩

theorem lookup_map {s s' : ParseState} {i : String} {k : CharKind} {r : Option Characteristic}
    (hr : (s.chars.lookup i k).map (fun c => (some c, s)) = .ok (r, s')) : s' = s ∧ r ≠ none := by
  cases hl : s.chars.lookup i k with
  | error e => rw [hl] at hr; cases hr
  | ok c => rw [hl] at hr; cases hr; simp

theorem contextDate_reports (dateOf : String → Option Date) (x : XNode) (s : ParseState) :
    ∃ more, (contextDate dateOf x s).2.errs = s.errs ++ more ∧ ((contextDate dateOf x s).1 = none → more ≠ []) := by
  unfold contextDate
  split
  · next h =>
    refine ⟨[], by simp, ?_⟩
    intro hh
    dsimp only at hh
    rw [hh] at h
    cases h
  · exact ⟨_, rfl, by simp⟩

theorem parseInstant_reports (dateOf : String → Option Date) (x : XNode) : Reports (parseInstant dateOf x) := by
  intro s r s' hr
  unfold parseInstant at hr
  obtain ⟨more, hm, hn⟩ := contextDate_reports dateOf x s
  generalize contextDate dateOf x s = cd at hr hm hn
  obtain ⟨t, s1⟩ := cd
  cases t with
  | none => cases hr; exact ⟨more, hm, fun _ => hn rfl⟩
  | some t =>
    dsimp only at hr hm
    split at hr
    · obtain ⟨rfl, h2⟩ := lookup_map hr; exact ⟨more, hm, fun h => absurd h h2⟩
    · cases hp : mkInstant dateOf t with
      | error e => rw [hp] at hr; cases hr
      | ok p => rw [hp] at hr; cases hr; exact ⟨more, hm, fun h => by cases h⟩

theorem parseDuration_reports (dateOf : String → Option Date) (x y : XNode) : Reports (parseDuration dateOf x y) := by
  intro s r s' hr
  unfold parseDuration at hr
  obtain ⟨m1, hm1, hn1⟩ := contextDate_reports dateOf x s
  generalize contextDate dateOf x s = cd at hr hm1 hn1
  obtain ⟨a, s1⟩ := cd
  dsimp only at hr hm1 hn1
  obtain ⟨m2, hm2, hn2⟩ := contextDate_reports dateOf y s1
  generalize contextDate dateOf y s1 = cd at hr hm2 hn2
  obtain ⟨b, s2⟩ := cd
  dsimp only at hr hm2 hn2
  have hm : s2.errs = s.errs ++ (m1 ++ m2) := by rw [hm2, hm1, List.append_assoc]
  cases a with
  | none => cases hr; exact ⟨_, hm, fun _ h => hn1 rfl (List.append_eq_nil_iff.1 h).1⟩
  | some a =>
    cases b with
    | none => cases hr; exact ⟨_, hm, fun _ h => hn2 rfl (List.append_eq_nil_iff.1 h).2⟩
    | some b =>
      dsimp only at hr
      split at hr
      · obtain ⟨rfl, h2⟩ := lookup_map hr; exact ⟨_, hm, fun h => absurd h h2⟩
      · split at hr
        · cases hr; exact ⟨_, hm, fun h => by cases h⟩
        · cases hr; exact ⟨m1 ++ m2 ++ ["DURATION_PERIOD_START_AFTER_END"], by rw [← List.append_assoc, ← hm]; rfl, by simp⟩
        · cases hr

theorem parsePeriod_reports (dateOf : String → Option Date) (x : XNode) : Reports (parsePeriod dateOf x) := by
  intro s r s' hr
  unfold parsePeriod at hr
  split at hr
  · exact parseInstant_reports _ _ _ _ _ hr
  · split at hr
    · cases hr; exact reports_none _ _
    · split at hr
      · cases hr; exact reports_none _ _
      · exact parseDuration_reports _ _ _ _ _ _ hr

/-- An entity is reported missing unless its identifier has no text. -/
theorem parseEntity_reports (x : XNode) (s : ParseState) (r : Option Characteristic) (s' : ParseState) (hr : parseEntity x s = .ok (r, s')) :
    ∃ more, s'.errs = s.errs ++ more ∧ (r = none → more = [] → ∃ i sc, x.find "identifier" = some i ∧ i.attr? "scheme" = some sc ∧ i.text = none) := by
  unfold parseEntity at hr
  split at hr
  · cases hr; exact ⟨_, rfl, by simp⟩
  · next i hi =>
    split at hr
    · cases hr; exact ⟨_, rfl, by simp⟩
    · next sc hsc =>
      split at hr
      · next ht => cases hr; exact ⟨[], by simp, fun _ _ => ⟨i, sc, hi, hsc, ht⟩⟩
      · split at hr
        · obtain ⟨rfl, h2⟩ := lookup_map hr; exact ⟨[], by simp, fun h => absurd h h2⟩
        · cases hr; exact ⟨[], by simp [ParseState.put], fun h => by cases h⟩

theorem reports_store {s s1 s' : ParseState} {more : ErrNames} {i : String} {k : CharKind} {v : Characteristic} {r : Option Characteristic} (h : s1.errs = s.errs ++ more)
    (hr : ((if s1.chars.hasKey i k then s1 else s1.put i v).chars.lookup i k >>= fun c => (.ok (some c, if s1.chars.hasKey i k then s1 else s1.put i v) : Parsed)) = .ok (r, s')) :
    ∃ more, s'.errs = s.errs ++ more ∧ (r = none → more ≠ []) := by
  have h2 : (if s1.chars.hasKey i k then s1 else s1.put i v).errs = s.errs ++ more := by
    split
    · exact h
    · exact h
  generalize (if s1.chars.hasKey i k then s1 else s1.put i v) = s2 at hr h2
  cases hl : s2.chars.lookup i k with
  | error e => rw [hl] at hr; cases hr
  | ok c => rw [hl] at hr; cases hr; exact ⟨more, h2, fun h => by cases h⟩

theorem parseExplicit_reports (re : ElemStore) (x : XNode) : Reports (parseExplicit re x) := by
  intro s r s' hr
  unfold parseExplicit at hr
  cases ha : x.attr "dimension" with
  | error e => rw [ha] at hr; cases hr
  | ok axis =>
    simp only [ha, bind, Except.bind, pure, Except.pure] at hr
    have hc1 : (if s.chars.hasKey axis .explicit then s else { s with aspects := s.aspects.upsert { name := axis } }).errs = s.errs := by split <;> rfl
    generalize (if s.chars.hasKey axis .explicit then s else { s with aspects := s.aspects.upsert { name := axis } }) = s1 at hr hc1
    split at hr
    · cases hr
    · split at hr
      · cases hr
      · split at hr
        · cases hr; rw [← hc1]; exact reports_none _ _
        · split at hr
          · cases hr
          · split at hr
            · cases hr; rw [← hc1]; exact reports_none _ _
            · split at hr
              · cases hr
              · split at hr
                · cases hr; rw [← hc1]; exact reports_none _ _
                · split at hr
                  · cases hr
                  · rw [← hc1]; exact reports_store (more := []) (by simp) hr

theorem parseTyped_reports (re : ElemStore) (x : XNode) : Reports (parseTyped re x) := by
  intro s r s' hr
  unfold parseTyped at hr
  cases ha : x.attr "dimension" with
  | error e => rw [ha] at hr; cases hr
  | ok axis =>
    simp only [ha, bind, Except.bind, pure, Except.pure] at hr
    have hc1 : (if Dict.has s.aspects axis then s else { s with aspects := s.aspects.upsert { name := axis } }).errs = s.errs := by split <;> rfl
    generalize (if Dict.has s.aspects axis then s else { s with aspects := s.aspects.upsert { name := axis } }) = s1 at hr hc1
    cases hasp : Dict.get s1.aspects axis with
    | error e => rw [hasp] at hr; cases hr
    | ok asp =>
      obtain ⟨dq, hdq⟩ := qnameFromStr_total axis x.ns
      rw [hasp, hdq] at hr
      dsimp only at hr
      obtain ⟨m2, hc2⟩ : ∃ m2, (if re.hasTypedQName dq .dimension then s1 else s1.err "INVALID_TYPED_DIMENSION_VALUE").errs = s.errs ++ m2 := by
        split
        · exact ⟨[], by simp [hc1]⟩
        · exact ⟨["INVALID_TYPED_DIMENSION_VALUE"], by simp [ParseState.err, hc1]⟩
      generalize (if re.hasTypedQName dq .dimension then s1 else s1.err "INVALID_TYPED_DIMENSION_VALUE") = s2 at hr hc2
      cases hd : re.getTypedByQName dq .dimension with
      | error e => rw [hd] at hr; cases hr
      | ok dim =>
        rw [hd] at hr
        dsimp only at hr
        obtain ⟨m3, hc3⟩ : ∃ m3, (if x.children.length > 1 then s2.err "MULTIPLE_TYPED_DIMENSION_ELEMENT_CHILDREN" else s2).errs = s.errs ++ m3 := by
          split
          · exact ⟨m2 ++ ["MULTIPLE_TYPED_DIMENSION_ELEMENT_CHILDREN"], by simp [ParseState.err, hc2]⟩
          · exact ⟨m2, hc2⟩
        generalize (if x.children.length > 1 then s2.err "MULTIPLE_TYPED_DIMENSION_ELEMENT_CHILDREN" else s2) = s3 at hr hc3
        split at hr
        · cases hr; exact ⟨m3 ++ ["NO_TYPED_DIMENSION_ELEMENT_CHILDREN"], by simp [ParseState.err, hc3], by simp⟩
        · split at hr
          · cases hr; exact ⟨m3 ++ ["MISSING_TYPED_DIMENSION_VALUE"], by simp [ParseState.err, hc3], by simp⟩
          · exact reports_store hc3 hr

theorem parseDimension_reports (re : ElemStore) (x : XNode) : Reports (parseDimension re x) := by
  intro s r s' hr
  unfold parseDimension XNode.tagHas at hr
  simp only [bind, Except.bind, pure, Except.pure] at hr
  cases ht : x.tag with
  | none => rw [ht] at hr; cases hr
  | some t =>
    rw [ht] at hr
    dsimp only at hr
    split at hr
    · exact parseExplicit_reports _ _ _ _ _ hr
    · split at hr
      · exact parseTyped_reports _ _ _ _ _ hr
      · cases hr

theorem cached_some {s s' : ParseState} {r : Option Characteristic} {e : Option Entry} (h : Cached s s' r e) (hr : r ≠ none) : e.isSome := by
  cases e with
  | none => exact absurd h.1 hr
  | some e => rfl

theorem parseSegment_reports {dateOf : String → Option Date} (re : ElemStore) (xs : List XNode) : ∀ (ctx : Context) (s : ParseState) (ctx' : Context) (s' : ParseState), ParseInv dateOf s →
    parseSegment re xs ctx s = .ok (ctx', s') → ∃ more, s'.errs = s.errs ++ more ∧ (more = [] → ∀ x ∈ xs, (dimensionOf re x).isSome) := by
  induction xs with
  | nil => intro ctx s ctx' s' _ hr; cases hr; exact ⟨[], by simp, by simp⟩
  | cons x xs ih =>
    intro ctx s ctx' s' inv hr
    simp only [parseSegment, bind, Except.bind] at hr
    cases hd : parseDimension re x s with
    | error e => rw [hd] at hr; cases hr
    | ok rs =>
      rw [hd] at hr
      obtain ⟨r, s1⟩ := rs
      obtain ⟨m1, h1, h2⟩ := parseDimension_reports re x s r s1 hd
      obtain ⟨inv1, hc⟩ := parseDimension_spec inv hd
      obtain ⟨m2, h3, h4⟩ := ih _ _ _ _ inv1 hr
      refine ⟨m1 ++ m2, by rw [h3, h1, List.append_assoc], ?_⟩
      intro h y hy
      obtain ⟨e1, e2⟩ := List.append_eq_nil_iff.1 h
      rcases List.mem_cons.1 hy with rfl | hy
      · rw [← dimensionEntry_value]
        have := cached_some hc (fun hh => h2 hh e1)
        cases hde : dimensionEntry re y with
        | none => rw [hde] at this; cases this
        | some v => rfl
      · exact h4 e2 y hy

/-- C39, the part of the reporting that holds: a context parsed without a report has a valid period, valid dimensions only, and an entity
unless its identifier is empty. -/
theorem C39_reported_partial {dateOf : String → Option Date} {re : ElemStore} {ops : List CtxOp} {s s' : ParseState} {x p e : XNode} {given : List Characteristic} {r : Option Context}
    (hr : runOps dateOf re ops = .ok s) (hpl : ∀ y ∈ contextsOf ops ++ [x], PlainDates y) (h : parseContext dateOf re x given s = .ok (r, s')) (he : s'.errs = s.errs)
    (hx : x.find "period" = some p) (hy : x.find "entity" = some e) :
    (periodOf dateOf p).isSome ∧ ((entityOf e).isSome ∨ ∃ i sc, e.find "identifier" = some i ∧ i.attr? "scheme" = some sc ∧ i.text = none) ∧
    ∀ m ∈ segmentOf e, (dimensionOf re m).isSome := by
  obtain ⟨inv, _⟩ := runOps_spec (fun y hy => hpl y (by simp [hy])) hr
  have hp : partsOf x = some (p, e) := by unfold partsOf; rw [hx, hy]; rfl
  unfold parseContext at h
  rw [hx, hy] at h
  simp only [bind, Except.bind, pure, Except.pure] at h
  obtain ⟨r1, s1, hP, hPr, inv1, _, _⟩ := parsePeriod_spec inv (hpl x (by simp) p e hp)
  obtain ⟨r2, s2, hE, inv2, _, hEc⟩ := parseEntity_spec (x := e) inv1
  split at h
  · cases h
  · rw [hP] at h
    dsimp only at h
    rw [hE] at h
    dsimp only at h
    split at h
    · cases h
    · next rs hS =>
      obtain ⟨c3, s3⟩ := rs
      cases h
      obtain ⟨m1, h1, n1⟩ := parsePeriod_reports _ _ _ _ _ hP
      obtain ⟨m2, h2, n2⟩ := parseEntity_reports _ _ _ _ hE
      obtain ⟨m3, h3, n3⟩ := parseSegment_reports re _ _ _ _ _ inv2 hS
      rw [h3, h2, h1, List.append_assoc, List.append_assoc] at he
      have hnil : m1 ++ (m2 ++ m3) = [] := by
        have := congrArg List.length he
        simp only [List.length_append] at this
        exact List.length_eq_zero_iff.1 (by simp only [List.length_append]; omega)
      simp only [List.append_eq_nil_iff] at hnil
      obtain ⟨e1, e2, e3⟩ := hnil
      refine ⟨?_, ?_, n3 e3⟩
      · cases hq : periodOf dateOf p with
        | none => rw [hq] at hPr; exact absurd e1 (n1 hPr)
        | some q => rfl
      · by_cases hr2 : r2 = none
        · exact .inr (n2 hr2 e2)
        · have := cached_some hEc hr2
          unfold entityEntry at this
          cases hq : entityOf e with
          | none => rw [hq] at this; cases this
          | some q => exact .inl rfl

example : ∃ s s' ctx, runOps sampleDates sampleElems [.context sampleContext []] = .ok s ∧ parseContext sampleDates sampleElems sampleContext [] s = .ok (some ctx, s') ∧ s'.errs = s.errs :=
  ⟨_, _, _, by rfl, by rfl, by rfl⟩

/-! ## C38 -/

/-- C38: the entity of a context has the identifier its element states, and the scheme of the first context of the filing that states this identifier. -/
theorem C38_first_scheme {dateOf : String → Option Date} {re : ElemStore} {ops : List CtxOp} {s s' : ParseState} {x p e : XNode} {given : List Characteristic} {ctx : Context}
    {i sc : String} (hr : runOps dateOf re ops = .ok s) (hpl : ∀ y ∈ contextsOf ops ++ [x], PlainDates y) (h : parseContext dateOf re x given s = .ok (some ctx, s'))
    (hx : x.find "period" = some p) (hy : x.find "entity" = some e) (he : entityOf e = some (i, sc))
    (hg : ∀ c ∈ given, c.aspect.name = "concept" ∨ c.aspect.name = "unit") :
    ∃ sc0, (entitiesOf (contextsOf ops ++ [x])).find? (fun a => a.1 = i) = some (i, sc0) ∧ ctx.getCharacteristic .entity = some (.ofEntity i sc0) := by
  obtain ⟨inv, hst, hctx⟩ := store_after hr hpl h
  have hp : partsOf x = some (p, e) := by unfold partsOf; rw [hx, hy]; rfl
  obtain ⟨id, _, hc⟩ := hctx p e hp
  -- the first entry for this identifier is that of the first entity
  have key : ∀ xs : List XNode, (∀ y ∈ xs, PlainDates y) → Dict.get? (allEntries dateOf re xs) (i, CharKind.entity) =
      ((entitiesOf xs).find? (fun a => a.1 = i)).map (fun a => Characteristic.ofEntity a.1 a.2) := by
    intro xs hxs
    induction xs with
    | nil => rfl
    | cons y ys ih =>
      have ih := ih (fun z hz => hxs z (by simp [hz]))
      have e1 : allEntries dateOf re (y :: ys) = contextEntries dateOf re y ++ allEntries dateOf re ys := rfl
      rw [e1]
      have happ : ∀ a b : List Entry, Dict.get? (a ++ b) (i, CharKind.entity) = (Dict.get? a (i, CharKind.entity)).or (Dict.get? b (i, CharKind.entity)) := by
        intro a b
        unfold Dict.get?
        rw [List.find?_append]
        cases List.find? (fun e => decide (e.1 = (i, CharKind.entity))) a <;> simp
      rw [happ, ih]
      unfold contextEntries
      cases hpy : partsOf y with
      | none =>
        have : entitiesOf (y :: ys) = entitiesOf ys := by
          unfold entitiesOf
          rw [List.filterMap_cons, hpy]
          rfl
        rw [this]
        rfl
      | some pe =>
        obtain ⟨p', e'⟩ := pe
        dsimp only
        rw [happ, happ]
        have n1 : Dict.get? (periodEntry dateOf p').toList (i, CharKind.entity) = none := by
          rw [Dict.get?_eq_none_iff]
          intro hm
          obtain ⟨f, hf, hk⟩ := List.mem_map.1 hm
          rw [Option.mem_toList] at hf
          rcases periodEntry_cases (hxs y (by simp) p' e' hpy) hf with ⟨_, _, _, _, rfl⟩ | ⟨_, _, _, _, _, _, _, _, rfl⟩ <;>
            exact absurd (congrArg Prod.snd hk) (by intro hh; cases hh)
        have n2 : Dict.get? ((segmentOf e').filterMap (dimensionEntry re)) (i, CharKind.entity) = none := by
          rw [Dict.get?_eq_none_iff]
          intro hm
          obtain ⟨f, hf, hk⟩ := List.mem_map.1 hm
          obtain ⟨m, _, hf⟩ := List.mem_filterMap.1 hf
          rcases dimensionEntry_cases hf with ⟨_, _, _, _, _, _, rfl⟩ | ⟨_, _, _, _, _, _, rfl⟩ <;> exact absurd (congrArg Prod.snd hk) (by intro hh; cases hh)
        rw [n1, n2]
        unfold entityEntry
        cases hent : entityOf e' with
        | none =>
          have : entitiesOf (y :: ys) = entitiesOf ys := by
            unfold entitiesOf
            rw [List.filterMap_cons, hpy]
            simp only [Option.bind, hent]
          rw [this]
          rfl
        | some a =>
          have : entitiesOf (y :: ys) = a :: entitiesOf ys := by
            unfold entitiesOf
            rw [List.filterMap_cons, hpy]
            simp only [Option.bind, hent]
          rw [this, List.find?_cons]
          by_cases ha : a.1 = i
          · simp [ha, Dict.get?]
          · simp [ha, Dict.get?]
  have hg2 := hst (i, CharKind.entity) ⟨(by intro hh; cases hh), (by intro hh; cases hh)⟩
  rw [key _ hpl] at hg2
  have hmem : (i, sc) ∈ entitiesOf (contextsOf ops ++ [x]) := by
    refine List.mem_filterMap.2 ⟨x, by simp, ?_⟩
    rw [hp]; exact he
  cases hf : (entitiesOf (contextsOf ops ++ [x])).find? (fun a => decide (a.1 = i)) with
  | none => have := List.find?_eq_none.1 hf _ hmem; simp at this
  | some a =>
    have ha : a.1 = i := by simpa using List.find?_some hf
    obtain ⟨a1, a2⟩ := a
    simp only at ha
    subst ha
    refine ⟨a2, rfl, ?_⟩
    rw [hf] at hg2
    have hgn : given.find? (fun c => decide (c.aspect.name = Aspect.entity.name)) = none := by
      rw [List.find?_eq_none]
      intro c hc
      rcases hg c hc with hn | hn <;> rw [hn] <;> decide
    rw [Option.some.inj hc, C01_first_characteristic_wins, List.find?_append, hgn]
    have hent : contextEntries dateOf re x = (periodEntry dateOf p).toList ++ ((entityEntry e).toList ++ (segmentOf e).filterMap (dimensionEntry re)) := by
      unfold contextEntries; rw [hp, ← List.append_assoc]
    rw [hent, resolve_append, resolve_append, List.find?_append, List.find?_append]
    have hP : (resolve s' (periodEntry dateOf p).toList).find? (fun c => decide (c.aspect.name = Aspect.entity.name)) = none := by
      rw [List.find?_eq_none]
      intro c hcm
      obtain ⟨f, hf, hk⟩ := List.mem_filterMap.1 hcm
      rw [Option.mem_toList] at hf
      have h2 : f.1.2 = .period := by
        rcases periodEntry_cases (hpl x (by simp) p e hp) hf with ⟨_, _, _, _, rfl⟩ | ⟨_, _, _, _, _, _, _, _, rfl⟩ <;> rfl
      have hk' : s'.chars.get? (f.1.1, CharKind.period) = some c := by rw [← h2]; exact hk
      rcases inv.periods _ _ hk' with ⟨_, _, _, rfl⟩ | ⟨_, _, _, _, _, _, _, _, _, _, rfl⟩ <;> simp [Characteristic.ofPeriod, Aspect.period, Aspect.entity]
    have hE : resolve s' (entityEntry e).toList = [.ofEntity a1 a2] := by
      unfold entityEntry
      rw [he]
      simp only [Option.map_some, Option.toList_some, resolve, List.filterMap_cons, List.filterMap_nil, hg2]
    rw [hP, hE]
    rfl

/-- C38, the part that holds: if no other context of the filing uses the identifier with another scheme, the entity is exactly the one stated. -/
theorem C38_entity_partial {dateOf : String → Option Date} {re : ElemStore} {ops : List CtxOp} {s s' : ParseState} {x p e : XNode} {given : List Characteristic} {ctx : Context}
    {i sc : String} (hr : runOps dateOf re ops = .ok s) (hpl : ∀ y ∈ contextsOf ops ++ [x], PlainDates y) (h : parseContext dateOf re x given s = .ok (some ctx, s'))
    (hx : x.find "period" = some p) (hy : x.find "entity" = some e) (he : entityOf e = some (i, sc))
    (hg : ∀ c ∈ given, c.aspect.name = "concept" ∨ c.aspect.name = "unit") (h1 : ∀ a ∈ entitiesOf (contextsOf ops ++ [x]), a.1 = i → a.2 = sc) :
    ctx.getCharacteristic .entity = some (.ofEntity i sc) := by
  obtain ⟨sc0, hf, hc⟩ := C38_first_scheme hr hpl h hx hy he hg
  have := h1 _ (List.mem_of_find?_eq_some hf) rfl
  dsimp only at this
  rw [hc, this]

example : ∀ a ∈ entitiesOf (contextsOf [.context sampleContext []] ++ [sampleContext]), a.1 = "1" → a.2 = "lei" := by decide +kernel

/-- C38 fails: an identifier used earlier with another scheme yields the earlier scheme. -/
theorem C38_entity_false : ¬ ∀ (dateOf : String → Option Date) (re : ElemStore) (ops : List CtxOp) (s s' : ParseState) (x p e : XNode) (ctx : Context) (i sc : String),
    runOps dateOf re ops = .ok s → parseContext dateOf re x [] s = .ok (some ctx, s') → x.find "period" = some p → x.find "entity" = some e →
    entityOf e = some (i, sc) → ctx.getCharacteristic .entity = some (.ofEntity i sc) := by
  intro h
  have := h sampleDates sampleElems [.context (xcontext "c1" (xinstant "2020-01-01") (xentity (some "1") "lei" [])) []] _ _
    (xcontext "c2" (xinstant "2020-01-01") (xentity (some "1") "cik" [])) _ _ _ "1" "cik" (by rfl) (by rfl) rfl rfl (by rfl)
  exact absurd this (by decide +kernel)

/-! ## C80 -/

/-- C80 fails: the same prefixed names in another namespace scope yield the dimension and member of the first scope. -/
theorem C80_prefix_false : ¬ ∀ (dateOf : String → Option Date) (re : ElemStore) (ops : List CtxOp) (s s' : ParseState) (x e m : XNode) (ctx : Context) (c : Characteristic),
    runOps dateOf re ops = .ok s → parseContext dateOf re x [] s = .ok (some ctx, s') → x.find "entity" = some e → segmentOf e = [m] →
    dimensionOf re m = some c → ctx.getCharacteristic c.aspect = some c := by
  intro h
  have := h sampleDates sampleElems [.context (xcontext "c1" (xinstant "2020-01-01") (xentity (some "1") "lei" [xexplicit "u" "p:Axis" "p:M"])) []] _ _
    (xcontext "c2" (xinstant "2020-01-01") (xentity (some "1") "lei" [xexplicit "v" "p:Axis" "p:M"])) _ _ _ _ (by rfl) (by rfl) rfl rfl (by rfl)
  exact absurd this (by decide +kernel)

/-- C80, the part that holds: in a filing whose texts have one meaning each, a context has every dimension its segment states,
the first one if the segment states a dimension twice. -/
theorem C80_dimensions_partial {dateOf : String → Option Date} {re : ElemStore} {ops : List CtxOp} {s s' : ParseState} {x p e : XNode} {given : List Characteristic} {ctx : Context}
    (hr : runOps dateOf re ops = .ok s) (hu : Unambiguous re (contextsOf ops ++ [x])) (h : parseContext dateOf re x given s = .ok (some ctx, s'))
    (hx : x.find "period" = some p) (hy : x.find "entity" = some e)
    (hg : ∀ c ∈ given, c.aspect.name = "concept" ∨ c.aspect.name = "unit") (g : XNode) (pre post : List XNode) (m : XNode) (c : Characteristic)
    (hseg : e.find "segment" = some g) (hsc : g.children = pre ++ m :: post) (hc : dimensionOf re m = some c) (hn : c.aspect.name ∉ ["concept", "unit", "period", "entity"])
    (hpre : ∀ m' ∈ pre, ∀ c', dimensionOf re m' = some c' → c'.aspect.name ≠ c.aspect.name) :
    ctx.getCharacteristic c.aspect = some c := by
  have hs : segmentOf e = pre ++ m :: post := by unfold segmentOf; rw [hseg]; exact hsc
  refine (C39_lookup_partial hr hu h hx hy hg).2.2 c.aspect c hn ?_
  rw [hs, List.filterMap_append, List.filterMap_cons, hc, List.find?_append]
  have : (pre.filterMap (dimensionOf re)).find? (fun d => decide (d.aspect.name = c.aspect.name)) = none := by
    rw [List.find?_eq_none]
    intro d hd
    obtain ⟨m', hm', hd⟩ := List.mem_filterMap.1 hd
    simpa using hpre m' hm' d hd
  rw [this]
  simp

/-- C80 fails: the second value a segment states for a dimension is dropped without a report. -/
theorem C80_repeated_false : ¬ ∀ (dateOf : String → Option Date) (re : ElemStore) (x e m : XNode) (ctx : Context) (s' : ParseState) (c : Characteristic),
    parseContext dateOf re x [] {} = .ok (some ctx, s') → x.find "entity" = some e → m ∈ segmentOf e →
    dimensionOf re m = some c → ctx.getCharacteristic c.aspect = some c ∨ s'.errs ≠ [] := by
  intro h
  have := h sampleDates (sampleElems.upsert { kind := .member, name := ⟨"u", "p", "N"⟩, tag := 7 })
    (xcontext "c1" (xinstant "2020-01-01") (xentity (some "1") "lei" [xexplicit "u" "p:Axis" "p:M", xexplicit "u" "p:Axis" "p:N"])) _
    (xexplicit "u" "p:Axis" "p:N") _ _ _ (by rfl) rfl (List.mem_cons_of_mem _ (List.mem_singleton.2 rfl)) (by rfl)
  exact absurd this (by decide +kernel)

/-! ## C81 -/

/-- C81. The period of a context is the one its element states, whatever was parsed before. -/
theorem C81_period {dateOf : String → Option Date} {re : ElemStore} {ops : List CtxOp} {s s' : ParseState} {x p e : XNode} {given : List Characteristic} {ctx : Context} {q : Period}
    (hr : runOps dateOf re ops = .ok s) (hpl : ∀ y ∈ contextsOf ops ++ [x], PlainDates y) (h : parseContext dateOf re x given s = .ok (some ctx, s'))
    (hx : x.find "period" = some p) (hy : x.find "entity" = some e) (hq : periodOf dateOf p = some q)
    (hg : ∀ c ∈ given, c.aspect.name = "concept" ∨ c.aspect.name = "unit") :
    ctx.getCharacteristic .period = some (.ofPeriod q) := by
  obtain ⟨inv, hst, hctx⟩ := store_after hr hpl h
  have hp : partsOf x = some (p, e) := by unfold partsOf; rw [hx, hy]; rfl
  obtain ⟨id, _, hc⟩ := hctx p e hp
  have hgn : given.find? (fun c => decide (c.aspect.name = Aspect.period.name)) = none := by
    rw [List.find?_eq_none]
    intro c hc
    rcases hg c hc with hn | hn <;> rw [hn] <;> decide
  rw [Option.some.inj hc, C01_first_characteristic_wins, List.find?_append, hgn]
  have hent : contextEntries dateOf re x = (periodEntry dateOf p).toList ++ ((entityEntry e).toList ++ (segmentOf e).filterMap (dimensionEntry re)) := by
    unfold contextEntries; rw [hp, ← List.append_assoc]
  have hv := periodEntry_value dateOf p
  rw [hq] at hv
  cases hpe : periodEntry dateOf p with
  | none => rw [hpe] at hv; cases hv
  | some en =>
    rw [hpe] at hv
    have hv2 : en.2 = .ofPeriod q := Option.some.inj hv
    have hmem : en ∈ contextEntries dateOf re x := by rw [hent, hpe]; simp
    have hgx : ∃ c, s'.chars.get? en.1 = some c := by
      rw [hst _ (entry_parsed (hpl x (by simp)) hmem)]
      cases hf : Dict.get? (allEntries dateOf re (contextsOf ops ++ [x])) en.1 with
      | none => exact absurd (List.mem_map_of_mem (List.mem_flatMap.2 ⟨x, by simp, hmem⟩)) ((Dict.get?_eq_none_iff _ _).1 hf)
      | some v => exact ⟨v, rfl⟩
    obtain ⟨c, hgc⟩ := hgx
    have hcq : c = .ofPeriod q := by
      rcases periodEntry_cases (hpl x (by simp) p e hp) hpe with ⟨t, d, h1, h2, rfl⟩ | ⟨a, b, da, db, h1, h2, h3, h4, rfl⟩
      · rcases inv.periods _ _ hgc with ⟨d', _, h2', rfl⟩ | ⟨a, b, _, _, _, _, h3, _⟩
        · rw [h2] at h2'; cases h2'; exact hv2
        · rw [h3] at h1; exact absurd h1 (durationKey_not_plain a b)
      · rcases inv.periods _ _ hgc with ⟨d', h1', _⟩ | ⟨a', b', da', db', h1', h2', h3', h4', h5', h6', rfl⟩
        · exact absurd h1' (durationKey_not_plain a b)
        · obtain ⟨r1, r2⟩ := durationKey_inj h1 h1' h3'
          subst r1; subst r2
          rw [h3] at h4'; rw [h4] at h5'
          cases h4'; cases h5'; exact hv2
    rw [hent, resolve_append, List.find?_append, hpe]
    simp [resolve, hgc, hcq, Characteristic.ofPeriod]

example : ∀ y ∈ contextsOf [.context sampleContext []] ++ [sampleContext], PlainDates y := by
  intro y hy
  have : y = sampleContext := by simpa [contextsOf] using hy
  rw [this]; exact sampleContext_plain

/-! ## C47 -/

/-- A characteristic that, if it is a duration, does not end before it starts. -/
def InOrder (c : Characteristic) : Prop := ∀ a b, c.value = .period (.duration a b) → Date.le a b = true

/-- C47. A duration is constructed exactly when both texts are dates and the start is not after the end; otherwise a `ValueError` is raised. -/
theorem C47_constructed (dateOf : String → Option Date) (a b : String) :
    (∀ p, mkDuration dateOf a b = .ok p ↔ ∃ da db, a ≠ "" ∧ b ≠ "" ∧ dateOf a = some da ∧ dateOf b = some db ∧ Date.le da db = true ∧ p = .duration da db) ∧
    (∀ e, mkDuration dateOf a b = .error e → e = .valueError) := by
  unfold mkDuration isDate
  by_cases ha : a = ""
  · subst ha; simp
  · by_cases hb : b = ""
    · subst hb
      cases hda : dateOf a <;> simp [ha]
    · cases hda : dateOf a with
      | none => simp [ha]
      | some da =>
        cases hdb : dateOf b with
        | none => simp [ha, hb]
        | some db =>
          by_cases hle : Date.le da db = true
          · simp only [ha, hb, hda, hdb, hle, if_true, if_false, Bool.not_true, Option.isSome_some, Bool.false_eq_true]
            refine ⟨fun p => ⟨fun h => ?_, ?_⟩, fun e h => by cases h⟩
            · cases h; exact ⟨da, db, ha, hb, rfl, rfl, hle, rfl⟩
            · rintro ⟨da', db', _, _, h1, h2, _, rfl⟩
              cases h1; cases h2; rfl
          · simp only [ha, hb, hda, hdb, hle, if_false, Bool.not_true, Option.isSome_some, Bool.false_eq_true]
            refine ⟨fun p => ⟨(fun h => by cases h), ?_⟩, fun e h => by cases h; rfl⟩
            rintro ⟨da', db', _, _, h1, h2, h3, rfl⟩
            cases h1; cases h2; exact absurd h3 hle

example : mkDuration sampleDates "2020-01-01" "2020-12-31" = .ok (.duration ⟨2020, 1, 1⟩ ⟨2020, 12, 31⟩) := by rfl
example : mkDuration sampleDates "2020-12-31" "2020-01-01" = .error .valueError := by rfl

/-- C47. Accessors of the wrong kind raise a `ValueError`, the others answer. -/
theorem C47_getters (p : Period) :
    (p.isInstant = true → (∃ d, p = .instant d ∧ p.getInstant = .ok d) ∧ p.getStart = .error .valueError ∧ p.getEnd = .error .valueError) ∧
    (p.isInstant = false → (∃ a b, p = .duration a b ∧ p.getStart = .ok a ∧ p.getEnd = .ok b) ∧ p.getInstant = .error .valueError) := by
  cases p with
  | instant d => exact ⟨fun _ => ⟨⟨d, rfl, rfl⟩, rfl, rfl⟩, (fun h => nomatch h)⟩
  | duration a b => exact ⟨(fun h => nomatch h), fun _ => ⟨⟨a, b, rfl, rfl, rfl⟩, rfl⟩⟩

/-- All stored characteristics are in order. -/
def AllInOrder (s : ParseState) : Prop := ∀ k c, s.chars.get? k = some c → InOrder c

theorem allInOrder_put {s : ParseState} (h : AllInOrder s) (i : String) (c : Characteristic) (hc : InOrder c) : AllInOrder (s.put i c) := by
  intro k c' hk
  unfold ParseState.put at hk
  rw [get?_upsert] at hk
  split at hk
  · cases hk; exact hc
  · exact h _ _ hk

theorem lookup_ok {s : CharStore} {i : String} {k : CharKind} {c : Characteristic} (h : s.lookup i k = .ok c) : s.get? (i, k) = some c := by
  unfold CharStore.lookup at h
  split at h
  · next hc => split at h <;> cases h; exact hc
  · cases h

/-- What a parser preserves. -/
def KeepsOrder (f : ParseState → Parsed) : Prop :=
  ∀ s r s', AllInOrder s → f s = .ok (r, s') → AllInOrder s' ∧ ∀ c, r = some c → InOrder c

theorem contextDate_keeps (dateOf : String → Option Date) (x : XNode) (s : ParseState) : (contextDate dateOf x s).2.chars = s.chars := by
  unfold contextDate; split <;> rfl

theorem keeps_none {s s' : ParseState} (h : AllInOrder s) (hc : s'.chars = s.chars) : AllInOrder s' ∧ ∀ c, (none : Option Characteristic) = some c → InOrder c :=
  ⟨by unfold AllInOrder; rw [hc]; exact h, by intro c hh; cases hh⟩

theorem keeps_lookup {s s' : ParseState} {i : String} {k : CharKind} {r : Option Characteristic} (h : AllInOrder s)
    (hr : (s.chars.lookup i k).map (fun c => (some c, s)) = .ok (r, s')) : AllInOrder s' ∧ ∀ c, r = some c → InOrder c := by
  cases hl : s.chars.lookup i k with
  | error e => rw [hl] at hr; cases hr
  | ok c =>
    rw [hl] at hr; cases hr
    exact ⟨h, by intro c' hh; cases hh; exact h _ _ (lookup_ok hl)⟩

theorem parseInstant_keeps (dateOf : String → Option Date) (x : XNode) : KeepsOrder (parseInstant dateOf x) := by
  intro s r s' h hr
  unfold parseInstant at hr
  have hk := contextDate_keeps dateOf x s
  generalize contextDate dateOf x s = cd at hr hk
  obtain ⟨t, s1⟩ := cd
  have h1 : AllInOrder s1 := by unfold AllInOrder; rw [hk]; exact h
  cases t with
  | none => cases hr; exact keeps_none h hk
  | some t =>
    dsimp only at hr
    split at hr
    · exact keeps_lookup h1 hr
    · unfold mkInstant at hr
      split at hr
      · split at hr
        · cases hr
          have hg : ∀ d, InOrder (.ofPeriod (.instant d)) := by intro d a b hh; cases hh
          exact ⟨allInOrder_put h1 _ _ (hg _), by intro c hh; cases hh; exact hg _⟩
        · cases hr
      · cases hr

theorem parseDuration_keeps (dateOf : String → Option Date) (x y : XNode) : KeepsOrder (parseDuration dateOf x y) := by
  intro s r s' h hr
  unfold parseDuration at hr
  have hk := contextDate_keeps dateOf x s
  generalize contextDate dateOf x s = cd at hr hk
  obtain ⟨a, s1⟩ := cd
  dsimp only at hr hk
  have hk2 := contextDate_keeps dateOf y s1
  generalize contextDate dateOf y s1 = cd at hr hk2
  obtain ⟨b, s2⟩ := cd
  dsimp only at hr hk2
  rw [hk] at hk2
  have h1 : AllInOrder s2 := by unfold AllInOrder; rw [hk2]; exact h
  cases a with
  | none => cases hr; exact keeps_none h hk2
  | some a =>
    cases b with
    | none => cases hr; exact keeps_none h hk2
    | some b =>
      dsimp only at hr
      split at hr
      · exact keeps_lookup h1 hr
      · split at hr
        · next p hm =>
          cases hr
          obtain ⟨da, db, _, _, _, _, hle, rfl⟩ := ((C47_constructed dateOf a b).1 p).1 hm
          have hg : InOrder (.ofPeriod (.duration da db)) := by intro a b hh; cases hh; exact hle
          exact ⟨allInOrder_put h1 _ _ hg, by intro c hh; cases hh; exact hg⟩
        · cases hr; exact keeps_none h hk2
        · cases hr

theorem parsePeriod_keeps (dateOf : String → Option Date) (x : XNode) : KeepsOrder (parsePeriod dateOf x) := by
  intro s r s' h hr
  unfold parsePeriod at hr
  split at hr
  · exact parseInstant_keeps _ _ _ _ _ h hr
  · split at hr
    · cases hr; exact keeps_none h rfl
    · split at hr
      · cases hr; exact keeps_none h rfl
      · exact parseDuration_keeps _ _ _ _ _ _ h hr

theorem parseEntity_keeps (x : XNode) : KeepsOrder (parseEntity x) := by
  intro s r s' h hr
  unfold parseEntity at hr
  split at hr
  · cases hr; exact keeps_none h rfl
  · split at hr
    · cases hr; exact keeps_none h rfl
    · split at hr
      · cases hr; exact keeps_none h rfl
      · split at hr
        · exact keeps_lookup h hr
        · cases hr
          have hg : ∀ i u, InOrder (.ofEntity i u) := by intro i u a b hh; cases hh
          exact ⟨allInOrder_put h _ _ (hg _ _), by intro c hh; cases hh; exact hg _ _⟩

theorem keeps_store {s1 s' : ParseState} {i : String} {k : CharKind} {v : Characteristic} {r : Option Characteristic} (h : AllInOrder s1) (hg : InOrder v)
    (hr : ((if s1.chars.hasKey i k then s1 else s1.put i v).chars.lookup i k >>= fun c => (.ok (some c, if s1.chars.hasKey i k then s1 else s1.put i v) : Parsed)) = .ok (r, s')) :
    AllInOrder s' ∧ ∀ c, r = some c → InOrder c := by
  have h2 : AllInOrder (if s1.chars.hasKey i k then s1 else s1.put i v) := by
    split
    · exact h
    · exact allInOrder_put h _ _ hg
  generalize (if s1.chars.hasKey i k then s1 else s1.put i v) = s2 at hr h2
  cases hl : s2.chars.lookup i k with
  | error e => rw [hl] at hr; cases hr
  | ok c =>
    rw [hl] at hr; cases hr
    exact ⟨h2, by intro c' hh; cases hh; exact h2 _ _ (lookup_ok hl)⟩

theorem parseExplicit_keeps (re : ElemStore) (x : XNode) : KeepsOrder (parseExplicit re x) := by
  intro s r s' h hr
  unfold parseExplicit at hr
  cases ha : x.attr "dimension" with
  | error e => rw [ha] at hr; cases hr
  | ok axis =>
    simp only [ha, bind, Except.bind, pure, Except.pure] at hr
    have hc1 : (if s.chars.hasKey axis .explicit then s else { s with aspects := s.aspects.upsert { name := axis } }).chars = s.chars := by split <;> rfl
    generalize (if s.chars.hasKey axis .explicit then s else { s with aspects := s.aspects.upsert { name := axis } }) = s1 at hr hc1
    have h1 : AllInOrder s1 := by unfold AllInOrder; rw [hc1]; exact h
    split at hr
    · cases hr
    · split at hr
      · cases hr
      · split at hr
        · cases hr; exact keeps_none h hc1
        · split at hr
          · cases hr
          · split at hr
            · cases hr; exact keeps_none h hc1
            · split at hr
              · cases hr
              · split at hr
                · cases hr; exact keeps_none h hc1
                · split at hr
                  · cases hr
                  · exact keeps_store h1 (by intro a b hh; cases hh) hr

theorem parseTyped_keeps (re : ElemStore) (x : XNode) : KeepsOrder (parseTyped re x) := by
  intro s r s' h hr
  unfold parseTyped at hr
  cases ha : x.attr "dimension" with
  | error e => rw [ha] at hr; cases hr
  | ok axis =>
    simp only [ha, bind, Except.bind, pure, Except.pure] at hr
    have hc1 : (if Dict.has s.aspects axis then s else { s with aspects := s.aspects.upsert { name := axis } }).chars = s.chars := by split <;> rfl
    generalize (if Dict.has s.aspects axis then s else { s with aspects := s.aspects.upsert { name := axis } }) = s1 at hr hc1
    cases hasp : Dict.get s1.aspects axis with
    | error e => rw [hasp] at hr; cases hr
    | ok asp =>
      obtain ⟨dq, hdq⟩ := qnameFromStr_total axis x.ns
      rw [hasp, hdq] at hr
      dsimp only at hr
      have hc2 : (if re.hasTypedQName dq .dimension then s1 else s1.err "INVALID_TYPED_DIMENSION_VALUE").chars = s.chars := by split <;> exact hc1
      generalize (if re.hasTypedQName dq .dimension then s1 else s1.err "INVALID_TYPED_DIMENSION_VALUE") = s2 at hr hc2
      cases hd : re.getTypedByQName dq .dimension with
      | error e => rw [hd] at hr; cases hr
      | ok dim =>
        rw [hd] at hr
        dsimp only at hr
        have hc3 : (if x.children.length > 1 then s2.err "MULTIPLE_TYPED_DIMENSION_ELEMENT_CHILDREN" else s2).chars = s.chars := by split <;> exact hc2
        generalize (if x.children.length > 1 then s2.err "MULTIPLE_TYPED_DIMENSION_ELEMENT_CHILDREN" else s2) = s3 at hr hc3
        have h3 : AllInOrder s3 := by unfold AllInOrder; rw [hc3]; exact h
        split at hr
        · cases hr; exact keeps_none h hc3
        · split at hr
          · cases hr; exact keeps_none h hc3
          · exact keeps_store h3 (by intro a b hh; cases hh) hr

theorem parseDimension_keeps (re : ElemStore) (x : XNode) : KeepsOrder (parseDimension re x) := by
  intro s r s' h hr
  unfold parseDimension XNode.tagHas at hr
  simp only [bind, Except.bind, pure, Except.pure] at hr
  cases ht : x.tag with
  | none => rw [ht] at hr; cases hr
  | some t =>
    rw [ht] at hr
    dsimp only at hr
    split at hr
    · exact parseExplicit_keeps _ _ _ _ _ h hr
    · split at hr
      · exact parseTyped_keeps _ _ _ _ _ h hr
      · cases hr

/-- All characteristics of a context are in order, except those it was given. -/
def ContextInOrder (given : List Characteristic) (ctx : Context) : Prop := ∀ n c, ctx.chars.get? n = some c → c ∈ given ∨ InOrder c

theorem contextInOrder_add {given : List Characteristic} {ctx : Context} (h : ContextInOrder given ctx) (c : Characteristic) (hc : c ∈ given ∨ InOrder c) :
    ContextInOrder given (ctx.add c) := by
  intro n c' hk
  unfold Context.add at hk
  split at hk
  · exact h _ _ hk
  · dsimp only at hk
    rw [Dict.get?_set] at hk
    split at hk
    · cases hk; exact hc
    · exact h _ _ hk

theorem contextInOrder_addOpt {given : List Characteristic} {ctx : Context} (h : ContextInOrder given ctx) (r : Option Characteristic) (hr : ∀ c, r = some c → InOrder c) :
    ContextInOrder given (ctx.addOpt r) := by
  cases r with
  | none => exact h
  | some c => exact contextInOrder_add h c (.inr (hr c rfl))

theorem parseSegment_keeps (re : ElemStore) (given : List Characteristic) (xs : List XNode) : ∀ (ctx : Context) (s : ParseState) (ctx' : Context) (s' : ParseState),
    AllInOrder s → ContextInOrder given ctx → parseSegment re xs ctx s = .ok (ctx', s') → AllInOrder s' ∧ ContextInOrder given ctx' := by
  induction xs with
  | nil => intro ctx s ctx' s' h hc hr; cases hr; exact ⟨h, hc⟩
  | cons x xs ih =>
    intro ctx s ctx' s' h hc hr
    simp only [parseSegment, bind, Except.bind] at hr
    cases hd : parseDimension re x s with
    | error e => rw [hd] at hr; cases hr
    | ok rs =>
      rw [hd] at hr
      obtain ⟨r, s1⟩ := rs
      obtain ⟨h1, h2⟩ := parseDimension_keeps re x s r s1 h hd
      exact ih _ _ _ _ h1 (contextInOrder_addOpt hc r h2) hr

theorem contextInOrder_given (given : List Characteristic) (i : String) : ContextInOrder given (given.foldl Context.add (Context.new i)) := by
  have : ∀ (cs : List Characteristic) (ctx : Context), (∀ c ∈ cs, c ∈ given) → ContextInOrder given ctx → ContextInOrder given (cs.foldl Context.add ctx) := by
    intro cs
    induction cs with
    | nil => intro ctx _ h; exact h
    | cons c cs ih => intro ctx hm h; exact ih _ (fun d hd => hm d (by simp [hd])) (contextInOrder_add h c (.inl (hm c (by simp))))
  refine this given _ (fun _ h => h) ?_
  intro n c hk
  cases hk

theorem parseContext_keeps {dateOf : String → Option Date} {re : ElemStore} {x : XNode} {given : List Characteristic} {s s' : ParseState} {r : Option Context} (h : AllInOrder s)
    (hr : parseContext dateOf re x given s = .ok (r, s')) : AllInOrder s' ∧ ∀ ctx, r = some ctx → ContextInOrder given ctx := by
  unfold parseContext at hr
  simp only [bind, Except.bind, pure, Except.pure] at hr
  split at hr
  · cases hr
  · split at hr
    · cases hr; exact ⟨h, by intro c hh; cases hh⟩
    · split at hr
      · cases hr; exact ⟨h, by intro c hh; cases hh⟩
      · split at hr
        · cases hr
        · next rs hp =>
          obtain ⟨r1, s1⟩ := rs
          obtain ⟨h1, g1⟩ := parsePeriod_keeps _ _ _ _ _ h hp
          dsimp only at hr
          split at hr
          · cases hr
          · next rs he =>
            obtain ⟨r2, s2⟩ := rs
            obtain ⟨h2, g2⟩ := parseEntity_keeps _ _ _ _ h1 he
            dsimp only at hr
            split at hr
            · cases hr
            · next rs hs =>
              obtain ⟨c3, s3⟩ := rs
              obtain ⟨h3, g3⟩ := parseSegment_keeps _ given _ _ _ _ _ h2 (contextInOrder_addOpt (contextInOrder_addOpt (contextInOrder_given given _) r1 g1) r2 g2) hs
              cases hr
              exact ⟨h3, by intro ctx hh; cases hh; exact g3⟩

/-- C47. After any history of parsed contexts, every stored duration, and every duration of the next context, has a start that is not
after its end. -/
theorem C47_reachable {dateOf : String → Option Date} {re : ElemStore} {ops : List CtxOp} {s : ParseState} (hr : runOps dateOf re ops = .ok s) :
    (∀ k c, s.chars.get? k = some c → InOrder c) ∧
    ∀ x given ctx s', (∀ c ∈ given, InOrder c) → parseContext dateOf re x given s = .ok (some ctx, s') → ∀ a c, ctx.getCharacteristic a = some c → InOrder c := by
  have main : ∀ (ops : List CtxOp) (s0 s : ParseState), AllInOrder s0 → ops.foldlM (CtxOp.apply dateOf re) s0 = .ok s → AllInOrder s := by
    intro ops
    induction ops with
    | nil => intro s0 s h hh; cases hh; exact h
    | cons o ops ih =>
      intro s0 s h hh
      simp only [List.foldlM_cons, bind, Except.bind] at hh
      cases ho : CtxOp.apply dateOf re s0 o with
      | error e => rw [ho] at hh; cases hh
      | ok s1 =>
        rw [ho] at hh
        refine ih s1 s ?_ hh
        cases o with
        | context x given =>
          unfold CtxOp.apply at ho
          dsimp only at ho
          cases hp : parseContext dateOf re x given s0 with
          | error e => rw [hp] at ho; cases ho
          | ok rs => rw [hp] at ho; cases ho; exact (parseContext_keeps h hp).1
        | concept i c => cases ho; exact allInOrder_put h _ _ (by intro a b hh; cases hh)
        | unit i n a b => cases ho; exact allInOrder_put h _ _ (by intro a b hh; cases hh)
        | report e => cases ho; exact h
  have hs := main ops {} s (by intro k c hh; cases hh) hr
  refine ⟨hs, ?_⟩
  intro x given ctx s' hg hp a c hc
  rcases (parseContext_keeps hs hp).2 ctx rfl _ _ hc with h | h
  · exact hg c h
  · exact h

/-! ## C40 -/

/-- The name a measure element states. -/
def measureOf (m : XNode) : Option QName := m.text.bind (fun t => (qnameFromStr t m.ns).toOption)

/-- Whether a text occurs in the tag of an element. -/
def tagged (x : XNode) (n : String) : Prop := ∃ t, x.tag = some t ∧ isInfix n.toList t.toList = true

instance (x : XNode) (n : String) : Decidable (tagged x n) :=
  match h : x.tag with
  | none => isFalse (by rintro ⟨t, h1, _⟩; rw [h] at h1; cases h1)
  | some t => if h2 : isInfix n.toList t.toList = true then isTrue ⟨t, h, h2⟩ else isFalse (by rintro ⟨t', h1, h3⟩; rw [h] at h1; cases h1; exact h2 h3)

theorem tagHas_iff {x : XNode} {n : String} {b : Bool} (h : x.tagHas n = .ok b) : b = true ↔ tagged x n := by
  unfold XNode.tagHas at h
  unfold tagged
  cases ht : x.tag with
  | none => rw [ht] at h; cases h
  | some t => rw [ht] at h; cases h; simp

theorem tagHas_ok {x : XNode} (n : String) (h : x.tag ≠ none) : x.tagHas n = .ok (decide (tagged x n)) := by
  cases ht : x.tag with
  | none => exact absurd ht h
  | some t =>
    have : x.tagHas n = .ok (isInfix n.toList t.toList) := by unfold XNode.tagHas; rw [ht]
    rw [this]
    congr 1
    exact Bool.eq_iff_iff.2 (by rw [tagHas_iff this]; simp)

theorem tagged_tag {x : XNode} {n : String} (h : tagged x n) : x.tag ≠ none := by
  obtain ⟨t, ht, _⟩ := h; rw [ht]; simp

theorem parseMeasure_eq (m : XNode) (errs : ErrNames) :
    parseMeasure m errs = .ok (measureOf m, if m.text = none then errs ++ ["XML_MISSING_UNIT_MEASURE"] else errs) := by
  unfold parseMeasure measureOf
  cases m.text with
  | none => rfl
  | some t =>
    obtain ⟨q, hq⟩ := qnameFromStr_total t m.ns
    simp [hq, Except.map, Except.toOption]

theorem measureOf_none {m : XNode} : measureOf m = none ↔ m.text = none := by
  unfold measureOf
  cases m.text with
  | none => simp
  | some t =>
    obtain ⟨q, hq⟩ := qnameFromStr_total t m.ns
    simp [hq, Except.toOption]

/-- C40. A unit element with one measure becomes a simple unit of that measure, without errors if its id is new. -/
theorem C40_simple (x m : XNode) (id : String) (q : QName) (s : ParseState) (hid : x.attr? "id" = some id) (hx : x.children = [m]) (ht : tagged m "measure")
    (hm : measureOf m = some q) (hn : s.chars.hasKey id .unit = false) :
    parseUnit x s = .ok (some (.ofUnit id [q] []), s) ∧ unitIsSimple [q] [] = true := by
  refine ⟨?_, rfl⟩
  have hid' : x.attr "id" = .ok id := by unfold XNode.attr XNode.attr? at *; rw [hid]
  have hmt : m.text ≠ none := by intro h; rw [measureOf_none.2 h] at hm; cases hm
  unfold parseUnit
  simp only [bind, Except.bind, pure, Except.pure, hid', hx, hn, tagHas_ok _ (tagged_tag ht), ht, decide_true, if_true, parseMeasure_eq, hm, hmt, if_false, Bool.false_eq_true]

/-- C40. A unit element with one quotient of two measures becomes the unit with that numerator and that denominator, in either order. -/
theorem C40_divide (x d a b ma mb : XNode) (ras rbs : List XNode) (id : String) (qa qb : QName) (s : ParseState) (hid : x.attr? "id" = some id)
    (hx : x.children = [d]) (ht : tagged d "divide") (ht' : ¬ tagged d "measure") (ha : tagged a "unitNumerator")
    (hb : tagged b "unitDenominator") (hb' : ¬ tagged b "unitNumerator") (hd : d.children = [a, b] ∨ d.children = [b, a])
    (hac : a.children = ma :: ras) (hbc : b.children = mb :: rbs) (hqa : measureOf ma = some qa) (hqb : measureOf mb = some qb) (hn : s.chars.hasKey id .unit = false) :
    parseUnit x s = .ok (some (.ofUnit id [qa] [qb]), s) := by
  have hid' : x.attr "id" = .ok id := by unfold XNode.attr XNode.attr? at *; rw [hid]
  have hma : ma.text ≠ none := by intro h; rw [measureOf_none.2 h] at hqa; cases hqa
  have hmb : mb.text ≠ none := by intro h; rw [measureOf_none.2 h] at hqb; cases hqb
  have hne : a.tag ≠ b.tag := by
    intro h
    obtain ⟨t, h1, h2⟩ := ha
    exact hb' ⟨t, h ▸ h1, h2⟩
  unfold parseUnit
  simp only [bind, Except.bind, pure, Except.pure, hid', hx, hn, tagHas_ok _ (tagged_tag ht), ht, ht', decide_true, decide_false, if_true, if_false, Bool.false_eq_true]
  rcases hd with hd | hd <;> rw [hd]
  · simp only [parseDivide, bind, Except.bind, pure, Except.pure, tagHas_ok _ (tagged_tag ha), tagHas_ok _ (tagged_tag hb), ha, hb, hb', hac, hbc, parseMeasure_eq,
      hqa, hqb, hma, hmb, decide_true, decide_false, if_true, if_false, Bool.false_eq_true, Bool.or_true, Bool.true_or, Bool.false_or, List.length_cons, List.length_nil,
      List.nil_append, sameTags, hne, ne_eq, not_true_eq_false]
  · simp only [parseDivide, bind, Except.bind, pure, Except.pure, tagHas_ok _ (tagged_tag ha), tagHas_ok _ (tagged_tag hb), ha, hb, hb', hac, hbc, parseMeasure_eq,
      hqa, hqb, hma, hmb, decide_true, decide_false, if_true, if_false, Bool.false_eq_true, Bool.or_true, Bool.true_or, Bool.false_or, List.length_cons, List.length_nil,
      List.nil_append, sameTags, Ne.symm hne, ne_eq, not_true_eq_false]


theorem parseDivide_grows (cs : List XNode) : ∀ (nums dens : List QName) (errs : ErrNames) (r : Option (List QName × List QName)) (errs' : ErrNames),
    parseDivide cs nums dens errs = .ok (r, errs') → ∃ more, errs' = errs ++ more := by
  induction cs with
  | nil => intro nums dens errs r errs' h; cases h; exact ⟨[], by simp⟩
  | cons c cs ih =>
    intro nums dens errs r errs' h
    simp only [parseDivide, bind, Except.bind, pure, Except.pure] at h
    split at h
    · cases h
    · next num _ =>
      split at h
      · cases h
      · next den _ =>
        obtain ⟨m1, hm1⟩ : ∃ m1, (if (num || den) = true then errs else errs ++ ["XML_INVALID_DIVIDE_ELEMENT_CHILDREN"]) = errs ++ m1 := by
          split
          · exact ⟨[], by simp⟩
          · exact ⟨_, rfl⟩
        rw [hm1] at h
        split at h
        · cases h
        · next m ms _ =>
          rw [parseMeasure_eq] at h
          dsimp only at h
          obtain ⟨m2, hm2⟩ : ∃ m2, (if m.text = none then errs ++ m1 ++ ["XML_MISSING_UNIT_MEASURE"] else errs ++ m1) = errs ++ m2 := by
            split
            · exact ⟨m1 ++ ["XML_MISSING_UNIT_MEASURE"], by simp⟩
            · exact ⟨_, rfl⟩
          rw [hm2] at h
          cases hmq : measureOf m with
          | none => rw [hmq] at h; cases h; exact ⟨_, rfl⟩
          | some q =>
            rw [hmq] at h
            dsimp only at h
            split at h
            · obtain ⟨m3, hm3⟩ := ih _ _ _ _ _ h; exact ⟨m2 ++ m3, by rw [hm3]; simp⟩
            · split at h
              · obtain ⟨m3, hm3⟩ := ih _ _ _ _ _ h; exact ⟨m2 ++ m3, by rw [hm3]; simp⟩
              · obtain ⟨m3, hm3⟩ := ih _ _ _ _ _ h; exact ⟨m2 ++ m3, by rw [hm3]; simp⟩

theorem append_self {α : Type} {a b : List α} (h : a ++ b = a) : b = [] := by
  have := congrArg List.length h
  simp at this
  exact this

/-- What a step over one child of a quotient does if it reports nothing. -/
theorem parseDivide_silent {c : XNode} {cs : List XNode} {nums dens : List QName} {errs : ErrNames} {r : Option (List QName × List QName)}
    (h : parseDivide (c :: cs) nums dens errs = .ok (r, errs)) :
    ∃ m ms q, c.children = m :: ms ∧ measureOf m = some q ∧
      ((tagged c "unitNumerator" ∧ parseDivide cs (nums ++ [q]) dens errs = .ok (r, errs)) ∨
       (¬ tagged c "unitNumerator" ∧ tagged c "unitDenominator" ∧ parseDivide cs nums (dens ++ [q]) errs = .ok (r, errs))) := by
  simp only [parseDivide, bind, Except.bind, pure, Except.pure] at h
  cases hn : c.tagHas "unitNumerator" with
  | error e => rw [hn] at h; cases h
  | ok num =>
    cases hd : c.tagHas "unitDenominator" with
    | error e => rw [hn, hd] at h; cases h
    | ok den =>
      rw [hn, hd] at h
      dsimp only at h
      have hn' := tagHas_iff hn
      have hd' := tagHas_iff hd
      cases hc : c.children with
      | nil => rw [hc] at h; cases h
      | cons m ms =>
        rw [hc, ] at h
        dsimp only at h
        rw [parseMeasure_eq] at h
        dsimp only at h
        cases hm : measureOf m with
        | none =>
          rw [hm, if_pos (measureOf_none.1 hm)] at h
          exfalso
          cases num <;> cases den <;> simp at h
        | some q =>
          have hmt : m.text ≠ none := by intro hh; rw [measureOf_none.2 hh] at hm; cases hm
          rw [hm, if_neg hmt] at h
          refine ⟨m, ms, q, rfl, hm, ?_⟩
          cases num with
          | true => exact .inl ⟨hn'.1 rfl, by simpa using h⟩
          | false =>
            have hnn : ¬ tagged c "unitNumerator" := fun hh => absurd (hn'.2 hh) (by simp)
            cases den with
            | true => exact .inr ⟨hnn, hd'.1 rfl, by simpa using h⟩
            | false =>
              exfalso
              simp only [Bool.or_self, Bool.false_eq_true, if_false] at h
              obtain ⟨more, hh⟩ := parseDivide_grows _ _ _ _ _ _ h
              have := congrArg List.length hh
              simp at this

/-- C40, the part that holds: a unit that is parsed without a report either is one measure, or a quotient of two elements with different
tags, each a numerator or a denominator with a first measure. The id was not used before. The unit has exactly those measures. -/
theorem C40_reported_partial {x : XNode} {s s' : ParseState} {r : Option Characteristic} (h : parseUnit x s = .ok (r, s')) (he : s'.errs = s.errs) :
    ∃ id c, x.attr? "id" = some id ∧ s.chars.hasKey id .unit = false ∧ x.children = [c] ∧
      ((tagged c "measure" ∧ ∃ q, measureOf c = some q ∧ r = some (.ofUnit id [q] [])) ∨
       (tagged c "divide" ∧ ∃ a b ma mb ras rbs qa qb, c.children = [a, b] ∧ a.tag ≠ b.tag ∧ a.children = ma :: ras ∧ b.children = mb :: rbs ∧
          measureOf ma = some qa ∧ measureOf mb = some qb ∧
          ((tagged a "unitNumerator" ∧ tagged b "unitDenominator" ∧ ¬ tagged b "unitNumerator" ∧ r = some (.ofUnit id [qa] [qb])) ∨
           (tagged a "unitDenominator" ∧ ¬ tagged a "unitNumerator" ∧ tagged b "unitNumerator" ∧ r = some (.ofUnit id [qb] [qa])) ∨
           (tagged a "unitNumerator" ∧ tagged b "unitNumerator" ∧ r = some (.ofUnit id [qa, qb] [])) ∨
           (tagged a "unitDenominator" ∧ tagged b "unitDenominator" ∧ ¬ tagged a "unitNumerator" ∧ ¬ tagged b "unitNumerator" ∧ r = some (.ofUnit id [] [qa, qb]))))) := by
  unfold parseUnit at h
  simp only [bind, Except.bind, pure, Except.pure] at h
  cases hid : x.attr "id" with
  | error e => rw [hid] at h; cases h
  | ok id =>
    rw [hid] at h
    dsimp only at h
    obtain ⟨m0, hm0⟩ : ∃ m0, (if s.chars.hasKey id .unit = true then s.err "IXBRL_DUPLICATE_ELEMENT_ID" else s).errs = s.errs ++ m0 ∧
        (m0 = [] → s.chars.hasKey id .unit = false) := by
      cases hk : s.chars.hasKey id .unit
      · exact ⟨[], by simp, fun _ => rfl⟩
      · exact ⟨["IXBRL_DUPLICATE_ELEMENT_ID"], rfl, by intro hh; cases hh⟩
    generalize (if s.chars.hasKey id .unit = true then s.err "IXBRL_DUPLICATE_ELEMENT_ID" else s) = s1 at h hm0
    obtain ⟨hm0, hfresh⟩ := hm0
    split at h
    · next c hc =>
      cases hme : c.tagHas "measure" with
      | error e => rw [hme] at h; cases h
      | ok me =>
        rw [hme] at h
        dsimp only at h
        have hme' := tagHas_iff hme
        cases me with
        | true =>
          rw [if_pos rfl, parseMeasure_eq] at h
          dsimp only at h
          cases hq : measureOf c with
          | none =>
            rw [hq, if_pos (measureOf_none.1 hq)] at h
            cases h
            dsimp only at he
            rw [hm0, List.append_assoc] at he
            exact absurd (append_self he) (by simp)
          | some q =>
            have hmt : c.text ≠ none := by intro hh; rw [measureOf_none.2 hh] at hq; cases hq
            rw [hq, if_neg hmt] at h
            cases h
            dsimp only at he
            rw [hm0] at he
            exact ⟨id, c, attr_ok hid, hfresh (append_self he), hc, .inl ⟨hme'.1 rfl, q, hq, rfl⟩⟩
        | false =>
          rw [if_neg (by simp)] at h
          cases hdi : c.tagHas "divide" with
          | error e => rw [hdi] at h; cases h
          | ok di =>
            rw [hdi] at h
            dsimp only at h
            have hdi' := tagHas_iff hdi
            cases di with
            | false =>
              rw [if_neg (by simp)] at h
              cases h
              unfold ParseState.err at he
              dsimp only at he
              rw [hm0, List.append_assoc] at he
              exact absurd (append_self he) (by simp)
            | true =>
              rw [if_pos rfl] at h
              obtain ⟨m1, hm1, hlen⟩ : ∃ m1, (if c.children.length ≠ 2 then s1.errs ++ ["XML_DIVIDE_ELEMENT_WITHOUT_TWO_CHILDREN"] else s1.errs) = s.errs ++ m0 ++ m1 ∧
                  (m1 = [] → c.children.length = 2) := by
                rw [hm0]
                split
                · exact ⟨_, rfl, by intro hh; cases hh⟩
                · next hl => exact ⟨[], by simp, fun _ => Classical.not_not.1 hl⟩
              rw [hm1] at h
              cases hp : parseDivide c.children [] [] (s.errs ++ m0 ++ m1) with
              | error e => rw [hp] at h; cases h
              | ok rs =>
                rw [hp] at h
                obtain ⟨rr, errs⟩ := rs
                obtain ⟨m2, hm2⟩ := parseDivide_grows _ _ _ _ _ _ hp
                cases rr with
                | none =>
                  -- `None` is returned after a report only
                  cases h
                  dsimp only at he
                  rw [hm2, List.append_assoc, List.append_assoc] at he
                  have h0 := append_self he
                  simp only [List.append_eq_nil_iff] at h0
                  obtain ⟨rfl, rfl, rfl⟩ := h0
                  simp only [List.append_nil] at hm2 hp
                  rw [hm2] at hp
                  have hl := hlen rfl
                  match hcc : c.children, hl with
                  | [a, b], _ =>
                    rw [hcc] at hp
                    obtain ⟨_, _, _, _, _, hh⟩ := parseDivide_silent hp
                    rcases hh with ⟨_, hh⟩ | ⟨_, _, hh⟩ <;> obtain ⟨_, _, _, _, _, hh⟩ := parseDivide_silent hh <;>
                      rcases hh with ⟨_, hh⟩ | ⟨_, _, hh⟩ <;> cases hh
                | some nd =>
                  obtain ⟨nums, dens⟩ := nd
                  dsimp only at h
                  cases hst : sameTags c.children with
                  | error e => rw [hst] at h; cases h
                  | ok same =>
                    rw [hst] at h
                    dsimp only at h
                    cases same with
                    | true => cases h
                    | false =>
                    cases h
                    dsimp only at he
                    rw [hm2, List.append_assoc, List.append_assoc] at he
                    have h0 := append_self he
                    simp only [List.append_eq_nil_iff] at h0
                    obtain ⟨rfl, rfl, rfl⟩ := h0
                    simp only [List.append_nil] at hm2 hp
                    rw [hm2] at hp
                    refine ⟨id, c, attr_ok hid, hfresh rfl, hc, .inr ⟨hdi'.1 rfl, ?_⟩⟩
                    have hl := hlen rfl
                    match hcc : c.children, hl with
                    | [a, b], _ =>
                      rw [hcc] at hp hst
                      have htag : a.tag ≠ b.tag := by
                        unfold sameTags at hst
                        dsimp only at hst
                        intro hh
                        rw [hh] at hst
                        simp at hst
                      obtain ⟨ma, ras, qa, hac, hqa, hh⟩ := parseDivide_silent hp
                      rcases hh with ⟨ha, hh⟩ | ⟨ha, ha2, hh⟩ <;> obtain ⟨mb, rbs, qb, hbc, hqb, hh⟩ := parseDivide_silent hh <;>
                        rcases hh with ⟨hb, hh⟩ | ⟨hb, hb2, hh⟩ <;> cases hh <;>
                        refine ⟨a, b, ma, mb, ras, rbs, qa, qb, rfl, htag, hac, hbc, hqa, hqb, ?_⟩
                      · exact .inr (.inr (.inl ⟨ha, hb, rfl⟩))
                      · exact .inl ⟨ha, hb2, hb, rfl⟩
                      · exact .inr (.inl ⟨ha2, ha, hb, rfl⟩)
                      · exact .inr (.inr (.inr ⟨ha2, hb2, ha, hb, rfl⟩))
    · cases h
      unfold ParseState.err at he
      dsimp only at he
      rw [hm0, List.append_assoc] at he
      exact absurd (append_self he) (by simp)

/-- `<measure>t</measure>` with the prefix `p` bound to `u`. -/
def xmeasure (t : String) : XNode := .mk (some "{i}measure") [] (some t) [(some "p", "u")] []
/-- `<unit id="id">` -/
def xunit (id : String) (children : List XNode) : XNode := .mk (some "{i}unit") [("id", id)] none [] children
/-- `<divide>` of numerators by denominators. -/
def xdivide (nums dens : List XNode) : XNode := xel "{i}divide" none [xel "{i}unitNumerator" none nums, xel "{i}unitDenominator" none dens]

example : parseUnit (xunit "u1" [xmeasure "p:EUR"]) {} = .ok (some (.ofUnit "u1" [⟨"u", "p", "EUR"⟩] []), {}) :=
  (C40_simple _ (xmeasure "p:EUR") "u1" _ {} rfl rfl (by decide) (by rfl) rfl).1

example : parseUnit (xunit "u1" [xdivide [xmeasure "p:EUR"] [xmeasure "p:share"]]) {} = .ok (some (.ofUnit "u1" [⟨"u", "p", "EUR"⟩] [⟨"u", "p", "share"⟩]), {}) :=
  C40_divide _ (xdivide [xmeasure "p:EUR"] [xmeasure "p:share"]) (xel "{i}unitNumerator" none [xmeasure "p:EUR"]) (xel "{i}unitDenominator" none [xmeasure "p:share"])
    (xmeasure "p:EUR") (xmeasure "p:share") [] [] "u1" _ _ {} rfl rfl (by decide) (by decide) (by decide) (by decide) (by decide) (.inl rfl) rfl rfl (by rfl) (by rfl) rfl

/-- C40. A unit is simple exactly when it has one numerator and no denominator. -/
theorem C40_is_simple (nums dens : List QName) : unitIsSimple nums dens = true ↔ (∃ q, nums = [q]) ∧ dens = [] := by
  unfold unitIsSimple
  simp [List.length_eq_one_iff]

/-- The measures a unit element with one quotient states. -/
def allMeasures (x : XNode) (n : String) : List QName :=
  (x.children.flatMap (fun d => (d.children.filter (fun c => decide (tagged c n))).flatMap XNode.children)).filterMap measureOf

/-- C40 fails: of several measures in a numerator only the first is kept, without a report. -/
theorem C40_measures_false : ¬ ∀ (x : XNode) (id : String) (nums dens : List QName) (s' : ParseState),
    parseUnit x {} = .ok (some (.ofUnit id nums dens), s') → (∃ d, x.children = [d] ∧ tagged d "divide") →
    (nums = allMeasures x "unitNumerator" ∧ dens = allMeasures x "unitDenominator") ∨ s'.errs ≠ [] := by
  intro h
  have := h (xunit "u1" [xdivide [xmeasure "p:EUR", xmeasure "p:m"] [xmeasure "p:share"]]) _ _ _ _ (by rfl) ⟨_, rfl, by decide⟩
  exact absurd this (by decide +kernel)

/-- C40 fails: a numerator without a measure is not reported; an exception is raised. -/
theorem C40_empty_false (x d a : XNode) (rest : List XNode) (s : ParseState) (hx : x.children = [d]) (ht' : ¬ tagged d "measure") (ht : tagged d "divide")
    (hd : d.children = a :: rest) (ha : a.children = []) : ∀ r, parseUnit x s ≠ .ok r := by
  intro r h
  unfold parseUnit at h
  simp only [bind, Except.bind, pure, Except.pure, hx, tagHas_ok _ (tagged_tag ht), ht, ht', decide_true, decide_false, if_true, if_false, Bool.false_eq_true, hd, parseDivide, ha] at h
  split at h
  · cases h
  · split at h
    · cases h
    · next hh =>
      split at hh
      · cases hh
      · split at hh <;> cases hh

example : ∃ d a rest, (xunit "u1" [xdivide [] [xmeasure "p:share"]]).children = [d] ∧ ¬ tagged d "measure" ∧ tagged d "divide" ∧ d.children = a :: rest ∧ a.children = [] :=
  ⟨_, _, _, rfl, by decide, by decide, rfl, rfl⟩

/-- C40 fails: a quotient of two numerators is not reported; an exception is raised, as the message of the report is malformed. -/
theorem C40_same_false (x d a b ma mb : XNode) (ras rbs : List XNode) (qa qb : QName) (s : ParseState) (hx : x.children = [d]) (ht' : ¬ tagged d "measure") (ht : tagged d "divide")
    (hd : d.children = [a, b]) (ha : a.children = ma :: ras) (hb : b.children = mb :: rbs) (hqa : measureOf ma = some qa) (hqb : measureOf mb = some qb)
    (hab : a.tag = b.tag) : ∀ r, parseUnit x s ≠ .ok r := by
  have hdiv : ∀ errs, (∃ e, parseDivide d.children [] [] errs = .error e) ∨ ∃ nd errs', parseDivide d.children [] [] errs = .ok (some nd, errs') := by
    intro errs
    rw [hd]
    unfold parseDivide
    simp only [bind, Except.bind, ha, parseMeasure_eq, hqa]
    cases a.tagHas "unitNumerator" with
    | error e => exact .inl ⟨_, rfl⟩
    | ok n1 =>
      cases a.tagHas "unitDenominator" with
      | error e => exact .inl ⟨_, rfl⟩
      | ok d1 =>
        dsimp only
        have step : ∀ nums dens errs, (∃ e, parseDivide [b] nums dens errs = .error e) ∨ ∃ nd errs', parseDivide [b] nums dens errs = .ok (some nd, errs') := by
          intro nums dens errs
          unfold parseDivide
          simp only [bind, Except.bind, hb, parseMeasure_eq, hqb]
          cases b.tagHas "unitNumerator" with
          | error e => exact .inl ⟨_, rfl⟩
          | ok n2 =>
            cases b.tagHas "unitDenominator" with
            | error e => exact .inl ⟨_, rfl⟩
            | ok d2 =>
              dsimp only
              cases n2
              · cases d2 <;> exact .inr ⟨_, _, rfl⟩
              · exact .inr ⟨_, _, rfl⟩
        cases n1
        · cases d1 <;> exact step _ _ _
        · exact step _ _ _
  intro r h
  unfold parseUnit at h
  simp only [bind, Except.bind, pure, Except.pure, hx, tagHas_ok _ (tagged_tag ht), ht, ht', decide_true, decide_false, if_true, if_false, Bool.false_eq_true] at h
  split at h
  · cases h
  · split at h
    · cases h
    · next v hh =>
      rcases hdiv (if d.children.length ≠ 2 then _ else _) with ⟨e, he⟩ | ⟨nd, errs', he⟩
      · rw [he] at hh; cases hh
      · rw [he] at hh
        cases hh
        have hst : sameTags d.children = .ok true := by rw [hd]; simp [sameTags, hab]
        rw [hst] at h
        cases h

example : ∃ d a b ma mb ras rbs qa qb, (xunit "u1" [xel "{i}divide" none [xel "{i}unitNumerator" none [xmeasure "p:EUR"], xel "{i}unitNumerator" none [xmeasure "p:m"]]]).children = [d] ∧
    ¬ tagged d "measure" ∧ tagged d "divide" ∧ d.children = [a, b] ∧ a.children = ma :: ras ∧ b.children = mb :: rbs ∧ measureOf ma = some qa ∧ measureOf mb = some qb ∧ a.tag = b.tag :=
  ⟨_, _, _, _, _, _, _, ⟨"u", "p", "EUR"⟩, ⟨"u", "p", "m"⟩, rfl, by decide, by decide, rfl, rfl, rfl, by rfl, by rfl, rfl⟩

/-- C40 fails: white space around a measure becomes part of its name, and no namespace is found for its prefix. -/
theorem C40_whitespace_false : ¬ ∀ (t : String) (q q' : QName), measureOf (xmeasure t) = some q → measureOf (xmeasure (" " ++ t)) = some q' → q = q' := by
  intro h
  exact absurd (h "p:EUR" _ _ (by rfl) (by rfl)) (by decide)

end Brel
