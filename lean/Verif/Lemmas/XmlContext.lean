import Verif.Spec.XmlContext
import Verif.Lemmas.Names
import Verif.Lemmas.Context
import Verif.Lemmas.Repos

namespace Brel
open Spec

/-! ### Report elements -/

theorem getTyped_eq (re : ElemStore) (q : QName) (k : ElemKind) :
    re.getTypedByQName q k = match elementOf re k q with
      | some e => .ok e
      | none => if (re.byName.get? q).isSome then .error .valueError else .error .keyError := by
  unfold ElemStore.getTypedByQName elementOf
  rw [ElemStore.getByQName_eq]
  cases h : re.byName.get? q with
  | none => rfl
  | some e =>
    by_cases hk : e.kind = k <;> simp [hk, bind, Except.bind, Option.filter] <;> rfl

theorem hasTyped_eq (re : ElemStore) (q : QName) (k : ElemKind) : re.hasTypedQName q k = (elementOf re k q).isSome := by
  unfold ElemStore.hasTypedQName
  rw [getTyped_eq]
  cases elementOf re k q with
  | some e => rfl
  | none => dsimp only; split <;> (rename_i h; split at h <;> cases h <;> rfl)

theorem elementOf_kind {re : ElemStore} {q : QName} {k : ElemKind} {e : ReportElement} (h : elementOf re k q = some e) : e.kind = k := by
  unfold elementOf at h
  obtain ⟨_, h2⟩ := Option.filter_eq_some_iff.1 h
  simpa using h2

theorem qnameFromStr_total (t : String) (ns : NsMap) : ∃ q, qnameFromStr t ns = .ok q := by
  unfold qnameFromStr
  split
  · next h =>
    unfold qnameFromClark
    cases hm : matchClark t with
    | none => simp [hm] at h
    | some p => exact ⟨_, rfl⟩
  · split
    · next h =>
      unfold qnameFromPrefixLocal
      cases hm : matchColon t with
      | none => simp [hm] at h
      | some p => exact ⟨_, rfl⟩
    · exact ⟨_, rfl⟩

/-! ### The invariant of the repositories -/

/-- Text without spaces. -/
def Plain (t : String) : Prop := ' ' ∉ t.toList

structure ParseInv (dateOf : String → Option Date) (s : ParseState) : Prop where
  kinds : ∀ k c, s.chars.get? k = some c → c.kind = k.2
  aspects : ∀ n a, Dict.get? s.aspects n = some a → a = { name := n }
  periods : ∀ k c, s.chars.get? (k, CharKind.period) = some c →
    (∃ d, Plain k ∧ dateOf k = some d ∧ c = .ofPeriod (.instant d)) ∨
    (∃ a b da db, Plain a ∧ Plain b ∧ k = durationKey a b ∧ dateOf a = some da ∧ dateOf b = some db ∧ Date.le da db = true ∧ c = .ofPeriod (.duration da db))

theorem parseInv_empty (dateOf : String → Option Date) : ParseInv dateOf {} := by
  constructor <;> intro _ _ h <;> cases h

theorem durationKey_toList (a b : String) : (durationKey a b).toList = "period".toList ++ ' ' :: (a.toList ++ ' ' :: b.toList) := by
  unfold durationKey
  simp [String.toList_append]

theorem durationKey_not_plain (a b : String) : ¬ Plain (durationKey a b) := by
  unfold Plain
  rw [durationKey_toList]
  simp

theorem split_space {l l' r r' : List Char} (hl : ' ' ∉ l) (hl' : ' ' ∉ l') (h : l ++ ' ' :: r = l' ++ ' ' :: r') : l = l' ∧ r = r' := by
  induction l generalizing l' with
  | nil =>
    cases l' with
    | nil => simpa using h
    | cons x l' => simp at h; simp [← h.1] at hl'
  | cons y l ih =>
    cases l' with
    | nil => simp at h; simp [h.1] at hl
    | cons x l' =>
      simp only [List.cons_append, List.cons.injEq] at h
      have := ih (l' := l') (by simp at hl; exact hl.2) (by simp at hl'; exact hl'.2) h.2
      exact ⟨by rw [h.1, this.1], this.2⟩

theorem durationKey_inj {a b a' b' : String} (ha : Plain a) (ha' : Plain a') (h : durationKey a b = durationKey a' b') : a = a' ∧ b = b' := by
  have h' := congrArg String.toList h
  rw [durationKey_toList, durationKey_toList] at h'
  simp only [List.append_cancel_left_eq, List.cons.injEq, true_and] at h'
  obtain ⟨h1, h2⟩ := split_space ha ha' h'
  exact ⟨String.toList_inj.1 h1, String.toList_inj.1 h2⟩

theorem dimensionKey_inj {a b a' b' : String} (ha : Plain a) (ha' : Plain a') (h : dimensionKey a b = dimensionKey a' b') : a = a' ∧ b = b' := by
  have h' := congrArg String.toList h
  unfold dimensionKey at h'
  simp only [String.toList_append] at h'
  rw [show (" " : String).toList = [' '] from rfl] at h'
  simp only [List.append_assoc, List.singleton_append] at h'
  obtain ⟨h1, h2⟩ := split_space ha ha' h'
  exact ⟨String.toList_inj.1 h1, String.toList_inj.1 h2⟩

/-! ### Cached parsers -/

/-- A cache key with the characteristic a fresh parse stores under it. -/
abbrev Entry := (String × CharKind) × Characteristic

/-- How a parser that caches its result by key behaves: without an entry it returns `None`; with one it stores the entry unless the
key is taken and returns what is stored. -/
def Cached (s s' : ParseState) (r : Option Characteristic) : Option Entry → Prop
  | none => r = none ∧ s'.chars = s.chars
  | some e => (∀ k, s'.chars.get? k = (s.chars.get? k).or (if e.1 = k then some e.2 else none)) ∧ r = s'.chars.get? e.1 ∧ r.isSome

theorem hasKey_eq (d : CharStore) (i : String) (k : CharKind) : d.hasKey i k = (Dict.get? d (i, k)).isSome := Dict.has_eq _ _

theorem lookup_eq {d : CharStore} {i : String} {k : CharKind} {c : Characteristic} (h : Dict.get? d (i, k) = some c) (hk : c.kind = k) :
    d.lookup i k = .ok c := by
  unfold CharStore.lookup
  rw [h]
  simp [hk]

theorem get?_upsert (d : CharStore) (i : String) (c : Characteristic) (k : String × CharKind) :
    Dict.get? (d.upsert i c) k = if (i, c.kind) = k then some c else Dict.get? d k := by
  unfold CharStore.upsert
  rw [Dict.get?_set]

theorem cached_hit {s s' : ParseState} {i : String} {v c : Characteristic} {k : CharKind} (hs : s'.chars = s.chars) (h : Dict.get? s.chars (i, k) = some c) :
    Cached s s' (some c) (some ((i, k), v)) := by
  refine ⟨?_, by rw [hs]; exact h.symm, rfl⟩
  intro k'
  rw [hs]
  by_cases e : (i, k) = k'
  · subst e; rw [h]; rfl
  · rw [if_neg e]; simp

theorem cached_miss {s s' : ParseState} {i : String} {v : Characteristic} {k : CharKind} (hk : v.kind = k) (hs : s'.chars = s.chars.upsert i v)
    (h : Dict.get? s.chars (i, k) = none) : Cached s s' (some v) (some ((i, k), v)) := by
  subst hk
  refine ⟨?_, by rw [hs, get?_upsert, if_pos rfl], rfl⟩
  intro k'
  rw [hs, get?_upsert]
  by_cases e : (i, v.kind) = k'
  · subst e; rw [h]; simp
  · rw [if_neg e, if_neg e]; simp

theorem inv_err {dateOf : String → Option Date} {s : ParseState} (h : ParseInv dateOf s) (e : String) : ParseInv dateOf (s.err e) :=
  ⟨h.kinds, h.aspects, h.periods⟩

theorem inv_put {dateOf : String → Option Date} {s : ParseState} (h : ParseInv dateOf s) (i : String) (c : Characteristic) (hc : c.kind ≠ .period) :
    ParseInv dateOf (s.put i c) := by
  refine ⟨?_, h.aspects, ?_⟩
  · intro k c' hk
    unfold ParseState.put at hk
    rw [get?_upsert] at hk
    split at hk
    · next e => cases hk; rw [← e]
    · exact h.kinds _ _ hk
  · intro k c' hk
    unfold ParseState.put at hk
    rw [get?_upsert, if_neg (by intro e; exact hc (congrArg Prod.snd e))] at hk
    exact h.periods _ _ hk

theorem inv_putPeriod {dateOf : String → Option Date} {s : ParseState} (h : ParseInv dateOf s) (i : String) (p : Period)
    (hp : (∃ d, Plain i ∧ dateOf i = some d ∧ p = .instant d) ∨
      (∃ a b da db, Plain a ∧ Plain b ∧ i = durationKey a b ∧ dateOf a = some da ∧ dateOf b = some db ∧ Date.le da db = true ∧ p = .duration da db)) :
    ParseInv dateOf (s.put i (.ofPeriod p)) := by
  refine ⟨?_, h.aspects, ?_⟩
  · intro k c' hk
    unfold ParseState.put at hk
    rw [get?_upsert] at hk
    split at hk
    · next e => cases hk; rw [← e]
    · exact h.kinds _ _ hk
  · intro k c' hk
    unfold ParseState.put at hk
    rw [get?_upsert] at hk
    split at hk
    · next e =>
      cases e
      cases hk
      rcases hp with ⟨d, h1, h2, h3⟩ | ⟨a, b, da, db, h1, h2, h3, h4, h5, h6, h7⟩
      · exact Or.inl ⟨d, h1, h2, by rw [h3]⟩
      · exact Or.inr ⟨a, b, da, db, h1, h2, h3, h4, h5, h6, by rw [h7]⟩
    · exact h.periods _ _ hk

/-! ### Periods -/

theorem isDate_iff (dateOf : String → Option Date) (x : XNode) : isDate dateOf x.text = true ↔ (dateIn dateOf x).isSome := by
  unfold isDate dateIn
  cases x.text with
  | none => simp
  | some t => by_cases h : t = "" <;> simp [h]

theorem dateIn_some {dateOf : String → Option Date} {x : XNode} {d : Date} (h : dateIn dateOf x = some d) :
    ∃ t, x.text = some t ∧ t ≠ "" ∧ dateOf t = some d := by
  unfold dateIn at h
  cases ht : x.text with
  | none => rw [ht] at h; cases h
  | some t =>
    rw [ht] at h
    simp only [Option.bind_some] at h
    by_cases he : t = ""
    · rw [if_pos he] at h; cases h
    · rw [if_neg he] at h; exact ⟨t, rfl, he, h⟩

theorem contextDate_none {dateOf : String → Option Date} {x : XNode} (s : ParseState) (h : dateIn dateOf x = none) :
    contextDate dateOf x s = (none, s.err "INVALID_CONTEXT_PERIOD_DATE") := by
  unfold contextDate
  rw [if_neg (by rw [isDate_iff, h]; simp)]

theorem contextDate_some {dateOf : String → Option Date} {x : XNode} (s : ParseState) {d : Date} (h : dateIn dateOf x = some d) :
    contextDate dateOf x s = (x.text, s) := by
  unfold contextDate
  rw [if_pos (by rw [isDate_iff, h]; rfl)]

/-- The cache entry of a period element. -/
def periodEntry (dateOf : String → Option Date) (x : XNode) : Option Entry :=
  match x.find "instant" with
  | some i => (dateIn dateOf i).map (fun d => ((i.text.getD "", .period), .ofPeriod (.instant d)))
  | none => do
    let ea ← x.find "startDate"
    let eb ← x.find "endDate"
    let a ← dateIn dateOf ea
    let b ← dateIn dateOf eb
    if Date.le a b then some ((durationKey (ea.text.getD "") (eb.text.getD ""), .period), .ofPeriod (.duration a b)) else none

theorem periodEntry_value (dateOf : String → Option Date) (x : XNode) :
    (periodEntry dateOf x).map (·.2) = (periodOf dateOf x).map Characteristic.ofPeriod := by
  unfold periodEntry periodOf
  cases x.find "instant" with
  | some i => simp only; cases dateIn dateOf i <;> rfl
  | none =>
    simp only
    cases x.find "startDate" with
    | none => rfl
    | some ea =>
      cases x.find "endDate" with
      | none => simp only [bind, Option.bind]; cases dateIn dateOf ea <;> rfl
      | some eb =>
        simp only [bind, Option.bind]
        cases dateIn dateOf ea with
        | none => rfl
        | some a =>
          cases dateIn dateOf eb with
          | none => rfl
          | some b => dsimp only; split <;> rfl

/-- The errors of reading a date. -/
def dateErrs (dateOf : String → Option Date) (x : XNode) : ErrNames :=
  match dateIn dateOf x with
  | some _ => []
  | none => ["INVALID_CONTEXT_PERIOD_DATE"]

theorem find_mem {x c : XNode} {n : String} (h : x.find n = some c) : c ∈ x.children := List.mem_of_find?_eq_some h

theorem parseInstant_spec {dateOf : String → Option Date} {x : XNode} {s : ParseState} (inv : ParseInv dateOf s) (hp : ∀ t, x.text = some t → Plain t) :
    ∃ r s', parseInstant dateOf x s = .ok (r, s') ∧ r = (dateIn dateOf x).map (fun d => .ofPeriod (.instant d)) ∧ ParseInv dateOf s' ∧ s'.aspects = s.aspects ∧
      Cached s s' r ((dateIn dateOf x).map (fun d => ((x.text.getD "", .period), .ofPeriod (.instant d)))) := by
  unfold parseInstant
  cases hd : dateIn dateOf x with
  | none => rw [contextDate_none s hd]; exact ⟨_, _, rfl, rfl, inv_err inv _, rfl, rfl, rfl⟩
  | some d =>
    rw [contextDate_some s hd]
    obtain ⟨t, ht, hne, htd⟩ := dateIn_some hd
    rw [ht]
    dsimp only
    cases hg : Dict.get? s.chars (t, CharKind.period) with
    | some c =>
      rw [if_pos (by rw [hasKey_eq, hg]; rfl), lookup_eq hg (inv.kinds _ _ hg)]
      have hc : c = .ofPeriod (.instant d) := by
        rcases inv.periods _ _ hg with ⟨d', _, h2, h3⟩ | ⟨a, b, _, _, _, _, h3, _⟩
        · rw [htd] at h2; cases h2; exact h3
        · exact absurd (h3 ▸ hp t ht) (durationKey_not_plain a b)
      exact ⟨_, _, rfl, by rw [hc]; rfl, inv, rfl, cached_hit rfl hg⟩
    | none =>
      rw [if_neg (by rw [hasKey_eq, hg]; simp)]
      have hm : mkInstant dateOf t = .ok (.instant d) := by
        unfold mkInstant isDate
        simp only [hne, htd, if_false]; rfl
      rw [hm]
      refine ⟨_, _, rfl, rfl, inv_putPeriod inv _ _ (Or.inl ⟨d, hp t ht, htd, rfl⟩), rfl, ?_⟩
      exact cached_miss rfl rfl hg

theorem parseDuration_spec {dateOf : String → Option Date} {x y : XNode} {s : ParseState} (inv : ParseInv dateOf s) (hx : ∀ t, x.text = some t → Plain t)
    (hy : ∀ t, y.text = some t → Plain t) :
    ∃ r s', parseDuration dateOf x y s = .ok (r, s') ∧ ParseInv dateOf s' ∧ s'.aspects = s.aspects ∧
      r = (do let a ← dateIn dateOf x; let b ← dateIn dateOf y; if Date.le a b then some (.ofPeriod (.duration a b)) else none) ∧
      Cached s s' r (do
        let a ← dateIn dateOf x
        let b ← dateIn dateOf y
        if Date.le a b then some ((durationKey (x.text.getD "") (y.text.getD ""), .period), .ofPeriod (.duration a b)) else none) := by
  unfold parseDuration
  cases ha : dateIn dateOf x with
  | none =>
    rw [contextDate_none s ha]
    dsimp only
    cases hb : dateIn dateOf y with
    | none => rw [contextDate_none _ hb]; exact ⟨_, _, rfl, inv_err (inv_err inv _) _, rfl, rfl, rfl, rfl⟩
    | some b => rw [contextDate_some _ hb]; exact ⟨_, _, rfl, inv_err inv _, rfl, rfl, rfl, rfl⟩
  | some a =>
    rw [contextDate_some s ha]
    dsimp only
    obtain ⟨t, ht, hne, htd⟩ := dateIn_some ha
    rw [ht]
    cases hb : dateIn dateOf y with
    | none => rw [contextDate_none _ hb]; exact ⟨_, _, rfl, inv_err inv _, rfl, rfl, rfl, rfl⟩
    | some b =>
      rw [contextDate_some _ hb]
      obtain ⟨u, hu, hue, hud⟩ := dateIn_some hb
      rw [hu]
      dsimp only
      cases hg : Dict.get? s.chars (durationKey t u, CharKind.period) with
      | some c =>
        rw [if_pos (by rw [hasKey_eq, hg]; rfl), lookup_eq hg (inv.kinds _ _ hg)]
        have hc : Date.le a b = true ∧ c = .ofPeriod (.duration a b) := by
          rcases inv.periods _ _ hg with ⟨d', h1, _⟩ | ⟨a', b', da, db, h1, h2, h3, h4, h5, h6, h7⟩
          · exact absurd h1 (durationKey_not_plain t u)
          · obtain ⟨e1, e2⟩ := durationKey_inj (hx t ht) h1 h3
            subst e1; subst e2
            rw [htd] at h4; rw [hud] at h5
            cases h4; cases h5
            exact ⟨h6, h7⟩
        refine ⟨_, _, rfl, inv, rfl, ?_, ?_⟩
        · rw [hc.2]; simp only [bind, Option.bind]; rw [if_pos hc.1]
        · simp only [bind, Option.bind]; rw [if_pos hc.1]
          exact cached_hit rfl hg
      | none =>
        rw [if_neg (by rw [hasKey_eq, hg]; simp)]
        by_cases hle : Date.le a b = true
        · have hm : mkDuration dateOf t u = .ok (.duration a b) := by
            unfold mkDuration isDate
            simp only [hne, hue, htd, hud, hle, if_false]; rfl
          rw [hm]
          refine ⟨_, _, rfl, inv_putPeriod inv _ _ (Or.inr ⟨t, u, a, b, hx t ht, hy u hu, rfl, htd, hud, hle, rfl⟩), rfl, ?_, ?_⟩
          · simp only [bind, Option.bind]; rw [if_pos hle]
          · simp only [bind, Option.bind]; rw [if_pos hle]
            exact cached_miss rfl rfl hg
        · have hm : mkDuration dateOf t u = .error .valueError := by
            unfold mkDuration isDate
            simp only [hne, hue, htd, hud, hle, if_false]; rfl
          rw [hm]
          refine ⟨_, _, rfl, inv_err inv _, rfl, ?_, ?_⟩
          · simp only [bind, Option.bind]; rw [if_neg hle]
          · simp only [bind, Option.bind]; rw [if_neg hle]
            exact ⟨rfl, rfl⟩

theorem parsePeriod_spec {dateOf : String → Option Date} {x : XNode} {s : ParseState} (inv : ParseInv dateOf s)
    (hp : ∀ c ∈ x.children, ∀ t, c.text = some t → Plain t) :
    ∃ r s', parsePeriod dateOf x s = .ok (r, s') ∧ r = (periodOf dateOf x).map .ofPeriod ∧ ParseInv dateOf s' ∧ s'.aspects = s.aspects ∧
      Cached s s' r (periodEntry dateOf x) := by
  unfold parsePeriod periodEntry periodOf
  cases hi : x.find "instant" with
  | some i =>
    obtain ⟨r, s', h1, h2, h3, h4, h5⟩ := parseInstant_spec inv (hp i (find_mem hi))
    exact ⟨r, s', h1, by rw [h2]; dsimp only; cases dateIn dateOf i <;> rfl, h3, h4, h5⟩
  | none =>
    dsimp only
    cases ha : x.find "startDate" with
    | none => exact ⟨_, _, rfl, rfl, inv_err inv _, rfl, rfl, rfl⟩
    | some a =>
      dsimp only
      cases hb : x.find "endDate" with
      | none =>
        refine ⟨_, _, rfl, ?_, inv_err inv _, rfl, rfl, rfl⟩
        simp only [bind, Option.bind]
        cases dateIn dateOf a <;> rfl
      | some b =>
        obtain ⟨r, s', h1, h2, h3, h4, h5⟩ := parseDuration_spec inv (hp a (find_mem ha)) (hp b (find_mem hb))
        refine ⟨r, s', h1, ?_, h2, h3, h5⟩
        rw [h4]
        simp only [bind, Option.bind]
        cases dateIn dateOf a with
        | none => rfl
        | some a =>
          dsimp only
          cases dateIn dateOf b with
          | none => rfl
          | some b => dsimp only; split <;> rfl

/-! ### Entities -/

/-- The cache entry of an entity element. -/
def entityEntry (x : XNode) : Option Entry := (entityOf x).map (fun i => ((i.1, .entity), .ofEntity i.1 i.2))

theorem parseEntity_spec {dateOf : String → Option Date} {x : XNode} {s : ParseState} (inv : ParseInv dateOf s) :
    ∃ r s', parseEntity x s = .ok (r, s') ∧ ParseInv dateOf s' ∧ s'.aspects = s.aspects ∧ Cached s s' r (entityEntry x) := by
  unfold parseEntity entityEntry entityOf
  cases x.find "identifier" with
  | none => exact ⟨_, _, rfl, inv_err inv _, rfl, rfl, rfl⟩
  | some i =>
    simp only [bind, Option.bind]
    cases i.attr? "scheme" with
    | none => exact ⟨_, _, rfl, inv_err inv _, rfl, rfl, rfl⟩
    | some url =>
      dsimp only
      cases i.text with
      | none => exact ⟨_, _, rfl, inv, rfl, rfl, rfl⟩
      | some id =>
        dsimp only
        cases hg : Dict.get? s.chars (id, CharKind.entity) with
        | some c =>
          rw [if_pos (by rw [hasKey_eq, hg]; rfl), lookup_eq hg (inv.kinds _ _ hg)]
          exact ⟨_, _, rfl, inv, rfl, cached_hit rfl hg⟩
        | none =>
          rw [if_neg (by rw [hasKey_eq, hg]; simp)]
          exact ⟨_, _, rfl, inv_put inv _ _ (by intro h; cases h), rfl, cached_miss rfl rfl hg⟩

/-! ### Dimensions -/

/-- The cache entry of an explicit member element. -/
def explicitEntry (re : ElemStore) (x : XNode) : Option Entry :=
  (explicitOf re x).map (fun c => ((dimensionKey ((x.attr? "dimension").getD "") (x.text.getD ""), .explicit), c))

/-- The cache entry of a typed member element. -/
def typedEntry (re : ElemStore) (x : XNode) : Option Entry :=
  (typedOf re x).map (fun c => ((dimensionKey ((x.attr? "dimension").getD "") ((x.children.head?.bind (·.text)).getD ""), .typed), c))

theorem attr_ok {x : XNode} {a v : String} (h : x.attr a = .ok v) : x.attr? a = some v := by
  unfold XNode.attr at h
  unfold XNode.attr?
  cases hg : x.attrs.get? a with
  | none => rw [hg] at h; cases h
  | some w => rw [hg] at h; cases h; rfl

theorem dget_ok {β : Type} {d : Dict String β} {k : String} {v : β} (h : Dict.get d k = .ok v) : Dict.get? d k = some v := by
  unfold Dict.get at h
  cases hg : Dict.get? d k with
  | none => rw [hg] at h; cases h
  | some w => rw [hg] at h; cases h; rfl

theorem inv_aspect {dateOf : String → Option Date} {s : ParseState} (h : ParseInv dateOf s) (n : String) :
    ParseInv dateOf { s with aspects := s.aspects.upsert { name := n } } := by
  refine ⟨h.kinds, ?_, h.periods⟩
  intro n' a ha
  simp only [AspectStore.upsert] at ha
  rw [Dict.get?_set] at ha
  split at ha
  · next e => cases ha; rw [← e]
  · exact h.aspects _ _ ha

theorem nonEmpty?_some {o : Option String} {m : String} (h : nonEmpty? o = some m) : o = some m ∧ m ≠ "" := by
  unfold nonEmpty? at h
  cases o with
  | none => cases h
  | some t =>
    dsimp only at h
    by_cases ht : t = ""
    · rw [if_pos ht] at h; cases h
    · rw [if_neg ht] at h; cases h; exact ⟨rfl, ht⟩

theorem nonEmpty?_none {o : Option String} (h : nonEmpty? o = none) : o = none ∨ o = some "" := by
  unfold nonEmpty? at h
  cases o with
  | none => exact Or.inl rfl
  | some t =>
    dsimp only at h
    by_cases ht : t = ""
    · exact Or.inr (by rw [ht])
    · rw [if_neg ht] at h; cases h

/-- The cache step both dimension parsers end with. -/
theorem cache_step {dateOf : String → Option Date} {s s1 : ParseState} {i : String} {k : CharKind} {v c : Characteristic} (inv : ParseInv dateOf s1)
    (hs : s1.chars = s.chars) (hk : v.kind = k) (hkp : k ≠ .period)
    (h : (if s1.chars.hasKey i k then s1 else s1.put i v).chars.lookup i k = .ok c) :
    ParseInv dateOf (if s1.chars.hasKey i k then s1 else s1.put i v) ∧ Cached s (if s1.chars.hasKey i k then s1 else s1.put i v) (some c) (some ((i, k), v)) := by
  cases hg : Dict.get? s1.chars (i, k) with
  | some c' =>
    have hh : s1.chars.hasKey i k = true := by rw [hasKey_eq, hg]; rfl
    rw [if_pos hh] at h ⊢
    rw [lookup_eq hg (inv.kinds _ _ hg)] at h
    cases h
    exact ⟨inv, cached_hit hs (hs ▸ hg)⟩
  | none =>
    have hh : ¬ s1.chars.hasKey i k = true := by rw [hasKey_eq, hg]; simp
    rw [if_neg hh] at h ⊢
    have hg' : Dict.get? (s1.put i v).chars (i, k) = some v := by
      unfold ParseState.put
      rw [get?_upsert, hk, if_pos rfl]
    rw [lookup_eq hg' hk] at h
    cases h
    exact ⟨inv_put inv _ _ (by rw [hk]; exact hkp), cached_miss hk (by rw [← hs]; rfl) (hs ▸ hg)⟩

theorem parseExplicit_spec {dateOf : String → Option Date} {re : ElemStore} {x : XNode} {s s' : ParseState} {r : Option Characteristic} (inv : ParseInv dateOf s)
    (h : parseExplicit re x s = .ok (r, s')) : ParseInv dateOf s' ∧ Cached s s' r (explicitEntry re x) := by
  unfold parseExplicit at h
  simp only [bind, Except.bind, pure, Except.pure] at h
  cases ha : x.attr "dimension" with
  | error e => rw [ha] at h; cases h
  | ok axis =>
    rw [ha] at h
    dsimp only at h
    have inv1 : ParseInv dateOf (if s.chars.hasKey axis .explicit then s else { s with aspects := s.aspects.upsert { name := axis } }) := by
      split
      · exact inv
      · exact inv_aspect inv axis
    have hc1 : (if s.chars.hasKey axis .explicit then s else { s with aspects := s.aspects.upsert { name := axis } }).chars = s.chars := by
      split <;> rfl
    generalize (if s.chars.hasKey axis .explicit then s else { s with aspects := s.aspects.upsert { name := axis } }) = s1 at h inv1 hc1
    cases hasp : Dict.get s1.aspects axis with
    | error e => rw [hasp] at h; cases h
    | ok asp =>
      rw [hasp] at h
      have hasp' := inv1.aspects _ _ (dget_ok hasp)
      obtain ⟨dq, hdq⟩ := qnameFromStr_total axis x.ns
      rw [hdq] at h
      dsimp only at h
      unfold explicitEntry explicitOf
      rw [attr_ok ha]
      simp only [bind, Option.bind, hdq, Except.toOption]
      rw [hasTyped_eq, getTyped_eq] at h
      cases hdim : elementOf re .dimension dq with
      | none =>
        rw [hdim] at h
        simp only [Option.isSome_none, Bool.not_false, if_true] at h
        cases h
        exact ⟨inv_err inv1 _, rfl, hc1⟩
      | some dim =>
        rw [hdim] at h
        simp only [Option.isSome_some, Bool.not_true, Bool.false_eq_true, if_false] at h
        cases hm : nonEmpty? x.text with
        | none =>
          rw [hm] at h
          cases h
          refine ⟨inv_err inv1 _, ?_⟩
          rcases nonEmpty?_none hm with e | e <;> rw [e] <;> exact ⟨rfl, hc1⟩
        | some m =>
          rw [hm] at h
          obtain ⟨e, hne⟩ := nonEmpty?_some hm
          rw [e]
          obtain ⟨mq, hmq⟩ := qnameFromStr_total m x.ns
          simp only [hmq, hne, if_false] at h ⊢
          rw [hasTyped_eq, getTyped_eq] at h
          cases hmem : elementOf re .member mq with
          | none =>
            rw [hmem] at h
            simp only [Option.isSome_none, Bool.not_false, if_true] at h
            cases h
            exact ⟨inv_err inv1 _, rfl, hc1⟩
          | some mem =>
            rw [hmem] at h
            simp only [Option.isSome_some, Bool.not_true, Bool.false_eq_true, if_false] at h
            subst hasp'
            split at h
            · cases h
            · next c hl =>
              cases h
              exact cache_step inv1 hc1 rfl (by decide) hl

theorem parseTyped_spec {dateOf : String → Option Date} {re : ElemStore} {x : XNode} {s s' : ParseState} {r : Option Characteristic} (inv : ParseInv dateOf s)
    (h : parseTyped re x s = .ok (r, s')) : ParseInv dateOf s' ∧ Cached s s' r (typedEntry re x) := by
  unfold parseTyped at h
  simp only [bind, Except.bind, pure, Except.pure] at h
  cases ha : x.attr "dimension" with
  | error e => rw [ha] at h; cases h
  | ok axis =>
    rw [ha] at h
    dsimp only at h
    have inv1 : ParseInv dateOf (if Dict.has s.aspects axis then s else { s with aspects := s.aspects.upsert { name := axis } }) := by
      split
      · exact inv
      · exact inv_aspect inv axis
    have hc1 : (if Dict.has s.aspects axis then s else { s with aspects := s.aspects.upsert { name := axis } }).chars = s.chars := by
      split <;> rfl
    generalize (if Dict.has s.aspects axis then s else { s with aspects := s.aspects.upsert { name := axis } }) = s1 at h inv1 hc1
    cases hasp : Dict.get s1.aspects axis with
    | error e => rw [hasp] at h; cases h
    | ok asp =>
      rw [hasp] at h
      have hasp' := inv1.aspects _ _ (dget_ok hasp)
      obtain ⟨dq, hdq⟩ := qnameFromStr_total axis x.ns
      rw [hdq] at h
      dsimp only at h
      unfold typedEntry typedOf
      rw [attr_ok ha]
      simp only [bind, Option.bind, hdq, Except.toOption]
      rw [hasTyped_eq, getTyped_eq] at h
      cases hdim : elementOf re .dimension dq with
      | none => rw [hdim] at h; dsimp only at h; split at h <;> (next hh => split at hh <;> cases hh <;> first | cases h | skip)
      | some dim =>
        rw [hdim] at h
        simp only [Option.isSome_some, if_true] at h
        have inv2 : ParseInv dateOf (if x.children.length > 1 then s1.err "MULTIPLE_TYPED_DIMENSION_ELEMENT_CHILDREN" else s1) := by
          split
          · exact inv_err inv1 _
          · exact inv1
        have hc2 : (if x.children.length > 1 then s1.err "MULTIPLE_TYPED_DIMENSION_ELEMENT_CHILDREN" else s1).chars = s.chars := by
          split <;> exact hc1
        generalize (if x.children.length > 1 then s1.err "MULTIPLE_TYPED_DIMENSION_ELEMENT_CHILDREN" else s1) = s2 at h inv2 hc2
        cases hch : x.children with
        | nil =>
          rw [hch] at h
          cases h
          exact ⟨inv_err inv2 _, rfl, hc2⟩
        | cons v vs =>
          rw [hch] at h
          dsimp only at h
          simp only [List.head?_cons]
          cases hv : v.text with
          | none =>
            rw [hv] at h
            cases h
            exact ⟨inv_err inv2 _, rfl, hc2⟩
          | some t =>
            rw [hv] at h
            dsimp only at h
            subst hasp'
            split at h
            · cases h
            · next c hl =>
              cases h
              exact cache_step inv2 hc2 rfl (by decide) hl

/-- The cache entry of a child of a segment. -/
def dimensionEntry (re : ElemStore) (x : XNode) : Option Entry :=
  x.tag.bind (fun t => if isInfix "explicitMember".toList t.toList then explicitEntry re x else if isInfix "typedMember".toList t.toList then typedEntry re x else none)

theorem dimensionEntry_value (re : ElemStore) (x : XNode) : (dimensionEntry re x).map (·.2) = dimensionOf re x := by
  unfold dimensionEntry dimensionOf
  cases x.tag with
  | none => rfl
  | some t =>
    simp only [bind, Option.bind]
    split
    · unfold explicitEntry; cases explicitOf re x <;> rfl
    · split
      · unfold typedEntry; cases typedOf re x <;> rfl
      · rfl

theorem parseDimension_spec {dateOf : String → Option Date} {re : ElemStore} {x : XNode} {s s' : ParseState} {r : Option Characteristic} (inv : ParseInv dateOf s)
    (h : parseDimension re x s = .ok (r, s')) : ParseInv dateOf s' ∧ Cached s s' r (dimensionEntry re x) := by
  unfold parseDimension XNode.tagHas at h
  unfold dimensionEntry
  simp only [bind, Except.bind, pure, Except.pure] at h
  cases ht : x.tag with
  | none => rw [ht] at h; cases h
  | some t =>
    rw [ht] at h
    dsimp only at h
    simp only [Option.bind]
    by_cases h1 : isInfix "explicitMember".toList t.toList = true
    · rw [if_pos h1] at h ⊢; exact parseExplicit_spec inv h
    · rw [if_neg h1] at h ⊢
      by_cases h2 : isInfix "typedMember".toList t.toList = true
      · rw [if_pos h2] at h ⊢; exact parseTyped_spec inv h
      · rw [if_neg h2] at h
        cases h

/-! ### Contexts -/

/-- What remains of a list of entries in a store: an entry is stored unless its key is taken. -/
def Grows (s s' : ParseState) (es : List Entry) : Prop := ∀ k, s'.chars.get? k = (s.chars.get? k).or (Dict.get? es k)

theorem grows_nil (s s' : ParseState) (h : s'.chars = s.chars) : Grows s s' [] := by
  intro k; rw [h]; simp

theorem grows_trans {s s1 s2 : ParseState} {e1 e2 : List Entry} (h1 : Grows s s1 e1) (h2 : Grows s1 s2 e2) : Grows s s2 (e1 ++ e2) := by
  intro k
  rw [h2 k, h1 k]
  unfold Dict.get?
  rw [List.find?_append]
  cases List.find? (fun e => decide (e.1 = k)) s.chars <;> simp
  cases List.find? (fun e => decide (e.1 = k)) e1 <;> simp

theorem cached_grows {s s' : ParseState} {r : Option Characteristic} {e : Option Entry} (h : Cached s s' r e) : Grows s s' e.toList := by
  cases e with
  | none => exact grows_nil _ _ h.2
  | some e =>
    intro k
    rw [h.1 k]
    obtain ⟨k', v⟩ := e
    show _ = Option.or _ (Dict.get? [(k', v)] k)
    rw [Dict.get?_cons]
    rfl

theorem grows_keep {s s' : ParseState} {es : List Entry} (h : Grows s s' es) {k : String × CharKind} {c : Characteristic} (hk : s.chars.get? k = some c) :
    s'.chars.get? k = some c := by
  rw [h k, hk]; rfl

/-- The characteristics the entries resolve to in a store. -/
def resolve (s : ParseState) (es : List Entry) : List Characteristic := es.filterMap (fun e => s.chars.get? e.1)

theorem resolve_append (s : ParseState) (a b : List Entry) : resolve s (a ++ b) = resolve s a ++ resolve s b := List.filterMap_append

theorem cached_resolve {s s' s'' : ParseState} {r : Option Characteristic} {e : Option Entry} {es : List Entry} (h : Cached s s' r e) (g : Grows s' s'' es) :
    r.toList = resolve s'' e.toList := by
  cases e with
  | none => rw [h.1]; rfl
  | some e =>
    obtain ⟨_, h2, h3⟩ := h
    cases r with
    | none => cases h3
    | some c =>
      have := grows_keep g h2.symm
      simp [resolve, this]

theorem addOpt_eq (ctx : Context) (r : Option Characteristic) : ctx.addOpt r = r.toList.foldl Context.add ctx := by cases r <;> rfl

theorem parseSegment_spec {dateOf : String → Option Date} {re : ElemStore} (xs : List XNode) : ∀ {ctx ctx' : Context} {s s' : ParseState},
    ParseInv dateOf s → parseSegment re xs ctx s = .ok (ctx', s') →
    ParseInv dateOf s' ∧ Grows s s' (xs.filterMap (dimensionEntry re)) ∧ ctx' = (resolve s' (xs.filterMap (dimensionEntry re))).foldl Context.add ctx := by
  induction xs with
  | nil => intro ctx ctx' s s' inv h; cases h; exact ⟨inv, grows_nil _ _ rfl, rfl⟩
  | cons x xs ih =>
    intro ctx ctx' s s' inv h
    simp only [parseSegment, bind, Except.bind] at h
    cases hd : parseDimension re x s with
    | error e => rw [hd] at h; cases h
    | ok rs =>
      obtain ⟨r, s1⟩ := rs
      rw [hd] at h
      obtain ⟨inv1, hc⟩ := parseDimension_spec inv hd
      obtain ⟨inv2, hg, he⟩ := ih inv1 h
      have e1 : (x :: xs).filterMap (dimensionEntry re) = (dimensionEntry re x).toList ++ xs.filterMap (dimensionEntry re) := by
        rw [List.filterMap_cons]
        cases dimensionEntry re x <;> rfl
      rw [e1]
      refine ⟨inv2, grows_trans (cached_grows hc) hg, ?_⟩
      rw [he, addOpt_eq, cached_resolve hc hg, resolve_append, List.foldl_append]

/-- The cache entries of a context element. -/
def contextEntries (dateOf : String → Option Date) (re : ElemStore) (x : XNode) : List Entry :=
  match partsOf x with
  | none => []
  | some (p, e) => (periodEntry dateOf p).toList ++ (entityEntry e).toList ++ (segmentOf e).filterMap (dimensionEntry re)

theorem filterMap_map_opt {α β γ : Type} (f : α → Option β) (g : β → γ) (l : List α) : (l.filterMap f).map g = l.filterMap (fun a => (f a).map g) := by
  rw [List.map_filterMap]

theorem contextEntries_values (dateOf : String → Option Date) (re : ElemStore) (x : XNode) : (contextEntries dateOf re x).map (·.2) = statedBy dateOf re x := by
  unfold contextEntries statedBy
  cases partsOf x with
  | none => rfl
  | some pe =>
    obtain ⟨p, e⟩ := pe
    simp only [List.map_append, List.map_filterMap, dimensionEntry_value]
    congr 2
    · have := periodEntry_value dateOf p
      cases h1 : periodEntry dateOf p <;> cases h2 : periodOf dateOf p <;> rw [h1, h2] at this <;> simp_all
    · unfold entityEntry
      cases entityOf e <;> rfl

theorem parseContext_none {dateOf : String → Option Date} {re : ElemStore} {x : XNode} {given : List Characteristic} {s : ParseState} (h : partsOf x = none)
    {r : Option Context} {s' : ParseState} (hp : parseContext dateOf re x given s = .ok (r, s')) :
    r = none ∧ ∃ e, e ∈ ["MISSING_CONTEXT_PERIOD", "MISSING_CONTEXT_ENTITY"] ∧ s' = s.err e := by
  unfold parseContext at hp
  unfold partsOf at h
  simp only [bind, Except.bind, pure, Except.pure, Option.bind] at hp h
  cases hi : x.attr "id" with
  | error e => rw [hi] at hp; cases hp
  | ok i =>
    rw [hi] at hp
    cases hpe : x.find "period" with
    | none => rw [hpe] at hp; cases hp; exact ⟨rfl, _, by simp, rfl⟩
    | some p =>
      cases hen : x.find "entity" with
      | none => rw [hpe, hen] at hp; cases hp; exact ⟨rfl, _, by simp, rfl⟩
      | some e => rw [hpe, hen] at h; cases h

theorem parseContext_spec {dateOf : String → Option Date} {re : ElemStore} {x : XNode} {given : List Characteristic} {s s' : ParseState} {r : Option Context}
    (inv : ParseInv dateOf s) (hpl : PlainDates x) (h : parseContext dateOf re x given s = .ok (r, s')) :
    ParseInv dateOf s' ∧ Grows s s' (contextEntries dateOf re x) ∧
    (∀ p e, partsOf x = some (p, e) → ∃ id, x.attr? "id" = some id ∧
      r = some ((given ++ resolve s' (contextEntries dateOf re x)).foldl Context.add (Context.new id)) ∧
      ∃ s1, parsePeriod dateOf p s = .ok ((periodOf dateOf p).map .ofPeriod, s1)) := by
  cases hp : partsOf x with
  | none =>
    obtain ⟨_, e, _, he⟩ := parseContext_none hp h
    subst he
    have : contextEntries dateOf re x = [] := by unfold contextEntries; rw [hp]
    rw [this]
    exact ⟨inv_err inv _, grows_nil _ _ rfl, by intro p e hh; cases hh⟩
  | some pe =>
    obtain ⟨p, e⟩ := pe
    have hent : contextEntries dateOf re x = (periodEntry dateOf p).toList ++ (entityEntry e).toList ++ (segmentOf e).filterMap (dimensionEntry re) := by
      unfold contextEntries; rw [hp]
    have hfp : x.find "period" = some p ∧ x.find "entity" = some e := by
      unfold partsOf at hp
      simp only [bind, Option.bind] at hp
      cases hpe : x.find "period" with
      | none => rw [hpe] at hp; cases hp
      | some p' =>
        cases hen : x.find "entity" with
        | none => rw [hpe, hen] at hp; cases hp
        | some e' => rw [hpe, hen] at hp; cases hp; exact ⟨rfl, rfl⟩
    unfold parseContext at h
    simp only [bind, Except.bind, pure, Except.pure] at h
    cases hi : x.attr "id" with
    | error er => rw [hi] at h; cases h
    | ok i =>
      rw [hi, hfp.1, hfp.2] at h
      dsimp only at h
      obtain ⟨rp, s1, h1, h1r, inv1, _, c1⟩ := parsePeriod_spec inv (hpl p e hp)
      rw [h1] at h
      obtain ⟨rn, s2, h2, inv2, _, c2⟩ := parseEntity_spec (x := e) inv1
      dsimp only at h
      rw [h2] at h
      dsimp only at h
      cases hs : parseSegment re (segmentOf e) (((given.foldl Context.add (Context.new i)).addOpt rp).addOpt rn) s2 with
      | error er => rw [hs] at h; cases h
      | ok cs =>
        obtain ⟨ctx, s3⟩ := cs
        rw [hs] at h
        cases h
        obtain ⟨inv3, g3, hctx⟩ := parseSegment_spec _ inv2 hs
        refine ⟨inv3, ?_, ?_⟩
        · rw [hent]
          exact grows_trans (grows_trans (cached_grows c1) (cached_grows c2)) g3
        · intro p' e' hpe
          cases hpe
          refine ⟨i, attr_ok hi, ?_, s1, h1r ▸ h1⟩
          rw [hctx, addOpt_eq, addOpt_eq, cached_resolve c2 g3, cached_resolve c1 (grows_trans (cached_grows c2) g3), hent, resolve_append, resolve_append]
          simp only [List.foldl_append]

/-! ### Histories -/

/-- The cache entries of a list of context elements. -/
def allEntries (dateOf : String → Option Date) (re : ElemStore) (xs : List XNode) : List Entry := xs.flatMap (contextEntries dateOf re)

/-- The kinds of characteristics the context parser caches. -/
def CharKind.parsed (k : CharKind) : Prop := k ≠ .concept ∧ k ≠ .unit

theorem run_spec {dateOf : String → Option Date} {re : ElemStore} (ops : List CtxOp) : ∀ {s s' : ParseState}, ParseInv dateOf s →
    (∀ x ∈ contextsOf ops, PlainDates x) → ops.foldlM (CtxOp.apply dateOf re) s = .ok s' →
    ParseInv dateOf s' ∧ ∀ k, CharKind.parsed k.2 → s'.chars.get? k = (s.chars.get? k).or (Dict.get? (allEntries dateOf re (contextsOf ops)) k) := by
  induction ops with
  | nil => intro s s' inv _ h; cases h; exact ⟨inv, by intro k _; simp [allEntries, contextsOf]⟩
  | cons o ops ih =>
    intro s s' inv hpl h
    simp only [List.foldlM_cons, bind, Except.bind] at h
    cases ho : CtxOp.apply dateOf re s o with
    | error e => rw [ho] at h; cases h
    | ok s1 =>
      rw [ho] at h
      cases o with
      | context x given =>
        unfold CtxOp.apply at ho
        dsimp only at ho
        cases hc : parseContext dateOf re x given s with
        | error e => rw [hc] at ho; cases ho
        | ok rs =>
          obtain ⟨r, s2⟩ := rs
          rw [hc] at ho
          cases ho
          have hcons : contextsOf (CtxOp.context x given :: ops) = x :: contextsOf ops := rfl
          rw [hcons] at hpl ⊢
          obtain ⟨inv1, g1, _⟩ := parseContext_spec inv (hpl x (by simp)) hc
          obtain ⟨inv2, h2⟩ := ih inv1 (fun y hy => hpl y (by simp [hy])) h
          refine ⟨inv2, ?_⟩
          intro k hk
          rw [h2 k hk, g1 k]
          have : allEntries dateOf re (x :: contextsOf ops) = contextEntries dateOf re x ++ allEntries dateOf re (contextsOf ops) := rfl
          rw [this]
          unfold Dict.get?
          rw [List.find?_append]
          cases List.find? (fun e => decide (e.1 = k)) s.chars <;> simp
          cases List.find? (fun e => decide (e.1 = k)) (contextEntries dateOf re x) <;> simp
      | concept i c =>
        cases ho
        obtain ⟨inv2, h2⟩ := ih (inv_put inv i (.ofConcept c) (by intro h; cases h)) hpl h
        refine ⟨inv2, ?_⟩
        intro k hk
        have hput : Dict.get? (s.put i (.ofConcept c)).chars k = Dict.get? s.chars k := by
          unfold ParseState.put
          rw [get?_upsert, if_neg]
          intro e
          exact hk.1 (congrArg Prod.snd e).symm
        exact (h2 k hk).trans (by rw [hput]; rfl)
      | unit i n a b =>
        cases ho
        obtain ⟨inv2, h2⟩ := ih (inv_put inv i (.ofUnit n a b) (by intro h; cases h)) hpl h
        refine ⟨inv2, ?_⟩
        intro k hk
        have hput : Dict.get? (s.put i (.ofUnit n a b)).chars k = Dict.get? s.chars k := by
          unfold ParseState.put
          rw [get?_upsert, if_neg]
          intro e
          exact hk.2 (congrArg Prod.snd e).symm
        exact (h2 k hk).trans (by rw [hput]; rfl)
      | report e =>
        cases ho
        have hh := ih (inv_err inv e) hpl h
        exact hh

theorem runOps_spec {dateOf : String → Option Date} {re : ElemStore} {ops : List CtxOp} {s : ParseState} (hpl : ∀ x ∈ contextsOf ops, PlainDates x)
    (h : runOps dateOf re ops = .ok s) :
    ParseInv dateOf s ∧ ∀ k, CharKind.parsed k.2 → s.chars.get? k = Dict.get? (allEntries dateOf re (contextsOf ops)) k := by
  obtain ⟨h1, h2⟩ := run_spec ops (parseInv_empty dateOf) hpl h
  refine ⟨h1, ?_⟩
  intro k hk
  rw [h2 k hk]
  rfl

end Brel
