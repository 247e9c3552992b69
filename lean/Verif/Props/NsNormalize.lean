import Verif.Spec.NsNormalize
import Verif.Lemmas.Link

/-! # Normalised name spaces (C37, C90) -/

namespace Brel

theorem removeVersion_eq {dig : Char → Option Nat} {u v : String} : removeVersion dig u = removeVersion dig v ↔ Versions dig u v := by
  have h : ∀ c : Char, (!((dig c).isSome || decide (c = '-') || decide (c = '_') || decide (c = '.'))) = decide (dig c = none ∧ c ∉ ['-', '_', '.']) := by
    intro c
    cases hd : dig c <;> simp [Bool.and_assoc]
  unfold removeVersion Versions
  simp only [h]
  constructor
  · intro e
    have := congrArg String.toList e
    simpa using this
  · intro e
    exact congrArg String.ofList e

theorem digitRuns_segments (dig : Char → Option Nat) (s : List Char) :
    ∃ seg rest, digitSegments dig s = seg :: rest ∧ digitRuns dig s = (seg :: rest).filter (· ≠ []) ∧ (seg = [] ↔ s.head?.bind dig = none) := by
  induction s with
  | nil => exact ⟨[], [], rfl, rfl, by simp⟩
  | cons c s ih =>
    obtain ⟨seg, rest, h1, h2, h3⟩ := ih
    unfold digitSegments at h1 ⊢
    rw [List.foldr_cons, h1]
    rw [digitRuns]
    cases hd : dig c with
    | none => exact ⟨[], seg :: rest, rfl, by rw [h2]; simp, by simp [hd]⟩
    | some d =>
      refine ⟨d :: seg, rest, rfl, ?_, by simp [hd]⟩
      dsimp only
      by_cases he : seg = []
      · rw [h3.1 he, h2, he]; simp
      · cases hb : s.head?.bind dig with
        | none => exact absurd (h3.2 hb) he
        | some x => rw [h2]; simp [he]

theorem uriValue_eq (dig : Char → Option Nat) (u : String) (n : Nat) (h : uriValue dig u = .ok n) : n = numberSum dig u := by
  obtain ⟨seg, rest, h1, h2, -⟩ := digitRuns_segments dig u.toList
  have key : ∀ (l : List (List Nat)) (a b : Nat), (l.foldlM (m := Except PyErr) (fun n r => if r.length ≤ maxStrDigits then .ok (n + digitsVal r) else .error .valueError) a) = .ok b →
      b = a + (l.map digitsVal).sum := by
    intro l
    induction l with
    | nil => intro a b h; cases h; simp
    | cons x l ih =>
      intro a b h
      rw [List.foldlM_cons] at h
      by_cases hx : x.length ≤ maxStrDigits
      · rw [if_pos hx] at h
        have := ih _ _ h
        simp only [List.map_cons, List.sum_cons]; omega
      · rw [if_neg hx] at h; cases h
  have hs : ∀ l : List (List Nat), ((l.filter (· ≠ [])).map digitsVal).sum = (l.map digitsVal).sum := by
    intro l
    induction l with
    | nil => rfl
    | cons x l ih =>
      by_cases hx : x = []
      · subst hx; simp only [ne_eq, not_true, decide_false, Bool.false_eq_true, not_false_eq_true, List.filter_cons_of_neg, List.map_cons, List.sum_cons]; rw [show digitsVal [] = 0 from rfl, Nat.zero_add]; exact ih
      · rw [List.filter_cons_of_pos (by simpa using hx)]; simp only [List.map_cons, List.sum_cons]; rw [ih]
  have := key _ _ _ h
  rw [this, h2, hs, Nat.zero_add, ← h1]; rfl

theorem uriValue_ok (dig : Char → Option Nat) (u : String) (h : ∀ r ∈ digitSegments dig u.toList, r.length ≤ 4300) : ∃ n, uriValue dig u = .ok n := by
  obtain ⟨seg, rest, h1, h2, -⟩ := digitRuns_segments dig u.toList
  have key : ∀ (l : List (List Nat)) (a : Nat), (∀ r ∈ l, r.length ≤ 4300) → ∃ b, (l.foldlM (m := Except PyErr) (fun n r => if r.length ≤ maxStrDigits then .ok (n + digitsVal r) else .error .valueError) a) = .ok b := by
    intro l
    induction l with
    | nil => intro a _; exact ⟨a, rfl⟩
    | cons x l ih =>
      intro a h
      rw [List.foldlM_cons, if_pos (show x.length ≤ maxStrDigits from h x (by simp))]
      exact ih _ (fun r hr => h r (by simp [hr]))
  refine key _ _ ?_
  intro r hr
  rw [h2, ← h1] at hr
  exact h r (List.mem_filter.1 hr).1

theorem firstBest_spec {α : Type} {key : α → Except PyErr Nat} {beats : Nat → Nat → Bool} (hirr : ∀ a, beats a a = false)
    (htr : ∀ a b c, beats a b = true → beats c b = false → beats c a = false) {l : List α} {x : α} (h : firstBest key beats l = .ok x) :
    x ∈ l ∧ ∃ k, key x = .ok k ∧ ∀ y ∈ l, ∃ k', key y = .ok k' ∧ beats k' k = false := by
  cases l with
  | nil => cases h
  | cons a l =>
    unfold firstBest at h
    dsimp only at h
    cases ha : key a with
    | error e => rw [ha] at h; cases h
    | ok ka =>
      rw [ha] at h
      have gen : ∀ (l seen : List α) (b : α × Nat) (r : α × Nat), b.1 ∈ seen → key b.1 = .ok b.2 → (∀ y ∈ seen, ∃ k', key y = .ok k' ∧ beats k' b.2 = false) →
          l.foldlM (m := Except PyErr) (fun (b : α × Nat) y => do
            let k ← key y
            return if beats k b.2 then (y, k) else b) b = .ok r →
          r.1 ∈ seen ++ l ∧ key r.1 = .ok r.2 ∧ ∀ y ∈ seen ++ l, ∃ k', key y = .ok k' ∧ beats k' r.2 = false := by
        intro l
        induction l with
        | nil => intro seen b r h1 h2 h3 h4; cases h4; simpa using ⟨h1, h2, h3⟩
        | cons y l ih =>
          intro seen b r h1 h2 h3 h4
          rw [List.foldlM_cons] at h4
          cases hy : key y with
          | error e => rw [hy] at h4; cases h4
          | ok k =>
            rw [hy] at h4
            have := ih (seen ++ [y]) (if beats k b.2 then (y, k) else b) r ?_ ?_ ?_ h4
            · simpa using this
            · by_cases hb : beats k b.2 = true
              · rw [if_pos hb]; simp
              · rw [if_neg hb]; simp [h1]
            · by_cases hb : beats k b.2 = true
              · rw [if_pos hb]; exact hy
              · rw [if_neg hb]; exact h2
            · intro z hz
              rcases List.mem_append.1 hz with hz | hz
              · obtain ⟨k', e, hk⟩ := h3 z hz
                refine ⟨k', e, ?_⟩
                by_cases hb : beats k b.2 = true
                · rw [if_pos hb]; exact htr _ _ _ hb hk
                · rw [if_neg hb]; exact hk
              · have hz := List.mem_singleton.1 hz
                subst hz
                refine ⟨k, hy, ?_⟩
                by_cases hb : beats k b.2 = true
                · rw [if_pos hb]; exact hirr k
                · rw [if_neg hb]; exact Bool.not_eq_true _ ▸ hb
      cases hf : l.foldlM (m := Except PyErr) (fun (b : α × Nat) y => do
            let k ← key y
            return if beats k b.2 then (y, k) else b) (a, ka) with
      | error e =>
        have : (Except.error e : Except PyErr α) = .ok x := by rw [← h]; show _ = (_ >>= fun r : α × Nat => (pure r.1 : Except PyErr α)); rw [hf]; rfl
        cases this
      | ok r =>
        have : (Except.ok r.1 : Except PyErr α) = .ok x := by rw [← h]; show _ = (_ >>= fun r : α × Nat => (pure r.1 : Except PyErr α)); rw [hf]; rfl
        cases this
        have := gen l [a] (a, ka) r (by simp) ha (by intro y hy; have := List.mem_singleton.1 hy; subst this; exact ⟨ka, ha, hirr ka⟩) hf
        exact ⟨this.1, r.2, this.2.1, this.2.2⟩

theorem firstBest_ok {α : Type} {key : α → Except PyErr Nat} {beats : Nat → Nat → Bool} {l : List α} (hl : l ≠ []) (h : ∀ y ∈ l, ∃ k, key y = .ok k) :
    ∃ x, firstBest key beats l = .ok x := by
  cases l with
  | nil => exact absurd rfl hl
  | cons a l =>
    obtain ⟨ka, ha⟩ := h a (by simp)
    have gen : ∀ (l : List α) (b : α × Nat), (∀ y ∈ l, ∃ k, key y = .ok k) → ∃ r, l.foldlM (m := Except PyErr) (fun (b : α × Nat) y => do
            let k ← key y
            return if beats k b.2 then (y, k) else b) b = .ok r := by
      intro l
      induction l with
      | nil => intro b _; exact ⟨b, rfl⟩
      | cons y l ih =>
        intro b h
        obtain ⟨k, hk⟩ := h y (by simp)
        rw [List.foldlM_cons, hk]
        exact ih _ (fun z hz => h z (by simp [hz]))
    obtain ⟨r, hr⟩ := gen l (a, ka) (fun y hy => h y (by simp [hy]))
    refine ⟨r.1, ?_⟩
    unfold firstBest
    dsimp only
    rw [ha]
    show (_ >>= fun r : α × Nat => (pure r.1 : Except PyErr α)) = _
    rw [hr]; rfl

/-- What a group becomes. -/
theorem groupToNsmap_spec {dig : Char → Option Nat} {us ps : List String} {p u : String} {others : List String} (h : groupToNsmap dig us ps = .ok (p, u, others)) :
    u ∈ us ∧ (∀ v ∈ us, numberSum dig v ≤ numberSum dig u) ∧ others = ps.filter (fun q => q ≠ p) ∧
    (defaultPrefix dig u = some p ∨ (defaultPrefix dig u = none ∧ p ∈ ps ∧ ∀ q ∈ ps, p.length ≤ q.length)) := by
  unfold groupToNsmap at h
  by_cases h1 : us = [] ∨ ps = []
  · rw [if_pos h1] at h; cases h
  rw [if_neg h1] at h
  by_cases h2 : (!areVersions dig us) = true
  · rw [if_pos h2] at h; cases h
  rw [if_neg h2] at h
  cases hl : latestUri dig us with
  | error e => rw [hl] at h; cases h
  | ok w =>
    rw [hl] at h
    have hw := firstBest_spec (by simp) (by simp; omega) hl
    obtain ⟨hm, k, hk, hall⟩ := hw
    have hsum : ∀ v ∈ us, numberSum dig v ≤ numberSum dig w := by
      intro v hv
      obtain ⟨k', e, hb⟩ := hall v hv
      rw [← uriValue_eq dig w k hk, ← uriValue_eq dig v k' e]
      simpa using hb
    cases hd : defaultPrefix dig w with
    | some d =>
      have : (Except.ok (d, w, ps.filter (fun q => q ≠ d)) : Except PyErr (String × String × List String)) = .ok (p, u, others) := by
        rw [← h]; show _ = (mainPrefix dig w ps >>= fun p => (pure (p, w, ps.filter (fun q => q ≠ p)) : Except PyErr (String × String × List String))); unfold mainPrefix; rw [hd]; rfl
      cases this
      exact ⟨hm, hsum, rfl, .inl hd⟩
    | none =>
      cases hb : bestPrefix ps with
      | error e =>
        have : (Except.error e : Except PyErr (String × String × List String)) = .ok (p, u, others) := by
          rw [← h]; show _ = (mainPrefix dig w ps >>= fun p => (pure (p, w, ps.filter (fun q => q ≠ p)) : Except PyErr (String × String × List String))); unfold mainPrefix; rw [hd]; dsimp only; rw [hb]; rfl
        cases this
      | ok b =>
        have : (Except.ok (b, w, ps.filter (fun q => q ≠ b)) : Except PyErr (String × String × List String)) = .ok (p, u, others) := by
          rw [← h]; show _ = (mainPrefix dig w ps >>= fun p => (pure (p, w, ps.filter (fun q => q ≠ p)) : Except PyErr (String × String × List String))); unfold mainPrefix; rw [hd]; dsimp only; rw [hb]; rfl
        cases this
        obtain ⟨hbm, kb, hkb, hball⟩ := firstBest_spec (by simp) (by simp; omega) hb
        cases hkb
        refine ⟨hm, hsum, rfl, .inr ⟨hd, hbm, ?_⟩⟩
        intro q hq
        obtain ⟨k', e, hx⟩ := hball q hq
        cases e
        simpa using hx

theorem groupToNsmap_ok {dig : Char → Option Nat} {us ps : List String} (hu : us ≠ []) (hp : ps ≠ []) {k : String} (hk : ∀ u ∈ us, removeVersion dig u = k)
    (hs : ∀ u ∈ us, ∀ r ∈ digitSegments dig u.toList, r.length ≤ 4300) : ∃ x, groupToNsmap dig us ps = .ok x := by
  unfold groupToNsmap
  rw [if_neg (by simp [hu, hp])]
  have hv : ∀ l : List String, (∀ u ∈ l, removeVersion dig u = k) → areVersions dig l = true := by
    intro l
    induction l with
    | nil => intro _; rfl
    | cons a l ih =>
      intro h
      cases l with
      | nil => rfl
      | cons b l =>
        rw [areVersions, ih (fun u hu => h u (by simp [hu])), h a (by simp), h b (by simp)]; simp
  rw [if_neg (by simp [hv us hk])]
  obtain ⟨w, hw⟩ := firstBest_ok (key := uriValue dig) (beats := fun a b => decide (b < a)) hu (fun u h => uriValue_ok dig u (hs u h))
  obtain ⟨b, hb⟩ := firstBest_ok (key := fun p : String => (.ok p.length : Except PyErr Nat)) (beats := fun a b => decide (a < b)) hp (fun q _ => ⟨_, rfl⟩)
  have hw' : latestUri dig us = .ok w := hw
  have hb' : bestPrefix ps = .ok b := hb
  rw [hw']
  show ∃ x, (mainPrefix dig w ps >>= fun p => (pure (p, w, ps.filter (fun q => q ≠ p)) : Except PyErr (String × String × List String))) = .ok x
  unfold mainPrefix
  cases hd : defaultPrefix dig w with
  | some d => exact ⟨_, rfl⟩
  | none => dsimp only; rw [hb']; exact ⟨_, rfl⟩

/-! ## Default prefixes -/

theorem matchToks_iff (dig : Char → Option Nat) : ∀ (ts : List UriTok) (s : List Char), matchToks dig ts s = true ↔ ∃ a b, s = a ++ b ∧ Describes dig ts a := by
  intro ts
  induction ts with
  | nil => intro s; cases s <;> exact ⟨fun _ => ⟨[], _, rfl, .nil⟩, fun _ => by simp [matchToks]⟩
  | cons t ts ih =>
    intro s
    cases t with
    | lit c =>
      cases s with
      | nil => exact ⟨fun h => by simp [matchToks] at h, fun ⟨a, b, e, h⟩ => by cases h; cases e⟩
      | cons x s =>
        rw [matchToks, Bool.and_eq_true, decide_eq_true_iff, ih]
        constructor
        · rintro ⟨rfl, a, b, rfl, h⟩; exact ⟨x :: a, b, rfl, .lit h⟩
        · rintro ⟨a, b, e, h⟩; cases h with
          | lit h => cases e; exact ⟨rfl, _, _, rfl, h⟩
    | dot =>
      cases s with
      | nil => exact ⟨fun h => by simp [matchToks] at h, fun ⟨a, b, e, h⟩ => by cases h; cases e⟩
      | cons x s =>
        rw [matchToks, Bool.and_eq_true, decide_eq_true_iff, ih]
        constructor
        · rintro ⟨hx, a, b, rfl, h⟩; exact ⟨x :: a, b, rfl, .dot hx h⟩
        · rintro ⟨a, b, e, h⟩; cases h with
          | dot hx h => cases e; exact ⟨hx, _, _, rfl, h⟩
    | digit =>
      cases s with
      | nil => exact ⟨fun h => by simp [matchToks] at h, fun ⟨a, b, e, h⟩ => by cases h; cases e⟩
      | cons x s =>
        rw [matchToks, Bool.and_eq_true, Option.isSome_iff_exists, ih]
        constructor
        · rintro ⟨⟨d, hx⟩, a, b, rfl, h⟩; exact ⟨x :: a, b, rfl, .digit hx h⟩
        · rintro ⟨a, b, e, h⟩; cases h with
          | digit hx h => cases e; exact ⟨⟨_, hx⟩, _, _, rfl, h⟩
    | opt c =>
      cases s with
      | nil =>
        rw [matchToks, ih]
        constructor
        · rintro ⟨a, b, e, h⟩; exact ⟨a, b, e, .absent h⟩
        · rintro ⟨a, b, e, h⟩; cases h with
          | present h => cases e
          | absent h => exact ⟨_, _, e, h⟩
      | cons x s =>
        rw [matchToks, Bool.or_eq_true, Bool.and_eq_true, decide_eq_true_iff, ih, ih]
        constructor
        · rintro (⟨rfl, a, b, rfl, h⟩ | ⟨a, b, e, h⟩)
          · exact ⟨x :: a, b, rfl, .present h⟩
          · exact ⟨a, b, e, .absent h⟩
        · rintro ⟨a, b, e, h⟩; cases h with
          | present h => cases e; exact .inl ⟨rfl, _, _, rfl, h⟩
          | absent h => exact .inr ⟨_, _, e, h⟩

theorem longest_spec : ∀ (l : List (String × String)) (b : Option (String × String)), (∀ e ∈ l, e.1 ≠ "") → (∀ e, b = some e → e.1 ≠ "") →
    match l.foldl (fun best e => if (best.map (fun b => b.1.length)).getD 0 < e.1.length then some e else best) b with
    | none => b = none ∧ l = []
    | some r => (b = some r ∨ r ∈ l) ∧ (∀ e, b = some e → e.1.length ≤ r.1.length) ∧ ∀ e ∈ l, e.1.length ≤ r.1.length := by
  intro l
  induction l with
  | nil => intro b _ _; cases b <;> simp
  | cons a l ih =>
    intro b hl hb
    rw [List.foldl_cons]
    have ha : 0 < a.1.length := by
      have := hl a (by simp)
      rcases Nat.eq_zero_or_pos a.1.length with h | h
      · exact absurd (String.length_eq_zero_iff.1 h) this
      · exact h
    generalize hf : (if (b.map (fun b => b.1.length)).getD 0 < a.1.length then some a else b) = b'
    have := ih b' (fun e he => hl e (by simp [he])) (by
      intro e he
      rw [← hf] at he
      split at he
      · cases he; exact hl a (by simp)
      · exact hb e he)
    split at this
    · rename_i h0
      obtain ⟨h1, h2⟩ := this
      cases b with
      | none => simp [ha] at hf; rw [← hf] at h1; cases h1
      | some e => split at hf <;> (rw [← hf] at h1; cases h1)
    · rename_i r h0
      obtain ⟨h1, h2, h3⟩ := this
      by_cases hc : (b.map (fun b => b.1.length)).getD 0 < a.1.length
      · rw [if_pos hc] at hf; subst hf
        have har := h2 a rfl
        refine ⟨.inr ?_, ?_, ?_⟩
        · rcases h1 with h1 | h1
          · cases h1; simp
          · simp [h1]
        · intro e he; subst he
          simp at hc; omega
        · intro e he
          rcases List.mem_cons.1 he with rfl | he
          · exact har
          · exact h3 e he
      · rw [if_neg hc] at hf; subst hf
        cases b with
        | none => simp at hc; simp [hc] at ha
        | some e0 =>
          have := h2 e0 rfl
          refine ⟨?_, h2, ?_⟩
          · rcases h1 with h1 | h1
            · exact .inl h1
            · exact .inr (by simp [h1])
          · intro e he
            rcases List.mem_cons.1 he with rfl | he
            · simp at hc; omega
            · exact h3 e he

/-- C90: the default prefix of a URI is that of the longest expression of the configuration whose texts it begins with; it has none if there is no such expression. -/
theorem C90_default (dig : Char → Option Nat) (u : String) :
    (∀ p, defaultPrefix dig u = some p → ∃ regex, (regex, p) ∈ defaultMappings ∧ BeginsWith dig regex u ∧
      ∀ regex' p', (regex', p') ∈ defaultMappings → BeginsWith dig regex' u → regex'.length ≤ regex.length) ∧
    (defaultPrefix dig u = none ↔ ∀ regex p, (regex, p) ∈ defaultMappings → ¬ BeginsWith dig regex u) := by
  have hm : ∀ e, e ∈ defaultMappings.filter (fun e => matchToks dig (uriToks e.1.toList) u.toList) ↔ e ∈ defaultMappings ∧ BeginsWith dig e.1 u := by
    intro e; rw [List.mem_filter, matchToks_iff]; rfl
  have hne : ∀ e ∈ defaultMappings, e.1 ≠ "" := by decide +kernel
  have := longest_spec (defaultMappings.filter (fun e => matchToks dig (uriToks e.1.toList) u.toList)) none (fun e he => hne e ((hm e).1 he).1) (by simp)
  unfold defaultPrefix
  generalize List.foldl _ _ _ = o at this
  cases o with
  | none =>
    refine ⟨by simp, by
      simp only [Option.map_none, true_iff]
      intro regex p h1 h2
      have hx := (hm (regex, p)).2 ⟨h1, h2⟩
      rw [this.2] at hx
      cases hx⟩
  | some r =>
    obtain ⟨h1, -, h3⟩ := this
    have hr : r ∈ defaultMappings.filter (fun e => matchToks dig (uriToks e.1.toList) u.toList) := by
      rcases h1 with h1 | h1
      · cases h1
      · exact h1
    have hr' := (hm r).1 hr
    refine ⟨?_, ?_⟩
    · intro p hp
      cases hp
      exact ⟨r.1, hr'.1, hr'.2, fun regex' p' h h' => h3 (regex', p') ((hm _).2 ⟨h, h'⟩)⟩
    · simp only [Option.map_some, reduceCtorEq, false_iff]
      intro h
      exact h r.1 r.2 hr'.1 hr'.2

example : defaultPrefix asciiDigit "http://www.w3.org/2001/XMLSchema-instance" = some "xsi" := by decide +kernel
example : defaultPrefix asciiDigit "https://www.xbrl.org/PR/2019-02-03/extensible-enumerations-2.0" = some "enum2" := by decide +kernel
example : defaultPrefix asciiDigit "http://www.xbrl.org/201/instance" = none := by decide +kernel

/-! ## The groups -/

structure GroupsOf (dig : Char → Option Nat) (bs : List (String × String)) (gs : Dict String (List String × List String)) : Prop where
  nodup : gs.keys.Nodup
  urls : ∀ k us ps, gs.get? k = some (us, ps) → ∀ u, u ∈ us ↔ removeVersion dig u = k ∧ ∃ p, (p, u) ∈ bs
  prefixes : ∀ k us ps, gs.get? k = some (us, ps) → ∀ p, p ∈ ps ↔ ∃ u, removeVersion dig u = k ∧ (p, u) ∈ bs
  nonempty : ∀ k us ps, gs.get? k = some (us, ps) → us ≠ [] ∧ ps ≠ []
  all : ∀ p u, (p, u) ∈ bs → ∃ g, gs.get? (removeVersion dig u) = some g

theorem appendNew_ne_nil {α : Type} [DecidableEq α] (l : List α) (x : α) : appendNew l x ≠ [] := by
  intro h
  have : x ∈ appendNew l x := mem_appendNew.2 (.inr rfl)
  rw [h] at this; cases this

theorem groupsOf_step {dig : Char → Option Nat} {bs : List (String × String)} {gs : Dict String (List String × List String)} (h : GroupsOf dig bs gs) (b : String × String) :
    GroupsOf dig (bs ++ [b]) (addBinding dig gs b) := by
  obtain ⟨q, w⟩ := b
  have hg : ∀ k, (addBinding dig gs (q, w)).get? k = if removeVersion dig w = k then
      some (appendNew ((gs.get? (removeVersion dig w)).getD ([], [])).1 w, appendNew ((gs.get? (removeVersion dig w)).getD ([], [])).2 q) else gs.get? k := by
    intro k; unfold addBinding; exact Dict.get?_set ..
  refine ⟨Dict.keys_set_nodup h.nodup _ _, ?_, ?_, ?_, ?_⟩
  · intro k us ps hk u
    rw [hg] at hk
    by_cases e : removeVersion dig w = k
    · rw [if_pos e] at hk
      cases hk
      rw [mem_appendNew]
      cases ho : gs.get? (removeVersion dig w) with
      | none =>
        simp only [Option.getD_none, List.not_mem_nil, false_or, List.mem_append, List.mem_singleton, Prod.mk.injEq]
        constructor
        · rintro rfl; exact ⟨e, q, .inr ⟨rfl, rfl⟩⟩
        · rintro ⟨e', p, hp | ⟨-, rfl⟩⟩
          · obtain ⟨g, hg'⟩ := h.all p u hp
            rw [e', ← e, ho] at hg'; cases hg'
          · rfl
      | some g =>
        obtain ⟨us, ps⟩ := g
        simp only [Option.getD_some, List.mem_append, List.mem_singleton, Prod.mk.injEq]
        rw [h.urls _ _ _ ho, e]
        constructor
        · rintro (⟨a, p, hp⟩ | rfl)
          · exact ⟨a, p, .inl hp⟩
          · exact ⟨e, q, .inr ⟨rfl, rfl⟩⟩
        · rintro ⟨a, p, hp | ⟨-, rfl⟩⟩
          · exact .inl ⟨a, p, hp⟩
          · exact .inr rfl
    · rw [if_neg e] at hk
      rw [h.urls _ _ _ hk]
      simp only [List.mem_append, List.mem_singleton, Prod.mk.injEq]
      constructor
      · rintro ⟨a, p, hp⟩; exact ⟨a, p, .inl hp⟩
      · rintro ⟨a, p, hp | ⟨-, rfl⟩⟩
        · exact ⟨a, p, hp⟩
        · exact absurd a e
  · intro k us ps hk p
    rw [hg] at hk
    by_cases e : removeVersion dig w = k
    · rw [if_pos e] at hk
      cases hk
      rw [mem_appendNew]
      cases ho : gs.get? (removeVersion dig w) with
      | none =>
        simp only [Option.getD_none, List.not_mem_nil, false_or, List.mem_append, List.mem_singleton, Prod.mk.injEq]
        constructor
        · rintro rfl; exact ⟨w, e, .inr ⟨rfl, rfl⟩⟩
        · rintro ⟨u, e', hp | ⟨rfl, -⟩⟩
          · obtain ⟨g, hg'⟩ := h.all p u hp
            rw [e', ← e, ho] at hg'; cases hg'
          · rfl
      | some g =>
        obtain ⟨us, ps⟩ := g
        simp only [Option.getD_some, List.mem_append, List.mem_singleton, Prod.mk.injEq]
        rw [h.prefixes _ _ _ ho, e]
        constructor
        · rintro (⟨u, a, hp⟩ | rfl)
          · exact ⟨u, a, .inl hp⟩
          · exact ⟨w, e, .inr ⟨rfl, rfl⟩⟩
        · rintro ⟨u, a, hp | ⟨rfl, -⟩⟩
          · exact .inl ⟨u, a, hp⟩
          · exact .inr rfl
    · rw [if_neg e] at hk
      rw [h.prefixes _ _ _ hk]
      simp only [List.mem_append, List.mem_singleton, Prod.mk.injEq]
      constructor
      · rintro ⟨u, a, hp⟩; exact ⟨u, a, .inl hp⟩
      · rintro ⟨u, a, hp | ⟨-, rfl⟩⟩
        · exact ⟨u, a, hp⟩
        · exact absurd a e
  · intro k us ps hk
    rw [hg] at hk
    by_cases e : removeVersion dig w = k
    · rw [if_pos e] at hk; cases hk
      exact ⟨appendNew_ne_nil _ _, appendNew_ne_nil _ _⟩
    · rw [if_neg e] at hk; exact h.nonempty _ _ _ hk
  · intro p u hp
    rw [hg]
    by_cases e : removeVersion dig w = removeVersion dig u
    · rw [if_pos e]; exact ⟨_, rfl⟩
    · rw [if_neg e]
      rcases List.mem_append.1 hp with hp | hp
      · exact h.all p u hp
      · have := List.mem_singleton.1 hp
        cases this; exact absurd rfl e

theorem groupsOf_foldl (dig : Char → Option Nat) (bs : List (String × String)) : GroupsOf dig bs (bs.foldl (addBinding dig) []) := by
  have gen : ∀ (l seen : List (String × String)) gs, GroupsOf dig seen gs → GroupsOf dig (seen ++ l) (l.foldl (addBinding dig) gs) := by
    intro l
    induction l with
    | nil => intro seen gs h; simpa using h
    | cons b l ih =>
      intro seen gs h
      have := ih (seen ++ [b]) _ (groupsOf_step h b)
      simpa using this
  have h0 : GroupsOf dig [] [] := ⟨List.nodup_nil, (by intro k us ps h; cases h), (by intro k us ps h; cases h), (by intro k us ps h; cases h), (by intro p u h; cases h)⟩
  simpa using gen bs [] [] h0

def bindingsOf (maps : List (Dict (Option String) String)) : List (String × String) := maps.flatMap (fun m => m.filterMap (fun e => e.1.map (fun p => (p, e.2))))

theorem mem_bindingsOf {maps : List (Dict (Option String) String)} {p u : String} : (p, u) ∈ bindingsOf maps ↔ Bound maps p u := by
  unfold bindingsOf Bound
  simp only [List.mem_flatMap, List.mem_filterMap, Option.map_eq_some_iff]
  constructor
  · rintro ⟨m, hm, ⟨a, b⟩, he, q, hq, e⟩
    cases e
    dsimp only at hq
    subst hq
    exact ⟨m, hm, he⟩
  · rintro ⟨m, hm, he⟩
    exact ⟨m, hm, _, he, p, rfl, rfl⟩

/-! ## The loop -/

theorem get?_redirect_all (p : String) : ∀ (l : List String) (d : Dict String String) (k : String),
    (l.foldl (fun d o => d.set o p) d).get? k = if k ∈ l then some p else d.get? k := by
  intro l
  induction l with
  | nil => intro d k; simp
  | cons a l ih =>
    intro d k
    rw [List.foldl_cons, ih, Dict.get?_set]
    by_cases h : k ∈ l
    · simp [h]
    · by_cases e : a = k
      · simp [e]
      · rw [if_neg h, if_neg e, if_neg (by simp [h, Ne.symm e])]

/-- What is known of an entry `(p, u)` and the group it comes from. -/
def FromGroup (dig : Char → Option Nat) (g : List String × List String) (u : String) : Prop :=
  u ∈ g.1 ∧ ∀ v ∈ g.1, numberSum dig v ≤ numberSum dig u

def ChosenPrefix (dig : Char → Option Nat) (g : List String × List String) (u p : String) : Prop :=
  defaultPrefix dig u = some p ∨ (defaultPrefix dig u = none ∧ p ∈ g.2 ∧ ∀ q ∈ g.2, p.length ≤ q.length)

/-- One group is added under its own prefix or, when that is taken, under the alternative one. -/
theorem addGroup_cases {dig : Char → Option Nat} {so : SetOrder} {r r' : NsResult} {g : List String × List String} (h : addGroup dig so r g = .ok r') :
    ∃ p u, FromGroup dig g u ∧ ChosenPrefix dig g u p ∧
      ((r.nsmap.has p = false ∧ r'.nsmap = r.nsmap.set p u ∧ r'.renames = r.renames ∧ ∀ k, r'.redirects.get? k = if k ∈ g.2 ∧ k ≠ p then some p else r.redirects.get? k) ∨
       (r.nsmap.has p = true ∧ ∃ q, alternativePrefix dig p = .ok q ∧ r'.nsmap = r.nsmap.set q u ∧ r'.renames = r.renames.set u q ∧
        ∀ k, r'.redirects.get? k = if k ∈ g.2 ∧ k ≠ p then some q else r.redirects.get? k)) := by
  unfold addGroup at h
  cases hg : groupToNsmap dig (so.strings g.1) (so.strings g.2) with
  | error e => rw [hg] at h; cases h
  | ok x =>
    obtain ⟨p, u, others⟩ := x
    rw [hg] at h
    obtain ⟨h1, h2, h3, h4⟩ := groupToNsmap_spec hg
    have m1 : ∀ v, v ∈ so.strings g.1 ↔ v ∈ g.1 := fun v => (so.strings_perm g.1).mem_iff
    have m2 : ∀ v, v ∈ so.strings g.2 ↔ v ∈ g.2 := fun v => (so.strings_perm g.2).mem_iff
    refine ⟨p, u, ⟨(m1 u).1 h1, fun v hv => h2 v ((m1 v).2 hv)⟩, ?_, ?_⟩
    · rcases h4 with h4 | ⟨a, b, c⟩
      · exact .inl h4
      · exact .inr ⟨a, (m2 p).1 b, fun q hq => c q ((m2 q).2 hq)⟩
    · have hin : ∀ k, k ∈ others ↔ k ∈ g.2 ∧ k ≠ p := by
        intro k; rw [h3, List.mem_filter, m2]; simp
      change (if r.nsmap.has p = true then _ else _) = _ at h
      by_cases hp : r.nsmap.has p = true
      · right
        rw [if_pos hp] at h
        cases hq : alternativePrefix dig p with
        | error e => rw [hq] at h; cases h
        | ok q =>
          rw [hq] at h
          cases h
          refine ⟨hp, q, rfl, rfl, rfl, ?_⟩
          intro k
          show Dict.get? (others.foldl _ _) k = _
          rw [get?_redirect_all]
          simp only [hin]
      · left
        rw [if_neg hp] at h
        cases h
        refine ⟨by simpa using hp, rfl, rfl, ?_⟩
        intro k
        show Dict.get? (others.foldl _ _) k = _
        rw [get?_redirect_all]
        simp only [hin]

structure EntriesOf (dig : Char → Option Nat) (done : List (String × (List String × List String))) (r : NsResult) : Prop where
  entry : ∀ p u, r.nsmap.get? p = some u → ∃ e ∈ done, FromGroup dig e.2 u ∧ (ChosenPrefix dig e.2 u p ∨ r.renames.get? u = some p)
  unique : ∀ p p' u u', r.nsmap.get? p = some u → r.nsmap.get? p' = some u' → removeVersion dig u = removeVersion dig u' → p = p'

theorem entriesOf_step {dig : Char → Option Nat} {so : SetOrder} {done : List (String × (List String × List String))} {r r' : NsResult} {e : String × (List String × List String)}
    (hk : ∀ x ∈ done ++ [e], ∀ u ∈ x.2.1, removeVersion dig u = x.1) (hn : ∀ x ∈ done, x.1 ≠ e.1)
    (h : EntriesOf dig done r) (hs : addGroup dig so r e.2 = .ok r') : EntriesOf dig (done ++ [e]) r' := by
  obtain ⟨p, u, hf, hc, hx⟩ := addGroup_cases hs
  have hu : removeVersion dig u = e.1 := hk e (by simp) u hf.1
  have old : ∀ q w, r.nsmap.get? q = some w → removeVersion dig w ≠ e.1 := by
    intro q w hq
    obtain ⟨x, hx, hfx, -⟩ := h.entry q w hq
    rw [hk x (by simp [hx]) w hfx.1]
    exact hn x hx
  -- the prefix that is set and what is known of it
  obtain ⟨t, ht, hren, hold⟩ : ∃ t, r'.nsmap = r.nsmap.set t u ∧ (ChosenPrefix dig e.2 u t ∨ r'.renames.get? u = some t) ∧
      ∀ w, removeVersion dig w ≠ e.1 → r'.renames.get? w = r.renames.get? w := by
    rcases hx with ⟨-, a, b, -⟩ | ⟨-, q, -, a, b, -⟩
    · exact ⟨p, a, .inl hc, fun w _ => by rw [b]⟩
    · refine ⟨q, a, .inr (by rw [b, Dict.get?_set, if_pos rfl]), ?_⟩
      intro w hw
      rw [b, Dict.get?_set, if_neg]
      rintro rfl
      exact hw hu
  have get : ∀ q w, r'.nsmap.get? q = some w → (q = t ∧ w = u) ∨ (q ≠ t ∧ r.nsmap.get? q = some w) := by
    intro q w hq
    rw [ht, Dict.get?_set] at hq
    by_cases hqt : t = q
    · rw [if_pos hqt] at hq; cases hq; exact .inl ⟨hqt.symm, rfl⟩
    · rw [if_neg hqt] at hq; exact .inr ⟨Ne.symm hqt, hq⟩
  refine ⟨?_, ?_⟩
  · intro q w hq
    rcases get q w hq with ⟨rfl, rfl⟩ | ⟨-, hq'⟩
    · exact ⟨e, by simp, hf, hren⟩
    · obtain ⟨x, hx, hfx, hcx⟩ := h.entry q w hq'
      refine ⟨x, by simp [hx], hfx, ?_⟩
      rw [hold w (old q w hq')]
      exact hcx
  · intro q q' w w' hq hq' hv
    rcases get q w hq with ⟨rfl, rfl⟩ | ⟨-, hq1⟩ <;> rcases get q' w' hq' with ⟨rfl, rfl⟩ | ⟨-, hq2⟩
    · rfl
    · exact absurd (hv ▸ hu) (old q' w' hq2)
    · exact absurd (hv.trans hu) (old q w hq1)
    · exact h.unique q q' w w' hq1 hq2 hv

theorem entriesOf_loop {dig : Char → Option Nat} {so : SetOrder} : ∀ (l done : List (String × (List String × List String))) (r r' : NsResult),
    (∀ x ∈ done ++ l, ∀ u ∈ x.2.1, removeVersion dig u = x.1) → ((done ++ l).map (·.1)).Nodup → EntriesOf dig done r →
    (l.map (·.2)).foldlM (addGroup dig so) r = .ok r' → EntriesOf dig (done ++ l) r' := by
  intro l
  induction l with
  | nil => intro done r r' _ _ h hr; cases hr; simpa using h
  | cons e l ih =>
    intro done r r' hk hn h hr
    rw [List.map_cons, List.foldlM_cons] at hr
    cases hs : addGroup dig so r e.2 with
    | error x => rw [hs] at hr; cases hr
    | ok r1 =>
      rw [hs] at hr
      have := ih (done ++ [e]) r1 r' (by simpa using hk) (by simpa using hn) ?_ hr
      · simpa using this
      · refine entriesOf_step ?_ ?_ h hs
        · intro x hx; refine hk x ?_
          simp only [List.mem_append, List.mem_cons, List.not_mem_nil, or_false] at hx ⊢
          rcases hx with hx | hx
          · exact .inl hx
          · exact .inr (.inl hx)
        · intro x hx he
          rw [List.map_append, List.nodup_append] at hn
          exact hn.2.2 x.1 (List.mem_map_of_mem hx) e.1 (by simp) he

theorem entriesOf_normalize {dig : Char → Option Nat} {so : SetOrder} {maps : List (Dict (Option String) String)} {r : NsResult} (h : normalizeNsmap dig so maps = .ok r) :
    ∃ gs, GroupsOf dig (bindingsOf maps) gs ∧ EntriesOf dig gs r := by
  have hg := groupsOf_foldl dig (bindingsOf maps)
  refine ⟨_, hg, ?_⟩
  have := entriesOf_loop (dig := dig) (so := so) ((bindingsOf maps).foldl (addBinding dig) []) [] {} r ?_ ?_ ⟨(by intro p u h; cases h), (by intro p p' u u' h; cases h)⟩ h
  · simpa using this
  · intro x hx u hu
    obtain ⟨k, us, ps⟩ := x
    exact ((hg.urls k us ps (Dict.get?_of_mem _ hg.nodup (by simpa using hx)) u).1 hu).1
  · exact hg.nodup

/-- C37: no two prefixes of the normalised map stand for versions of the same URI, and every URI in it is one that was bound. -/
theorem C37_unique (dig : Char → Option Nat) (so : SetOrder) (maps : List (Dict (Option String) String)) (r : NsResult) (h : normalizeNsmap dig so maps = .ok r) :
    (∀ p u, r.nsmap.get? p = some u → ∃ q, Bound maps q u) ∧
    (∀ p p' u u', r.nsmap.get? p = some u → r.nsmap.get? p' = some u' → Versions dig u u' → p = p') := by
  obtain ⟨gs, hg, he⟩ := entriesOf_normalize h
  refine ⟨?_, fun p p' u u' h1 h2 hv => he.unique p p' u u' h1 h2 (removeVersion_eq.2 hv)⟩
  intro p u hp
  obtain ⟨⟨k, us, ps⟩, hm, hf, -⟩ := he.entry p u hp
  obtain ⟨-, q, hq⟩ := (hg.urls k us ps (Dict.get?_of_mem _ hg.nodup hm) u).1 hf.1
  exact ⟨q, mem_bindingsOf.1 hq⟩

/-- C90: a URI that represents a group has the largest sum of numbers of all bound versions, and its prefix is its default prefix, otherwise a shortest prefix bound to a version, unless it is recorded as renamed. -/
theorem C90_chosen (dig : Char → Option Nat) (so : SetOrder) (maps : List (Dict (Option String) String)) (r : NsResult) (h : normalizeNsmap dig so maps = .ok r)
    (p u : String) (hp : r.nsmap.get? p = some u) :
    (∀ q v, Bound maps q v → Versions dig u v → numberSum dig v ≤ numberSum dig u) ∧ (Preferred dig maps u p ∨ r.renames.get? u = some p) := by
  obtain ⟨gs, hg, he⟩ := entriesOf_normalize h
  obtain ⟨⟨k, us, ps⟩, hm, hf, hc⟩ := he.entry p u hp
  have hget := Dict.get?_of_mem _ hg.nodup hm
  have hu := (hg.urls k us ps hget u).1 hf.1
  have hin : ∀ q v, Bound maps q v → Versions dig u v → v ∈ us := by
    intro q v hb hv
    exact (hg.urls k us ps hget v).2 ⟨(removeVersion_eq.2 hv).symm.trans hu.1, q, mem_bindingsOf.2 hb⟩
  refine ⟨fun q v hb hv => hf.2 v (hin q v hb hv), ?_⟩
  rcases hc with hc | hc
  · left
    rcases hc with hc | ⟨a, b, c⟩
    · exact .inl hc
    · refine .inr ⟨a, ?_, ?_⟩
      · obtain ⟨v, hv, hb⟩ := (hg.prefixes k us ps hget p).1 b
        exact ⟨v, removeVersion_eq.1 (hu.1.trans hv.symm), mem_bindingsOf.1 hb⟩
      · intro q v hv hb
        exact c q ((hg.prefixes k us ps hget q).2 ⟨v, (removeVersion_eq.2 hv).symm.trans hu.1, mem_bindingsOf.2 hb⟩)
  · exact .inr hc

/-! ## Consistent prefixes -/

def GroupCandidate (dig : Char → Option Nat) (g : List String × List String) (p : String) : Prop := p ∈ g.2 ∨ ∃ u ∈ g.1, defaultPrefix dig u = some p

structure AllKept (dig : Char → Option Nat) (done : List (String × (List String × List String))) (r : NsResult) : Prop where
  renames : r.renames = []
  keys : ∀ p u, r.nsmap.get? p = some u → ∃ e ∈ done, GroupCandidate dig e.2 p
  kept : ∀ e ∈ done, ∃ p u, r.nsmap.get? p = some u ∧ u ∈ e.2.1 ∧ GroupCandidate dig e.2 p ∧ ∀ q ∈ e.2.2, q = p ∨ r.redirects.get? q = some p

theorem allKept_loop {dig : Char → Option Nat} {so : SetOrder} : ∀ (l done : List (String × (List String × List String))) (r : NsResult),
    (∀ x ∈ l, ∃ y, groupToNsmap dig (so.strings x.2.1) (so.strings x.2.2) = .ok y) →
    ((done ++ l).map (·.1)).Nodup →
    (∀ x ∈ done ++ l, ∀ y ∈ done ++ l, ∀ p, GroupCandidate dig x.2 p → GroupCandidate dig y.2 p → x.1 = y.1) →
    AllKept dig done r → ∃ r', (l.map (·.2)).foldlM (addGroup dig so) r = .ok r' ∧ AllKept dig (done ++ l) r' := by
  intro l
  induction l with
  | nil => intro done r _ _ _ h; exact ⟨r, rfl, by simpa using h⟩
  | cons e l ih =>
    intro done r hok hn hc h
    have hne : ∀ x ∈ done, x.1 ≠ e.1 := by
      intro x hx he
      rw [List.map_append, List.nodup_append] at hn
      exact hn.2.2 x.1 (List.mem_map_of_mem hx) e.1 (by simp) he
    have fresh : ∀ p, GroupCandidate dig e.2 p → ∀ x ∈ done, ¬ GroupCandidate dig x.2 p := by
      intro p hp x hx hp'
      exact hne x hx (hc x (by simp [hx]) e (by simp) p hp' hp)
    obtain ⟨⟨p0, u0, o0⟩, hg⟩ := hok e (by simp)
    have nohas : ∀ p, GroupCandidate dig e.2 p → r.nsmap.has p = false := by
      intro p hp
      rw [Dict.has_eq]
      cases hget : r.nsmap.get? p with
      | none => rfl
      | some u =>
        obtain ⟨x, hx, hpx⟩ := h.keys p u hget
        exact absurd hpx (fresh p hp x hx)
    have hcand : ∀ u p, FromGroup dig e.2 u → ChosenPrefix dig e.2 u p → GroupCandidate dig e.2 p := by
      rintro u p hf (hd | ⟨-, hd, -⟩)
      · exact .inr ⟨u, hf.1, hd⟩
      · exact .inl hd
    have hstep : ∃ r1, addGroup dig so r e.2 = .ok r1 := by
      obtain ⟨h1, h2, h3, h4⟩ := groupToNsmap_spec hg
      have hp0 : GroupCandidate dig e.2 p0 := by
        rcases h4 with h4 | ⟨-, h4, -⟩
        · exact .inr ⟨u0, (so.strings_perm _).mem_iff.1 h1, h4⟩
        · exact .inl ((so.strings_perm _).mem_iff.1 h4)
      unfold addGroup
      rw [hg]
      change ∃ r1, (if r.nsmap.has p0 = true then _ else _) = _
      rw [if_neg (by rw [nohas p0 hp0]; simp)]
      exact ⟨_, rfl⟩
    obtain ⟨r1, hr1⟩ := hstep
    obtain ⟨p, u, hf, hch, hx⟩ := addGroup_cases hr1
    have hp := hcand u p hf hch
    rcases hx with ⟨-, a, b, c⟩ | ⟨hh, -⟩
    rotate_left
    · rw [nohas p hp] at hh; cases hh
    have hkept : AllKept dig (done ++ [e]) r1 := by
      refine ⟨by rw [b, h.renames], ?_, ?_⟩
      · intro q w hq
        rw [a, Dict.get?_set] at hq
        by_cases hqp : p = q
        · exact ⟨e, by simp, hqp ▸ hp⟩
        · rw [if_neg hqp] at hq
          obtain ⟨x, hx, hxq⟩ := h.keys q w hq
          exact ⟨x, by simp [hx], hxq⟩
      · intro x hx
        rcases List.mem_append.1 hx with hx | hx
        · obtain ⟨q, w, h1, h2, h3, h4⟩ := h.kept x hx
          refine ⟨q, w, ?_, h2, h3, ?_⟩
          · rw [a, Dict.get?_set, if_neg]
            · exact h1
            · rintro rfl; exact fresh p hp x hx h3
          · intro q' hq'
            rcases h4 q' hq' with h4 | h4
            · exact .inl h4
            · right
              rw [c, if_neg]
              · exact h4
              · rintro ⟨hm, -⟩
                exact fresh q' (.inl hm) x hx (.inl hq')
        · have := List.mem_singleton.1 hx
          subst this
          refine ⟨p, u, by rw [a, Dict.get?_set, if_pos rfl], hf.1, hp, ?_⟩
          intro q hq
          by_cases hqp : q = p
          · exact .inl hqp
          · right; rw [c, if_pos ⟨hq, hqp⟩]
    obtain ⟨r', h1, h2⟩ := ih (done ++ [e]) r1 (fun x hx => hok x (by simp [hx])) (by simpa using hn) (by simpa using hc) hkept
    refine ⟨r', ?_, by simpa using h2⟩
    rw [List.map_cons, List.foldlM_cons, hr1]
    exact h1

/-- C37, for consistently used prefixes: the normalisation succeeds, renames nothing, and every bound prefix is, or is redirected to, the prefix of a version of its URI. Missing: prefixes that stand for several groups, see `C37_lost_false`. -/
theorem C37_kept_partial (dig : Char → Option Nat) (so : SetOrder) (maps : List (Dict (Option String) String)) (hc : Consistent dig maps) (hs : ShortNumbers dig maps) :
    ∃ r, normalizeNsmap dig so maps = .ok r ∧ r.renames = [] ∧
      ∀ p u, Bound maps p u → ∃ q v, r.nsmap.get? q = some v ∧ Versions dig u v ∧ (p = q ∨ r.redirects.get? p = some q) := by
  have hg := groupsOf_foldl dig (bindingsOf maps)
  have hcand : ∀ k us ps p, ((bindingsOf maps).foldl (addBinding dig) []).get? k = some (us, ps) → GroupCandidate dig (us, ps) p →
      ∀ u, removeVersion dig u = k → Candidate dig maps u p := by
    intro k us ps p hget hp u hu
    rcases hp with hp | ⟨v, hv, hp⟩
    · obtain ⟨v, hv, hb⟩ := (hg.prefixes k us ps hget p).1 hp
      exact ⟨v, removeVersion_eq.1 (hu.trans hv.symm), .inl (mem_bindingsOf.1 hb)⟩
    · obtain ⟨hv, q, hb⟩ := (hg.urls k us ps hget v).1 hv
      exact ⟨v, removeVersion_eq.1 (hu.trans hv.symm), .inr ⟨hp, q, mem_bindingsOf.1 hb⟩⟩
  have hA : ∀ x ∈ (bindingsOf maps).foldl (addBinding dig) [], ∃ y, groupToNsmap dig (so.strings x.2.1) (so.strings x.2.2) = .ok y := by
    rintro ⟨k, us, ps⟩ hx
    have hget := Dict.get?_of_mem _ hg.nodup hx
    obtain ⟨n1, n2⟩ := hg.nonempty k us ps hget
    have perm_ne : ∀ l : List String, l ≠ [] → so.strings l ≠ [] := by
      intro l hl he
      have := (so.strings_perm l).length_eq
      rw [he] at this
      cases l with
      | nil => exact hl rfl
      | cons a l => cases this
    refine groupToNsmap_ok (perm_ne _ n1) (perm_ne _ n2) (k := k) ?_ ?_
    · intro u hu
      exact ((hg.urls k us ps hget u).1 ((so.strings_perm _).mem_iff.1 hu)).1
    · intro u hu
      obtain ⟨-, q, hq⟩ := (hg.urls k us ps hget u).1 ((so.strings_perm _).mem_iff.1 hu)
      exact hs q u (mem_bindingsOf.1 hq)
  have hB : ∀ x ∈ [] ++ (bindingsOf maps).foldl (addBinding dig) [], ∀ y ∈ [] ++ (bindingsOf maps).foldl (addBinding dig) [], ∀ p, GroupCandidate dig x.2 p → GroupCandidate dig y.2 p → x.1 = y.1 := by
    rintro ⟨k, us, ps⟩ hx ⟨k', us', ps'⟩ hy p hp hp'
    have hgx := Dict.get?_of_mem _ hg.nodup (by simpa using hx)
    have hgy := Dict.get?_of_mem _ hg.nodup (by simpa using hy)
    obtain ⟨n1, -⟩ := hg.nonempty k us ps hgx
    obtain ⟨n1', -⟩ := hg.nonempty k' us' ps' hgy
    obtain ⟨u, hu⟩ := List.exists_mem_of_ne_nil _ n1
    obtain ⟨u', hu'⟩ := List.exists_mem_of_ne_nil _ n1'
    have e1 := ((hg.urls k us ps hgx u).1 hu).1
    have e2 := ((hg.urls k' us' ps' hgy u').1 hu').1
    show k = k'
    rw [← e1, ← e2]
    exact removeVersion_eq.2 (hc p u u' (hcand k us ps p hgx hp u e1) (hcand k' us' ps' p hgy hp' u' e2))
  obtain ⟨r, hr, hk⟩ := allKept_loop (dig := dig) (so := so) ((bindingsOf maps).foldl (addBinding dig) []) [] {} hA hg.nodup hB ⟨rfl, (by intro p u h; cases h), (by intro e h; cases h)⟩
  refine ⟨r, hr, hk.renames, ?_⟩
  intro p u hb
  obtain ⟨⟨us, ps⟩, hget⟩ := hg.all p u (mem_bindingsOf.2 hb)
  obtain ⟨q, v, h1, h2, -, h4⟩ := hk.kept (removeVersion dig u, us, ps) (by simpa using Dict.mem_get? _ hget)
  have hv := ((hg.urls _ us ps hget v).1 h2).1
  exact ⟨q, v, h1, removeVersion_eq.1 hv.symm, h4 p ((hg.prefixes _ us ps hget p).2 ⟨u, rfl, mem_bindingsOf.2 hb⟩)⟩

/-! ## Cases -/

namespace NsExample

def so : SetOrder := SetOrder.insertion

/-- Two versions of a taxonomy under two prefixes, and a name space with a default prefix. -/
def good : List (Dict (Option String) String) :=
  [[(some "gaap", "http://fasb.org/us-gaap/2022"), (none, "http://x.org")], [(some "us-gaap", "http://fasb.org/us-gaap/2023"), (some "l", "http://www.xbrl.org/2003/linkbase")]]

example : (normalizeNsmap asciiDigit so good).toOption.map (fun r => (r.nsmap, r.redirects, r.renames)) =
    some ([("gaap", "http://fasb.org/us-gaap/2023"), ("link", "http://www.xbrl.org/2003/linkbase")], [("us-gaap", "gaap"), ("l", "link")], []) := by decide +kernel

/-- Three name spaces under one prefix. -/
def three : List (Dict (Option String) String) := [[(some "t", "http://a.org/x")], [(some "t", "http://b.org/x")], [(some "t", "http://c.org/x")]]

/-- A prefix for two name spaces: its redirect is that of the last one. -/
example : (normalizeNsmap asciiDigit so [[(some "a", "http://a.org/x"), (some "abc", "http://a.org/x")], [(some "b", "http://b.org/x"), (some "abc", "http://b.org/x")]]).toOption.map
    (fun r => (r.nsmap, r.redirects)) = some ([("a", "http://a.org/x"), ("b", "http://b.org/x")], [("abc", "b")]) := by decide +kernel

example : (normalizeNsmap asciiDigit so [[(some "t9", "http://a.org/x")], [(some "t9", "http://b.org/x")]]).toOption.map
    (fun r => (r.nsmap, r.renames)) = some ([("t9", "http://a.org/x"), ("t10", "http://b.org/x")], [("http://b.org/x", "t10")]) := by decide +kernel

theorem bound_good {p u : String} (h : Bound good p u) :
    (p, u) ∈ [("gaap", "http://fasb.org/us-gaap/2022"), ("us-gaap", "http://fasb.org/us-gaap/2023"), ("l", "http://www.xbrl.org/2003/linkbase")] :=
  mem_bindingsOf.2 h

theorem candidate_good {p u : String} (h : Candidate asciiDigit good u p) :
    (p, removeVersion asciiDigit u) ∈ [("gaap", removeVersion asciiDigit "http://fasb.org/us-gaap/2022"), ("us-gaap", removeVersion asciiDigit "http://fasb.org/us-gaap/2022"),
      ("l", removeVersion asciiDigit "http://www.xbrl.org/2003/linkbase"), ("link", removeVersion asciiDigit "http://www.xbrl.org/2003/linkbase")] := by
  obtain ⟨v, hv, h⟩ := h
  have e := removeVersion_eq.2 hv
  have h23 : removeVersion asciiDigit "http://fasb.org/us-gaap/2023" = removeVersion asciiDigit "http://fasb.org/us-gaap/2022" := by decide +kernel
  rw [e]
  rcases h with h | ⟨hd, q, h⟩
  · have := bound_good h
    simp only [List.mem_cons, Prod.mk.injEq, List.not_mem_nil, or_false] at this
    rcases this with ⟨rfl, rfl⟩ | ⟨rfl, rfl⟩ | ⟨rfl, rfl⟩ <;> simp [h23]
  · have := bound_good h
    simp only [List.mem_cons, Prod.mk.injEq, List.not_mem_nil, or_false] at this
    rcases this with ⟨rfl, rfl⟩ | ⟨rfl, rfl⟩ | ⟨rfl, rfl⟩
    · exact absurd hd (by rw [show defaultPrefix asciiDigit "http://fasb.org/us-gaap/2022" = none by decide +kernel]; simp)
    · exact absurd hd (by rw [show defaultPrefix asciiDigit "http://fasb.org/us-gaap/2023" = none by decide +kernel]; simp)
    · rw [show defaultPrefix asciiDigit "http://www.xbrl.org/2003/linkbase" = some "link" by decide +kernel] at hd
      cases hd; simp

/-- The hypotheses of `C37_kept_partial` hold of it. -/
example : Consistent asciiDigit good ∧ ShortNumbers asciiDigit good := by
  constructor
  · intro p u v h1 h2
    replace h1 := candidate_good h1
    replace h2 := candidate_good h2
    apply removeVersion_eq.1
    generalize removeVersion asciiDigit "http://fasb.org/us-gaap/2022" = A at h1 h2
    generalize removeVersion asciiDigit "http://www.xbrl.org/2003/linkbase" = B at h1 h2
    simp only [List.mem_cons, Prod.mk.injEq, List.not_mem_nil, or_false] at h1 h2
    rcases h1 with ⟨rfl, h1⟩ | ⟨rfl, h1⟩ | ⟨rfl, h1⟩ | ⟨rfl, h1⟩ <;> rcases h2 with ⟨e, h2⟩ | ⟨e, h2⟩ | ⟨e, h2⟩ | ⟨e, h2⟩ <;>
      first | (exact h1.trans h2.symm) | (exact absurd e (by decide))
  · intro p u h
    have := bound_good h
    simp only [List.mem_cons, Prod.mk.injEq, List.not_mem_nil, or_false] at this
    rcases this with ⟨-, rfl⟩ | ⟨-, rfl⟩ | ⟨-, rfl⟩ <;> decide +kernel

end NsExample

open NsExample in
/-- C37 does not hold: of three name spaces under one prefix the second is lost, its alternative prefix is given to the third one. -/
theorem C37_lost_false : ∃ maps r, normalizeNsmap asciiDigit SetOrder.insertion maps = .ok r ∧
    ∃ p u, Bound maps p u ∧ ∀ q v, r.nsmap.get? q = some v → ¬ Versions asciiDigit u v := by
  refine ⟨three, ⟨[("t", "http://a.org/x"), ("t1", "http://c.org/x")], [], [("http://b.org/x", "t1"), ("http://c.org/x", "t1")]⟩, by rfl, "t", "http://b.org/x", ?_, ?_⟩
  · exact ⟨_, by unfold three; exact List.mem_cons_of_mem _ (List.mem_cons_self ..), by simp⟩
  · intro q v hq
    have hm := Dict.mem_get? _ hq
    simp only [List.mem_cons, Prod.mk.injEq, List.not_mem_nil, or_false] at hm
    rcases hm with ⟨-, rfl⟩ | ⟨-, rfl⟩
    · show ¬ (_ = _); decide +kernel
    · show ¬ (_ = _); decide +kernel

open NsExample in
/-- C90 does not hold for dates: of the taxonomies of 2022-12-31 and 2023-01-31 the older one is taken, the sum of its numbers is larger. -/
theorem C90_latest_false : ∃ r, normalizeNsmap asciiDigit SetOrder.insertion
    [[(some "t", "http://a.org/2022-12-31")], [(some "s", "http://a.org/2023-01-31")]] = .ok r ∧
    r.nsmap.get? "t" = some "http://a.org/2022-12-31" ∧ Versions asciiDigit "http://a.org/2022-12-31" "http://a.org/2023-01-31" :=
  ⟨⟨[("t", "http://a.org/2022-12-31")], [("s", "t")], []⟩, by rfl, by decide +kernel, by show _ = _; decide +kernel⟩

end Brel
