import Verif.Spec.Output
import Verif.Lemmas.History

/-! Lemmas for the output side. -/

namespace Brel

theorem preferredLanguages_eq (filing library : OutputParams) (sys : Option String) (report : List String) (call : Option LangArg)
    (allowReport allowSystem allowDefault : Bool) :
    preferredLanguages filing library sys report call allowReport allowSystem allowDefault =
      firstOccurrences (languageSources (callLanguages call) (storedLanguages filing.languages) (storedLanguages library.languages)
        sys report allowSystem allowReport allowDefault).flatten := by
  unfold preferredLanguages languageSources
  rw [← foldl_appendNew_nil]
  cases sys with
  | none => cases allowDefault <;> simp
  | some s =>
    by_cases h : s = "" <;> cases allowSystem <;> cases allowDefault <;> simp [h, Option.filter]

theorem precedes_append_left {α : Type} [DecidableEq α] (l m : List α) (a b : α) (ha : a ∈ l) (hb : b ∈ m) : Precedes a b (l ++ m) := by
  obtain ⟨x, y, rfl⟩ := List.append_of_mem ha
  obtain ⟨x', y', rfl⟩ := List.append_of_mem hb
  exact ⟨x, y ++ x', y', by simp⟩

/-- An element of an earlier source precedes one that appears only later. -/
theorem firstOccurrences_precedes (pre post : List String) (a b : String) (ha : a ∈ pre) (hb : b ∈ post) (hn : b ∉ pre) :
    Precedes a b (firstOccurrences (pre ++ post)) := by
  rw [firstOccurrences_append]
  apply precedes_append_left
  · exact (mem_firstOccurrences _ _).2 ha
  · rw [List.mem_filter]
    exact ⟨(mem_firstOccurrences _ _).2 hb, by simpa using hn⟩

theorem renderLoop_ok {ε ρ : Type} (conv : ε → List String → Except PyErr ρ) (lang : String) (es : List ε) (data rows : List ρ)
    (h : RendersAll conv es lang rows) : renderLoop conv lang data es = data ++ rows := by
  unfold RendersAll at h
  induction es generalizing data rows with
  | nil =>
    cases rows with
    | nil => simp [renderLoop]
    | cons r rs => simp at h
  | cons e es ih =>
    cases rows with
    | nil => simp at h
    | cons r rs =>
      simp only [List.map_cons, List.cons.injEq] at h
      unfold renderLoop
      rw [h.1]
      simp only
      rw [ih _ _ h.2, List.append_assoc, List.singleton_append]

theorem renderLoop_fail {ε ρ : Type} (conv : ε → List String → Except PyErr ρ) (lang : String) (es : List ε) (data : List ρ)
    (h : FailsIn conv es lang) : renderLoop conv lang data es = [] := by
  induction es generalizing data with
  | nil => obtain ⟨e, he, _⟩ := h; cases he
  | cons e es ih =>
    unfold renderLoop
    cases hc : conv e [lang] with
    | error x => rfl
    | ok r =>
      apply ih
      obtain ⟨e', he', x, hx⟩ := h
      rcases List.mem_cons.1 he' with rfl | hm
      · rw [hc] at hx; cases hx
      · exact ⟨e', hm, x, hx⟩

/-- In every language the elements can all be shown, or some element fails. -/
theorem renders_or_fails {ε ρ : Type} (conv : ε → List String → Except PyErr ρ) (es : List ε) (lang : String) :
    (∃ rows, RendersAll conv es lang rows) ∨ FailsIn conv es lang := by
  unfold RendersAll
  induction es with
  | nil => exact Or.inl ⟨[], rfl⟩
  | cons e es ih =>
    cases hc : conv e [lang] with
    | error x => exact Or.inr ⟨e, List.mem_cons_self, x, hc⟩
    | ok r =>
      rcases ih with ⟨rows, h⟩ | ⟨e', he', x, hx⟩
      · exact Or.inl ⟨r :: rows, by simp [hc, h]⟩
      · exact Or.inr ⟨e', List.mem_cons_of_mem _ he', x, hx⟩

theorem foldl_render_all {ε ρ : Type} (conv : ε → List String → Except PyErr ρ) (es : List ε) (rows : String → List ρ) (langs : List String)
    (data : List ρ) (h : ∀ l ∈ langs, RendersAll conv es l (rows l)) :
    langs.foldl (fun data lang => renderLoop conv lang data es) data = data ++ langs.flatMap rows := by
  induction langs generalizing data with
  | nil => simp
  | cons l ls ih =>
    rw [List.foldl_cons, renderLoop_ok conv l es data (rows l) (h l List.mem_cons_self),
      ih _ (fun x hx => h x (List.mem_cons_of_mem _ hx))]
    simp

theorem getSingle_ok_iff (t : Translations) (ml : Bool) (q : QName) (l s : String) :
    t.getSingle ml q l = .ok s ↔ Offers t ml q l s := by
  unfold Translations.getSingle
  by_cases h : l = ""
  · rw [if_pos h]
    constructor
    · intro e; exact .default h (Except.ok.inj e).symm
    · rintro (⟨_, e⟩ | ⟨_, e⟩ | ⟨h', _⟩)
      · rw [e]
      · rw [e]
      · exact absurd h h'
  · rw [if_neg h]
    cases hd : Dict.get? t q with
    | none =>
      simp only [Except.ok.injEq]
      constructor
      · intro e; exact .unknown hd e.symm
      · rintro (⟨h', _⟩ | ⟨_, e⟩ | ⟨_, d, hd', _⟩)
        · exact absurd h' h
        · exact e.symm
        · rw [hd] at hd'; cases hd'
    | some d =>
      simp only
      cases hf : d.find? (fun e => languagesMatch ml (lower l) e.1) with
      | none =>
        simp only [reduceCtorEq, false_iff]
        rintro (⟨h', _⟩ | ⟨hd', _⟩ | ⟨_, d', hd', pre, tag, post, e, hm, _⟩)
        · exact h h'
        · rw [hd] at hd'; cases hd'
        · rw [hd] at hd'
          cases hd'
          have := List.find?_eq_none.1 hf (tag, s) (by rw [e]; simp)
          exact this hm
      | some x =>
        obtain ⟨hx, as, bs, e, hb⟩ := List.find?_eq_some_iff_append.1 hf
        simp only [Except.ok.injEq]
        constructor
        · rintro rfl
          exact .entry h d hd as x.1 bs e hx (fun y hy => by simpa using hb y hy)
        · rintro (⟨h', _⟩ | ⟨hd', _⟩ | ⟨_, d', hd', pre, tag, post, e', hm, hp⟩)
          · exact absurd h' h
          · rw [hd] at hd'; cases hd'
          · rw [hd] at hd'
            cases hd'
            have : d.find? (fun e => languagesMatch ml (lower l) e.1) = some (tag, s) :=
              List.find?_eq_some_iff_append.2 ⟨hm, pre, post, e', fun y hy => by simpa using hp y hy⟩
            rw [hf] at this
            cases this
            rfl

theorem nextLabel_spec (labels : List Label) (lang : String) (d : Label) (h : hasLabelWithLanguage labels lang = true) :
    FirstInLanguage labels lang (nextLabel labels lang d) := by
  unfold hasLabelWithLanguage at h
  obtain ⟨x, hx, hl⟩ := List.any_eq_true.1 h
  unfold nextLabel firstMatch
  cases hf : labels.find? (fun l => decide (l.language = lang)) with
  | none => exact absurd hl (List.find?_eq_none.1 hf x hx)
  | some y =>
    obtain ⟨hy, as, bs, e, hb⟩ := List.find?_eq_some_iff_append.1 hf
    exact ⟨as, bs, e, by simpa using hy, fun z hz => by simpa using hb z hz⟩

theorem hasLabel_iff (labels : List Label) (lang : String) :
    hasLabelWithLanguage labels lang = true ↔ ∃ l ∈ labels, l.language = lang := by
  unfold hasLabelWithLanguage
  simp [List.any_eq_true]

/-- Lower-casing keeps and creates no underscore. -/
theorem toLower_underscore (c : Char) : c.toLower = '_' ↔ c = '_' := by
  unfold Char.toLower
  split
  · rename_i h
    constructor
    · intro e
      exfalso
      have hv := congrArg Char.toNat e
      have h1 : c.val ≥ 65 ∧ c.val ≤ 90 := h
      have h2 : (c.val + 32).toNat = 95 := hv
      have h3 : (65 : Nat) ≤ c.val.toNat := h1.1
      have h4 : c.val.toNat ≤ 90 := h1.2
      rw [UInt32.toNat_add] at h2
      have : (32 : UInt32).toNat = 32 := rfl
      omega
    · rintro rfl
      exact absurd h (by decide)
  · rfl

theorem lower_underscore (s : String) : '_' ∈ (lower s).toList ↔ '_' ∈ s.toList := by
  unfold lower
  rw [String.toList_ofList, List.mem_map]
  constructor
  · rintro ⟨c, hc, e⟩
    rw [toLower_underscore] at e
    exact e ▸ hc
  · intro h
    exact ⟨'_', h, by decide⟩

theorem toLower_dash (c : Char) : c.toLower = '-' ↔ c = '-' := by
  unfold Char.toLower
  split
  · rename_i h
    constructor
    · intro e
      exfalso
      have hv := congrArg Char.toNat e
      have h1 : c.val ≥ 65 ∧ c.val ≤ 90 := h
      have h2 : (c.val + 32).toNat = 45 := hv
      have h3 : (65 : Nat) ≤ c.val.toNat := h1.1
      have h4 : c.val.toNat ≤ 90 := h1.2
      rw [UInt32.toNat_add] at h2
      have : (32 : UInt32).toNat = 32 := rfl
      omega
    · rintro rfl
      exact absurd h (by decide)
  · rfl

theorem lower_dash (s : String) : '-' ∈ (lower s).toList ↔ '-' ∈ s.toList := by
  unfold lower
  rw [String.toList_ofList, List.mem_map]
  constructor
  · rintro ⟨c, hc, e⟩
    rw [toLower_dash] at e
    exact e ▸ hc
  · intro h
    exact ⟨'-', h, by decide⟩

theorem beforeDash_mem (s : String) (c : Char) (h : c ∈ (beforeDash s).toList) : c ∈ s.toList := by
  unfold beforeDash at h
  rw [String.toList_ofList] at h
  exact (List.takeWhile_sublist _).subset h

theorem beforeDash_of_no_dash (s : String) (h : '-' ∉ s.toList) : beforeDash s = s := by
  unfold beforeDash
  have : s.toList.takeWhile (· ≠ '-') = s.toList := by
    generalize s.toList = l at h
    induction l with
    | nil => rfl
    | cons c l ih =>
      have hc : c ≠ '-' := fun e => h (e ▸ List.mem_cons_self)
      have := ih (fun hm => h (List.mem_cons_of_mem _ hm))
      simp only [List.takeWhile_cons, hc, ne_eq, not_false_eq_true, decide_true, if_true, this]
  rw [this, String.ofList_toList]

/-- Rows: assignments with distinct keys are all found again. -/
theorem foldlM_set_spec (key cell : Aspect → Except PyErr String) (k v : Aspect → String) (as : List Aspect)
    (hk : ∀ a ∈ as, key a = .ok (k a)) (hv : ∀ a ∈ as, cell a = .ok (v a)) (row : Dict String String) :
    as.foldlM (fun row a => do
      let x ← key a
      let y ← cell a
      return Dict.set row x y) row = (.ok (as.foldl (fun row a => Dict.set row (k a) (v a)) row) : Except PyErr _) := by
  induction as generalizing row with
  | nil => rfl
  | cons a as ih =>
    rw [List.foldlM_cons, hk a List.mem_cons_self, hv a List.mem_cons_self]
    exact ih (fun x hx => hk x (List.mem_cons_of_mem _ hx)) (fun x hx => hv x (List.mem_cons_of_mem _ hx)) _

theorem latest_of_nodup {α κ : Type} [DecidableEq κ] (k : α → κ) (l : List α) (h : (l.map k).Nodup) (a : α) (ha : a ∈ l) :
    latest k l (k a) = some a := by
  obtain ⟨pre, post, rfl⟩ := List.append_of_mem ha
  rw [latest_eq_some_iff]
  refine ⟨pre, post, rfl, rfl, ?_⟩
  intro y hy e
  rw [List.map_append, List.map_cons] at h
  have := (List.nodup_append.1 h).2.1
  exact (List.nodup_cons.1 this).1 (e ▸ List.mem_map_of_mem hy)

end Brel
