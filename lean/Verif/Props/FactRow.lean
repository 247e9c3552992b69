import Verif.Spec.FactRow
import Verif.Props.Rows
import Verif.Props.Context

/-! The table of facts (C121). -/

namespace Brel

variable {ml : Bool} {langs : List String} {o : Option String} {labels members : QName → List Label}

/-! ## Texts -/

theorem shownIn_iff {ls : List Label} {d s : String} : ShownIn ml langs (labelEntries ls) d s ↔ getFromLabels ml ls d langs = .ok s := by
  rw [(C14_label ml ls d langs).1 s]
  have key : ∀ l, (∀ s', ¬ OffersLabel ml ls d l s') ↔ l ≠ "" ∧ ∀ e ∈ labelEntries ls, languagesMatch ml l e.1 = false := by
    intro l
    constructor
    · intro h
      have hne : l ≠ "" := fun e => h _ (Or.inl ⟨e, rfl⟩)
      refine ⟨hne, ?_⟩
      intro e he
      obtain ⟨x, hx, rfl⟩ := List.mem_map.1 he
      refine Classical.byContradiction fun hm => ?_
      have hm : languagesMatch ml l x.language = true := by simpa using hm
      have hf : (ls.find? (fun x => languagesMatch ml l x.language)).isSome := by
        rw [List.find?_isSome]
        exact ⟨x, hx, hm⟩
      obtain ⟨y, hy⟩ := Option.isSome_iff_exists.1 hf
      obtain ⟨hp, as, bs, e, hno⟩ := List.find?_eq_some_iff_append.1 hy
      exact h y.text (Or.inr ⟨hne, as, y, bs, e, hp, rfl, fun z hz => by simpa using hno z hz⟩)
    · rintro ⟨hne, h⟩ s' (⟨e, _⟩ | ⟨_, as, x, bs, e, hm, _, _⟩)
      · exact hne e
      · have := h (x.language, x.text) (List.mem_map.2 ⟨x, by rw [e]; simp, rfl⟩)
        rw [this] at hm
        cases hm
  have key2 : ∀ l, OffersLabel ml ls d l s ↔ (l = "" ∧ s = d ∨ l ≠ "" ∧ ∃ as e bs, labelEntries ls = as ++ e :: bs ∧ (∀ y ∈ as, languagesMatch ml l y.1 = false) ∧
      languagesMatch ml l e.1 = true ∧ e.2 = s) := by
    intro l
    unfold OffersLabel
    refine or_congr Iff.rfl (and_congr Iff.rfl ?_)
    constructor
    · rintro ⟨as, x, bs, e, hm, ht, hno⟩
      refine ⟨labelEntries as, (x.language, x.text), labelEntries bs, by rw [e]; simp [labelEntries], ?_, hm, ht⟩
      intro y hy
      obtain ⟨z, hz, rfl⟩ := List.mem_map.1 hy
      exact hno z hz
    · rintro ⟨as, e, bs, h, hno, hm, ht⟩
      obtain ⟨as', rest, rfl, h1, h2⟩ := List.map_eq_append_iff.1 h
      obtain ⟨x, bs', rfl, h3, h4⟩ := List.map_eq_cons_iff.1 h2
      subst h1 h3
      refine ⟨as', x, bs', rfl, hm, ht, ?_⟩
      intro z hz
      exact hno (z.language, z.text) (List.mem_map.2 ⟨z, hz, rfl⟩)
  unfold ShownIn
  constructor
  · rintro ⟨pre, l, post, e, hpre, h⟩
    exact ⟨pre, l, post, e, (key2 l).2 h, fun l' hl' => (key l').2 (hpre l' hl')⟩
  · rintro ⟨pre, l, post, e, h, hpre⟩
    exact ⟨pre, l, post, e, fun l' hl' => (key l').1 (hpre l' hl'), (key2 l).1 h⟩

theorem coreLabels_entries : ∀ n ∈ ["concept", "period", "entity", "unit"], labelEntries (coreLabels n) = coreTitles n := by decide +kernel

/-- The aspects of the documents: the four core aspects, and dimensions without labels. -/
def StatedAspect (a : Aspect) : Prop := a.core = true ∧ a.name ∈ ["concept", "period", "entity", "unit"] ∨ a.core = false ∧ a.labels = []

theorem shownTitle_iff {a : Aspect} (ha : StatedAspect a) {s : String} : ShownTitle ml langs a s ↔ getFromLabels ml a.ownLabels a.name langs = .ok s := by
  rw [← shownIn_iff]
  unfold ShownTitle Aspect.ownLabels
  rcases ha with ⟨h1, h2⟩ | ⟨h1, h2⟩
  · rw [h1, if_pos rfl, if_pos rfl, coreLabels_entries _ h2]
  · rw [h1, h2]
    exact Iff.rfl

theorem fixedDigits_spec (k : Nat) : ∀ n, n < 10 ^ k → IsNumeral k n (fixedDigits k n) := by
  induction k with
  | zero =>
    intro n h
    refine ⟨rfl, (by intro c h; cases h), ?_⟩
    simp only [Nat.pow_zero] at h
    show (0 : Nat) = n
    omega
  | succ k ih =>
    intro n h
    have hk : n / 10 < 10 ^ k := by
      rw [Nat.pow_succ] at h
      omega
    obtain ⟨h1, h2, h3⟩ := ih _ hk
    have hd : n % 10 < 10 := Nat.mod_lt _ (by decide)
    have hc : (Char.ofNat (48 + n % 10)).toNat = 48 + n % 10 := by
      generalize n % 10 = d at hd
      match d, hd with
      | 0, _ => rfl
      | 1, _ => rfl
      | 2, _ => rfl
      | 3, _ => rfl
      | 4, _ => rfl
      | 5, _ => rfl
      | 6, _ => rfl
      | 7, _ => rfl
      | 8, _ => rfl
      | 9, _ => rfl
    refine ⟨by simp [fixedDigits, h1], ?_, ?_⟩
    · intro c hcm
      rcases List.mem_append.1 hcm with hcm | hcm
      · exact h2 c hcm
      · rw [List.mem_singleton.1 hcm, hc]
        omega
    · unfold readDigits at h3 ⊢
      rw [fixedDigits, List.foldl_append, h3]
      simp only [List.foldl_cons, List.foldl_nil, hc]
      omega

theorem iso_spec {d : Date} (h : d.Short) : IsIsoDate d d.iso.toList :=
  ⟨fixedDigits 4 d.year, fixedDigits 2 d.month, fixedDigits 2 d.day, by simp [Date.iso], fixedDigits_spec 4 _ h.1, fixedDigits_spec 2 _ h.2.1, fixedDigits_spec 2 _ h.2.2⟩

/-! ## Titles of columns -/

theorem shownIn_mem {es : List (String × String)} {d s : String} (h : ShownIn ml langs es d s) : s = d ∨ s ∈ es.map (·.2) := by
  obtain ⟨pre, l, post, _, _, ⟨_, h⟩ | ⟨_, as, e, bs, he, _, _, h⟩⟩ := h
  · exact Or.inl h
  · exact Or.inr (by rw [he, ← h]; simp)

/-- The titles that a core aspect can have. -/
def titleTexts (n : String) : List String := n :: (coreTitles n).map (·.2)

theorem titleTexts_core {a : Aspect} (hc : a.core = true) {s : String} (h : ShownTitle ml langs a s) : s ∈ titleTexts a.name := by
  unfold ShownTitle at h
  rw [hc, if_pos rfl] at h
  rcases shownIn_mem h with rfl | h
  · exact List.mem_cons_self
  · exact List.mem_cons_of_mem _ h

theorem title_dimension {a : Aspect} (hc : a.core = false) {s : String} (h : ShownTitle ml langs a s) : s = a.name := by
  unfold ShownTitle at h
  rw [hc] at h
  rcases shownIn_mem h with rfl | h
  · rfl
  · cases h

theorem titleTexts_distinct : ∀ n ∈ ["concept", "period", "entity", "unit"], ∀ m ∈ ["concept", "period", "entity", "unit"], ∀ s ∈ titleTexts n, s ∈ titleTexts m → n = m := by decide +kernel

def idTexts : List String := ["id", "Id", "ID"]
def valueTexts : List String := ["value", "Value", "Wert", "Valeur", "Valor", "Valore"]

theorem titleTexts_clear : ∀ n ∈ ["concept", "period", "entity", "unit"], ∀ s ∈ titleTexts n, ':' ∉ s.toList ∧ s ∉ idTexts ∧ s ∉ valueTexts := by decide +kernel

theorem literal_texts : (∀ s ∈ idTexts, ':' ∉ s.toList ∧ s ∉ valueTexts) ∧ ∀ s ∈ valueTexts, ':' ∉ s.toList := by decide +kernel

theorem idRows : ∀ r ∈ sectionRows "literal" textsLiteral, r.name = "id" → r.text ∈ idTexts := by decide +kernel
theorem valueRows : ∀ r ∈ sectionRows "literal" textsLiteral, r.name = "value" → r.text ∈ valueTexts := by decide +kernel

theorem fixed_id {s : String} (h : FixedText o "literal" "id" s) : s ∈ idTexts := by
  cases o with
  | none => rw [show s = "id" from h]; decide
  | some t =>
    rcases h with ⟨r, hr, h1, h2, _, h4⟩ | ⟨_, h⟩
    · rw [← h4]
      exact idRows r (literal_rows hr h1) h2
    · rw [h]; decide

theorem fixed_value {s : String} (h : FixedText o "literal" "value" s) : s ∈ valueTexts := by
  cases o with
  | none => rw [show s = "value" from h]; decide
  | some t =>
    rcases h with ⟨r, hr, h1, h2, _, h4⟩ | ⟨_, h⟩
    · rw [← h4]
      exact valueRows r (literal_rows hr h1) h2
    · rw [h]; decide

/-! ## Rows -/

theorem foldl_set_distinct (as : List Aspect) (k v : Aspect → String) : ∀ d : Dict String String, (d.keys ++ as.map k).Nodup →
    as.foldl (fun row a => Dict.set row (k a) (v a)) d = d ++ as.map (fun a => (k a, v a)) := by
  induction as with
  | nil => intro d _; simp
  | cons a as ih =>
    intro d hd
    rw [List.foldl_cons, Dict.set_of_not_mem]
    · rw [ih]
      · simp
      · simpa [Dict.keys] using hd
    · intro hmem
      rw [List.nodup_append] at hd
      exact hd.2.2 _ hmem _ (by simp) rfl

theorem factRow_ok {t : Translations} {cell : Aspect → Except PyErr String} {f : Fact} {k v : Aspect → String}
    (hk : ∀ a ∈ f.context.getAspects, getFromLabels ml a.labels a.name langs = .ok (k a))
    (hv : ∀ a ∈ f.context.getAspects, cell a = .ok (v a)) {idLit valueLit noneLit : String}
    (hid : t.get ml ⟨"http://www.brel.com/translations/literal", "", "id"⟩ langs = .ok idLit)
    (hval : t.get ml ⟨"http://www.brel.com/translations/literal", "", "value"⟩ langs = .ok valueLit)
    (hnone : t.get ml ⟨"http://www.brel.com/translations/literal", "", "none"⟩ langs = .ok noneLit)
    (hd : ((f.context.getAspects.map k) ++ [idLit, valueLit]).Nodup) :
    factRow t ml langs cell f = .ok (f.context.getAspects.map (fun a => (k a, v a)) ++ [(idLit, if f.id.getD "" = "" then noneLit else f.id.getD ""), (valueLit, f.value)]) := by
  have hd1 : (f.context.getAspects.map k).Nodup := (List.nodup_append.1 hd).1
  let i := if f.id.getD "" = "" then noneLit else f.id.getD ""
  have hrow : factRow t ml langs cell f =
      .ok (Dict.set (Dict.set (f.context.getAspects.foldl (fun row a => Dict.set row (k a) (v a)) []) idLit i) valueLit f.value) := by
    unfold factRow contextRow
    rw [foldlM_set_spec (fun a => getFromLabels ml a.labels a.name langs) cell k v _ hk hv, hid, hval]
    show (match f.id with | some _ => _ | none => _) = _
    simp only [hnone]
    cases hf : f.id with
    | none => simp [i, hf, bind, Except.bind, pure, Except.pure]
    | some x =>
      by_cases hx : x = ""
      · simp [i, hf, hx, bind, Except.bind, pure, Except.pure]
      · simp [i, hf, hx, bind, Except.bind, pure, Except.pure]
  rw [List.nodup_append] at hd
  have h1 : idLit ∉ Dict.keys (f.context.getAspects.map (fun a => (k a, v a))) := by
    intro hm
    rw [Dict.keys, List.map_map] at hm
    exact hd.2.2 idLit hm idLit (by simp) rfl
  have h2 : valueLit ∉ Dict.keys (f.context.getAspects.map (fun a => (k a, v a)) ++ [(idLit, i)]) := by
    intro hm
    rw [Dict.keys, List.map_append, List.map_map] at hm
    rcases List.mem_append.1 hm with hm | hm
    · exact hd.2.2 valueLit hm valueLit (by simp) rfl
    · have e : valueLit = idLit := List.mem_singleton.1 hm
      have := hd.2.1
      rw [e] at this
      simp at this
  rw [hrow, foldl_set_distinct _ _ _ _ (by simpa [Dict.keys] using hd1), List.nil_append, Dict.set_of_not_mem _ _ _ h1, Dict.set_of_not_mem _ _ _ h2, List.append_assoc]
  rfl

theorem foldlM_set_fails (key cell : Aspect → Except PyErr String) (as : List Aspect) : ∀ (row row' : Dict String String),
    as.foldlM (fun row a => do
      let x ← key a
      let y ← cell a
      return Dict.set row x y) row = (.ok row' : Except PyErr _) → ∀ a ∈ as, (∃ x, key a = .ok x) ∧ ∃ y, cell a = .ok y := by
  induction as with
  | nil => intro _ _ _ a h; cases h
  | cons b as ih =>
    intro row row' h a ha
    rw [List.foldlM_cons] at h
    cases hb : key b with
    | error e => rw [hb] at h; cases h
    | ok x =>
      cases hc : cell b with
      | error e => rw [hb, hc] at h; cases h
      | ok y =>
        rw [hb, hc] at h
        rcases List.mem_cons.1 ha with rfl | ha
        · exact ⟨⟨x, hb⟩, y, hc⟩
        · exact ih _ _ h a ha

theorem factRow_texts {t : Translations} {cell : Aspect → Except PyErr String} {f : Fact} {row : Dict String String} (h : factRow t ml langs cell f = .ok row) :
    ∀ a ∈ f.context.getAspects, (∃ x, getFromLabels ml a.labels a.name langs = .ok x) ∧ ∃ y, cell a = .ok y := by
  unfold factRow at h
  cases hc : contextRow ml langs cell f.context.getAspects with
  | error e => rw [hc] at h; cases h
  | ok r => exact foldlM_set_fails _ _ _ _ _ hc

/-- The aspects and the characteristics of a fact that the documents state. `members` are the labels of the member objects. -/
structure StatedParts (labels members : QName → List Label) (f : Fact) : Prop where
  names : (f.context.getAspects.map (·.name)).Nodup
  aspects : ∀ a ∈ f.context.getAspects, StatedAspect a
  prefixed : ∀ a ∈ f.context.getAspects, a.core = false → ':' ∈ a.name.toList
  chars : ∀ a ∈ f.context.getAspects, ∃ c, f.context.getCharacteristic a = some c ∧ PlainChar c
  objects : ∀ a ∈ f.context.getAspects, ∀ c d m i, f.context.getCharacteristic a = some c → c.value = .explicit d m i → objectLabels labels m i = members m

theorem localized_iff {f : Fact} (hf : StatedParts labels members f) (h : TextLanguage ml langs o) {a : Aspect} (ha : a ∈ f.context.getAspects) {c : Characteristic}
    (hc : f.context.getCharacteristic a = some c) :
    (∀ s, f.context.localized shippedTranslations ml labels langs a = .ok s → c.value.Shows ml langs o labels members s) ∧
    ((match c.value with
      | .concept k => ∃ s, ShownIn ml langs (labelEntries (labels k.name)) k.name.localName s
      | .explicit _ m _ => ∃ s, ShownIn ml langs (labelEntries (members m)) m.localName s
      | _ => True) ↔ ∃ s, f.context.localized shippedTranslations ml labels langs a = .ok s) := by
  obtain ⟨c', hc', hp⟩ := hf.chars a ha
  rw [hc] at hc'
  cases hc'
  have hobj := hf.objects a ha c
  unfold Context.localized
  rw [hc]
  obtain ⟨asp, v⟩ := c
  cases v with
  | concept k =>
    refine ⟨fun s hs => shownIn_iff.2 hs, ?_⟩
    exact exists_congr fun s => shownIn_iff
  | period p =>
    refine ⟨?_, ⟨fun _ => ⟨_, rfl⟩, fun _ => trivial⟩⟩
    intro s hs
    cases hs
    cases p with
    | instant d => exact iso_spec hp
    | duration x y =>
      exact ⟨x.iso.toList, y.iso.toList, by simp [Period.shown], iso_spec hp.1, iso_spec hp.2⟩
  | entity i s =>
    refine ⟨?_, ⟨fun _ => ⟨_, rfl⟩, fun _ => trivial⟩⟩
    intro s hs
    cases hs
    rfl
  | unit n x y =>
    obtain ⟨s', h1, h2⟩ := getText_fixed h "unit" (name := n) hp
    refine ⟨?_, ⟨fun _ => ⟨_, h1⟩, fun _ => trivial⟩⟩
    intro s hs
    have hs : shippedTranslations.getText ml langs "unit" n = .ok s := hs
    rw [h1] at hs
    cases hs
    exact h2
  | explicit d m i =>
    have e : objectLabels labels m i = members m := hobj d m i hc rfl
    refine ⟨?_, ?_⟩
    · intro s hs
      refine shownIn_iff.2 ?_
      rw [← e]
      exact hs
    · refine exists_congr fun s => ?_
      rw [shownIn_iff, ← e]
      rfl
  | typed d i v =>
    refine ⟨?_, ⟨fun _ => ⟨_, rfl⟩, fun _ => trivial⟩⟩
    intro s hs
    cases hs
    rfl

theorem title_unique {a : Aspect} (ha : StatedAspect a) {s s' : String} (h : ShownTitle ml langs a s) (h' : ShownTitle ml langs a s') : s = s' := by
  rw [shownTitle_iff ha] at h h'
  exact Except.ok.inj (h.symm.trans h')

theorem row_main {f : Fact} (hf : StatedParts labels members f) (hne : langs ≠ []) (h : TextLanguage ml langs o) :
    (HasTexts ml langs labels members f → ∃ row, factTableRow shippedTranslations ml labels langs f = .ok row ∧ FactRowShows ml langs o labels members f row) ∧
    (¬ HasTexts ml langs labels members f → ∃ e, factTableRow shippedTranslations ml labels langs f = .error e) := by
  have hrow : factTableRow shippedTranslations ml labels langs f = factRow shippedTranslations ml langs (f.context.localized shippedTranslations ml labels langs) f.labelled := by
    unfold factTableRow
    rw [if_neg hne]
  have hasp : f.labelled.context.getAspects = f.context.getAspects.map (fun a => { a with labels := a.ownLabels }) := rfl
  rw [hrow]
  constructor
  · intro ht
    have hsome : ∀ a : Aspect, ∃ t s, a ∈ f.context.getAspects → ShownTitle ml langs a t ∧ f.context.localized shippedTranslations ml labels langs a = .ok s := by
      intro a
      by_cases ha : a ∈ f.context.getAspects
      · obtain ⟨⟨t, h1⟩, h2⟩ := ht a ha
        obtain ⟨c, hc, _⟩ := hf.chars a ha
        obtain ⟨s, hs⟩ := (localized_iff hf h ha hc).2.1 (h2 c hc)
        exact ⟨t, s, fun _ => ⟨h1, hs⟩⟩
      · exact ⟨"", "", fun h => absurd h ha⟩
    obtain ⟨k, hsome⟩ := Classical.axiomOfChoice hsome
    obtain ⟨v, hkv⟩ := Classical.axiomOfChoice hsome
    obtain ⟨idLit, hid, fid⟩ := get_fixed h "literal" "id"
    obtain ⟨valueLit, hval, fval⟩ := get_fixed h "literal" "value"
    obtain ⟨noneLit, hnone, fnone⟩ := get_fixed h "literal" "none"
    -- the functions on the aspects with labels
    let strip : Aspect → Aspect := fun b => (f.context.getAspects.find? (fun a => decide (a.name = b.name))).getD b
    have hstrip : ∀ a ∈ f.context.getAspects, strip { a with labels := a.ownLabels } = a := by
      intro a ha
      have hsome : (f.context.getAspects.find? (fun x => decide (x.name = a.name))).isSome := by
        rw [List.find?_isSome]
        exact ⟨a, ha, by simp⟩
      obtain ⟨b, hb⟩ := Option.isSome_iff_exists.1 hsome
      have hb1 := List.mem_of_find?_eq_some hb
      have hb2 : b.name = a.name := by simpa using List.find?_some hb
      show (f.context.getAspects.find? (fun x => decide (x.name = a.name))).getD _ = a
      rw [hb]
      exact inj_on_of_nodup_map hf.names hb1 ha hb2
    have hlist : ∀ g : Aspect → String, f.labelled.context.getAspects.map (fun b => g (strip b)) = f.context.getAspects.map g := by
      intro g
      rw [hasp, List.map_map]
      exact List.map_congr_left (fun a ha => by show g (strip _) = _; rw [hstrip a ha])
    have hcore : ∀ a ∈ f.context.getAspects, a.core = true → k a ∈ titleTexts a.name ∧ a.name ∈ ["concept", "period", "entity", "unit"] := by
      intro a ha hc
      refine ⟨titleTexts_core hc (hkv a ha).1, ?_⟩
      rcases hf.aspects a ha with ⟨_, h⟩ | ⟨h, _⟩
      · exact h
      · rw [hc] at h; cases h
    have hclear : ∀ a ∈ f.context.getAspects, k a ∉ idTexts ∧ k a ∉ valueTexts := by
      intro a ha
      cases hc : a.core with
      | true => exact (titleTexts_clear _ (hcore a ha hc).2 _ (hcore a ha hc).1).2
      | false =>
        rw [title_dimension hc (hkv a ha).1]
        have := hf.prefixed a ha hc
        exact ⟨fun hm => (literal_texts.1 _ hm).1 this, fun hm => literal_texts.2 _ hm this⟩
    have hinj : ∀ a ∈ f.context.getAspects, ∀ b ∈ f.context.getAspects, k a = k b → a.name = b.name := by
      intro a ha b hb e
      cases hca : a.core with
      | true =>
        cases hcb : b.core with
        | true => exact titleTexts_distinct _ (hcore a ha hca).2 _ (hcore b hb hcb).2 _ (hcore a ha hca).1 (e ▸ (hcore b hb hcb).1)
        | false =>
          exfalso
          have := hf.prefixed b hb hcb
          rw [title_dimension hcb (hkv b hb).1] at e
          exact (titleTexts_clear _ (hcore a ha hca).2 _ (hcore a ha hca).1).1 (e ▸ this)
      | false =>
        cases hcb : b.core with
        | true =>
          exfalso
          have := hf.prefixed a ha hca
          rw [title_dimension hca (hkv a ha).1] at e
          exact (titleTexts_clear _ (hcore b hb hcb).2 _ (hcore b hb hcb).1).1 (e ▸ this)
        | false =>
          rw [title_dimension hca (hkv a ha).1, title_dimension hcb (hkv b hb).1] at e
          exact e
    have hnd : (f.context.getAspects.map k ++ [idLit, valueLit]).Nodup := by
      rw [List.nodup_append]
      refine ⟨?_, ?_, ?_⟩
      · refine List.pairwise_map.2 ((List.pairwise_map.1 hf.names).imp_of_mem ?_)
        intro a b ha hb hab e
        exact hab (hinj a ha b hb e)
      · have : idLit ≠ valueLit := fun e => (literal_texts.1 _ (fixed_id fid)).2 (e ▸ fixed_value fval)
        simpa using this
      · intro x hx y hy e
        obtain ⟨a, ha, rfl⟩ := List.mem_map.1 hx
        simp only [List.mem_cons, List.not_mem_nil, or_false] at hy
        rcases hy with rfl | rfl
        · exact (hclear a ha).1 (e ▸ fixed_id fid)
        · exact (hclear a ha).2 (e ▸ fixed_value fval)
    have hok := factRow_ok (t := shippedTranslations) (ml := ml) (langs := langs) (cell := f.context.localized shippedTranslations ml labels langs) (f := f.labelled)
      (k := fun b => k (strip b)) (v := fun b => v (strip b)) (idLit := idLit) (valueLit := valueLit) (noneLit := noneLit)
      (by
        intro b hb
        rw [hasp] at hb
        obtain ⟨a, ha, rfl⟩ := List.mem_map.1 hb
        rw [hstrip a ha]
        exact (shownTitle_iff (hf.aspects a ha)).1 (hkv a ha).1)
      (by
        intro b hb
        rw [hasp] at hb
        obtain ⟨a, ha, rfl⟩ := List.mem_map.1 hb
        rw [hstrip a ha]
        exact (hkv a ha).2)
      hid hval hnone (by rw [hlist k]; exact hnd)
    have hl2 : f.labelled.context.getAspects.map (fun b => (k (strip b), v (strip b))) = f.context.getAspects.map (fun a => (k a, v a)) := by
      rw [hasp, List.map_map]
      exact List.map_congr_left (fun a ha => by show (k (strip _), v (strip _)) = _; rw [hstrip a ha])
    rw [hl2] at hok
    refine ⟨_, hok, ?_⟩
    have hkeys : (Dict.keys (f.context.getAspects.map (fun a => (k a, v a)) ++ [(idLit, if f.labelled.id.getD "" = "" then noneLit else f.labelled.id.getD ""), (valueLit, f.labelled.value)])).Nodup := by
      simpa [Dict.keys, Function.comp_def] using hnd
    refine ⟨?_, ?_, ?_, ?_⟩
    · intro a ha c hc
      refine ⟨k a, v a, (hkv a ha).1, ?_, (localized_iff hf h ha hc).1 _ (hkv a ha).2⟩
      exact Dict.get?_of_mem _ hkeys (List.mem_append_left _ (List.mem_map.2 ⟨a, ha, rfl⟩))
    · refine ⟨idLit, _, fid, Dict.get?_of_mem _ hkeys (List.mem_append_right _ List.mem_cons_self), ?_⟩
      show ShownId o f.id (if f.id.getD "" = "" then noneLit else f.id.getD "")
      cases hi : f.id with
      | none => exact Or.inr ⟨Or.inl rfl, fnone⟩
      | some x =>
        by_cases hx : x = ""
        · rw [hx]; exact Or.inr ⟨Or.inr rfl, fnone⟩
        · refine Or.inl ⟨x, rfl, hx, ?_⟩
          show (if x = "" then _ else _) = x
          rw [if_neg hx]
          rfl
    · exact ⟨valueLit, fval, Dict.get?_of_mem _ hkeys (List.mem_append_right _ (List.mem_cons_of_mem _ List.mem_cons_self))⟩
    · simp
  · intro hno
    cases hr : factRow shippedTranslations ml langs (f.context.localized shippedTranslations ml labels langs) f.labelled with
    | error e => exact ⟨e, rfl⟩
    | ok row =>
      exfalso
      apply hno
      intro a ha
      obtain ⟨⟨x, hx⟩, y, hy⟩ := factRow_texts hr { a with labels := a.ownLabels } (by rw [hasp]; exact List.mem_map.2 ⟨a, ha, rfl⟩)
      refine ⟨⟨x, (shownTitle_iff (hf.aspects a ha)).2 hx⟩, ?_⟩
      intro c hc
      exact (localized_iff hf h ha hc).2.2 ⟨y, hy⟩

end Brel
