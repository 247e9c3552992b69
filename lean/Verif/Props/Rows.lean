import Verif.Spec.Rows
import Verif.Props.Output

/-! Tables of report elements and components (C104). -/

namespace Brel

variable {ml : Bool} {langs : List String} {o : Option String}

/-! ## The shipped translations -/

theorem lengths_shipped : ∀ s ∈ shippedSections, ∀ e ∈ s.2, e.2.length = 5 := by decide +kernel

theorem mem_sectionRows {kind : String} {texts : List (String × List String)} {r : TransRow} (h : r ∈ sectionRows kind texts) :
    r.ns = translationBase ++ kind ∧ ∃ e ∈ texts, r.name = e.1 ∧ ∃ p ∈ shippedLanguages.zip e.2, r.lang = p.1.1 ∧ r.locale = p.1.2 ∧ r.text = p.2 := by
  unfold sectionRows at h
  obtain ⟨e, he, h⟩ := List.mem_flatMap.1 h
  obtain ⟨p, hp, rfl⟩ := List.mem_map.1 h
  exact ⟨rfl, e, he, rfl, p, hp, rfl, rfl, rfl⟩

theorem tag_shipped {r : TransRow} (h : r ∈ shippedRows) : r.tag ∈ shippedTags := by
  obtain ⟨s, _, h⟩ := List.mem_flatMap.1 h
  obtain ⟨_, e, _, _, p, hp, h1, h2, _⟩ := mem_sectionRows h
  have : p.1 ∈ shippedLanguages := (List.of_mem_zip hp).1
  unfold TransRow.tag
  rw [h1, h2]
  revert this
  generalize p.1 = x
  revert x
  decide +kernel

/-- A name that is translated is translated into every language. -/
theorem complete_shipped {r : TransRow} (h : r ∈ shippedRows) {tag : String} (ht : tag ∈ shippedTags) : ∃ r' ∈ shippedRows, r'.qname = r.qname ∧ r'.tag = tag := by
  obtain ⟨s, hs, h⟩ := List.mem_flatMap.1 h
  obtain ⟨hns, e, he, hn, _⟩ := mem_sectionRows h
  have hlen := lengths_shipped s hs e he
  have : ∃ p ∈ shippedLanguages.zip e.2, p.1.1 ++ "-" ++ p.1.2 = tag := by
    obtain ⟨n, ts⟩ := e
    match ts, hlen with
    | [a, b, c, d, f], _ =>
      have key : tag ∈ shippedLanguages.map (fun p => p.1 ++ "-" ++ p.2) := by
        revert ht
        revert tag
        decide +kernel
      simp only [shippedLanguages, List.map_cons, List.map_nil, List.mem_cons, List.not_mem_nil, or_false] at key
      simp only [shippedLanguages, List.zip_cons_cons, List.zip_nil_right, List.mem_cons, List.not_mem_nil, or_false, exists_eq_or_imp, exists_eq_left]
      rcases key with rfl | rfl | rfl | rfl | rfl <;> simp
  obtain ⟨p, hp, hpt⟩ := this
  refine ⟨⟨translationBase ++ s.1, e.1, p.1.1, p.1.2, p.2⟩, List.mem_flatMap.2 ⟨s, hs, List.mem_flatMap.2 ⟨e, he, List.mem_map.2 ⟨p, hp, rfl⟩⟩⟩, ?_, hpt⟩
  unfold TransRow.qname
  rw [hns, hn]

theorem match_unique {l t t' : String} (ht : t ∈ shippedTags) (ht' : t' ∈ shippedTags) (h : languagesMatch ml l t = true) (h' : languagesMatch ml l t' = true) : t = t' := by
  have key : ∀ a ∈ shippedTags, ∀ b ∈ shippedTags, (lower a = lower b ∨ beforeDash (lower a) = beforeDash (lower b)) → a = b := by decide +kernel
  unfold languagesMatch at h h'
  apply key t ht t' ht'
  cases ml
  · simp only [Bool.false_eq_true, if_false, decide_eq_true_eq] at h h'
    exact Or.inr (h.symm.trans h')
  · simp only [if_true, decide_eq_true_eq] at h h'
    exact Or.inl (h.symm.trans h')

theorem toLower_toLower (c : Char) : c.toLower.toLower = c.toLower := by
  unfold Char.toLower
  split
  · rename_i h
    rw [dif_neg]
    intro h'
    simp only [ge_iff_le, Char.le_def, UInt32.le_iff_toNat_le] at h h'
    simp at h h'
    omega
  · rfl

theorem lower_lower (s : String) : lower (lower s) = lower s := by
  unfold lower
  rw [String.toList_ofList, List.map_map]
  congr 1
  apply List.map_congr_left
  intro c _
  exact toLower_toLower c

theorem match_lower (l t : String) : languagesMatch ml (lower l) t = languagesMatch ml l t := by
  unfold languagesMatch
  rw [lower_lower]

/-- What the loaded table offers for a name. -/
theorem getSingle_shipped (kind name l : String) : (∃ r ∈ shippedRows, r.ns = translationBase ++ kind ∧ r.name = name) ∧ l ≠ "" ∧
      ((∃ t ∈ shippedTags, languagesMatch ml l t = true ∧ ∃ r ∈ shippedRows, r.ns = translationBase ++ kind ∧ r.name = name ∧ r.tag = t ∧
        shippedTranslations.getSingle ml ⟨translationBase ++ kind, "", name⟩ l = .ok r.text) ∨
       (∀ t ∈ shippedTags, languagesMatch ml l t = false) ∧ shippedTranslations.getSingle ml ⟨translationBase ++ kind, "", name⟩ l = .error .keyError) ∨
    ((∀ r ∈ shippedRows, ¬ (r.ns = translationBase ++ kind ∧ r.name = name)) ∨ l = "") ∧ shippedTranslations.getSingle ml ⟨translationBase ++ kind, "", name⟩ l = .ok name := by
  by_cases hl : l = ""
  · right
    refine ⟨Or.inr hl, ?_⟩
    unfold Translations.getSingle
    rw [if_pos hl]
  have hq : ∀ r : TransRow, r.qname = ⟨translationBase ++ kind, "", name⟩ ↔ r.ns = translationBase ++ kind ∧ r.name = name := by
    intro r
    unfold TransRow.qname
    simp
  cases hd : Dict.get? shippedTranslations ⟨translationBase ++ kind, "", name⟩ with
  | none =>
    right
    have := ((C14_table_from_rows shippedRows ⟨translationBase ++ kind, "", name⟩ "").2).1 hd
    refine ⟨Or.inl (fun r hr h => this r hr ((hq r).2 h)), ?_⟩
    unfold Translations.getSingle
    rw [if_neg hl, hd]
  | some d =>
    left
    have hex : ∃ r ∈ shippedRows, r.qname = ⟨translationBase ++ kind, "", name⟩ := by
      refine Classical.byContradiction fun hno => ?_
      have := ((C14_table_from_rows shippedRows ⟨translationBase ++ kind, "", name⟩ "").2).2 (fun r hr h => hno ⟨r, hr, h⟩)
      unfold shippedTranslations at hd
      rw [this] at hd
      cases hd
    have hget : ∀ tag, Dict.get? d tag = (latest (fun r => (r.qname, r.tag)) shippedRows (⟨translationBase ++ kind, "", name⟩, tag)).map (·.text) := by
      intro tag
      have := (C14_table_from_rows shippedRows ⟨translationBase ++ kind, "", name⟩ tag).1
      unfold shippedTranslations at hd
      rw [hd] at this
      exact this
    obtain ⟨r0, hr0, hr0q⟩ := hex
    refine ⟨⟨r0, hr0, (hq r0).1 hr0q⟩, hl, ?_⟩
    have hlatest : ∀ tag s, Dict.get? d tag = some s → ∃ r ∈ shippedRows, r.ns = translationBase ++ kind ∧ r.name = name ∧ r.tag = tag ∧ r.text = s := by
      intro tag s h
      rw [hget, Option.map_eq_some_iff] at h
      obtain ⟨r, hr, rfl⟩ := h
      unfold latest at hr
      have h1 := List.mem_of_find?_eq_some hr
      have h2 := List.find?_some hr
      simp only [decide_eq_true_eq, Prod.mk.injEq] at h2
      exact ⟨r, List.mem_reverse.1 h1, ((hq r).1 h2.1).1, ((hq r).1 h2.1).2, h2.2, rfl⟩
    unfold Translations.getSingle
    rw [if_neg hl, hd]
    dsimp only
    cases hf : d.find? (fun e => languagesMatch ml (lower l) e.1) with
    | some e =>
      left
      have hm := List.find?_some hf
      simp only [match_lower] at hm
      have hs : Dict.get? d e.1 = some e.2 := by
        obtain ⟨hp, as, bs, rfl, hno⟩ := List.find?_eq_some_iff_append.1 hf
        have : ∀ as : List (String × String), (∀ a ∈ as, (!languagesMatch ml (lower l) a.1) = true) → Dict.get? (as ++ e :: bs : Dict String String) e.1 = some e.2 := by
          intro as has
          induction as with
          | nil => simp [Dict.get?]
          | cons a as ih =>
            have hne : a.1 ≠ e.1 := by
              intro heq
              have h1 := has a (by simp)
              rw [heq] at h1
              rw [hp] at h1
              cases h1
            have := ih (fun a ha => has a (List.mem_cons_of_mem _ ha))
            unfold Dict.get? at this ⊢
            rw [List.cons_append, List.find?_cons_of_neg (by simpa using hne)]
            exact this
        exact this as hno
      obtain ⟨r, hr, h1, h2, h3, h4⟩ := hlatest _ _ hs
      refine ⟨e.1, h3 ▸ tag_shipped hr, hm, r, hr, h1, h2, h3, ?_⟩
      rw [h4]
    | none =>
      right
      refine ⟨?_, rfl⟩
      intro t ht
      rw [List.find?_eq_none] at hf
      obtain ⟨r, hr, hrq, hrt⟩ := complete_shipped hr0 ht
      have : Dict.get? d t ≠ none := by
        rw [hget]
        intro h
        rw [Option.map_eq_none_iff] at h
        unfold latest at h
        rw [List.find?_eq_none] at h
        exact h r (List.mem_reverse.2 hr) (by simp [hrq, hrt, hr0q])
      have hmem : t ∈ Dict.keys d := by
        refine Classical.byContradiction fun hno => ?_
        exact this ((Dict.get?_eq_none_iff d t).2 hno)
      obtain ⟨e, he, rfl⟩ := List.mem_map.1 hmem
      have := hf e he
      rw [match_lower] at this
      simpa using this

theorem fixed_unknown {kind name : String} (h : ∀ r ∈ shippedRows, ¬ (r.ns = translationBase ++ kind ∧ r.name = name)) : FixedText o kind name name := by
  cases o with
  | none => exact rfl
  | some t => exact Or.inr ⟨h, rfl⟩

/-- Every word can be shown in the language of the texts. -/
theorem get_fixed (h : TextLanguage ml langs o) (kind name : String) :
    ∃ s, shippedTranslations.get ml ⟨translationBase ++ kind, "", name⟩ langs = .ok s ∧ FixedText o kind name s := by
  induction h with
  | @default ls =>
    rcases getSingle_shipped (ml := ml) kind name "" with ⟨_, h, _⟩ | ⟨_, h⟩
    · exact absurd rfl h
    · refine ⟨name, ?_, rfl⟩
      unfold Translations.get
      rw [h]
  | @tag l t ls hl ht hm =>
    rcases getSingle_shipped (ml := ml) kind name l with ⟨_, _, ⟨t', ht', hm', r, hr, h1, h2, h3, h⟩ | ⟨hno, _⟩⟩ | ⟨h0, h⟩
    · refine ⟨r.text, ?_, ?_⟩
      · unfold Translations.get
        rw [h]
      · refine Or.inl ⟨r, hr, h1, h2, ?_, rfl⟩
        rw [match_unique ht ht' hm hm']
        exact h3
    · rw [hno t ht] at hm
      cases hm
    · refine ⟨name, ?_, ?_⟩
      · unfold Translations.get
        rw [h]
      · exact fixed_unknown (h0.resolve_right hl)
  | @skip l ls o hl hno _ ih =>
    rcases getSingle_shipped (ml := ml) kind name l with ⟨_, _, ⟨t', ht', hm', _⟩ | ⟨_, h⟩⟩ | ⟨h0, h⟩
    · rw [hno t' ht'] at hm'
      cases hm'
    · obtain ⟨s, h1, h2⟩ := ih
      refine ⟨s, ?_, h2⟩
      unfold Translations.get
      rw [h]
      exact h1
    · refine ⟨name, ?_, fixed_unknown (h0.resolve_right hl)⟩
      unfold Translations.get
      rw [h]

/-- Without such a language, a word that is translated cannot be shown. -/
theorem get_none (h : ∀ o, ¬ TextLanguage ml langs o) {kind name : String} (hk : ∃ r ∈ shippedRows, r.ns = translationBase ++ kind ∧ r.name = name) :
    shippedTranslations.get ml ⟨translationBase ++ kind, "", name⟩ langs = .error .keyError := by
  induction langs with
  | nil => rfl
  | cons l ls ih =>
    have hl : l ≠ "" := by
      rintro rfl
      exact h _ .default
    have hno : ∀ t ∈ shippedTags, languagesMatch ml l t = false := by
      intro t ht
      refine Classical.byContradiction fun hm => ?_
      exact h _ (.tag hl ht (by simpa using hm))
    rcases getSingle_shipped (ml := ml) kind name l with ⟨_, _, ⟨t', ht', hm', _⟩ | ⟨_, h'⟩⟩ | ⟨h0, _⟩
    · rw [hno t' ht'] at hm'
      cases hm'
    · unfold Translations.get
      rw [h']
      exact ih (fun o ho => h o (.skip hl hno ho))
    · exact absurd hk (fun ⟨r, hr, hrr⟩ => h0.resolve_right hl r hr hrr)

theorem takeWhile_noColon {l : List Char} (h : ':' ∉ l) : l.takeWhile (· ≠ ':') = l := by
  induction l with
  | nil => rfl
  | cons c l ih =>
    rw [List.takeWhile_cons_of_pos (by simp only [decide_eq_true_eq]; rintro rfl; exact h (by simp)), ih (fun hl => h (List.mem_cons_of_mem _ hl))]

theorem getText_fixed (h : TextLanguage ml langs o) (kind : String) {name : String} (hn : ':' ∉ name.toList) :
    ∃ s, shippedTranslations.getText ml langs kind name = .ok s ∧ FixedText o kind name s := by
  unfold Translations.getText
  rw [takeWhile_noColon hn, String.ofList_toList]
  exact get_fixed h kind name

/-! ## Titles -/

theorem literal_noColon (c : Column) : ':' ∉ c.literal.toList := by cases c <;> decide +kernel

theorem literal_rows {r : TransRow} (h : r ∈ shippedRows) (hns : r.ns = translationBase ++ "literal") : r ∈ sectionRows "literal" textsLiteral := by
  obtain ⟨s, hs, h⟩ := List.mem_flatMap.1 h
  have h1 := (mem_sectionRows h).1
  rw [hns] at h1
  have h2 : s.1 = "literal" := by
    apply String.toList_injective
    have := congrArg String.toList h1
    rw [String.toList_append, String.toList_append] at this
    exact (List.append_cancel_left this).symm
  simp only [shippedSections, List.mem_cons, List.not_mem_nil, or_false] at hs
  rcases hs with rfl | rfl | rfl | rfl | rfl | rfl | rfl <;> first | exact h | exact absurd h2 (by decide)

theorem titles_distinct : ∀ r ∈ sectionRows "literal" textsLiteral, ∀ r' ∈ sectionRows "literal" textsLiteral, r.lang = r'.lang → r.text = r'.text → r.name = r'.name := by
  decide +kernel

theorem literal_shipped (c : Column) : ∃ e ∈ textsLiteral, e.1 = c.literal := by cases c <;> decide +kernel

theorem tag_lang : ∀ p ∈ shippedLanguages, ∀ p' ∈ shippedLanguages, p.1 ++ "-" ++ p.2 = p'.1 ++ "-" ++ p'.2 → p.1 = p'.1 := by decide +kernel

theorem literal_injective {c c' : Column} (h : c.literal = c'.literal) : c = c' := by
  revert h
  cases c <;> cases c' <;> decide

theorem title_injective {c c' : Column} {s : String} (h : FixedText o "literal" c.literal s) (h' : FixedText o "literal" c'.literal s) : c = c' := by
  cases o with
  | none =>
    have h1 : s = c.literal := h
    have h2 : s = c'.literal := h'
    exact literal_injective (h1.symm.trans h2)
  | some t =>
    have hex : ∀ c : Column, ¬ ∀ r ∈ shippedRows, ¬ (r.ns = "http://www.brel.com/translations/" ++ "literal" ∧ r.name = c.literal) := by
      intro c hno
      obtain ⟨e, he, hec⟩ := literal_shipped c
      have hs : ("literal", textsLiteral) ∈ shippedSections := by simp [shippedSections]
      have hlen := lengths_shipped _ hs e he
      obtain ⟨n, ts⟩ := e
      match ts, hlen with
      | a :: ts, _ =>
        exact hno ⟨translationBase ++ "literal", n, "en", "US", a⟩ (List.mem_flatMap.2 ⟨_, hs, List.mem_flatMap.2 ⟨_, he, List.mem_map.2 ⟨(("en", "US"), a), by simp [shippedLanguages], rfl⟩⟩⟩)
          ⟨rfl, hec⟩
    rcases h with ⟨r, hr, h1, h2, h3, h4⟩ | ⟨hno, _⟩
    · rcases h' with ⟨r', hr', h1', h2', h3', h4'⟩ | ⟨hno, _⟩
      · apply literal_injective
        rw [← h2, ← h2']
        have a := literal_rows hr h1
        have a' := literal_rows hr' h1'
        refine titles_distinct r a r' a' ?_ (h4.trans h4'.symm)
        obtain ⟨_, _, _, _, p, hp, l1, l2, _⟩ := mem_sectionRows a
        obtain ⟨_, _, _, _, p', hp', l1', l2', _⟩ := mem_sectionRows a'
        rw [l1, l1']
        apply tag_lang p.1 (List.of_mem_zip hp).1 p'.1 (List.of_mem_zip hp').1
        rw [← l1, ← l2, ← l1', ← l2', h3, h3']
      · exact absurd hno (hex _)
    · exact absurd hno (hex _)

/-! ## Rows -/

theorem rowOf_distinct {es : List (String × Cell)} (h : (es.map (·.1)).Nodup) : rowOf es = es := by
  have key : ∀ (es : List (String × Cell)) (d : Dict String Cell), (d.keys ++ es.map (·.1)).Nodup → es.foldl (fun d e => Dict.set d e.1 e.2) d = d ++ es := by
    intro es
    induction es with
    | nil => intro d _; simp
    | cons e es ih =>
      intro d hd
      rw [List.foldl_cons, Dict.set_of_not_mem]
      · rw [ih]
        · simp
        · simpa [Dict.keys] using hd
      · intro hmem
        rw [List.nodup_append] at hd
        exact hd.2.2 _ hmem _ (by simp) rfl
  have := key es [] (by simpa [Dict.keys] using h)
  simpa [rowOf] using this

theorem row_shows {title : Column → String} (inj : ∀ c c', title c = title c' → c = c') (L : List (Column × Content × String)) (nd : (L.map (·.1)).Nodup)
    (hs : ∀ x ∈ L, x.2.1.Shows ml langs o x.2.2) : RowShows ml langs o title (L.map fun x => (x.1, x.2.1)) (rowOf (L.map fun x => (title x.1, .text x.2.2))) := by
  have nd' : ((L.map fun x => (title x.1, Cell.text x.2.2)).map (·.1)).Nodup := by
    have : (L.map fun x => (title x.1, Cell.text x.2.2)).map (·.1) = (L.map (·.1)).map title := by simp
    rw [this]
    rw [List.nodup_iff_pairwise_ne] at nd ⊢
    rw [List.pairwise_map]
    exact nd.imp (fun h e => h (inj _ _ e))
  rw [rowOf_distinct nd']
  constructor
  · intro p hp
    obtain ⟨x, hx, rfl⟩ := List.mem_map.1 hp
    refine ⟨x.2.2, ?_, hs x hx⟩
    exact Dict.get?_of_mem _ nd' (List.mem_map.2 ⟨x, hx, rfl⟩)
  · intro k hk
    unfold Dict.keys at hk
    rw [List.map_map] at hk
    obtain ⟨x, hx, rfl⟩ := List.mem_map.1 hk
    exact ⟨(x.1, x.2.1), List.mem_map.2 ⟨x, hx, rfl⟩, rfl⟩

theorem lastSegment_after (s : String) : AfterColon s (lastSegment s) := by
  unfold AfterColon lastSegment
  have hd := List.takeWhile_append_dropWhile (p := fun c => decide (c ≠ ':')) (l := s.toList.reverse)
  rw [String.toList_ofList]
  refine ⟨?_, ?_⟩
  · intro h
    rw [List.mem_reverse] at h
    have := List.all_takeWhile (p := fun c => decide (c ≠ ':')) (l := s.toList.reverse)
    rw [List.all_eq_true] at this
    simpa using this _ h
  · cases hw : s.toList.reverse.dropWhile (fun c => decide (c ≠ ':')) with
    | nil =>
      left
      rw [hw, List.append_nil] at hd
      rw [hd, List.reverse_reverse, String.ofList_toList]
    | cons c cs =>
      right
      have hc : c = ':' := by
        have := List.head_dropWhile_not (fun c => decide (c ≠ ':')) (l := s.toList.reverse) (by rw [hw]; simp)
        simp only [hw, List.head_cons] at this
        simpa using this
      refine ⟨String.ofList cs.reverse, ?_⟩
      apply String.toList_injective
      rw [String.toList_append, String.toList_append, String.toList_ofList, String.toList_ofList]
      rw [hw] at hd
      generalize List.takeWhile (fun c => decide (c ≠ ':')) s.toList.reverse = w at hd ⊢
      have := congrArg List.reverse hd
      rw [List.reverse_reverse, List.reverse_append, List.reverse_cons, hc] at this
      rw [← this, String.toList_ofList]

theorem getFromLabels_shown {ls : List Label} {s : String} (h : getFromLabels ml ls (selectMainLabel ls).text langs = .ok s) : ShownLabel ml langs ls s := by
  obtain ⟨pre, l, post, he, ho, hpre⟩ := ((C14_label ml ls (selectMainLabel ls).text langs).1 s).1 h
  refine ⟨pre, l, post, he, ?_, ?_⟩
  · intro l' hl'
    have hne : l' ≠ "" := fun e => hpre l' hl' _ (Or.inl ⟨e, rfl⟩)
    refine ⟨hne, ?_⟩
    intro x hx
    refine Classical.byContradiction fun hm => ?_
    have hm : languagesMatch ml l' x.language = true := by simpa using hm
    have hf : (ls.find? (fun x => languagesMatch ml l' x.language)).isSome := by
      rw [List.find?_isSome]
      exact ⟨x, hx, hm⟩
    obtain ⟨y, hy⟩ := Option.isSome_iff_exists.1 hf
    obtain ⟨hp, as, bs, e, hno⟩ := List.find?_eq_some_iff_append.1 hy
    exact hpre l' hl' y.text (Or.inr ⟨hne, as, y, bs, e, hp, rfl, fun z hz => by simpa using hno z hz⟩)
  · rcases ho with ⟨h1, h2⟩ | ⟨h1, as, x, bs, e, hm, ht, hno⟩
    · exact Or.inl ⟨h1, h2⟩
    · exact Or.inr ⟨h1, as, x, bs, e, hno, hm, ht⟩

theorem getFromLabels_some {ls : List Label} {dflt : String} (h : ∃ l ∈ langs, l = "" ∨ ∃ x ∈ ls, languagesMatch ml l x.language = true) : ∃ s, getFromLabels ml ls dflt langs = .ok s := by
  induction langs with
  | nil => obtain ⟨_, h, _⟩ := h; cases h
  | cons l ls' ih =>
    unfold getFromLabels
    cases hl : labelWithLanguage ml ls l ⟨dflt, "", "", "http://www.xbrl.org/2003/role/label"⟩ with
    | some x => exact ⟨_, rfl⟩
    | none =>
      apply ih
      obtain ⟨l', hl', h⟩ := h
      rcases List.mem_cons.1 hl' with rfl | hl'
      · exfalso
        unfold labelWithLanguage at hl
        rcases h with rfl | ⟨x, hx, hm⟩
        · rw [if_pos rfl] at hl; cases hl
        · by_cases e : l' = ""
          · rw [if_pos e] at hl; cases hl
          · rw [if_neg e, List.find?_eq_none] at hl
            exact hl x hx hm
      · exact ⟨l', hl', h⟩

theorem getFromLabels_fails {ls : List Label} {dflt : String} (h : ∀ l ∈ langs, l ≠ "" ∧ ∀ x ∈ ls, languagesMatch ml l x.language = false) :
    getFromLabels ml ls dflt langs = .error .valueError := by
  rw [(C14_label ml ls dflt langs).2]
  rintro l hl s (⟨h1, _⟩ | ⟨_, as, x, bs, e, hm, _⟩)
  · exact (h l hl).1 h1
  · rw [(h l hl).2 x (by rw [e]; simp)] at hm
    cases hm

/-! ## C104 -/

theorem boolText_noColon (b : Bool) : ':' ∉ (boolText b).toList := by cases b <;> decide +kernel

theorem plainKey_noColon (k : PlainKind) : ':' ∉ k.key.toList := by cases k <;> decide +kernel

/-- C104: the row of every report element and of every component shows exactly the columns of the element, each under the same title in all rows, different columns under different titles,
titles and fixed words in one language, and the label in the first preferred language that has one. Rows are made unless the element has no label in a preferred language. -/
theorem C104_rows (h : TextLanguage ml langs o) : ∃ title : Column → String, (∀ c c', title c = title c' → c = c') ∧ (∀ c, FixedText o "literal" c.literal (title c)) ∧
    (∀ e row, e.Plain → elementRow shippedTranslations ml langs e = .ok row → RowShows ml langs o title e.columns row) ∧
    (∀ e : RowElement, e.Plain → ((∃ row, elementRow shippedTranslations ml langs e = .ok row) ↔ ∃ l ∈ langs, l = "" ∨ ∃ x ∈ e.labels, languagesMatch ml l x.language = true)) ∧
    (∀ c : RowComponent, ∃ row, componentRow shippedTranslations ml langs c = .ok row ∧ RowShows ml langs o title c.columns row) := by
  have hT : ∀ c : Column, ∃ s, shippedTranslations.getText ml langs "literal" c.literal = .ok s ∧ FixedText o "literal" c.literal s := fun c => getText_fixed h _ (literal_noColon c)
  let title : Column → String := fun c => (hT c).choose
  have ht : ∀ c, shippedTranslations.getText ml langs "literal" c.literal = .ok (title c) := fun c => (hT c).choose_spec.1
  have hf : ∀ c, FixedText o "literal" c.literal (title c) := fun c => (hT c).choose_spec.2
  have inj : ∀ c c', title c = title c' → c = c' := fun c c' e => title_injective (hf c) (e ▸ hf c')
  have hne : langs ≠ [] := by
    rintro rfl
    cases h
  have t1 : shippedTranslations.getText ml langs "literal" "name" = .ok (title .name) := ht .name
  have t2 : shippedTranslations.getText ml langs "literal" "label" = .ok (title .label) := ht .label
  have t3 : shippedTranslations.getText ml langs "literal" "report-element-type" = .ok (title .elementType) := ht .elementType
  have t4 : shippedTranslations.getText ml langs "literal" "period-type" = .ok (title .periodType) := ht .periodType
  have t5 : shippedTranslations.getText ml langs "literal" "balance-type" = .ok (title .balanceType) := ht .balanceType
  have t6 : shippedTranslations.getText ml langs "literal" "nillable" = .ok (title .nillable) := ht .nillable
  have t7 : shippedTranslations.getText ml langs "literal" "data-type" = .ok (title .dataType) := ht .dataType
  have t8 : shippedTranslations.getText ml langs "literal" "is-explicit" = .ok (title .isExplicit) := ht .isExplicit
  have t9 : shippedTranslations.getText ml langs "literal" "dimension-type" = .ok (title .dimensionType) := ht .dimensionType
  have t10 : shippedTranslations.getText ml langs "literal" "network-identifier" = .ok (title .identifier) := ht .identifier
  have t11 : shippedTranslations.getText ml langs "literal" "info" = .ok (title .info) := ht .info
  have t12 : shippedTranslations.getText ml langs "literal" "presentation-network" = .ok (title .presentation) := ht .presentation
  have t13 : shippedTranslations.getText ml langs "literal" "calculation-network" = .ok (title .calculation) := ht .calculation
  have t14 : shippedTranslations.getText ml langs "literal" "definition-network" = .ok (title .definition) := ht .definition
  have none' : ':' ∉ ("none" : String).toList := by decide +kernel
  have truth : ∀ b, ∃ s, shippedTranslations.getText ml langs "boolean" (boolText b) = .ok s ∧ (truthWord b).Shows ml langs o s := fun b => getText_fixed h _ (boolText_noColon b)
  -- the row of an element, given its label
  have rows : ∀ e : RowElement, e.Plain → (∀ s, getFromLabels ml e.labels (selectMainLabel e.labels).text langs = .ok s → ∃ row, elementRow shippedTranslations ml langs e = .ok row ∧
        RowShows ml langs o title e.columns row) ∧ (∀ x, getFromLabels ml e.labels (selectMainLabel e.labels).text langs = .error x → elementRow shippedTranslations ml langs e = .error x) := by
    intro e he
    unfold elementRow
    rw [if_neg hne]
    cases e with
    | concept c =>
      obtain ⟨w1, a1, b1⟩ := getText_fixed h "report-element" (name := "concept") (by decide +kernel)
      obtain ⟨w2, a2, b2⟩ := getText_fixed h "period-type" he.1
      obtain ⟨w4, a4, b4⟩ := truth c.nillable
      obtain ⟨w5, a5, b5⟩ := getText_fixed h "data-type" (name := lastSegment c.dataType) (lastSegment_after _).1
      constructor
      · intro s hs
        have hs' : getFromLabels ml c.labels (selectMainLabel c.labels).text langs = .ok s := hs
        cases hb : c.balance with
        | none =>
          obtain ⟨w3, a3, b3⟩ := getText_fixed h "literal" none'
          dsimp only
          unfold conceptRow
          simp only [t1, t2, t3, t4, t5, t6, t7, hs', a1, a2, a3, a4, a5, hb, bind, Except.bind, pure, Except.pure]
          refine ⟨_, rfl, ?_⟩
          have := row_shows (ml := ml) (langs := langs) (o := o) inj [(.name, .given (c.name.pfx ++ ":" ++ c.name.localName), c.name.pfx ++ ":" ++ c.name.localName), (.label, .label c.labels, s),
            (.elementType, .word "report-element" "concept", w1), (.periodType, .word "period-type" c.periodType, w2), (.balanceType, .word "literal" "none", w3), (.nillable, truthWord c.nillable, w4),
            (.dataType, .dataType c.dataType, w5)] (by simp) (by
              intro x hx
              simp only [List.mem_cons, List.not_mem_nil, or_false] at hx
              rcases hx with rfl | rfl | rfl | rfl | rfl | rfl | rfl
              · exact rfl
              · exact getFromLabels_shown hs'
              · exact b1
              · exact b2
              · exact b3
              · exact b4
              · exact ⟨_, lastSegment_after _, b5⟩)
          simp only [RowElement.columns, hb]
          exact this
        | some b =>
          obtain ⟨w3, a3, b3⟩ := getText_fixed h "balance-type" (he.2 b hb)
          dsimp only
          unfold conceptRow
          simp only [t1, t2, t3, t4, t5, t6, t7, hs', a1, a2, a3, a4, a5, hb, bind, Except.bind, pure, Except.pure]
          refine ⟨_, rfl, ?_⟩
          have := row_shows (ml := ml) (langs := langs) (o := o) inj [(.name, .given (c.name.pfx ++ ":" ++ c.name.localName), c.name.pfx ++ ":" ++ c.name.localName), (.label, .label c.labels, s),
            (.elementType, .word "report-element" "concept", w1), (.periodType, .word "period-type" c.periodType, w2), (.balanceType, .word "balance-type" b, w3), (.nillable, truthWord c.nillable, w4),
            (.dataType, .dataType c.dataType, w5)] (by simp) (by
              intro x hx
              simp only [List.mem_cons, List.not_mem_nil, or_false] at hx
              rcases hx with rfl | rfl | rfl | rfl | rfl | rfl | rfl
              · exact rfl
              · exact getFromLabels_shown hs'
              · exact b1
              · exact b2
              · exact b3
              · exact b4
              · exact ⟨_, lastSegment_after _, b5⟩)
          simp only [RowElement.columns, hb]
          exact this
      · intro x hx
        have hx' : getFromLabels ml c.labels (selectMainLabel c.labels).text langs = .error x := hx
        dsimp only
        unfold conceptRow
        simp only [t1, t2, hx', bind, Except.bind]
    | dimension n ls ty =>
      obtain ⟨w1, a1, b1⟩ := getText_fixed h "report-element" (name := "dimension") (by decide +kernel)
      obtain ⟨w2, a2, b2⟩ := truth ty.isNone
      constructor
      · intro s hs
        have hs' : getFromLabels ml ls (selectMainLabel ls).text langs = .ok s := hs
        cases ty with
        | none =>
          obtain ⟨w3, a3, b3⟩ := getText_fixed h "literal" none'
          dsimp only
          unfold dimensionRow
          simp only [t1, t2, t3, t8, t9, hs', a1, a2, a3, bind, Except.bind, pure, Except.pure]
          refine ⟨_, rfl, ?_⟩
          have := row_shows (ml := ml) (langs := langs) (o := o) inj [(.name, .given (n.pfx ++ ":" ++ n.localName), n.pfx ++ ":" ++ n.localName), (.label, .label ls, s),
            (.elementType, .word "report-element" "dimension", w1), (.isExplicit, truthWord true, w2), (.dimensionType, .word "literal" "none", w3)] (by simp) (by
              intro x hx
              simp only [List.mem_cons, List.not_mem_nil, or_false] at hx
              rcases hx with rfl | rfl | rfl | rfl | rfl
              · exact rfl
              · exact getFromLabels_shown hs'
              · exact b1
              · exact b2
              · exact b3)
          exact this
        | some q =>
          obtain ⟨w3, a3, b3⟩ := getText_fixed h "data-type" (he q rfl)
          dsimp only
          unfold dimensionRow
          simp only [t1, t2, t3, t8, t9, hs', a1, a2, a3, bind, Except.bind, pure, Except.pure]
          refine ⟨_, rfl, ?_⟩
          have := row_shows (ml := ml) (langs := langs) (o := o) inj [(.name, .given (n.pfx ++ ":" ++ n.localName), n.pfx ++ ":" ++ n.localName), (.label, .label ls, s),
            (.elementType, .word "report-element" "dimension", w1), (.isExplicit, truthWord false, w2), (.dimensionType, .word "data-type" q.localName, w3)] (by simp) (by
              intro x hx
              simp only [List.mem_cons, List.not_mem_nil, or_false] at hx
              rcases hx with rfl | rfl | rfl | rfl | rfl
              · exact rfl
              · exact getFromLabels_shown hs'
              · exact b1
              · exact b2
              · exact b3)
          exact this
      · intro x hx
        have hx' : getFromLabels ml ls (selectMainLabel ls).text langs = .error x := hx
        dsimp only
        unfold dimensionRow
        simp only [t1, t2, hx', bind, Except.bind]
    | plain k n ls =>
      obtain ⟨w1, a1, b1⟩ := getText_fixed h "report-element" (plainKey_noColon k)
      constructor
      · intro s hs
        have hs' : getFromLabels ml ls (selectMainLabel ls).text langs = .ok s := hs
        dsimp only
        unfold plainRow
        simp only [t1, t2, t3, hs', a1, bind, Except.bind, pure, Except.pure]
        refine ⟨_, rfl, ?_⟩
        have := row_shows (ml := ml) (langs := langs) (o := o) inj [(.name, .given (n.pfx ++ ":" ++ n.localName), n.pfx ++ ":" ++ n.localName), (.label, .label ls, s),
          (.elementType, .word "report-element" k.key, w1)] (by simp) (by
            intro x hx
            simp only [List.mem_cons, List.not_mem_nil, or_false] at hx
            rcases hx with rfl | rfl | rfl
            · exact rfl
            · exact getFromLabels_shown hs'
            · exact b1)
        cases k <;> exact this
      · intro x hx
        have hx' : getFromLabels ml ls (selectMainLabel ls).text langs = .error x := hx
        dsimp only
        unfold plainRow
        simp only [t1, t2, t3, a1, hx', bind, Except.bind]
  refine ⟨title, inj, hf, ?_, ?_, ?_⟩
  · intro e row he hr
    cases hl : getFromLabels ml e.labels (selectMainLabel e.labels).text langs with
    | ok s =>
      obtain ⟨row', h1, h2⟩ := (rows e he).1 s hl
      rw [h1] at hr
      cases hr
      exact h2
    | error x =>
      rw [(rows e he).2 x hl] at hr
      cases hr
  · intro e he
    constructor
    · rintro ⟨row, hr⟩
      refine Classical.byContradiction fun hno => ?_
      have := getFromLabels_fails (ml := ml) (langs := langs) (ls := e.labels) (dflt := (selectMainLabel e.labels).text) (fun l hl =>
        ⟨fun e => hno ⟨l, hl, Or.inl e⟩, fun x hx => by
          cases hm : languagesMatch ml l x.language with
          | false => rfl
          | true => exact absurd ⟨l, hl, Or.inr ⟨x, hx, hm⟩⟩ hno⟩)
      rw [(rows e he).2 _ this] at hr
      cases hr
    · intro hl
      obtain ⟨s, hs⟩ := getFromLabels_some (dflt := (selectMainLabel e.labels).text) hl
      obtain ⟨row, h1, _⟩ := (rows e he).1 s hs
      exact ⟨row, h1⟩
  · intro c
    obtain ⟨w1, a1, b1⟩ := truth c.presentation
    obtain ⟨w2, a2, b2⟩ := truth c.calculation
    obtain ⟨w3, a3, b3⟩ := truth c.definition
    unfold componentRow
    rw [if_neg hne]
    simp only [t10, t11, t12, t13, t14, a1, a2, a3, bind, Except.bind, pure, Except.pure]
    refine ⟨_, rfl, ?_⟩
    exact row_shows (ml := ml) (langs := langs) (o := o) inj [(.identifier, .given c.uri, c.uri), (.info, .given c.info, c.info), (.presentation, truthWord c.presentation, w1),
      (.calculation, truthWord c.calculation, w2), (.definition, truthWord c.definition, w3)] (by simp) (by
        intro x hx
        simp only [List.mem_cons, List.not_mem_nil, or_false] at hx
        rcases hx with rfl | rfl | rfl | rfl | rfl
        · exact rfl
        · exact rfl
        · exact b1
        · exact b2
        · exact b3)

/-- C104: without a language for titles, no row can be made. -/
theorem C104_no_language (hne : langs ≠ []) (h : ∀ o, ¬ TextLanguage ml langs o) (e : RowElement) (c : RowComponent) :
    elementRow shippedTranslations ml langs e = .error .keyError ∧ componentRow shippedTranslations ml langs c = .error .keyError := by
  have key : ∀ c : Column, shippedTranslations.getText ml langs "literal" c.literal = .error .keyError := by
    intro c
    unfold Translations.getText
    rw [takeWhile_noColon (literal_noColon c), String.ofList_toList]
    apply get_none h
    obtain ⟨e, he, hec⟩ := literal_shipped c
    have hs : ("literal", textsLiteral) ∈ shippedSections := by simp [shippedSections]
    have hlen := lengths_shipped _ hs e he
    obtain ⟨n, ts⟩ := e
    match ts, hlen with
    | a :: ts, _ =>
      exact ⟨⟨translationBase ++ "literal", n, "en", "US", a⟩, List.mem_flatMap.2 ⟨_, hs, List.mem_flatMap.2 ⟨_, he, List.mem_map.2 ⟨(("en", "US"), a), by simp [shippedLanguages], rfl⟩⟩⟩, rfl, hec⟩
  have k1 : shippedTranslations.getText ml langs "literal" "name" = .error .keyError := key .name
  have k2 : shippedTranslations.getText ml langs "literal" "network-identifier" = .error .keyError := key .identifier
  unfold elementRow componentRow
  rw [if_neg hne, if_neg hne, k2]
  refine ⟨?_, rfl⟩
  cases e <;> dsimp only [conceptRow, dimensionRow, plainRow] <;> rw [k1] <;> rfl

/-- C104: without languages, the rows show the plain values, and nothing else, under different titles. -/
theorem C104_plain (t : Translations) (ml : Bool) : (∀ c c' : Column, c.plainTitle = c'.plainTitle → c = c') ∧
    (∀ e : RowElement, ∃ row, elementRow t ml [] e = .ok row ∧ (∀ p ∈ e.plainColumns, Dict.get? row p.1.plainTitle = some p.2) ∧ ∀ k ∈ Dict.keys row, ∃ p ∈ e.plainColumns, p.1.plainTitle = k) ∧
    ∀ c : RowComponent, ∃ row, componentRow t ml [] c = .ok row ∧ (∀ p ∈ c.plainColumns, Dict.get? row p.1.plainTitle = some p.2) ∧ ∀ k ∈ Dict.keys row, ∃ p ∈ c.plainColumns, p.1.plainTitle = k := by
  have inj : ∀ c c' : Column, c.plainTitle = c'.plainTitle → c = c' := by
    intro c c'
    cases c <;> cases c' <;> first | (intro _; rfl) | (intro h; revert h; decide +kernel)
  have gen : ∀ l : List (Column × Cell), (l.map (·.1)).Nodup → (∀ p ∈ l, Dict.get? (rowOf (l.map (fun p => (p.1.plainTitle, p.2)))) p.1.plainTitle = some p.2) ∧
      ∀ k ∈ Dict.keys (rowOf (l.map (fun p => (p.1.plainTitle, p.2)))), ∃ p ∈ l, p.1.plainTitle = k := by
    intro l hn
    have hd : ((l.map (fun p => (p.1.plainTitle, p.2))).map (·.1)).Nodup := by
      rw [List.map_map]
      have : (l.map ((fun x : String × Cell => x.1) ∘ fun p => (p.1.plainTitle, p.2))) = (l.map (·.1)).map Column.plainTitle := by rw [List.map_map]; rfl
      rw [this]
      exact List.pairwise_map.2 (hn.imp (fun h e => h (inj _ _ e)))
    rw [rowOf_distinct hd]
    constructor
    · intro p hp
      exact Dict.get?_of_mem _ hd (List.mem_map_of_mem (f := fun p : Column × Cell => (p.1.plainTitle, p.2)) hp)
    · intro k hk
      obtain ⟨x, hx, rfl⟩ := List.mem_map.1 hk
      obtain ⟨p, hp, rfl⟩ := List.mem_map.1 hx
      exact ⟨p, hp, rfl⟩
  refine ⟨inj, ?_, ?_⟩
  · intro e
    have hr : elementRow t ml [] e = .ok (rowOf (e.plainColumns.map (fun p => (p.1.plainTitle, p.2)))) := by
      cases e with
      | concept c =>
        cases hb : c.balance <;> simp [elementRow, elementRowPlain, RowElement.plainColumns, Column.plainTitle, Column.literal, QName.prefixLocal, hb]
      | dimension n ls ty =>
        cases ty <;> simp [elementRow, elementRowPlain, RowElement.plainColumns, Column.plainTitle, Column.literal, QName.prefixLocal]
      | plain k n ls =>
        cases k <;> simp [elementRow, elementRowPlain, RowElement.plainColumns, Column.plainTitle, Column.literal, QName.prefixLocal, PlainKind.word]
    exact ⟨_, hr, gen _ (by cases e <;> simp [RowElement.plainColumns])⟩
  · intro c
    have hr : componentRow t ml [] c = .ok (rowOf (c.plainColumns.map (fun p => (p.1.plainTitle, p.2)))) := by
      simp [componentRow, componentRowPlain, RowComponent.plainColumns, Column.plainTitle, Column.literal]
    exact ⟨_, hr, gen _ (by simp [RowComponent.plainColumns])⟩

/-! ## Examples and disagreements -/

namespace RowExample

def std : String := "http://www.xbrl.org/2003/role/label"
def doc : String := "http://www.xbrl.org/2003/role/documentation"
def assets : Concept := ⟨⟨"http://x", "x", "Assets"⟩, some "x_Assets", [⟨"Aktiva", "l1", "de-DE", std⟩, ⟨"Assets", "l2", "en-US", std⟩], "instant", some "debit", true, "xbrli:monetaryItemType"⟩
def described : Concept := { assets with labels := [⟨"All resources controlled by the entity.", "l1", "en-US", doc⟩, ⟨"Assets", "l2", "en-US", std⟩] }
def income : RowComponent := ⟨"http://x/role/income", "Income Statement", true, true, false⟩

def outcome (r : Except PyErr (Dict String Cell)) : Option (Dict String Cell) := match r with | .ok d => some d | .error _ => none

example : TextLanguage true ["ja", "de-de", ""] (some "de-DE") := .skip (by decide) (by decide +kernel) (.tag (by decide) (by decide) (by decide +kernel))
example : RowElement.Plain (.concept assets) := ⟨by decide +kernel, fun b hb => by cases hb; decide +kernel⟩

/-- A small table with the German words of the example: the shipped one behaves the same by `C104_rows`. -/
def german : Translations := Translations.load ((sectionRows "literal" textsLiteral ++ sectionRows "boolean" textsBoolean ++ sectionRows "balance-type" textsBalance).filter (fun r => r.lang = "de"))

example : outcome (elementRow german true ["ja", "de-de", ""] (.concept assets)) = some [("Name", .text "x:Assets"), ("Bezeichnung", .text "Aktiva"), ("Berichtselementtyp", .text "concept"),
    ("Zeitraumtyp", .text "instant"), ("Saldoart", .text "Soll"), ("Kann leer sein", .text "Wahr"), ("Datentyp", .text "monetaryItemType")] := by decide +kernel

end RowExample

open RowExample in
/-- C104 fails: without languages the column of the definition network has another name (a misspelt one), so that it is missing under the name it has in the default language. -/
theorem C104_plain_false : ∃ (ml : Bool) (c : RowComponent) (plain dflt : Dict String Cell), componentRow shippedTranslations ml [] c = .ok plain ∧ componentRow shippedTranslations ml [""] c = .ok dflt ∧
    Dict.get? dflt "definition-network" ≠ none ∧ Dict.get? plain "definition-network" = none := by
  obtain ⟨title, _, hf, _, _, hc⟩ := C104_rows (ml := true) (langs := [""]) (o := none) .default
  obtain ⟨row, h1, h2⟩ := hc income
  refine ⟨true, income, _, row, rfl, h1, ?_, by decide +kernel⟩
  obtain ⟨s, hs, _⟩ := h2.1 (.definition, truthWord income.definition) (by simp [RowComponent.columns])
  have : title .definition = "definition-network" := hf .definition
  rw [this] at hs
  rw [hs]
  simp

open RowExample in
/-- C104 fails: the label that is shown may be the documentation of a concept although the concept has a standard label in the same language. -/
theorem C104_label_false : ∃ (c : Concept) (standard : Label), standard ∈ c.labels ∧ standard.role = "http://www.xbrl.org/2003/role/label" ∧ standard.language = "en-US" ∧
    ∀ row s, elementRow shippedTranslations true ["en-US"] (.concept c) = .ok row → FixedText (some "en-US") "literal" "label" s → Dict.get? row s ≠ some (.text standard.text) := by
  refine ⟨described, ⟨"Assets", "l2", "en-US", std⟩, by simp [described], rfl, rfl, ?_⟩
  intro row s hr hs hget
  have hl : TextLanguage true ["en-US"] (some "en-US") := .tag (by decide) (by decide) (by decide +kernel)
  obtain ⟨title, inj, hf, h1, _, _⟩ := C104_rows hl
  have hp : RowElement.Plain (.concept described) := ⟨by decide +kernel, fun b hb => by cases hb; decide +kernel⟩
  have hrow := h1 _ _ hp hr
  have hmem : s ∈ Dict.keys row := by
    refine Classical.byContradiction fun hno => ?_
    rw [(Dict.get?_eq_none_iff row s).2 hno] at hget
    cases hget
  obtain ⟨p, hpm, rfl⟩ := hrow.2 s hmem
  have hlab : p.1 = .label := title_injective (hf p.1) hs
  obtain ⟨s', hs', hshow⟩ := hrow.1 p hpm
  rw [hs'] at hget
  have hpc : p = (.label, .label described.labels) := by
    simp only [RowElement.columns, List.mem_cons, List.not_mem_nil, or_false] at hpm
    rcases hpm with rfl | rfl | rfl | rfl | rfl | rfl | rfl <;> first | rfl | exact absurd hlab (by decide)
  subst hpc
  obtain ⟨pre, l, post, hle, _, hx⟩ := hshow
  have hl' : l = "en-US" := by
    cases pre with
    | nil => exact (List.cons.inj hle).1.symm
    | cons a pre => exact absurd (congrArg List.length hle) (by simp)
  subst hl'
  have hs'' : s' = "Assets" := by simpa using hget
  rcases hx with ⟨h, _⟩ | ⟨_, as, x, bs, e, hno, _, hxt⟩
  · exact absurd h (by decide)
  · cases as with
    | nil =>
      have := (List.cons.inj e).1
      rw [← this, hs''] at hxt
      exact absurd hxt (by decide)
    | cons a as =>
      have := (List.cons.inj e).1
      have hno' := hno a (by simp)
      rw [← this] at hno'
      exact absurd hno' (by decide +kernel)

end Brel
