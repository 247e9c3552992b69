import Verif.Props.InlineContent
import Verif.Spec.XmlSource

/-! C74: the value of an escaped inline fact as the XML source of its content. -/

namespace Brel
open Spec

theorem convertEscaped_spec (s : List Char) : convertEscaped s = escapedText s := by
  rw [convertEscaped_eq]
  unfold escapedText
  congr 1
  funext c
  show (namedReferences.find? (fun p => p.1 = c)).elim [c] (·.2) = _
  cases namedReferences.find? (fun p => p.1 = c) <;> rfl

mutual
theorem convertElem_spec : ∀ e : Elem, convertElem e = mapTexts escapedText e
  | .mk n a t tl kids => by
    rw [convertElem, mapTexts, convertKids_spec kids, show convertEscaped = escapedText from funext convertEscaped_spec]

theorem convertKids_spec : ∀ es : List Elem, convertKids es = mapTextsKids escapedText es
  | [] => rfl
  | e :: es => by rw [convertKids, mapTextsKids, convertElem_spec e, convertKids_spec es]
end

/-! Serialised elements are sources. -/

theorem written_flatMap {raw : Char → Prop} {f : Char → List Char} (h : ∀ c, WrittenChar raw c (f c)) : ∀ t : List Char, WrittenText raw (t.flatMap f) t
  | [] => rfl
  | c :: t => ⟨f c, t.flatMap f, h c, written_flatMap h t, by simp⟩

theorem serialChar_written (c : Char) : WrittenChar TextRaw c (serialChar c) := by
  unfold serialChar
  repeat' split
  · subst_vars; exact .inr (.inl (by decide))
  · subst_vars; exact .inr (.inl (by decide))
  · subst_vars; exact .inr (.inl (by decide))
  · exact .inr (.inr rfl)
  · rename_i h1 h2 h3 h4 h5
    exact .inl ⟨by simp [TextRaw, h1, h2, h3, h4], rfl⟩
  · exact .inr (.inr rfl)

theorem serialAttrChar_written (c : Char) : WrittenChar AttrRaw c (serialAttrChar c) := by
  unfold serialAttrChar
  split
  · subst_vars; exact .inr (.inl (by decide))
  split
  · exact .inr (.inr rfl)
  rename_i h1 h2
  rcases serialChar_written c with ⟨h, e⟩ | h
  · refine .inl ⟨?_, e⟩
    simp only [TextRaw, List.mem_cons, List.not_mem_nil, or_false, not_or] at h
    simp only [not_or] at h2
    simp [AttrRaw, h1, h2, h]
  · exact .inr h

theorem serialAttrs_written : ∀ as : List (String × String), WrittenAttrs (serialAttrs as) as
  | [] => rfl
  | (k, v) :: as => ⟨_, _, written_flatMap serialAttrChar_written v.toList, serialAttrs_written as, by simp [serialAttrs]⟩

mutual
theorem serial_written : ∀ e : Elem, WrittenElem (serial e) e
  | .mk n a t tl kids => by
    refine ⟨_, _, _, _, serialAttrs_written a, written_flatMap serialChar_written _, serialKids_written kids, written_flatMap serialChar_written _, ?_⟩
    rw [serial]
    split
    · rename_i h
      refine .inr ⟨by rw [h.1]; rfl, ?_, by simp⟩
      cases kids with
      | nil => rfl
      | cons c cs => cases h.2
    · exact .inl (by simp)

theorem serialKids_written : ∀ es : List Elem, WrittenKids (serialKids es) es
  | [] => rfl
  | e :: es => ⟨_, _, serial_written e, serialKids_written es, rfl⟩
end

/-- A text with references for its special characters is a source of it. -/
theorem escapedText_written {t : List Char} (h : '\r' ∉ t) : WrittenText TextRaw (escapedText t) t := by
  induction t with
  | nil => rfl
  | cons c t ih =>
    simp only [List.mem_cons, not_or] at h
    refine ⟨_, _, ?_, ih h.2, List.flatMap_cons⟩
    cases hf : namedReferences.find? (fun p => p.1 = c) with
    | some p =>
      have h1 := List.mem_of_find?_eq_some hf
      have h2 : p.1 = c := by simpa using List.find?_some hf
      subst h2
      exact .inr (.inl h1)
    | none =>
      refine .inl ⟨?_, rfl⟩
      rw [List.find?_eq_none] at hf
      have hn := fun p hp => hf p hp
      simp only [namedReferences, List.mem_cons, List.not_mem_nil, or_false, forall_eq_or_imp, forall_eq, decide_eq_true_eq] at hn
      simp [TextRaw, Ne.symm hn.1, Ne.symm hn.2.1, Ne.symm hn.2.2.1, Ne.symm h.1]

/-- C74, what the library does: the value is an XML source of the content in which the texts inside the child elements have been escaped once before. -/
theorem C74_source (content : Elem) (hr : '\r' ∉ content.text.getD []) :
    SourceOf (escapeContent content) (content.setChildren (mapTextsKids escapedText content.children)) := by
  obtain ⟨n, a, t, tl, kids⟩ := content
  refine ⟨escapedText (t.getD []), serialKids (mapTextsKids escapedText kids), escapedText_written hr, serialKids_written _, ?_⟩
  simp only [escapeContent, convertElem_spec, mapTexts, Elem.text, Elem.children]
  cases t <;> rfl

theorem escapedText_plain {t : List Char} : escapedText t = t ↔ ∀ c ∈ t, ¬ SpecialChar c := by
  have hs : ∀ c, SpecialChar c ∨ (namedReferences.find? (fun p => p.1 = c)) = none := by
    intro c
    by_cases h : SpecialChar c
    · exact .inl h
    · refine .inr ?_
      simp only [SpecialChar, List.mem_cons, List.not_mem_nil, or_false, not_or] at h
      simp [namedReferences, List.find?, Ne.symm h.1, Ne.symm h.2.1, Ne.symm h.2.2.1, Ne.symm h.2.2.2.1, Ne.symm h.2.2.2.2]
  have hlen : ∀ t : List Char, t.length ≤ (escapedText t).length ∧ ((∃ c ∈ t, SpecialChar c) → t.length < (escapedText t).length) := by
    intro t
    induction t with
    | nil => exact ⟨Nat.le_refl _, fun ⟨_, h, _⟩ => by cases h⟩
    | cons c t ih =>
      have hc : escapedText (c :: t) = ((namedReferences.find? (fun p => p.1 = c)).map (·.2)).getD [c] ++ escapedText t := List.flatMap_cons
      rw [hc, List.length_append]
      rcases hs c with h | h
      · have : 2 ≤ (((namedReferences.find? (fun p => p.1 = c)).map (·.2)).getD [c]).length := by
          simp only [SpecialChar, List.mem_cons, List.not_mem_nil, or_false] at h
          rcases h with h | h | h | h | h <;> subst h <;> decide
        simp only [List.length_cons]
        exact ⟨by omega, fun _ => by omega⟩
      · rw [h]
        simp only [Option.map_none, Option.getD_none, List.length_cons, List.length_nil]
        refine ⟨by omega, fun ⟨x, hx, hx2⟩ => ?_⟩
        rcases List.mem_cons.1 hx with e | hx
        · subst e
          simp only [SpecialChar, List.mem_cons, List.not_mem_nil, or_false] at hx2
          rcases hx2 with h' | h' | h' | h' | h' <;> subst h' <;> cases h
        · have := ih.2 ⟨x, hx, hx2⟩
          omega
  constructor
  · intro h c hc hx
    have := (hlen t).2 ⟨c, hc, hx⟩
    rw [h] at this
    omega
  · intro h
    induction t with
    | nil => rfl
    | cons c t ih =>
      have hc : escapedText (c :: t) = ((namedReferences.find? (fun p => p.1 = c)).map (·.2)).getD [c] ++ escapedText t := List.flatMap_cons
      rw [hc, ih (fun x hx => h x (by simp [hx]))]
      rcases hs c with h' | h'
      · exact absurd h' (h c (by simp))
      · rw [h']; rfl

/-! A source determines the texts. -/

theorem written_no {raw : Char → Prop} {x : Char} (hx : x ≠ '&' ∧ x ≠ '#' ∧ x ≠ ';' ∧ x.isDigit = false ∧ x.isAlpha = false) (hr : ¬ raw x) {t s : List Char} (h : WrittenText raw s t) : x ∉ s := by
  induction t generalizing s with
  | nil => rw [show s = [] from h]; simp
  | cons c t ih =>
    obtain ⟨r, s', h1, h2, rfl⟩ := h
    rw [List.mem_append, not_or]
    refine ⟨?_, ih h2⟩
    obtain ⟨x1, x2, x3, x4, x5⟩ := hx
    rcases h1 with ⟨h, rfl⟩ | h | rfl
    · simp only [List.mem_singleton]
      rintro rfl
      exact hr h
    · intro hm
      have : ∀ p ∈ namedReferences, ∀ y ∈ p.2, y = '&' ∨ y = ';' ∨ y.isAlpha = true := by decide +kernel
      rcases this _ h _ hm with h | h | h
      · exact x1 h
      · exact x3 h
      · rw [h] at x5; cases x5
    · intro hm
      simp only [List.mem_append, List.mem_cons, List.not_mem_nil, or_false] at hm
      rcases hm with (h | h) | h
      · exact h.elim x1 x2
      · have := Nat.isDigit_of_mem_toDigits (b := 10) (by decide) (by decide) (by simpa using h)
        rw [this] at x4; cases x4
      · exact x3 h

/-- Two texts without `x`, each at the end or followed by `x`, are the same when what follows makes them the same. -/
theorem split_at {x : Char} {a a' r r' : List Char} (ha : x ∉ a) (ha' : x ∉ a') (hr : ∀ c ∈ r.head?, c = x) (hr' : ∀ c ∈ r'.head?, c = x)
    (h : a ++ r = a' ++ r') : a = a' ∧ r = r' := by
  induction a generalizing a' with
  | nil =>
    cases a' with
    | nil => exact ⟨rfl, h⟩
    | cons c a' =>
      cases r with
      | nil => cases h
      | cons d r =>
        injection h with h1 h2
        subst h1
        exact absurd (by simp [hr d rfl]) ha'
  | cons c a ih =>
    cases a' with
    | nil =>
      cases r' with
      | nil => cases h
      | cons d r' =>
        injection h with h1 h2
        subst h1
        exact absurd (by simp [hr' c rfl]) ha
    | cons d a' =>
      injection h with h1 h2
      subst h1
      simp only [List.mem_cons, not_or] at ha ha'
      obtain ⟨e1, e2⟩ := ih ha.2 ha'.2 h2
      exact ⟨by rw [e1], e2⟩

theorem writtenChar_unique {raw : Char → Prop} (hraw : ¬ raw '&') {c c' : Char} {r r' s s' : List Char} (h : WrittenChar raw c r) (h' : WrittenChar raw c' r') (e : r ++ s = r' ++ s') :
    c = c' ∧ r = r' := by
  have hd : ∀ (n : Nat), ';' ∉ (toString n).toList := by
    intro n hm
    have := Nat.isDigit_of_mem_toDigits (b := 10) (by decide) (by decide) (show ';' ∈ Nat.toDigits 10 n by simpa using hm)
    cases this
  have hnn : ∀ p ∈ namedReferences, ∀ y : List Char, ∀ z, p.2 ++ y ≠ '&' :: '#' :: z := by
    intro p hp y z
    simp only [namedReferences, List.mem_cons, List.not_mem_nil, or_false] at hp
    rcases hp with rfl | rfl | rfl | rfl | rfl <;> simp
  have hna : ∀ p ∈ namedReferences, ∃ z, p.2 = '&' :: z := by
    intro p hp
    simp only [namedReferences, List.mem_cons, List.not_mem_nil, or_false] at hp
    rcases hp with rfl | rfl | rfl | rfl | rfl <;> exact ⟨_, rfl⟩
  rcases h with ⟨h, rfl⟩ | h | rfl <;> rcases h' with ⟨h', rfl⟩ | h' | rfl
  · injection e with e1 e2
    subst e1
    exact ⟨rfl, rfl⟩
  · obtain ⟨z, hz⟩ := hna _ h'
    simp only at hz
    subst hz
    injection e with e1 e2
    subst e1
    exact absurd h hraw
  · injection e with e1 e2
    subst e1
    exact absurd h hraw
  · obtain ⟨z, hz⟩ := hna _ h
    simp only at hz
    subst hz
    injection e with e1 e2
    subst e1
    exact absurd h' hraw
  · simp only [namedReferences, List.mem_cons, List.not_mem_nil, or_false, Prod.mk.injEq] at h h'
    rcases h with ⟨rfl, rfl⟩ | ⟨rfl, rfl⟩ | ⟨rfl, rfl⟩ | ⟨rfl, rfl⟩ | ⟨rfl, rfl⟩ <;>
      rcases h' with ⟨rfl, rfl⟩ | ⟨rfl, rfl⟩ | ⟨rfl, rfl⟩ | ⟨rfl, rfl⟩ | ⟨rfl, rfl⟩ <;> first | exact ⟨rfl, rfl⟩ | simp at e
  · exact absurd e (hnn _ h _ _)
  · injection e with e1 e2
    subst e1
    exact absurd h' hraw
  · exact absurd e.symm (hnn _ h' _ _)
  · have e' : (toString c.toNat).toList ++ (';' :: s) = (toString c'.toNat).toList ++ (';' :: s') := by simpa using e
    obtain ⟨e1, -⟩ := split_at (x := ';') (hd _) (hd _) (by simp) (by simp) e'
    have e2 : c.toNat = c'.toNat := by
      have h1 : Nat.toDigits 10 c.toNat = Nat.toDigits 10 c'.toNat := by simpa using e1
      rw [← Nat.ofDigitChars_toDigits (b := 10) (n := c.toNat) (by decide) (by decide), h1, Nat.ofDigitChars_toDigits (by decide) (by decide)]
    have : c = c' := Char.toNat_inj.1 e2
    subst this
    exact ⟨rfl, rfl⟩

theorem writtenChar_ne {raw : Char → Prop} {c : Char} {r : List Char} (h : WrittenChar raw c r) : r ≠ [] := by
  rcases h with ⟨_, rfl⟩ | h | rfl
  · simp
  · intro e
    subst e
    simp [namedReferences] at h
  · simp

/-- A source writes only one text. -/
theorem writtenText_unique {raw : Char → Prop} (hraw : ¬ raw '&') {s t t' : List Char} (h : WrittenText raw s t) (h' : WrittenText raw s t') : t = t' := by
  induction t generalizing s t' with
  | nil =>
    cases t' with
    | nil => rfl
    | cons c t' =>
      obtain ⟨r, s', h1, -, e⟩ := h'
      rw [show s = [] from h] at e
      exact absurd (List.append_eq_nil_iff.1 e.symm).1 (writtenChar_ne h1)
  | cons c t ih =>
    obtain ⟨r, s1, h1, h2, e⟩ := h
    cases t' with
    | nil =>
      rw [show s = [] from h'] at e
      exact absurd (List.append_eq_nil_iff.1 e.symm).1 (writtenChar_ne h1)
    | cons c' t' =>
      obtain ⟨r', s1', h1', h2', e'⟩ := h'
      obtain ⟨rfl, rfl⟩ := writtenChar_unique hraw h1 h1' (e.symm.trans e')
      have : s1 = s1' := List.append_cancel_left (e.symm.trans e')
      subst this
      rw [ih h2 h2']

theorem attrs_unique : ∀ (as : List (String × String)) {s s' r r' : List Char}, WrittenAttrs s as → WrittenAttrs s' as → s ++ r = s' ++ r' → s = s'
  | [], _, _, _, _, h, h', _ => by rw [show _ = [] from h, show _ = [] from h']
  | (k, v) :: as, s, s', r, r', h, h', e => by
    obtain ⟨vs, rest, h1, h2, rfl⟩ := h
    obtain ⟨vs', rest', h1', h2', rfl⟩ := h'
    have hq : ∀ {vs}, WrittenText AttrRaw vs v.toList → '"' ∉ vs := fun h => written_no (by decide) (by simp [AttrRaw]) h
    have e' : vs ++ ('"' :: (rest ++ r)) = vs' ++ ('"' :: (rest' ++ r')) := by simpa using e
    obtain ⟨rfl, e2⟩ := split_at (hq h1) (hq h1') (by simp) (by simp) e'
    rw [attrs_unique as h2 h2' (by simpa using e2)]

theorem elem_head {s : List Char} {e : Elem} (h : WrittenElem s e) : ∃ z, s = '<' :: z := by
  obtain ⟨n, a, t, tl, kids⟩ := e
  obtain ⟨as, ts, ks, tls, -, -, -, -, h | ⟨-, -, h⟩⟩ := h
  · exact ⟨_, h.trans (by simp; rfl)⟩
  · exact ⟨_, h.trans (by simp; rfl)⟩

theorem kids_head {s r : List Char} {es : List Elem} (h : WrittenKids s es) (hr : ∀ c ∈ r.head?, c = '<') : ∀ c ∈ (s ++ r).head?, c = '<' := by
  cases es with
  | nil => rw [show s = [] from h]; exact hr
  | cons e es =>
    obtain ⟨s1, s2, h1, -, rfl⟩ := h
    obtain ⟨z, rfl⟩ := elem_head h1
    simp

theorem text_no {s t : List Char} (h : WrittenText TextRaw s t) : '<' ∉ s := written_no (by decide) (by simp [TextRaw]) h

theorem plain_of_unique {s t : List Char} (h : WrittenText TextRaw s t) (h' : WrittenText TextRaw s (escapedText t)) : ∀ c ∈ t, ¬ SpecialChar c :=
  escapedText_plain.1 (writtenText_unique (by simp [TextRaw]) h' h)

theorem getD_map_escaped (t : Option (List Char)) : (t.map escapedText).getD [] = escapedText (t.getD []) := by cases t <;> rfl

mutual
theorem elem_unique : ∀ (e : Elem) {s s' r r' : List Char}, WrittenElem s e → WrittenElem s' (mapTexts escapedText e) → s ++ r = s' ++ r' → (∀ c ∈ r.head?, c = '<') → (∀ c ∈ r'.head?, c = '<') →
    (s = s' ∧ r = r') ∧ allText (fun c => ¬ SpecialChar c) e
  | .mk n a t tl kids, s, s', r, r', h, h', he, hr, hr' => by
    obtain ⟨as, ts, ks, tls, h1, h2, h3, h4, h5⟩ := h
    obtain ⟨as', ts', ks', tls', h1', h2', h3', h4', h5'⟩ := h'
    rw [getD_map_escaped] at h2' h4'
    have key : ∀ {w w' : List Char}, n.toList ++ (as ++ w) = n.toList ++ (as' ++ w') → as = as' ∧ w = w' := by
      intro w w' e
      have e := List.append_cancel_left e
      have := attrs_unique a h1 h1' e
      subst this
      exact ⟨rfl, List.append_cancel_left e⟩
    rcases h5 with rfl | ⟨rfl, rfl, rfl⟩ <;> rcases h5' with rfl | ⟨rfl, rfl, rfl⟩
    · simp only [List.append_assoc, List.cons_append, List.cons.injEq, true_and, List.nil_append] at he
      obtain ⟨rfl, e1⟩ := key he
      injection e1 with _ e1
      obtain ⟨rfl, e2⟩ := split_at (text_no h2) (text_no h2') (kids_head h3 (by simp)) (kids_head h3' (by simp)) e1
      obtain ⟨⟨rfl, e3⟩, p3⟩ := kids_unique kids h3 h3' e2 (by simp) (by simp)
      simp only [List.cons.injEq, true_and, List.append_cancel_left_eq] at e3
      obtain ⟨rfl, rfl⟩ := split_at (text_no h4) (text_no h4') hr hr' e3
      exact ⟨⟨rfl, rfl⟩, plain_of_unique h2 h2', plain_of_unique h4 h4', p3⟩
    · simp only [List.append_assoc, List.cons_append, List.cons.injEq, true_and, List.nil_append] at he
      obtain ⟨-, e1⟩ := key he
      injection e1 with e1
      cases e1
    · simp only [List.append_assoc, List.cons_append, List.cons.injEq, true_and, List.nil_append] at he
      obtain ⟨-, e1⟩ := key he
      injection e1 with e1
      cases e1
    · simp only [List.append_assoc, List.cons_append, List.cons.injEq, true_and, List.nil_append] at he
      obtain ⟨rfl, e1⟩ := key he
      simp only [List.cons.injEq, true_and] at e1
      obtain ⟨⟨-, -⟩, p3⟩ := kids_unique kids (r := []) (r' := []) h3 h3' rfl (by simp) (by simp)
      obtain ⟨rfl, rfl⟩ := split_at (text_no h4) (text_no h4') hr hr' e1
      exact ⟨⟨rfl, rfl⟩, plain_of_unique h2 h2', plain_of_unique h4 h4', p3⟩

theorem kids_unique : ∀ (es : List Elem) {s s' r r' : List Char}, WrittenKids s es → WrittenKids s' (mapTextsKids escapedText es) → s ++ r = s' ++ r' → (∀ c ∈ r.head?, c = '<') → (∀ c ∈ r'.head?, c = '<') →
    (s = s' ∧ r = r') ∧ allTextKids (fun c => ¬ SpecialChar c) es
  | [], s, s', r, r', h, h', e, _, _ => by
    rw [show s = [] from h, show s' = [] from h'] at e ⊢
    exact ⟨⟨rfl, e⟩, trivial⟩
  | x :: es, s, s', r, r', h, h', e, hr, hr' => by
    obtain ⟨s1, s2, h1, h2, rfl⟩ := h
    obtain ⟨s1', s2', h1', h2', rfl⟩ := h'
    obtain ⟨⟨rfl, e2⟩, p1⟩ := elem_unique x h1 h1' (r := s2 ++ r) (r' := s2' ++ r') (by simpa using e) (kids_head h2 hr) (kids_head h2' hr')
    obtain ⟨⟨rfl, e3⟩, p2⟩ := kids_unique es h2 h2' e2 hr hr'
    exact ⟨⟨rfl, e3⟩, p1, p2⟩
end

mutual
theorem mapTexts_plain : ∀ e : Elem, allText (fun c => ¬ SpecialChar c) e → mapTexts escapedText e = e
  | .mk n a t tl kids, h => by
    have e1 : t.map escapedText = t := by cases t with | none => rfl | some t => simpa using escapedText_plain.2 h.1
    have e2 : tl.map escapedText = tl := by cases tl with | none => rfl | some t => simpa using escapedText_plain.2 h.2.1
    rw [mapTexts, e1, e2, mapTextsKids_plain kids h.2.2]

theorem mapTextsKids_plain : ∀ es : List Elem, allTextKids (fun c => ¬ SpecialChar c) es → mapTextsKids escapedText es = es
  | [], _ => rfl
  | e :: es, h => by rw [mapTextsKids, mapTexts_plain e h.1, mapTextsKids_plain es h.2]
end

/-- C74, when it holds: the value is an XML source of the content exactly when the texts inside the child elements contain no special characters. (Carriage returns in the text before the
first child element are left out.) -/
theorem C74_escape_iff (content : Elem) (hr : '\r' ∉ content.text.getD []) :
    SourceOf (escapeContent content) content ↔ allTextKids (fun c => ¬ SpecialChar c) content.children := by
  obtain ⟨n, a, t, tl, kids⟩ := content
  obtain ⟨ts, ks, h1, h2, h3⟩ := C74_source (.mk n a t tl kids) hr
  constructor
  · rintro ⟨ts', ks', h1', h2', h3'⟩
    obtain ⟨rfl, e⟩ := split_at (text_no h1') (text_no h1) (by simpa using kids_head (r := []) h2' (by simp)) (by simpa using kids_head (r := []) h2 (by simp)) (h3'.symm.trans h3)
    exact (kids_unique kids (r := []) (r' := []) h2' h2 (by simpa using e) (by simp) (by simp)).2
  · intro h
    have := mapTextsKids_plain kids h
    refine ⟨ts, ks, h1, ?_, h3⟩
    simpa [Elem.children, Elem.setChildren, this] using h2

/-- C74 for facts: with `escape="true"` and without a format the value is a source of the merged content, if no special characters are inside its child elements. -/
theorem C74_value_partial {dig : Char → Option Nat} {e : NonNumericElem} (he : e.escape = some "true") (hf : e.format = none) (chain : List Elem) (taken : List String)
    {content : Elem} (hc : relevantContent (e.elem :: chain) = .ok content) (hr : '\r' ∉ content.text.getD []) (hp : allTextKids (fun c => ¬ SpecialChar c) content.children) :
    ∃ value errs taken', parseNonNumeric dig e chain taken = .ok (value, e.id, errs, taken') ∧ SourceOf value content := by
  unfold parseNonNumeric
  simp only [hc, hf, parseNonNumerical, truthy, bind, Except.bind]
  simp [he]
  exact (C74_escape_iff content hr).2 hp

/-- C74 fails: an ampersand inside a child element is escaped twice, so that the value is not a source of the content. -/
theorem C74_escape_false : let content := Elem.mk "ix:nonNumeric" [("escape", "true")] none none [.mk "p" [] (some (chars! "R & D")) none []]
    relevantContent [content] = .ok content ∧ escapeContent content = chars! "<p>R &amp;amp; D</p>" ∧ SourceOf (chars! "<p>R &amp; D</p>") content ∧ ¬ SourceOf (escapeContent content) content := by
  refine ⟨rfl, by decide +kernel, ?_, ?_⟩
  · refine ⟨[], _, rfl, serialKids_written _, by decide +kernel⟩
  · intro h
    have := (C74_escape_iff _ (by simp [Elem.text])).1 h
    simp [Elem.children, allTextKids, allText, SpecialChar] at this

/-- Text with special characters before the first child, and a child with non-ASCII text. -/
example : let content := Elem.mk "ix:nonNumeric" [] (some (chars! "R & D: ")) none [.mk "b" [("class", "x")] (some (chars! "3 €")) (some (chars! ".")) []]
    escapeContent content = chars! "R &amp; D: <b class=\"x\">3 &#8364;</b>." ∧ SourceOf (escapeContent content) content := by
  refine ⟨by decide +kernel, (C74_escape_iff _ (by decide +kernel)).2 ?_⟩
  simp [Elem.children, allTextKids, allText, SpecialChar]

end Brel
