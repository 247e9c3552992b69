import Verif.Props.Numeric

/-! C31, C70, C71: the elements `ix:nonFraction`. -/

namespace Brel
open Spec

variable {dig : Char → Option Nat} {flt : String → Option Bool}

/-! ## C31: the sign attribute, nil -/

theorem truthy_some (s : String) : truthy (some s) = if s = "" then none else some s := by
  unfold truthy
  split
  · rename_i h
    cases h
    rfl
  · rename_i h
    rw [if_neg (fun e => h (by rw [e]))]

theorem truthy_none : truthy none = none := rfl

/-- What an unsigned element gives, and what the same element with a sign gives. -/
theorem processNonFraction_sign (e : NonFraction) :
    ∃ (v : List Char) (err : List String) (neg : List Char), processNonFraction dig flt { e with sign := none } = (String.ofList v, err) ∧
      (neg = ['-'] ∨ (neg = [] ∧ v = [])) ∧
      processNonFraction dig flt { e with sign := some "" } = (String.ofList v, err) ∧
      processNonFraction dig flt { e with sign := some "-" } = (String.ofList (neg ++ v), err) ∧
      ∀ s, s ≠ "" → s ≠ "-" → processNonFraction dig flt { e with sign := some s } = (String.ofList v, "IXBRL_INVALID_SIGN_ATTRIBUTE_VALUE" :: err) := by
  unfold processNonFraction
  dsimp only
  cases hf : truthy e.format with
  | some f => exact ⟨_, _, ['-'], rfl, .inl rfl, rfl, rfl, fun s h1 h2 => by simp [truthy_some, truthy_none, h1, h2]⟩
  | none =>
    cases hx : flt (e.text.getD "") with
    | none => exact ⟨[], _, [], rfl, .inr ⟨rfl, rfl⟩, rfl, rfl, fun s h1 h2 => by simp [truthy_some, truthy_none, h1, h2]⟩
    | some b =>
      cases b with
      | true => exact ⟨[], _, [], rfl, .inr ⟨rfl, rfl⟩, rfl, rfl, fun s h1 h2 => by simp [truthy_some, truthy_none, h1, h2]⟩
      | false => exact ⟨_, _, ['-'], rfl, .inl rfl, rfl, rfl, fun s h1 h2 => by simp [truthy_some, truthy_none, h1, h2]⟩

theorem denotes_ne_nil {x : ℚ} : ¬ Denotes [] x := by
  rintro ⟨w, f, ⟨hw, -, -, hs⟩, -⟩
  rcases hs with ⟨-, e⟩ | ⟨-, e⟩
  · exact hw e.symm
  · simp at e

/-- C31 (numerals): if the element without the attribute has the value `x`, the element with `sign="-"` has the value `-x`, and the
same errors are reported. Missing: elements whose value is zero, see `C31_zero_false`. -/
theorem C31_minus_partial (e : NonFraction) (x : ℚ) (h : Denotes (processNonFraction dig flt { e with sign := none }).1.toList x) :
    SignedDenotes (processNonFraction dig flt { e with sign := some "-" }).1.toList (-x) ∧
    (processNonFraction dig flt { e with sign := some "-" }).2 = (processNonFraction dig flt { e with sign := none }).2 := by
  obtain ⟨v, err, neg, h1, hn, -, h3, -⟩ := processNonFraction_sign (dig := dig) (flt := flt) e
  rw [h1, String.toList_ofList] at h
  rw [h1, h3, String.toList_ofList]
  refine ⟨?_, rfl⟩
  rcases hn with rfl | ⟨-, rfl⟩
  · exact .inr ⟨v, rfl, by rwa [neg_neg]⟩
  · exact absurd h denotes_ne_nil

/-- C31: any other value of the attribute is reported and ignored; an empty one is ignored. -/
theorem C31_other_sign (e : NonFraction) (s : String) (h : s ≠ "-") :
    (processNonFraction dig flt { e with sign := some s }).1 = (processNonFraction dig flt { e with sign := none }).1 ∧
    (s ≠ "" → (processNonFraction dig flt { e with sign := some s }).2 =
      "IXBRL_INVALID_SIGN_ATTRIBUTE_VALUE" :: (processNonFraction dig flt { e with sign := none }).2) := by
  obtain ⟨v, err, neg, h1, -, h2, -, h4⟩ := processNonFraction_sign (dig := dig) (flt := flt) e
  rw [h1]
  by_cases hs : s = ""
  · subst hs
    rw [h2]
    exact ⟨rfl, fun h => absurd rfl h⟩
  · rw [h4 s hs h]
    exact ⟨rfl, fun _ => rfl⟩

/-- An empty sign attribute is not reported. -/
theorem C31_empty_sign_false : ∃ e : NonFraction, e.sign = some "" ∧ (processNonFraction asciiDigit (fun _ => some false) e).2 = [] :=
  ⟨⟨some "ixt:num-dot-decimal", none, some "", some "5"⟩, rfl, by decide +kernel⟩

/-- A zero with a minus sign becomes the text "-", which denotes no number. -/
theorem C31_zero_false : ∃ e : NonFraction, e.text = some "0" ∧ e.sign = some "-" ∧
    processNonFraction asciiDigit (fun _ => some false) e = ("-", []) ∧ ∀ x, ¬ SignedDenotes "-".toList x := by
  refine ⟨⟨some "ixt:num-dot-decimal", none, some "-", some "0"⟩, rfl, rfl, by decide +kernel, ?_⟩
  rintro x (⟨w, f, ⟨hw, hd, -, hs⟩, -⟩ | ⟨t, e, h⟩)
  · have e1 : "-".toList = ['-'] := by decide
    rw [e1] at hs
    have hhead : ∃ w', w = '-' :: w' := by
      rcases hs with ⟨-, e⟩ | ⟨-, e⟩
      · exact ⟨[], e.symm⟩
      · cases w with
        | nil => exact absurd rfl hw
        | cons c w => simp at e
    obtain ⟨w', rfl⟩ := hhead
    exact absurd (hd '-' (by simp)) (by decide)
  · have e1 : "-".toList = ['-'] := by decide
    rw [e1] at e
    cases e
    exact denotes_ne_nil h

/-- C31 with the value of the text: for every decimal format, text, sign and scale, the fact has the signed and scaled number
written in the element, and nothing is reported. -/
theorem C31_signed_scaled_partial (T : DigitTable dig) (h0 : IntText dig "0".toList 0) {fmt : String} {mark : Char} {grouping : List Char} (h : (fmt, mark, grouping) ∈ decimalFormats)
    (e : NonFraction) (hf : e.format = some fmt) {text : String} (htext : e.text = some text) {t : List Char} (ht : Trimmed text.toList t)
    (hd : DecimalText mark grouping t) (hx : written mark t ≠ 0) {n : Int}
    (hn : (e.scale = none ∧ n = 0) ∨ ∃ sc, e.scale = some sc ∧ IntText dig sc.toList n) (hs : e.sign = none ∨ e.sign = some "-") :
    SignedDenotes (processNonFraction dig flt e).1.toList
      (if e.sign = some "-" then -(written mark t * (10 : ℚ) ^ n) else written mark t * (10 : ℚ) ^ n) ∧
    (processNonFraction dig flt e).2 = [] := by
  have hfmt : truthy e.format = some fmt := by
    rw [hf, truthy_some, if_neg]
    rintro rfl
    revert h
    simp [decimalFormats]
  have hsc : IntText dig ((truthy e.scale).getD "0").toList n := by
    rcases hn with ⟨h1, rfl⟩ | ⟨sc, h1, h2⟩
    · rw [h1]; exact h0
    · rw [h1, truthy_some]
      by_cases hsc : sc = ""
      · rw [hsc] at h2
        have := (pyInt_iff T _ _).2 h2
        have hno : pyInt dig "".toList = none := rfl
        rw [hno] at this
        cases this
      · rw [if_neg hsc]; exact h2
  have hun : processNonFraction dig flt { e with sign := none } =
      (String.ofList (parseNumeric dig text.toList fmt ((truthy e.scale).getD "0").toList).1, (parseNumeric dig text.toList fmt ((truthy e.scale).getD "0").toList).2) := by
    unfold processNonFraction
    simp only [hfmt, htext, Option.getD_some]
    rfl
  have key := C29_decimal T h ht hd hsc
  have hden := (key.2.1 hx).1
  rcases hs with hs | hs
  · have he : e = { e with sign := none } := by cases e; simp at hs; simp [hs]
    rw [if_neg (by rw [hs]; simp), he, hun, String.toList_ofList]
    exact ⟨.inl hden, key.1⟩
  · have he : e = { e with sign := some "-" } := by cases e; simp at hs; simp [hs]
    have := C31_minus_partial (dig := dig) (flt := flt) e _ (by rw [hun, String.toList_ofList]; exact hden)
    rw [if_pos hs]
    rw [← he, hun] at this
    exact ⟨this.1, this.2.trans key.1⟩

/-- An element without text and children that is not declared nil (parse_non_fraction.py 209). -/
def NonFractionElem.absent (e : NonFractionElem) : Bool :=
  ((truthy e.nil).isNone || decide (e.nil = some "false")) && !e.hasText && !decide (e.children ≠ [])

/-- The accuracy that an attribute states: nothing when it is absent or unreadable. -/
def accuracyOf (dig : Char → Option Nat) (a : Option String) : Option (Option Int) :=
  match parseDecimals dig a with
  | .ok d => d
  | .error _ => none

theorem parseNonFraction_shape (e : NonFractionElem) (taken : List String) : ∃ (before ids : List String), ids = (e.id.map (appendNew taken)).getD taken ∧
    (∀ i, e.id = some i → i ∈ taken → "IXBRL_DUPLICATE_ELEMENT_ID" ∈ before) ∧
    ((∃ x, parseDecimals dig e.decimals = .error x) → "INVALID_DECIMALS_ATTRIBUTE_VALUE" ∈ before) ∧
    ((∃ x, parseDecimals dig e.precision = .error x) → "INVALID_PRECISION_ATTRIBUTE_VALUE" ∈ before) ∧
    parseNonFraction dig flt e taken =
      (let fact (value : String) : InlineFact := ⟨value, e.id, accuracyOf dig e.decimals, accuracyOf dig e.precision⟩
       if e.differs then .error .valueError
       else if (if e.absent then some "true" else e.nil) = some "true" then .ok (fact "", before, ids)
       else if e.hasText then .ok (fact (processNonFraction dig flt e.value).1, before ++ (processNonFraction dig flt e.value).2, ids)
       else match e.children with
        | [] => .error .indexError
        | c :: cs => .ok (fact c.xml, before ++ (if cs ≠ [] then ["IXBRL_MULTIPLE_NON_FRACTION_CHILDREN"] else []) ++
          (if c.tag ≠ "ix:nonFraction" then ["IXBRL_INVALID_NON_FRACTION_CHILD"] else []), ids)) := by
  unfold parseNonFraction accuracyOf
  cases hd : parseDecimals dig e.decimals <;> cases hp : parseDecimals dig e.precision <;>
    refine ⟨_, _, ?_, ?_, ?_, ?_, rfl⟩
  all_goals first
    | (cases e.id <;> rfl)
    | (intro i hi ht; simp [hi, ht])
    | simp

theorem parseNonFraction_ok {e : NonFractionElem} {taken : List String} {f : InlineFact} {errs ids : List String}
    (h : parseNonFraction dig flt e taken = .ok (f, errs, ids)) :
    f.id = e.id ∧ f.decimals = accuracyOf dig e.decimals ∧ f.precision = accuracyOf dig e.precision ∧ ids = (e.id.map (appendNew taken)).getD taken ∧
    (∀ i, e.id = some i → i ∈ taken → "IXBRL_DUPLICATE_ELEMENT_ID" ∈ errs) ∧
    ((∃ x, parseDecimals dig e.decimals = .error x) → "INVALID_DECIMALS_ATTRIBUTE_VALUE" ∈ errs) ∧
    ((∃ x, parseDecimals dig e.precision = .error x) → "INVALID_PRECISION_ATTRIBUTE_VALUE" ∈ errs) := by
  obtain ⟨before, _, rfl, h0, h1, h2, hp⟩ := parseNonFraction_shape (dig := dig) (flt := flt) e taken
  have key : f.id = e.id ∧ f.decimals = accuracyOf dig e.decimals ∧ f.precision = accuracyOf dig e.precision ∧ ids = (e.id.map (appendNew taken)).getD taken ∧
      ∀ x ∈ before, x ∈ errs := by
    rw [hp] at h
    dsimp only at h
    by_cases c0 : e.differs = true
    · rw [if_pos c0] at h; cases h
    rw [if_neg c0] at h
    by_cases c1 : (if e.absent = true then some "true" else e.nil) = some "true"
    · rw [if_pos c1] at h
      cases h; exact ⟨rfl, rfl, rfl, rfl, fun x hx => hx⟩
    · rw [if_neg c1] at h
      by_cases c2 : e.hasText = true
      · rw [if_pos c2] at h
        cases h; exact ⟨rfl, rfl, rfl, rfl, fun x hx => List.mem_append.2 (.inl hx)⟩
      · rw [if_neg c2] at h
        split at h
        · cases h
        · cases h; exact ⟨rfl, rfl, rfl, rfl, fun x hx => List.mem_append.2 (.inl (List.mem_append.2 (.inl hx)))⟩
  obtain ⟨k1, k2, k3, k4, k5⟩ := key
  exact ⟨k1, k2, k3, k4, fun i hi ht => k5 _ (h0 i hi ht), fun hx => k5 _ (h1 hx), fun hx => k5 _ (h2 hx)⟩

/-- C31: a nil fact has an empty value, whatever the element contains, unless it is nested in a fact it differs from. -/
theorem C31_nil (e : NonFractionElem) (taken : List String) (h : e.nil = some "true") (hd : e.differs = false) :
    ∃ f errs ids, parseNonFraction dig flt e taken = .ok (f, errs, ids) ∧ f.value = "" := by
  obtain ⟨_, _, _, _, _, _, hp⟩ := parseNonFraction_shape (dig := dig) (flt := flt) e taken
  have : (if e.absent then some "true" else e.nil) = some "true" := by rw [h]; split <;> rfl
  rw [hp, if_neg (by rw [hd]; simp), if_pos this]
  exact ⟨_, _, _, rfl, rfl⟩

/-- A fact without text, nil by `xsi:nil="1"` as XML Schema allows, makes the parser fail. -/
theorem C31_nil_one_false : ∃ e : NonFractionElem, e.nil = some "1" ∧ e.value.text = none ∧ e.children = [] ∧
    parseNonFraction asciiDigit (fun _ => some false) e [] = .error .indexError :=
  ⟨⟨⟨none, none, none, none⟩, none, none, none, some "1", none, [], none⟩, rfl, rfl, rfl, by decide +kernel⟩

/-- An element with text that is not nil has the value of its text, unless it is nested in a fact it differs from. -/
theorem C31_text_value (e : NonFractionElem) (taken : List String) (hn : e.nil = none ∨ e.nil = some "false") (text : String) (ht : e.value.text = some text) (hd : e.differs = false) :
    ∃ f errs ids, parseNonFraction dig flt e taken = .ok (f, errs, ids) ∧ f.value = (processNonFraction dig flt e.value).1 ∧
      ∀ x ∈ (processNonFraction dig flt e.value).2, x ∈ errs := by
  have ht' : e.hasText = true := by simp [NonFractionElem.hasText, ht]
  have hab : e.absent = false := by simp [NonFractionElem.absent, ht']
  obtain ⟨_, _, _, _, _, _, hp⟩ := parseNonFraction_shape (dig := dig) (flt := flt) e taken
  rw [hp, hab, if_neg (by rw [hd]; simp), if_neg (by rcases hn with h | h <;> rw [h] <;> simp), if_pos ht']
  exact ⟨_, _, _, rfl, rfl, fun x hx => List.mem_append.2 (.inr hx)⟩

example : processNonFraction asciiDigit (fun _ => some false) ⟨some "ixt:num-dot-decimal", some "3", some "-", some " 1,234.5 "⟩ = ("-1234500", []) := by
  decide +kernel

/-! ## C70: decimals and precision -/

/-- C70: the `decimals` and `precision` of an inline fact are the integers the attributes denote, infinite for "INF", and absent
when the attribute is absent or, which is reported, unreadable. -/
theorem C70_accuracy (T : DigitTable dig) {e : NonFractionElem} {taken : List String} {f : InlineFact} {errs ids : List String}
    (h : parseNonFraction dig flt e taken = .ok (f, errs, ids)) (hinf : ¬ ∃ n, IntText dig "INF".toList n) :
    (e.decimals = none → f.decimals = none) ∧ (e.decimals = some "INF" → f.decimals = some none) ∧
    (∀ s n, e.decimals = some s → IntText dig s.toList n → f.decimals = some (some n)) ∧
    (∀ s, e.decimals = some s → s ≠ "INF" → (¬ ∃ n, IntText dig s.toList n) → f.decimals = none ∧ "INVALID_DECIMALS_ATTRIBUTE_VALUE" ∈ errs) ∧
    (e.precision = none → f.precision = none) ∧ (e.precision = some "INF" → f.precision = some none) ∧
    (∀ s n, e.precision = some s → IntText dig s.toList n → f.precision = some (some n)) ∧
    (∀ s, e.precision = some s → s ≠ "INF" → (¬ ∃ n, IntText dig s.toList n) → f.precision = none ∧ "INVALID_PRECISION_ATTRIBUTE_VALUE" ∈ errs) := by
  have hok : ∀ s n, IntText dig s.toList n → parseDecimals dig (some s) = .ok (some (some n)) := by
    intro s n hn
    simp only [parseDecimals, (pyInt_iff T _ _).2 hn]
  have hno : ∀ s : String, (¬ ∃ n, IntText dig s.toList n) → pyInt dig s.toList = none := by
    intro s hs
    cases hp : pyInt dig s.toList with
    | none => rfl
    | some k => exact absurd ⟨k, (pyInt_iff T _ _).1 hp⟩ hs
  have hbad : ∀ s : String, s ≠ "INF" → (¬ ∃ n, IntText dig s.toList n) → parseDecimals dig (some s) = .error .valueError := by
    intro s h1 h2
    simp only [parseDecimals, hno s h2, if_neg h1]
  have hINF : parseDecimals dig (some "INF") = .ok (some none) := by
    simp only [parseDecimals, hno _ hinf, if_true]
  obtain ⟨-, f1, f2, -, -, h1, h2⟩ := parseNonFraction_ok h
  rw [f1, f2]
  refine ⟨?_, ?_, ?_, ?_, ?_, ?_, ?_, ?_⟩
  · intro h; rw [h]; rfl
  · intro h; rw [h]; simp only [accuracyOf, hINF]
  · intro s n h hn; rw [h]; simp only [accuracyOf, hok s n hn]
  · intro s h hs hn
    rw [h]
    refine ⟨by simp only [accuracyOf, hbad s hs hn], h1 ⟨_, by rw [h]; exact hbad s hs hn⟩⟩
  · intro h; rw [h]; rfl
  · intro h; rw [h]; simp only [accuracyOf, hINF]
  · intro s n h hn; rw [h]; simp only [accuracyOf, hok s n hn]
  · intro s h hs hn
    rw [h]
    refine ⟨by simp only [accuracyOf, hbad s hs hn], h2 ⟨_, by rw [h]; exact hbad s hs hn⟩⟩

/-- C70: the id of an inline fact is the id of its element, and an id that was used before is reported. -/
theorem C70_id {e : NonFractionElem} {taken : List String} {f : InlineFact} {errs ids : List String}
    (h : parseNonFraction dig flt e taken = .ok (f, errs, ids)) :
    f.id = e.id ∧ (∀ i, e.id = some i → i ∈ taken → "IXBRL_DUPLICATE_ELEMENT_ID" ∈ errs) ∧
    (∀ i, i ∈ ids ↔ i ∈ taken ∨ e.id = some i) := by
  obtain ⟨h1, -, -, h2, h3, -⟩ := parseNonFraction_ok h
  refine ⟨h1, h3, fun i => ?_⟩
  rw [h2]
  cases e.id with
  | none => simp
  | some j => simp [mem_appendNew, eq_comm]

/-- An inline fact with decimals -3. -/
example : parseNonFraction asciiDigit (fun _ => some false) ⟨⟨some "ixt:num-dot-decimal", some "3", none, some "5"⟩, some "f1", some "-3", none, none, none, [], none⟩ [] =
    .ok (⟨"5000", some "f1", some (some (-3)), none⟩, [], ["f1"]) := by decide +kernel

/-! ## C71: nested facts -/

/-- C71 is false: the value of a fact that contains another fact is the XML source of the inner element, whatever number the inner
element contains. -/
theorem C71_nested_false (e : NonFractionElem) (taken : List String) (c : InlineChild) (cs : List InlineChild) (ht : e.hasText = false) (hc : e.children = c :: cs)
    (hn : e.nil = none ∨ e.nil = some "false") (hd : e.differs = false) : ∃ f errs ids, parseNonFraction dig flt e taken = .ok (f, errs, ids) ∧ f.value = c.xml := by
  have hab : e.absent = false := by simp [NonFractionElem.absent, hc]
  obtain ⟨_, _, _, _, _, _, hp⟩ := parseNonFraction_shape (dig := dig) (flt := flt) e taken
  rw [hp, hab, if_neg (by rw [hd]; simp), if_neg (by rcases hn with h | h <;> rw [h] <;> simp), if_neg (by rw [ht]; simp), hc]
  exact ⟨_, _, _, rfl, rfl⟩

/-- C71 is false: a fact inside another fact with another format, scale or unit is not reported; an exception is raised, as the message of the
report is malformed. -/
theorem C71_differs_false (e : NonFractionElem) (taken : List String) (p : InlineParent) (hp : e.parent = some p) (ht : p.tag = "ix:nonFraction")
    (hd : e.value.format ≠ p.format ∨ e.value.scale ≠ p.scale ∨ e.unitRef ≠ p.unitRef) : parseNonFraction dig flt e taken = .error .valueError := by
  obtain ⟨_, _, _, _, _, _, h⟩ := parseNonFraction_shape (dig := dig) (flt := flt) e taken
  rw [h, if_pos]
  unfold NonFractionElem.differs
  rw [hp]
  simp only [ht, decide_true, Bool.true_and, decide_eq_true_eq]
  exact hd

/-- C71: a nested fact that is nil is reported, an element that does not differ from its parent is not otherwise reported. -/
theorem C71_nested_checks (e : NonFractionElem) : (∀ p, e.parent = some p → p.tag = "ix:nonFraction" → e.nil = some "true" → "IXBRL_NIL_ATTRIBUTE_IN_NON_FRACTION_CHILD" ∈ validateDescendant e) ∧
    ((∀ p, e.parent = some p → p.tag ≠ "ix:nonFraction") → validateDescendant e = [] ∧ e.differs = false) := by
  constructor
  · intro p hp ht hn
    simp [validateDescendant, hp, ht, hn]
  · intro h
    unfold validateDescendant NonFractionElem.differs
    cases hp : e.parent with
    | none => exact ⟨rfl, rfl⟩
    | some p => simp [h p hp]

end Brel
