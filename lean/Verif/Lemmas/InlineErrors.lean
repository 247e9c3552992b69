import Verif.Props.XmlFacts
import Verif.Spec.XhtmlFacts

/-! The parsers of values and continuation chains never report a duplicate id, apart from the checks of ids themselves. -/

namespace Brel
open Spec

theorem parseNumeric_clean (dig : Char → Option Nat) (text : List Char) (format : String) (scale : List Char) : duplicateId ∉ (parseNumeric dig text format scale).2 := by
  unfold parseNumeric
  split
  · simp
  · dsimp only
    unfold matchNumeric
    split
    · next h =>
      split at h
      · cases h; simp [duplicateId]
      · split at h <;> cases h; simp [duplicateId]
    · unfold processNumeric
      dsimp only
      split <;> simp [duplicateId]

theorem processNonFraction_clean (dig : Char → Option Nat) (flt : String → Option Bool) (e : NonFraction) : duplicateId ∉ (processNonFraction dig flt e).2 := by
  have hs : duplicateId ∉ (match truthy e.sign with
    | some s => if s ≠ "-" then ["IXBRL_INVALID_SIGN_ATTRIBUTE_VALUE"] else []
    | none => ([] : ErrNames)) := by
    split
    · split <;> simp [duplicateId]
    · simp
  unfold processNonFraction
  dsimp only
  split
  · simp only [List.mem_append, not_or]; exact ⟨hs, parseNumeric_clean _ _ _ _⟩
  · split
    · simp only [List.mem_append, not_or]; exact ⟨hs, by simp [duplicateId]⟩
    · simp only [List.mem_append, not_or]; exact ⟨hs, by simp [duplicateId]⟩
    · simp only [List.mem_append, not_or]; exact ⟨hs, parseNumeric_clean _ _ _ _⟩

theorem validateDescendant_clean (e : NonFractionElem) : duplicateId ∉ validateDescendant e := by
  unfold validateDescendant
  split
  · simp
  · split
    · simp
    · split <;> simp [duplicateId]

theorem validateDate_clean {d : Dict DatePart (List Char)} {a b : Bool} {errs : ErrNames} (h : validateDate d a b = .ok errs) : duplicateId ∉ errs := by
  unfold validateDate at h
  simp only [bind, Except.bind] at h
  repeat' split at h
  all_goals first | (cases h; done) | (cases h; simp [duplicateId]; done) | (cases h; repeat' split) 
  all_goals simp [duplicateId]

theorem parseDate_clean {dig : Char → Option Nat} {text : List Char} {format : String} {r : List Char × ErrNames} (h : parseDate dig text format = .ok r) : duplicateId ∉ r.2 := by
  unfold parseDate at h
  dsimp only at h
  split at h
  · cases h; simp [duplicateId]
  · split at h
    · cases h; simp [duplicateId]
    · simp only [bind, Except.bind] at h
      split at h
      · cases h
      · split at h
        · cases h
        · split at h
          · cases h
          · next hv =>
            have := validateDate_clean hv
            repeat' split at h
            all_goals first | (cases h; done) | (cases h; exact this)

theorem parseLiteral_clean (text : List Char) (format : String) : duplicateId ∉ (parseLiteral text format).2 := by
  unfold parseLiteral
  repeat' split
  all_goals simp [duplicateId]

theorem parseNonNumerical_clean {dig : Char → Option Nat} {text : List Char} {format : Option String} {r : List Char × ErrNames} (h : parseNonNumerical dig text format = .ok r) : duplicateId ∉ r.2 := by
  unfold parseNonNumerical at h
  split at h
  · cases h; simp
  · dsimp only at h
    split at h
    · cases h; simp [duplicateId]
    · split at h
      · split at h
        · simp only [bind, Except.bind] at h
          split at h
          · cases h
          · next h1 =>
            split at h
            · cases h
            · next h2 =>
              cases h
              simp only [List.mem_append, not_or]
              exact ⟨parseDate_clean h1, parseDate_clean h2⟩
        · exact parseDate_clean h
      · cases h; exact parseLiteral_clean _ _

/-- The report of one id. -/
def dupReport (i : Option String) (taken : List String) : ErrNames :=
  match i with
  | some i => if i ∈ taken then [duplicateId] else []
  | none => []

/-- The ids seen after one more. -/
def seenWith (i : Option String) (taken : List String) : List String :=
  match i with
  | some i => appendNew taken i
  | none => taken

/-- Parsing a text fact reports its id if it was used before, and other things that do not depend on the ids used. -/
theorem parseNonNumeric_spec (dig : Char → Option Nat) (e : NonNumericElem) (chain : List Elem) :
    (∃ err, ∀ taken, parseNonNumeric dig e chain taken = .error err) ∨
    (∃ v more, duplicateId ∉ more ∧ ∀ taken, parseNonNumeric dig e chain taken = .ok (v, e.id, dupReport e.id taken ++ more, seenWith e.id taken)) := by
  have H : ∀ esc : Option String × ErrNames, duplicateId ∉ esc.2 →
      (∃ err, ∀ taken, (do
        let content ← relevantContent (e.elem :: chain)
        let r ← parseNonNumerical dig (if esc.1 = some "true" then escapeContent content else textContent content) e.format
        .ok (r.1, e.id, dupReport e.id taken ++ esc.2 ++ r.2, seenWith e.id taken) : Except PyErr (List Char × Option String × ErrNames × List String)) = .error err) ∨
      (∃ v more, duplicateId ∉ more ∧ ∀ taken, (do
        let content ← relevantContent (e.elem :: chain)
        let r ← parseNonNumerical dig (if esc.1 = some "true" then escapeContent content else textContent content) e.format
        .ok (r.1, e.id, dupReport e.id taken ++ esc.2 ++ r.2, seenWith e.id taken) : Except PyErr (List Char × Option String × ErrNames × List String)) =
          .ok (v, e.id, dupReport e.id taken ++ more, seenWith e.id taken)) := by
    intro esc hesc
    simp only [bind, Except.bind]
    cases hc : relevantContent (e.elem :: chain) with
    | error err => exact Or.inl ⟨err, fun _ => rfl⟩
    | ok content =>
      dsimp only
      cases hn : parseNonNumerical dig (if esc.1 = some "true" then escapeContent content else textContent content) e.format with
      | error err => exact Or.inl ⟨err, fun _ => rfl⟩
      | ok r =>
        refine Or.inr ⟨r.1, esc.2 ++ r.2, ?_, ?_⟩
        · simp only [List.mem_append, not_or]; exact ⟨hesc, parseNonNumerical_clean hn⟩
        · intro taken
          simp only [List.append_assoc]
  unfold parseNonNumeric
  cases ht : truthy e.escape with
  | none => exact H (e.escape, []) (by simp)
  | some x =>
    by_cases hx : x ∈ ["true", "false"]
    · simp only [if_pos hx]; exact H (some x, []) (by simp)
    · simp only [if_neg hx]; exact H (some "true", ["IXBRL_INVALID_NON_NUMERIC_FACT_ESCAPE_ATTRIBUTE_VALUE"]) (by simp [duplicateId])

theorem ite_clean (p : Prop) [Decidable p] (e : String) (h : e ≠ duplicateId) : duplicateId ∉ (if p then [e] else ([] : ErrNames)) := by
  split
  · simp only [List.mem_singleton]; exact fun x => h x.symm
  · simp

/-- `parseNonFraction` with the attributes `decimals` and `precision` read. -/
def nonFractionBody (dig : Char → Option Nat) (flt : String → Option Bool) (e : NonFractionElem) (dec prec : Option (Option Int) × ErrNames) (taken : List String) :
    Except PyErr (InlineFact × ErrNames × List String) :=
  let excl : ErrNames :=
    if (dec.1.isSome && prec.1.isSome) || (prec.1.isSome && e.nil.isSome) || (dec.1.isSome && e.nil.isSome)
    then ["IXBRL_MUTUALLY_EXCLUSIVE_ATTRIBUTES_IN_NON_FRACTION"] else []
  let hasText := e.hasText
  let hasChildren := decide (e.children ≠ [])
  let both : ErrNames := if hasText && hasChildren then ["IXBRL_BOTH_TEXT_AND_CHILDREN_IN_NON_FRACTION"] else []
  let nilErr : ErrNames := if e.nil = some "true" ∧ (hasText || hasChildren) then ["IXBRL_TEXT_OR_CHILDREN_WITH_NIL"] else []
  let absent := ((truthy e.nil).isNone || decide (e.nil = some "false")) && !hasText && !hasChildren
  let absentErr : ErrNames := if absent then ["IXBRL_NO_TEXT_OR_CHILDREN_WITH_ABSENT_NIL_ATTRIBUTE"] else []
  let nil' := if absent then some "true" else e.nil
  let desc := validateDescendant e
  let before := dupReport e.id taken ++ dec.2 ++ prec.2 ++ excl ++ both ++ nilErr ++ absentErr ++ desc
  let fact (value : String) : InlineFact := { value, id := e.id, decimals := dec.1, precision := prec.1 }
  if e.differs then .error .valueError
  else if nil' = some "true" then .ok (fact "", before, seenWith e.id taken)
  else if hasText then
    let r := processNonFraction dig flt e.value
    .ok (fact r.1, before ++ r.2, seenWith e.id taken)
  else match e.children with
    | [] => .error .indexError
    | c :: cs =>
      .ok (fact c.xml, before ++ (if cs ≠ [] then ["IXBRL_MULTIPLE_NON_FRACTION_CHILDREN"] else []) ++
        (if c.tag ≠ "ix:nonFraction" then ["IXBRL_INVALID_NON_FRACTION_CHILD"] else []), seenWith e.id taken)

theorem nonFractionBody_eq (dig : Char → Option Nat) (flt : String → Option Bool) (e : NonFractionElem) :
    ∃ dec prec, duplicateId ∉ dec.2 ∧ duplicateId ∉ prec.2 ∧ ∀ taken, parseNonFraction dig flt e taken = nonFractionBody dig flt e dec prec taken := by
  unfold parseNonFraction
  cases parseDecimals dig e.decimals with
  | ok d =>
    cases parseDecimals dig e.precision with
    | ok p => exact ⟨(d, []), (p, []), by simp, by simp, fun _ => rfl⟩
    | error p => exact ⟨(d, []), (none, ["INVALID_PRECISION_ATTRIBUTE_VALUE"]), by simp, by simp [duplicateId], fun _ => rfl⟩
  | error d =>
    cases parseDecimals dig e.precision with
    | ok p => exact ⟨(none, ["INVALID_DECIMALS_ATTRIBUTE_VALUE"]), (p, []), by simp [duplicateId], by simp, fun _ => rfl⟩
    | error p => exact ⟨(none, ["INVALID_DECIMALS_ATTRIBUTE_VALUE"]), (none, ["INVALID_PRECISION_ATTRIBUTE_VALUE"]), by simp [duplicateId], by simp [duplicateId], fun _ => rfl⟩

/-- The same for a numeric fact. -/
theorem parseNonFraction_spec (dig : Char → Option Nat) (flt : String → Option Bool) (e : NonFractionElem) :
    (∃ err, ∀ taken, parseNonFraction dig flt e taken = .error err) ∨
    (∃ f more, f.id = e.id ∧ duplicateId ∉ more ∧ ∀ taken, parseNonFraction dig flt e taken = .ok (f, dupReport e.id taken ++ more, seenWith e.id taken)) := by
  obtain ⟨dec, prec, hd, hp, heq⟩ := nonFractionBody_eq dig flt e
  simp only [heq]
  unfold nonFractionBody
  dsimp only
  generalize hab : (((truthy e.nil).isNone || decide (e.nil = some "false")) && !e.hasText && !decide (e.children ≠ [])) = absent
  have hv := validateDescendant_clean e
  have hb : ∀ (l : ErrNames), duplicateId ∉ l → duplicateId ∉ dec.2 ++ (prec.2 ++
      ((if (dec.1.isSome && prec.1.isSome || prec.1.isSome && e.nil.isSome || dec.1.isSome && e.nil.isSome) = true then ["IXBRL_MUTUALLY_EXCLUSIVE_ATTRIBUTES_IN_NON_FRACTION"] else []) ++
      ((if (e.hasText && decide (e.children ≠ [])) = true then ["IXBRL_BOTH_TEXT_AND_CHILDREN_IN_NON_FRACTION"] else []) ++
      ((if e.nil = some "true" ∧ (e.hasText || decide (e.children ≠ [])) = true then ["IXBRL_TEXT_OR_CHILDREN_WITH_NIL"] else []) ++
      ((if absent = true then ["IXBRL_NO_TEXT_OR_CHILDREN_WITH_ABSENT_NIL_ATTRIBUTE"] else []) ++ (validateDescendant e ++ l)))))) := by
    intro l hl
    simp only [List.mem_append, not_or]
    exact ⟨hd, hp, ite_clean _ _ (by decide), ite_clean _ _ (by decide), ite_clean _ _ (by decide), ite_clean _ _ (by decide), hv, hl⟩
  by_cases h0 : e.differs = true
  · simp only [if_pos h0]; exact Or.inl ⟨_, fun _ => rfl⟩
  simp only [if_neg h0]
  by_cases h1 : (if absent = true then some "true" else e.nil) = some "true"
  · simp only [if_pos h1]
    refine Or.inr ⟨⟨"", e.id, dec.1, prec.1⟩, _, rfl, hb [] (by simp), fun taken => ?_⟩
    simp only [List.append_assoc, List.append_nil]
  · simp only [if_neg h1]
    cases h2 : e.hasText with
    | true =>
      rw [h2] at hb
      simp only [if_true]
      refine Or.inr ⟨⟨(processNonFraction dig flt e.value).1, e.id, dec.1, prec.1⟩, _, rfl, hb _ (processNonFraction_clean dig flt e.value), fun taken => ?_⟩
      simp only [List.append_assoc]
    | false =>
      rw [h2] at hb
      simp only [Bool.false_eq_true, if_false]
      cases hc : e.children with
      | nil => exact Or.inl ⟨_, fun _ => rfl⟩
      | cons c cs =>
        rw [hc] at hb
        refine Or.inr ⟨⟨c.xml, e.id, dec.1, prec.1⟩, _, rfl, hb ((if cs ≠ [] then ["IXBRL_MULTIPLE_NON_FRACTION_CHILDREN"] else []) ++
          (if c.tag ≠ "ix:nonFraction" then ["IXBRL_INVALID_NON_FRACTION_CHILD"] else [])) ?_, fun taken => ?_⟩
        · simp only [List.mem_append, not_or]; exact ⟨ite_clean _ _ (by decide), ite_clean _ _ (by decide)⟩
        · simp only [List.append_assoc]

/-! ## Units -/

theorem parseDivide_clean (cs : List XNode) : ∀ (nums dens : List QName) (errs : ErrNames) (r : Option (List QName × List QName)) (errs' : ErrNames),
    parseDivide cs nums dens errs = .ok (r, errs') → ∃ more, errs' = errs ++ more ∧ duplicateId ∉ more := by
  induction cs with
  | nil => intro nums dens errs r errs' h; cases h; exact ⟨[], by simp, by simp⟩
  | cons c cs ih =>
    intro nums dens errs r errs' h
    simp only [parseDivide, bind, Except.bind, pure, Except.pure] at h
    split at h
    · cases h
    · next num _ =>
      split at h
      · cases h
      · next den _ =>
        have h1 : ∃ m1, (if (num || den) = true then errs else errs ++ ["XML_INVALID_DIVIDE_ELEMENT_CHILDREN"]) = errs ++ m1 ∧ duplicateId ∉ m1 := by
          split
          · exact ⟨[], by simp, by simp⟩
          · exact ⟨_, rfl, by simp [duplicateId]⟩
        obtain ⟨m1, e1, c1⟩ := h1
        rw [e1] at h
        split at h
        · cases h
        · next m ms hm =>
          rw [parseMeasure_eq] at h
          dsimp only at h
          have h2 : ∃ m2, (if m.text = none then errs ++ m1 ++ ["XML_MISSING_UNIT_MEASURE"] else errs ++ m1) = errs ++ m2 ∧ duplicateId ∉ m2 := by
            split
            · refine ⟨m1 ++ ["XML_MISSING_UNIT_MEASURE"], by simp, ?_⟩
              simp only [List.mem_append, not_or]; exact ⟨c1, by simp [duplicateId]⟩
            · exact ⟨m1, rfl, c1⟩
          obtain ⟨m2, e2, c2⟩ := h2
          rw [e2] at h
          have fin : ∀ nums dens, parseDivide cs nums dens (errs ++ m2) = .ok (r, errs') → ∃ more, errs' = errs ++ more ∧ duplicateId ∉ more := by
            intro nums dens hh
            obtain ⟨m3, e3, c3⟩ := ih _ _ _ _ _ hh
            refine ⟨m2 ++ m3, by rw [e3]; simp, ?_⟩
            simp only [List.mem_append, not_or]; exact ⟨c2, c3⟩
          cases hq : measureOf m with
          | none => rw [hq] at h; cases h; exact ⟨m2, rfl, c2⟩
          | some q =>
            rw [hq] at h
            dsimp only at h
            split at h
            · exact fin _ _ h
            · split at h <;> exact fin _ _ h

/-- Parsing a unit reports its id if there is a unit of that id, and never otherwise. -/
theorem parseUnit_dup {x : XNode} {s s' : ParseState} {r : Option Characteristic} (h : parseUnit x s = .ok (r, s')) :
    ∃ i more, x.attr? "id" = some i ∧ s'.errs = s.errs ++ ((if s.chars.hasKey i .unit then [duplicateId] else []) ++ more) ∧ duplicateId ∉ more := by
  unfold parseUnit at h
  simp only [bind, Except.bind, pure, Except.pure] at h
  cases hid : x.attr "id" with
  | error e => rw [hid] at h; cases h
  | ok i =>
    rw [hid] at h
    dsimp only at h
    refine ⟨i, ?_⟩
    have he : (if s.chars.hasKey i .unit = true then s.err "IXBRL_DUPLICATE_ELEMENT_ID" else s).errs = s.errs ++ (if s.chars.hasKey i .unit then [duplicateId] else []) := by
      split
      · rfl
      · simp
    generalize (if s.chars.hasKey i .unit = true then s.err "IXBRL_DUPLICATE_ELEMENT_ID" else s) = s1 at h he
    suffices hs : ∃ more, s'.errs = s1.errs ++ more ∧ duplicateId ∉ more by
      obtain ⟨more, e, c⟩ := hs
      exact ⟨more, attr_ok hid, by rw [e, he, List.append_assoc], c⟩
    split at h
    · next c _ =>
      split at h
      · cases h
      · split at h
        · rw [parseMeasure_eq] at h
          dsimp only at h
          have h2 : ∃ m2, (if c.text = none then s1.errs ++ ["XML_MISSING_UNIT_MEASURE"] else s1.errs) = s1.errs ++ m2 ∧ duplicateId ∉ m2 := by
            split
            · exact ⟨_, rfl, by simp [duplicateId]⟩
            · exact ⟨[], by simp, by simp⟩
          obtain ⟨m2, e2, c2⟩ := h2
          rw [e2] at h
          cases hq : measureOf c with
          | none => rw [hq] at h; cases h; exact ⟨m2, rfl, c2⟩
          | some q => rw [hq] at h; cases h; exact ⟨m2, rfl, c2⟩
        · split at h
          · cases h
          · split at h
            · have h2 : ∃ m2, (if c.children.length ≠ 2 then s1.errs ++ ["XML_DIVIDE_ELEMENT_WITHOUT_TWO_CHILDREN"] else s1.errs) = s1.errs ++ m2 ∧ duplicateId ∉ m2 := by
                split
                · exact ⟨_, rfl, by simp [duplicateId]⟩
                · exact ⟨[], by simp, by simp⟩
              obtain ⟨m2, e2, c2⟩ := h2
              rw [e2] at h
              split at h
              · cases h
              · next v hv =>
                obtain ⟨m3, e3, c3⟩ := parseDivide_clean _ _ _ _ _ _ hv
                have c23 : duplicateId ∉ m2 ++ m3 := by simp only [List.mem_append, not_or]; exact ⟨c2, c3⟩
                obtain ⟨r1, errs1⟩ := v
                have e3' : errs1 = s1.errs ++ (m2 ++ m3) := by rw [← List.append_assoc]; exact e3
                cases r1 with
                | none => cases h; exact ⟨m2 ++ m3, e3', c23⟩
                | some nd =>
                  dsimp only at h
                  split at h
                  · cases h
                  · split at h
                    · cases h
                    · cases h
                      exact ⟨m2 ++ m3, e3', c23⟩
            · cases h; exact ⟨_, rfl, by simp [duplicateId]⟩
    · cases h; exact ⟨_, rfl, by simp [duplicateId]⟩

/-! ## Chains -/

theorem followChain_clean (idx : Dict String ContElem) (fuel : Nat) : ∀ (c : Option String) (st st' : ChainState), followChain idx fuel c st = some st' → duplicateId ∉ st.errs → duplicateId ∉ st'.errs := by
  induction fuel with
  | zero =>
    intro c st st' h hc
    cases c with
    | none => cases h; exact hc
    | some i => cases h
  | succ n ih =>
    intro c st st' h hc
    cases c with
    | none => cases h; exact hc
    | some i =>
      have h1 : duplicateId ∉ st.errs ++ (if i ∈ st.used then ["IXBRL_REUSED_CONTINUATION"] else []) := by
        simp only [List.mem_append, not_or]; exact ⟨hc, ite_clean _ _ (by decide)⟩
      unfold followChain at h
      dsimp only at h
      split at h
      · cases h
        rw [List.mem_append, not_or]
        exact ⟨h1, by simp [duplicateId]⟩
      · exact ih _ _ _ h h1

theorem followAll_clean (idx : Dict String ContElem) (fuel : Nat) (es : List ContElem) : ∀ (used : List String) (errs : ErrNames) r, followAll idx fuel es used errs = some r →
    duplicateId ∉ errs → duplicateId ∉ r.2.2 := by
  induction es with
  | nil => intro used errs r h hc; cases h; exact hc
  | cons e es ih =>
    intro used errs r h hc
    simp only [followAll, bind, Option.bind_eq_some_iff] at h
    obtain ⟨st, hst, q, hq, he⟩ := h
    cases he
    exact ih _ _ q hq (followChain_clean idx fuel _ _ _ hst hc)

theorem nestedErrors_clean (chains : List (ContElem × List ContElem)) : duplicateId ∉ nestedErrors chains := by
  intro h
  unfold nestedErrors at h
  rw [List.mem_flatMap] at h
  obtain ⟨p, _, h⟩ := h
  rw [List.mem_flatMap] at h
  obtain ⟨e, _, h⟩ := h
  rw [List.mem_map] at h
  obtain ⟨_, _, h⟩ := h
  exact absurd h (by decide)

/-! ## Ids -/

theorem reported_congr {a b : List String} (h : ∀ i, i ∈ a ↔ i ∈ b) : ∀ (l : List String) (n : Nat), Reported a l n → Reported b l n := by
  intro l
  induction l generalizing a b with
  | nil => intro n hn; exact hn
  | cons i is ih =>
    rintro n ⟨k, m, e, hk, hm⟩
    refine ⟨k, m, e, ?_, ih (fun j => by simp [h j]) m hm⟩
    by_cases hi : i ∈ a
    · rw [if_pos ((h i).1 hi)]; rwa [if_pos hi] at hk
    · rw [if_neg (fun x => hi ((h i).2 x))]; rwa [if_neg hi] at hk

theorem reported_append {l m : List String} : ∀ {seen : List String} {j k : Nat}, Reported seen l j → Reported (seen ++ l) m k → Reported seen (l ++ m) (j + k) := by
  induction l with
  | nil =>
    intro seen j k h1 h2
    cases h1
    rw [List.append_nil] at h2
    rw [Nat.zero_add]; exact h2
  | cons i is ih =>
    rintro seen j k ⟨a, b, e, ha, hb⟩ h2
    refine ⟨a, b + k, by omega, ha, ih hb (reported_congr (fun x => ?_) _ _ h2)⟩
    simp only [List.mem_append, List.mem_cons]
    constructor
    · rintro (h | h | h)
      · exact Or.inl (Or.inr h)
      · exact Or.inl (Or.inl h)
      · exact Or.inr h
    · rintro ((h | h) | h)
      · exact Or.inr (Or.inl h)
      · exact Or.inl h
      · exact Or.inr (Or.inr h)

end Brel
