import Verif.Lemmas.FactValue

/-! C04: the value of a fact has the type its concept announces. -/

namespace Brel
variable {F : Type} {dig : Char → Option Nat} {flt : String → Option F}

/-- C04. Integer concepts: the value is the integer the text denotes; `ValueError` exactly when it denotes none. -/
theorem C04_integer (T : DigitTable dig) (f : Fact) (c : Concept) (hc : f.getConcept = .ok c) (h : c.isInteger = true) :
    (∀ n, f.getValue dig flt = .ok (.int n) ↔ IntText dig f.value.toList n) ∧
    (f.getValue dig flt = .error .valueError ↔ ¬ ∃ n, IntText dig f.value.toList n) ∧
    (∀ v, f.getValue dig flt = .ok v → ∃ n, v = .int n) := by
  have e : f.getValue dig flt = (match pyInt dig f.value.toList with
      | some n => .ok (.int n) | none => .error .valueError) := by
    unfold Fact.getValue Fact.toInt
    simp only [hc, h, bind, Except.bind, if_true]
    cases pyInt dig f.value.toList <;> rfl
  rw [e]
  refine ⟨?_, ?_, ?_⟩
  · intro n
    rw [← pyInt_iff T]
    cases pyInt dig f.value.toList <;> simp
  · constructor
    · intro h2 ⟨n, hn⟩
      rw [← pyInt_iff T] at hn
      rw [hn] at h2; cases h2
    · intro h2
      cases hp : pyInt dig f.value.toList with
      | none => rfl
      | some n => exact absurd ⟨n, (pyInt_iff T _ _).1 hp⟩ h2
  · intro v hv
    cases hp : pyInt dig f.value.toList with
    | none => rw [hp] at hv; cases hv
    | some n => rw [hp] at hv; cases hv; exact ⟨n, rfl⟩

/-- C04. Numeric concepts that are not integer: the value is what `float` reads, `ValueError` when it reads nothing. -/
theorem C04_numeric (f : Fact) (c : Concept) (hc : f.getConcept = .ok c) (hi : c.isInteger = false) (h : c.isNumeric = true) :
    (∀ x, f.getValue dig flt = .ok (.float x) ↔ flt f.value = some x) ∧
    (f.getValue dig flt = .error .valueError ↔ flt f.value = none) := by
  have e : f.getValue dig flt = (match flt f.value with | some x => .ok (.float x) | none => .error .valueError) := by
    unfold Fact.getValue Fact.toFloat
    simp only [hc, hi, h, bind, Except.bind, if_true, Bool.false_eq_true, if_false]
    cases flt f.value <;> rfl
  rw [e]
  cases flt f.value <;> simp

/-- C04. Boolean concepts: the value is the truth value the text denotes, `ValueError` when it denotes none. -/
theorem C04_boolean (f : Fact) (c : Concept) (hc : f.getConcept = .ok c) (h : c.isBoolean = true) :
    (∀ b, f.getValue dig flt = .ok (.bool b) ↔ BoolText f.value.toList b) ∧
    (f.getValue dig flt = .error .valueError ↔ ¬ ∃ b, BoolText f.value.toList b) := by
  have hb : lastSegment c.dataType = "booleanItemType" := by simpa [Concept.isBoolean] using h
  have hi : c.isInteger = false := by
    simp only [Concept.isInteger, hb]; decide
  have hn : c.isNumeric = false := by
    simp only [Concept.isNumeric, hb]; decide
  have e : f.getValue dig flt = (match f.toBool with | .ok b => .ok (.bool b) | .error x => .error x) := by
    unfold Fact.getValue
    simp only [hc, hi, hn, h, bind, Except.bind, if_true, Bool.false_eq_true, if_false]
    cases f.toBool <;> rfl
  have t := toBool_true_iff f.value.toList
  have u := toBool_false_iff f.value.toList
  have dis : "TRUE".toList ≠ "FALSE".toList := by decide
  rw [e]
  unfold Fact.toBool
  by_cases h1 : pyUpper f.value.toList = "TRUE".toList
  · have h2 : ¬ pyUpper f.value.toList = "FALSE".toList := fun h2 => dis (h1.symm.trans h2)
    simp only [if_pos h1]
    refine ⟨?_, ?_⟩
    · intro b
      cases b
      · exact ⟨fun x => (by cases x), fun x => absurd (u.2 x) h2⟩
      · exact ⟨fun _ => t.1 h1, fun _ => rfl⟩
    · simp only [reduceCtorEq, false_iff, Classical.not_not]
      exact ⟨true, t.1 h1⟩
  · by_cases h2 : pyUpper f.value.toList = "FALSE".toList
    · simp only [if_neg h1, if_pos h2]
      refine ⟨?_, ?_⟩
      · intro b
        cases b
        · exact ⟨fun _ => u.1 h2, fun _ => rfl⟩
        · exact ⟨fun x => (by cases x), fun x => absurd (t.2 x) h1⟩
      · simp only [reduceCtorEq, false_iff, Classical.not_not]
        exact ⟨false, u.1 h2⟩
    · simp only [if_neg h1, if_neg h2]
      refine ⟨?_, ?_⟩
      · intro b
        cases b
        · exact ⟨fun x => (by cases x), fun x => absurd (u.2 x) h2⟩
        · exact ⟨fun x => (by cases x), fun x => absurd (t.2 x) h1⟩
      · simp only [true_iff]
        rintro ⟨b, hb⟩
        cases b
        · exact h2 (u.2 hb)
        · exact h1 (t.2 hb)

/-- C04. All other concepts: the text itself, never an error. -/
theorem C04_text (f : Fact) (c : Concept) (hc : f.getConcept = .ok c) (hn : c.isNumeric = false)
    (hb : c.isBoolean = false) : f.getValue dig flt = .ok (.str f.value) := by
  have hi : c.isInteger = false := by
    have sub : ∀ x ∈ integerTypes, x ∈ numericTypes := by decide
    cases hh : c.isInteger with
    | false => rfl
    | true =>
      have : c.isNumeric = true := by
        simp only [Concept.isNumeric, Concept.isInteger, decide_eq_true_eq] at *
        exact sub _ hh
      rw [hn] at this; cases this
  unfold Fact.getValue
  simp only [hc, hi, hn, hb, bind, Except.bind, Bool.false_eq_true, if_false]
  rfl

/-- C04. Integer concepts are numeric, and numeric concepts are never textual or boolean. -/
theorem C04_kinds (c : Concept) : (c.isInteger = true → c.isNumeric = true) ∧
    ¬ (c.isNumeric = true ∧ c.isTextual = true) ∧ ¬ (c.isNumeric = true ∧ c.isBoolean = true) := by
  have sub : ∀ x ∈ integerTypes, x ∈ numericTypes := by decide
  have dis : ∀ x ∈ numericTypes, x ∉ textualTypes := by decide
  have dis2 : "booleanItemType" ∉ numericTypes := by decide
  simp only [Concept.isInteger, Concept.isNumeric, Concept.isTextual, Concept.isBoolean, decide_eq_true_eq]
  refine ⟨sub _, fun h => dis _ h.1 h.2, ?_⟩
  rintro ⟨h1, h2⟩
  rw [h2] at h1
  exact dis2 h1

/-- C04. The standard item types, with any namespace prefix or none, announce the kind of value their schema base type has. -/
theorem C04_standard_types (c : Concept) (n : String) (k : ValueKind) (hn : (n, k) ∈ xbrlItemTypes)
    (hc : c.dataType = n ∨ ∃ p, c.dataType = p ++ ":" ++ n) :
    (c.isInteger = true ↔ k = .integer) ∧ (c.isNumeric = true ↔ (k = .integer ∨ k = .number)) ∧
    (c.isBoolean = true ↔ k = .boolean) := by
  have hcol : ∀ e ∈ xbrlItemTypes, ':' ∉ e.1.toList := by decide +kernel
  have tab : ∀ e ∈ xbrlItemTypes, ((e.1 ∈ integerTypes) ↔ e.2 = .integer) ∧
      ((e.1 ∈ numericTypes) ↔ (e.2 = .integer ∨ e.2 = .number)) ∧ ((e.1 = "booleanItemType") ↔ e.2 = .boolean) := by
    decide +kernel
  have hl : lastSegment c.dataType = n := by
    rcases hc with h | ⟨p, h⟩
    · rw [h]; exact lastSegment_plain n (hcol _ hn)
    · rw [h]; exact lastSegment_prefixed p n (hcol _ hn)
  simp only [Concept.isInteger, Concept.isNumeric, Concept.isBoolean, hl, decide_eq_true_eq]
  exact tab _ hn

/-- The ASCII digit table meets the assumptions on digit tables. -/
example : DigitTable asciiDigit := by
  have key : ∀ c d, asciiDigit c = some d → ∃ n : Fin 10, c = Char.ofNat (48 + n.val) ∧ d = n.val := by
    intro c d h
    unfold asciiDigit at h
    split at h
    · rename_i hc
      have h1 : 48 ≤ c.toNat := hc.1
      have h2 : c.toNat ≤ 57 := hc.2
      cases h
      refine ⟨⟨c.toNat - 48, by omega⟩, ?_, rfl⟩
      simp only
      rw [show 48 + (c.toNat - 48) = c.toNat by omega, Char.ofNat_toNat]
    · cases h
  have t1 : ∀ n : Fin 10, pySpace (Char.ofNat (48 + n.val)) = false := by decide
  have t2 : ∀ n : Fin 10, Char.ofNat (48 + n.val) ≠ '-' ∧ Char.ofNat (48 + n.val) ≠ '+' ∧ Char.ofNat (48 + n.val) ≠ '_' := by decide
  constructor
  · intro c d h; obtain ⟨n, rfl, rfl⟩ := key c d h; exact t1 n
  · intro c d h; obtain ⟨n, rfl, rfl⟩ := key c d h; exact t2 n
  · intro c d h; obtain ⟨n, rfl, rfl⟩ := key c d h; exact n.isLt

/-- A fact of an integer concept, one of a boolean concept and one of a text concept. -/
def C04_fact (ty v : String) : Fact :=
  { id := none, context := (Context.new "c").add (.ofConcept { name := ⟨"u", "p", "l"⟩, dataType := ty }), value := v }

example : (C04_fact "xbrli:integerItemType" " -1_000 ").getValue (F := Nat) asciiDigit (fun _ => none) = .ok (.int (-1000)) ∧
    (C04_fact "xbrli:integerItemType" "1.0").getValue (F := Nat) asciiDigit (fun _ => none) = .error .valueError ∧
    (C04_fact "booleanItemType" "tRue").getValue (F := Nat) asciiDigit (fun _ => none) = .ok (.bool true) ∧
    (C04_fact "a:b:stringItemType" "tRue").getValue (F := Nat) asciiDigit (fun _ => none) = .ok (.str "tRue") := by decide

end Brel
