import Verif.Model.Equality
import Verif.Lemmas.DateText
/-!
# C114: what is equal means the same
-/
namespace Brel

/-- A date of Python's `datetime`. -/
def Date.Exists (d : Date) : Prop := 1 ≤ d.year ∧ d.year ≤ 9999 ∧ 1 ≤ d.month ∧ d.month ≤ 12 ∧ 1 ≤ d.day ∧ d.day ≤ 31

/-- The dates of a period. -/
def Period.dates : Period → List Date
  | .instant d => [d]
  | .duration s e => [s, e]

theorem decimalDigit_inj {n m k : Nat} (h : decimalDigit n k = decimalDigit m k) : n / 10 ^ k % 10 = m / 10 ^ k % 10 := by
  have key : ∀ a b : Fin 10, Char.ofNat (48 + a.1) = Char.ofNat (48 + b.1) → a.1 = b.1 := by decide
  exact key ⟨n / 10 ^ k % 10, Nat.mod_lt _ (by omega)⟩ ⟨m / 10 ^ k % 10, Nat.mod_lt _ (by omega)⟩ h

theorem dateText_inj {a b : Date} (ha : a.Exists) (hb : b.Exists) (h : a.text = b.text) : a = b := by
  obtain ⟨y, m, d⟩ := a
  obtain ⟨y', m', d'⟩ := b
  simp only [Date.Exists] at ha hb
  simp only [Date.text, List.cons.injEq, and_true, true_and] at h
  obtain ⟨h1, h2, h3, h4, h5, h6, h7, h8⟩ := h
  have h1 := decimalDigit_inj h1
  have h2 := decimalDigit_inj h2
  have h3 := decimalDigit_inj h3
  have h4 := decimalDigit_inj h4
  have h5 := decimalDigit_inj h5
  have h6 := decimalDigit_inj h6
  have h7 := decimalDigit_inj h7
  have h8 := decimalDigit_inj h8
  simp only [Nat.reducePow] at h1 h2 h3 h4 h5 h6 h7 h8
  have e1 : y = y' := by omega
  have e2 : m = m' := by omega
  have e3 : d = d' := by omega
  subst e1 e2 e3
  rfl

/-- Two periods are equal exactly when they are both instants or both durations, of the same dates, although the code compares texts. -/
theorem C114_period {p q : Period} (hp : ∀ d ∈ p.dates, d.Exists) (hq : ∀ d ∈ q.dates, d.Exists) : p.pyEq q = true ↔ p = q := by
  constructor
  · intro h
    simp only [Period.pyEq, decide_eq_true_eq] at h
    cases p with
    | instant a =>
      cases q with
      | instant b => rw [dateText_inj (hp a (by simp [Period.dates])) (hq b (by simp [Period.dates])) h]
      | duration s e =>
        have := congrArg List.length h
        simp [Period.text, Date.text] at this
    | duration a b =>
      cases q with
      | instant d =>
        have := congrArg List.length h
        simp [Period.text, Date.text] at this
      | duration s e =>
        have h1 : a.text = s.text := by
          have := congrArg (List.take 10) h
          simpa [Period.text, Date.text] using this
        have h2 : b.text = e.text := by
          have := congrArg (List.drop 11) h
          simpa [Period.text, Date.text] using this
        rw [dateText_inj (hp a (by simp [Period.dates])) (hq s (by simp [Period.dates])) h1, dateText_inj (hp b (by simp [Period.dates])) (hq e (by simp [Period.dates])) h2]
  · rintro rfl
    simp [Period.pyEq]

/-- Comparing characteristics is symmetric and transitive, and every characteristic but that of a concept equals itself. -/
theorem C114_equivalence : (∀ a b : Characteristic, a.pyEq b = b.pyEq a) ∧ (∀ a b c : Characteristic, a.pyEq b = true → b.pyEq c = true → a.pyEq c = true) ∧
    ∀ a : Characteristic, (∀ c, a.value ≠ .concept c) → a.pyEq a = true := by
  refine ⟨?_, ?_, ?_⟩
  · rintro ⟨a, v⟩ ⟨b, w⟩
    cases v <;> cases w <;> simp [Characteristic.pyEq, Aspect.eq, eq_comm, Bool.and_comm]
  · rintro ⟨a, v⟩ ⟨b, w⟩ ⟨c, x⟩
    cases v <;> cases w <;> cases x <;> simp +contextual [Characteristic.pyEq, Aspect.eq]
  · rintro ⟨a, v⟩ h
    cases v <;> simp_all [Characteristic.pyEq, Aspect.eq]

theorem split_at_stop {c : Char} : ∀ {a b x y : List Char}, c ∉ a → c ∉ b → a ++ c :: x = b ++ c :: y → a = b ∧ x = y := by
  intro a
  induction a with
  | nil =>
    intro b x y _ hb h
    cases b with
    | nil => exact ⟨rfl, by simpa using h⟩
    | cons d b => simp only [List.nil_append, List.cons_append, List.cons.injEq] at h; exact absurd (h.1 ▸ List.mem_cons_self) hb
  | cons d a ih =>
    intro b x y ha hb h
    cases b with
    | nil => simp only [List.nil_append, List.cons_append, List.cons.injEq] at h; exact absurd (h.1 ▸ List.mem_cons_self) ha
    | cons d' b =>
      simp only [List.cons_append, List.cons.injEq] at h
      obtain ⟨h1, h2⟩ := ih (fun hm => ha (List.mem_cons_of_mem _ hm)) (fun hm => hb (List.mem_cons_of_mem _ hm)) h.2
      exact ⟨by rw [h.1, h1], h2⟩

/-- Entities whose schemes have no closing brace, as no URI has, are equal exactly when scheme and identifier agree. -/
theorem C114_entity_partial {i s j t : String} (hs : '}' ∉ s.toList) (ht : '}' ∉ t.toList) :
    (Characteristic.ofEntity i s).pyEq (Characteristic.ofEntity j t) = true ↔ i = j ∧ s = t := by
  simp only [Characteristic.ofEntity, Characteristic.pyEq, decide_eq_true_eq]
  constructor
  · intro h
    have := congrArg String.toList h
    simp only [String.toList_append] at this
    have h2 : s.toList ++ '}' :: i.toList = t.toList ++ '}' :: j.toList := by simpa using this
    obtain ⟨h3, h4⟩ := split_at_stop hs ht h2
    exact ⟨String.toList_injective h4, String.toList_injective h3⟩
  · rintro ⟨rfl, rfl⟩; rfl

/-- C114 fails: for all texts, the entity `b}c` of scheme `a` equals the entity `c` of scheme `a}b`. -/
theorem C114_entity_false (a b c : String) : (Characteristic.ofEntity (b ++ "}" ++ c) a).pyEq (Characteristic.ofEntity c (a ++ "}" ++ b)) = true := by
  simp [Characteristic.ofEntity, Characteristic.pyEq, String.append_assoc]

/-- C114 fails: units are compared by the ids they have in their document: whatever the measures are, units of the same id are equal, and units of different ids are not. -/
theorem C114_unit_false (n m : String) (hne : n ≠ m) (nums dens nums' dens' : List QName) :
    (Characteristic.ofUnit n nums dens).pyEq (Characteristic.ofUnit n nums' dens') = true ∧ (Characteristic.ofUnit n nums dens).pyEq (Characteristic.ofUnit m nums dens) = false := by
  simp [Characteristic.ofUnit, Characteristic.pyEq, hne]

/-- C114 fails: contexts are compared by their ids: adding any characteristics to the contexts of two facts leaves them equal, and contexts with all characteristics in common but different ids are not equal. -/
theorem C114_context_false (id id' : String) (hne : id ≠ id') (cs ds : List Characteristic) :
    (cs.foldl Context.add (Context.new id)).pyEq (ds.foldl Context.add (Context.new id)) = true ∧
    (cs.foldl Context.add (Context.new id)).pyEq (cs.foldl Context.add (Context.new id')) = false := by
  have key : ∀ (cs : List Characteristic) (x : Context), (cs.foldl Context.add x).id = x.id := by
    intro cs
    induction cs with
    | nil => intro x; rfl
    | cons c cs ih =>
      intro x
      rw [List.foldl_cons, ih]
      unfold Context.add
      split <;> rfl
  simp [Context.pyEq, key, Context.new, hne]

/-- Concepts are equal exactly when they have the same name; within a filing there is one concept of each name (C22). -/
theorem C114_concept_partial (a b : Concept) : a.eq b = true ↔ a.name.uri = b.name.uri ∧ a.name.localName = b.name.localName ∧ a.name.pfx = b.name.pfx := by
  obtain ⟨⟨u, p, l⟩, _⟩ := a
  obtain ⟨⟨u', p', l'⟩, _⟩ := b
  simp only [Concept.eq, decide_eq_true_eq, QName.mk.injEq]
  constructor
  · rintro ⟨h1, h2, h3⟩; exact ⟨h1, h3, h2⟩
  · rintro ⟨h1, h2, h3⟩; exact ⟨h1, h3, h2⟩

/-- C114 fails: concepts of the same namespace and local name are not equal when their documents use different prefixes. -/
theorem C114_concept_false (u l p q : String) (hne : p ≠ q) (a b : Concept) (ha : a.name = ⟨u, p, l⟩) (hb : b.name = ⟨u, q, l⟩) : a.eq b = false := by
  simp [Concept.eq, ha, hb, hne]

/-- The hypotheses are met: a date, two different periods, and two different entities that are equal. -/
example : (⟨2023, 12, 31⟩ : Date).Exists ∧ (Period.instant ⟨2023, 12, 31⟩).pyEq (.duration ⟨2023, 1, 1⟩ ⟨2023, 12, 31⟩) = false ∧
    (Period.duration ⟨2023, 1, 1⟩ ⟨2023, 12, 31⟩).text = "2023-01-01/2023-12-31".toList := by
  refine ⟨by simp [Date.Exists], by decide +kernel, by decide +kernel⟩

end Brel
