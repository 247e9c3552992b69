import Verif.Spec.Common
import Verif.Lemmas.Py

/-! Histories of dictionary assignments and of "append unless present". -/

namespace Brel
variable {α κ β : Type} [DecidableEq κ]

theorem mem_firstByKey (k : α → κ) (l : List α) (x : α) :
    x ∈ firstByKey k l ↔ ∃ pre post, l = pre ++ x :: post ∧ ∀ y ∈ pre, k y ≠ k x := by
  induction l with
  | nil => simp [firstByKey]
  | cons a l ih =>
    simp only [firstByKey, List.mem_cons, List.mem_filter, ih, decide_eq_true_eq]
    constructor
    · rintro (rfl | ⟨⟨pre, post, rfl, h⟩, hne⟩)
      · exact ⟨[], l, rfl, by simp⟩
      · refine ⟨a :: pre, post, rfl, ?_⟩
        intro y hy
        rcases List.mem_cons.1 hy with rfl | hy
        · exact fun e => hne e.symm
        · exact h y hy
    · rintro ⟨pre, post, e, h⟩
      cases pre with
      | nil => simp at e; exact Or.inl e.1.symm
      | cons b pre =>
        simp only [List.cons_append, List.cons.injEq] at e
        obtain ⟨rfl, rfl⟩ := e
        refine Or.inr ⟨⟨pre, post, rfl, fun y hy => h y (List.mem_cons_of_mem _ hy)⟩, ?_⟩
        exact fun e => h a List.mem_cons_self e.symm

theorem firstByKey_keys_nodup (k : α → κ) (l : List α) : ((firstByKey k l).map k).Nodup := by
  induction l with
  | nil => simp [firstByKey]
  | cons a l ih =>
    simp only [firstByKey, List.map_cons, List.nodup_cons]
    refine ⟨?_, ?_⟩
    · intro h
      obtain ⟨y, hy, e⟩ := List.mem_map.1 h
      have := (List.mem_filter.1 hy).2
      simp at this
      exact this e
    · exact List.Pairwise.sublist (List.Sublist.map k List.filter_sublist) ih

theorem firstByKey_key_mem (k : α → κ) (l : List α) (x : α) (h : x ∈ l) : ∃ y ∈ firstByKey k l, k y = k x := by
  induction l with
  | nil => cases h
  | cons a l ih =>
    simp only [firstByKey, List.mem_cons, List.mem_filter, decide_eq_true_eq]
    by_cases e : k a = k x
    · exact ⟨a, Or.inl rfl, e⟩
    · rcases List.mem_cons.1 h with rfl | h
      · exact absurd rfl e
      · obtain ⟨y, hy, hk⟩ := ih h
        exact ⟨y, Or.inr ⟨hy, by rw [hk]; exact fun e' => e e'.symm⟩, hk⟩

theorem firstByKey_append (k : α → κ) (l m : List α) :
    firstByKey k (l ++ m) = firstByKey k l ++ (firstByKey k m).filter (fun y => k y ∉ l.map k) := by
  induction l with
  | nil =>
    simp only [List.nil_append, firstByKey, List.map_nil]
    exact (List.filter_eq_self.2 (by simp)).symm
  | cons a l ih =>
    simp only [List.cons_append, firstByKey, ih, List.filter_append, List.filter_filter, List.map_cons, List.mem_cons]
    congr 2
    apply List.filter_congr
    intro y _
    by_cases h1 : k y = k a <;> by_cases h2 : k y ∈ l.map k <;> simp [h1, h2]

theorem mem_firstOccurrences [DecidableEq α] (l : List α) (x : α) : x ∈ firstOccurrences l ↔ x ∈ l := by
  unfold firstOccurrences
  constructor
  · intro h
    obtain ⟨pre, post, rfl, _⟩ := (mem_firstByKey id l x).1 h
    simp
  · intro h
    obtain ⟨y, hy, e⟩ := firstByKey_key_mem id l x h
    have e : y = x := e
    exact e ▸ hy

theorem firstOccurrences_nodup [DecidableEq α] (l : List α) : (firstOccurrences l).Nodup := by
  have := firstByKey_keys_nodup id l
  simpa [firstOccurrences] using this

theorem firstOccurrences_append [DecidableEq α] (l m : List α) :
    firstOccurrences (l ++ m) = firstOccurrences l ++ (firstOccurrences m).filter (fun y => y ∉ l) := by
  have := firstByKey_append id l m
  simpa [firstOccurrences] using this

theorem firstOccurrences_of_nodup [DecidableEq α] (l : List α) (h : l.Nodup) : firstOccurrences l = l := by
  induction l with
  | nil => rfl
  | cons a l ih =>
    obtain ⟨h1, h2⟩ := List.nodup_cons.1 h
    show a :: (firstOccurrences l).filter _ = _
    rw [ih h2]
    congr 1
    apply List.filter_eq_self.2
    intro y hy
    simp
    rintro rfl
    exact h1 hy

theorem foldl_appendNew_eq [DecidableEq α] (l : List α) (acc : List α) :
    l.foldl appendNew acc = acc ++ (firstOccurrences l).filter (fun y => y ∉ acc) := by
  induction l generalizing acc with
  | nil => simp [firstOccurrences, firstByKey]
  | cons a l ih =>
    rw [List.foldl_cons, ih]
    have e : firstOccurrences (a :: l) = a :: (firstOccurrences l).filter (fun y => y ≠ a) := rfl
    rw [e]
    unfold appendNew
    by_cases h : a ∈ acc
    · simp only [h, if_true, List.filter_cons, not_true_eq_false, decide_false, Bool.false_eq_true, if_false, List.filter_filter]
      congr 1
      apply List.filter_congr
      intro y _
      by_cases h2 : y = a
      · subst h2; simp [h]
      · simp [h2]
    · simp only [h, if_false, List.filter_cons, not_false_eq_true, decide_true, if_true, List.append_assoc, List.singleton_append,
        List.filter_filter]
      congr 2
      apply List.filter_congr
      intro y _
      by_cases h2 : y = a
      · subst h2; simp
      · simp [h2]

theorem foldl_appendNew_nil [DecidableEq α] (l : List α) : l.foldl appendNew [] = firstOccurrences l := by
  rw [foldl_appendNew_eq]; simp

theorem latest_nil (k : α → κ) (i : κ) : latest k ([] : List α) i = none := rfl

theorem latest_append (k : α → κ) (l m : List α) (i : κ) :
    latest k (l ++ m) i = (latest k m i).or (latest k l i) := by
  simp [latest, List.find?_append]

theorem latest_cons (k : α → κ) (x : α) (l : List α) (i : κ) :
    latest k (x :: l) i = (latest k l i).or (if k x = i then some x else none) := by
  have := latest_append k [x] l i
  simp only [List.singleton_append] at this
  rw [this]
  congr 1
  unfold latest
  by_cases h : k x = i <;> simp [h]

theorem latest_some (k : α → κ) (l : List α) (i : κ) (x : α) (h : latest k l i = some x) : x ∈ l ∧ k x = i := by
  unfold latest at h
  have h1 := List.find?_some h
  have h2 := List.mem_of_find?_eq_some h
  exact ⟨by simpa using h2, by simpa using h1⟩

theorem latest_none (k : α → κ) (l : List α) (i : κ) : latest k l i = none ↔ ∀ x ∈ l, k x ≠ i := by
  unfold latest
  rw [List.find?_eq_none]
  simp

theorem latest_eq_some_iff (k : α → κ) (l : List α) (i : κ) (x : α) :
    latest k l i = some x ↔ ∃ pre post, l = pre ++ x :: post ∧ k x = i ∧ ∀ y ∈ post, k y ≠ i := by
  constructor
  · intro h
    unfold latest at h
    obtain ⟨h1, as, bs, e, hb⟩ := List.find?_eq_some_iff_append.1 h
    refine ⟨bs.reverse, as.reverse, ?_, by simpa using h1, ?_⟩
    · have := congrArg List.reverse e
      simpa using this
    · intro y hy
      have := hb y (by simpa using hy)
      simpa using this
  · rintro ⟨pre, post, rfl, h1, h2⟩
    rw [latest_append, latest_cons, (latest_none k post i).2 h2]
    simp [h1]

/-- Value stored after a history of assignments. -/
theorem foldl_set_get? (k : α → κ) (v : α → β) (hs : List α) (d : Dict κ β) (i : κ) :
    Dict.get? (hs.foldl (fun d x => Dict.set d (k x) (v x)) d) i =
      match latest k hs i with
      | some x => some (v x)
      | none => Dict.get? d i := by
  induction hs generalizing d with
  | nil => rfl
  | cons x hs ih =>
    rw [List.foldl_cons, ih, latest_cons]
    cases h : latest k hs i with
    | some y => rfl
    | none =>
      simp only [Dict.get?_set, Option.none_or]
      by_cases e : k x = i <;> simp [e]

theorem foldl_set_keys (k : α → κ) (v : α → β) (hs : List α) (d : Dict κ β) :
    Dict.keys (hs.foldl (fun d x => Dict.set d (k x) (v x)) d) = (hs.map k).foldl appendNew (Dict.keys d) := by
  induction hs generalizing d with
  | nil => rfl
  | cons x hs ih =>
    rw [List.foldl_cons, ih, List.map_cons, List.foldl_cons]
    congr 1
    rw [Dict.keys_set]

omit [DecidableEq κ] in
theorem filterMap_congr' (f g : κ → Option β) (l : List κ) (h : ∀ x ∈ l, f x = g x) : l.filterMap f = l.filterMap g := by
  induction l with
  | nil => rfl
  | cons a l ih =>
    simp only [List.filterMap_cons, h a List.mem_cons_self, ih (fun x hx => h x (List.mem_cons_of_mem _ hx))]

theorem values_eq (d : Dict κ β) (h : (Dict.keys d).Nodup) : Dict.values d = (Dict.keys d).filterMap (Dict.get? d) := by
  induction d with
  | nil => rfl
  | cons e d ih =>
    obtain ⟨k, v⟩ := e
    simp only [Dict.keys, List.map_cons, List.nodup_cons] at h
    simp only [Dict.values, Dict.keys, List.map_cons, List.filterMap_cons]
    have : Dict.get? ((k, v) :: d) k = some v := by simp [Dict.get?_cons]
    rw [this]
    congr 1
    have ih' := ih h.2
    simp only [Dict.values, Dict.keys] at ih'
    rw [ih']
    apply filterMap_congr'
    intro x hx
    have : k ≠ x := fun e => h.1 (e ▸ hx)
    simp [Dict.get?_cons, this]

end Brel
