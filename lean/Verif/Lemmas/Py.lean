import Verif.Py

namespace Brel

/-! ### Stable sort -/
section Sorting
variable {α : Type} {le : α → α → Bool}

theorem insertBy_perm (x : α) (l : List α) : (insertBy le x l).Perm (x :: l) := by
  induction l with
  | nil => exact List.Perm.refl _
  | cons y ys ih =>
    unfold insertBy
    split
    · exact List.Perm.refl _
    · exact (List.Perm.cons y ih).trans (List.Perm.swap x y ys)

theorem sortBy_perm (l : List α) : (sortBy le l).Perm l := by
  induction l with
  | nil => exact List.Perm.refl _
  | cons x xs ih => exact (insertBy_perm x _).trans (ih.cons x)

theorem mem_insertBy {x y : α} {l : List α} : y ∈ insertBy le x l ↔ y = x ∨ y ∈ l := by
  rw [(insertBy_perm x l).mem_iff, List.mem_cons]

theorem mem_sortBy {y : α} {l : List α} : y ∈ sortBy le l ↔ y ∈ l := (sortBy_perm l).mem_iff

theorem insertBy_sorted (tot : ∀ a b, le a b = true ∨ le b a = true)
    (tr : ∀ a b c, le a b = true → le b c = true → le a c = true) (x : α) (l : List α)
    (h : l.Pairwise (fun a b => le a b = true)) :
    (insertBy le x l).Pairwise (fun a b => le a b = true) := by
  induction l with
  | nil => simp [insertBy]
  | cons y ys ih =>
    unfold insertBy
    rw [List.pairwise_cons] at h
    split
    · rename_i hxy
      refine List.pairwise_cons.2 ⟨?_, List.pairwise_cons.2 h⟩
      intro b hb
      rcases List.mem_cons.1 hb with rfl | hb
      · exact hxy
      · exact tr _ _ _ hxy (h.1 b hb)
    · rename_i hxy
      refine List.pairwise_cons.2 ⟨?_, ih h.2⟩
      intro b hb
      rcases mem_insertBy.1 hb with rfl | hb
      · exact (tot _ _).resolve_left hxy
      · exact h.1 b hb

theorem sortBy_sorted (tot : ∀ a b, le a b = true ∨ le b a = true)
    (tr : ∀ a b c, le a b = true → le b c = true → le a c = true) (l : List α) :
    (sortBy le l).Pairwise (fun a b => le a b = true) := by
  induction l with
  | nil => simp [sortBy]
  | cons x xs ih => exact insertBy_sorted tot tr x _ ih

/-- Stability: elements selected by `p` keep their relative order when all of them are mutually `le`. -/
theorem insertBy_filter (p : α → Bool) (x : α) (l : List α)
    (hx : p x = true → ∀ y ∈ l, p y = true → le x y = true) :
    (insertBy le x l).filter p = (x :: l).filter p := by
  induction l with
  | nil => rfl
  | cons y ys ih =>
    unfold insertBy
    split
    · rfl
    · rename_i hxy
      have ih' := ih (fun hp z hz => hx hp z (List.mem_cons_of_mem _ hz))
      rw [List.filter_cons, ih']
      by_cases hpx : p x = true
      · by_cases hpy : p y = true
        · exact absurd (hx hpx y (List.mem_cons_self ..) hpy) hxy
        · simp [hpx, hpy]
      · simp [List.filter_cons, hpx]

theorem sortBy_filter (p : α → Bool) (l : List α)
    (h : ∀ x ∈ l, ∀ y ∈ l, p x = true → p y = true → le x y = true) :
    (sortBy le l).filter p = l.filter p := by
  induction l with
  | nil => rfl
  | cons x xs ih =>
    unfold sortBy
    rw [insertBy_filter]
    · rw [List.filter_cons, List.filter_cons, ih]
      intro a ha b hb
      exact h a (List.mem_cons_of_mem _ ha) b (List.mem_cons_of_mem _ hb)
    · intro hp y hy hpy
      exact h x (List.mem_cons_self ..) y (List.mem_cons_of_mem _ (mem_sortBy.1 hy)) hp hpy

end Sorting

/-! ### Dictionaries -/
namespace Dict
variable {κ β : Type} [DecidableEq κ]

@[simp] theorem get?_nil (k : κ) : get? ([] : Dict κ β) k = none := rfl

theorem get?_cons (k' : κ) (v' : β) (d : Dict κ β) (k : κ) :
    get? ((k', v') :: d) k = if k' = k then some v' else get? d k := by
  unfold get?
  by_cases h : k' = k <;> simp [h]

@[simp] theorem get?_set (d : Dict κ β) (k k' : κ) (v : β) :
    (d.set k v).get? k' = if k = k' then some v else d.get? k' := by
  induction d with
  | nil => simp [set, get?_cons]
  | cons e d ih =>
    obtain ⟨a, b⟩ := e
    unfold set
    split
    · rename_i h
      subst h
      simp only [get?_cons]
      split <;> simp_all
    · rename_i h
      simp only [get?_cons, ih]
      split
      · rename_i h2
        subst h2
        simp [Ne.symm h]
      · rfl

theorem has_eq (d : Dict κ β) (k : κ) : d.has k = (d.get? k).isSome := by
  induction d with
  | nil => rfl
  | cons e d ih =>
    obtain ⟨a, b⟩ := e
    rw [get?_cons]
    unfold has at *
    by_cases h : a = k <;> simp [h, ih]

theorem has_iff_mem_keys (d : Dict κ β) (k : κ) : d.has k = true ↔ k ∈ d.keys := by
  simp [has, keys]

theorem get?_eq_none_iff (d : Dict κ β) (k : κ) : d.get? k = none ↔ k ∉ d.keys := by
  rw [← has_iff_mem_keys, has_eq]
  cases d.get? k <;> simp

theorem keys_set (d : Dict κ β) (k : κ) (v : β) :
    (d.set k v).keys = appendNew d.keys k := by
  induction d with
  | nil => simp [set, keys, appendNew]
  | cons e d ih =>
    obtain ⟨a, b⟩ := e
    unfold set
    by_cases h : a = k
    · subst h; simp [keys, appendNew]
    · simp only [keys, appendNew, List.map_cons, if_neg h, List.mem_cons] at *
      rw [ih]
      have : (k = a) = False := by simp [Ne.symm h]
      simp only [this, false_or]
      by_cases hk : k ∈ List.map (fun x => x.fst) d <;> simp [hk]

theorem mem_get? (d : Dict κ β) {k : κ} {v : β} (h : d.get? k = some v) : (k, v) ∈ d := by
  induction d with
  | nil => simp at h
  | cons e d ih =>
    obtain ⟨a, b⟩ := e
    rw [get?_cons] at h
    split at h
    · rename_i hk; subst hk; cases h; exact List.mem_cons_self ..
    · exact List.mem_cons_of_mem _ (ih h)

theorem get?_of_mem (d : Dict κ β) (nd : d.keys.Nodup) {k : κ} {v : β} (h : (k, v) ∈ d) :
    d.get? k = some v := by
  induction d with
  | nil => simp at h
  | cons e d ih =>
    obtain ⟨a, b⟩ := e
    rw [get?_cons]
    simp only [keys, List.map_cons, List.nodup_cons] at nd
    rcases List.mem_cons.1 h with h | h
    · cases h; simp
    · have : a ≠ k := by
        rintro rfl
        exact nd.1 (List.mem_map.2 ⟨(a, v), h, rfl⟩)
      simp [this, ih nd.2 h]

theorem set_of_not_mem (d : Dict κ β) (k : κ) (v : β) (h : k ∉ d.keys) :
    d.set k v = d ++ [(k, v)] := by
  induction d with
  | nil => rfl
  | cons e d ih =>
    obtain ⟨a, b⟩ := e
    simp only [keys, List.map_cons, List.mem_cons, not_or] at h
    unfold set
    rw [if_neg (Ne.symm h.1), ih h.2]; rfl

end Dict

theorem mem_appendNew {α : Type} [DecidableEq α] {l : List α} {x y : α} :
    y ∈ appendNew l x ↔ y ∈ l ∨ y = x := by
  unfold appendNew
  split
  · rename_i h
    constructor
    · exact Or.inl
    · rintro (h' | rfl)
      · exact h'
      · exact h
  · simp

theorem nodup_appendNew {α : Type} [DecidableEq α] {l : List α} {x : α} (h : l.Nodup) :
    (appendNew l x).Nodup := by
  unfold appendNew
  split
  · exact h
  · rename_i hx
    rw [List.nodup_append]
    refine ⟨h, by simp, ?_⟩
    intro a ha b hb
    simp at hb
    subst hb
    rintro rfl
    exact hx ha

theorem Dict.keys_set_nodup {κ β : Type} [DecidableEq κ] {d : Dict κ β} (h : d.keys.Nodup) (k : κ) (v : β) :
    (d.set k v).keys.Nodup := by
  rw [Dict.keys_set]; exact nodup_appendNew h

/-- Appending unseen elements one by one is first-occurrence deduplication. -/
theorem foldl_appendNew_nodup {α : Type} [DecidableEq α] (l : List α) :
    ∀ acc : List α, acc.Nodup → (l.foldl appendNew acc).Nodup := by
  induction l with
  | nil => exact fun _ h => h
  | cons x xs ih => exact fun acc h => ih _ (nodup_appendNew h)

theorem mem_foldl_appendNew {α : Type} [DecidableEq α] (l : List α) :
    ∀ (acc : List α) (y : α), y ∈ l.foldl appendNew acc ↔ y ∈ acc ∨ y ∈ l := by
  induction l with
  | nil => simp
  | cons x xs ih =>
    intro acc y
    rw [List.foldl_cons, ih, mem_appendNew, List.mem_cons]
    exact or_assoc

theorem inj_on_of_nodup_map {α β : Type} {f : α → β} {l : List α} (h : (l.map f).Nodup) {a b : α} (ha : a ∈ l) (hb : b ∈ l) (e : f a = f b) : a = b := by
  induction l with
  | nil => cases ha
  | cons x xs ih =>
    rw [List.map_cons, List.nodup_cons] at h
    rcases List.mem_cons.1 ha with ha' | ha' <;> rcases List.mem_cons.1 hb with hb' | hb'
    · rw [ha', hb']
    · exact absurd (List.mem_map.2 ⟨b, hb', e.symm.trans (ha' ▸ rfl)⟩) h.1
    · exact absurd (List.mem_map.2 ⟨a, ha', e.trans (hb' ▸ rfl)⟩) h.1
    · exact ih h.2 ha' hb'

theorem endsWith_iff (s p : List Char) : endsWith s p = true ↔ p <:+ s := by
  unfold endsWith
  rw [List.isPrefixOf_iff_prefix, List.reverse_prefix]

end Brel
