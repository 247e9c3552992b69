import Verif.Spec.Repos
import Verif.Lemmas.History

namespace Brel

/-! ### Facts -/

/-- The facts of a history that carry an id, with it. -/
def withIds (hs : List Fact) : List (String × Fact) := hs.filterMap (fun f => f.id.map (fun i => (i, f)))

theorem FactStore.run_byId (hs : List Fact) (s : FactStore) :
    (hs.foldl FactStore.upsert s).byId = (withIds hs).foldl (fun d x => Dict.set d x.1 x.2) s.byId := by
  induction hs generalizing s with
  | nil => rfl
  | cons f hs ih =>
    rw [List.foldl_cons, ih]
    unfold FactStore.upsert withIds
    cases h : f.id with
    | none => simp [h]
    | some i => simp [h]

theorem withIds_latest (hs : List Fact) (i : String) :
    (latest (·.1) (withIds hs) i).map (·.2) = latest (·.id) hs (some i) := by
  induction hs with
  | nil => rfl
  | cons f hs ih =>
    rw [latest_cons]
    unfold withIds
    cases h : f.id with
    | none =>
      simp only [List.filterMap_cons, h, Option.map_none]
      have : withIds hs = List.filterMap (fun f => Option.map (fun i => (i, f)) f.id) hs := rfl
      rw [← this, ih]; simp
    | some j =>
      simp only [List.filterMap_cons, h, Option.map_some]
      have : withIds hs = List.filterMap (fun f => Option.map (fun i => (i, f)) f.id) hs := rfl
      rw [← this, latest_cons, ← ih]
      cases latest (fun x => x.fst) (withIds hs) i <;> simp

theorem FactStore.run_get? (hs : List Fact) (i : String) :
    (FactStore.run hs).byId.get? i = latest (·.id) hs (some i) := by
  unfold FactStore.run
  rw [FactStore.run_byId, foldl_set_get? (fun x : String × Fact => x.1) (fun x => x.2), ← withIds_latest]
  cases latest (fun x => x.fst) (withIds hs) i <;> rfl

theorem withIds_keys (hs : List Fact) : (withIds hs).map (·.1) = hs.filterMap (·.id) := by
  unfold withIds
  rw [List.map_filterMap]
  congr 1
  funext f
  cases f.id <;> rfl

theorem FactStore.run_keys (hs : List Fact) :
    (FactStore.run hs).byId.keys = firstOccurrences (hs.filterMap (·.id)) := by
  unfold FactStore.run
  rw [FactStore.run_byId, foldl_set_keys (fun x : String × Fact => x.1) (fun x => x.2), withIds_keys]
  exact foldl_appendNew_nil _

/-! ### Report elements -/

/-- The elements of a history that carry an id, with it. -/
def elemsWithIds (hs : List ReportElement) : List (String × ReportElement) := hs.filterMap (fun f => f.id.map (fun i => (i, f)))

theorem ElemStore.run_byName (hs : List ReportElement) (s : ElemStore) :
    (hs.foldl ElemStore.upsert s).byName = hs.foldl (fun d x => Dict.set d x.name x) s.byName := by
  induction hs generalizing s with
  | nil => rfl
  | cons f hs ih =>
    rw [List.foldl_cons, List.foldl_cons, ih]
    unfold ElemStore.upsert
    cases h : f.id <;> rfl

theorem ElemStore.run_byId (hs : List ReportElement) (s : ElemStore) :
    (hs.foldl ElemStore.upsert s).byId = (elemsWithIds hs).foldl (fun d x => Dict.set d x.1 x.2) s.byId := by
  induction hs generalizing s with
  | nil => rfl
  | cons f hs ih =>
    rw [List.foldl_cons, ih]
    unfold ElemStore.upsert elemsWithIds
    cases h : f.id with
    | none => simp [h]
    | some i => simp [h]

theorem elemsWithIds_latest (hs : List ReportElement) (i : String) :
    (latest (·.1) (elemsWithIds hs) i).map (·.2) = latest (·.id) hs (some i) := by
  induction hs with
  | nil => rfl
  | cons f hs ih =>
    rw [latest_cons]
    unfold elemsWithIds
    have e : elemsWithIds hs = List.filterMap (fun f => Option.map (fun i => (i, f)) f.id) hs := rfl
    cases h : f.id with
    | none =>
      simp only [List.filterMap_cons, h, Option.map_none]
      rw [← e, ih]; simp
    | some j =>
      simp only [List.filterMap_cons, h, Option.map_some]
      rw [← e, latest_cons, ← ih]
      cases latest (fun x => x.fst) (elemsWithIds hs) i <;> simp

theorem ElemStore.run_get?_name (hs : List ReportElement) (q : QName) :
    (ElemStore.run hs).byName.get? q = latest (·.name) hs q := by
  unfold ElemStore.run
  rw [ElemStore.run_byName, foldl_set_get? (fun x : ReportElement => x.name) (fun x => x)]
  cases latest (fun x : ReportElement => x.name) hs q <;> rfl

theorem ElemStore.run_get?_id (hs : List ReportElement) (i : String) :
    (ElemStore.run hs).byId.get? i = latest (·.id) hs (some i) := by
  unfold ElemStore.run
  rw [ElemStore.run_byId, foldl_set_get? (fun x : String × ReportElement => x.1) (fun x => x.2), ← elemsWithIds_latest]
  cases latest (fun x => x.fst) (elemsWithIds hs) i <;> rfl

theorem ElemStore.run_keys (hs : List ReportElement) :
    (ElemStore.run hs).byName.keys = firstOccurrences (hs.map (·.name)) := by
  unfold ElemStore.run
  rw [ElemStore.run_byName, foldl_set_keys (fun x : ReportElement => x.name) (fun x => x)]
  exact foldl_appendNew_nil _

theorem ElemStore.getByQName_eq (s : ElemStore) (q : QName) :
    s.getByQName q = match s.byName.get? q with | some e => .ok e | none => .error .keyError := by
  unfold ElemStore.getByQName ElemStore.hasQName Dict.get
  rw [Dict.has_eq]
  cases s.byName.get? q <;> rfl

theorem ElemStore.getById_eq (s : ElemStore) (i : String) :
    s.getById i = match s.byId.get? i with | some e => .ok e | none => .error .keyError := by
  unfold ElemStore.getById ElemStore.hasId Dict.get
  rw [Dict.has_eq]
  cases s.byId.get? i <;> rfl

theorem ElemStore.getAll_eq (hs : List ReportElement) :
    (ElemStore.run hs).getAll = (firstOccurrences (hs.map (·.name))).filterMap (latest (·.name) hs) := by
  unfold ElemStore.getAll
  rw [values_eq, ElemStore.run_keys]
  · congr 1
    funext q
    exact ElemStore.run_get?_name hs q
  · rw [ElemStore.run_keys]; exact firstOccurrences_nodup _

/-! ### Namespaces -/

theorem multiAdd_getD (d : Dict String (List String)) (k v k' : String) :
    (Dict.get? (multiAdd d k v) k').getD [] =
      if k' = k then appendNew ((Dict.get? d k').getD []) v else (Dict.get? d k').getD [] := by
  unfold multiAdd
  rw [Dict.get?_set]
  by_cases h : k' = k
  · subst h; simp
  · have : ¬ k = k' := fun e => h e.symm
    simp [h, this]

theorem NsStore.mem_uris (hs : List (String × String)) (s : NsStore) (p u : String) :
    u ∈ (hs.foldl NsStore.upsert s).getUris p ↔ (u ∈ s.getUris p ∨ (p, u) ∈ hs) := by
  induction hs generalizing s with
  | nil => simp
  | cons x hs ih =>
    obtain ⟨a, b⟩ := x
    rw [List.foldl_cons, ih]
    unfold NsStore.getUris NsStore.upsert
    simp only [multiAdd_getD]
    by_cases h : p = a
    · subst h
      simp only [if_true, mem_appendNew, List.mem_cons, Prod.mk.injEq, true_and]
      exact or_assoc
    · simp [h]

theorem NsStore.mem_prefixes (hs : List (String × String)) (s : NsStore) (p u : String) :
    p ∈ (hs.foldl NsStore.upsert s).getPrefixes u ↔ (p ∈ s.getPrefixes u ∨ (p, u) ∈ hs) := by
  induction hs generalizing s with
  | nil => simp
  | cons x hs ih =>
    obtain ⟨a, b⟩ := x
    rw [List.foldl_cons, ih]
    unfold NsStore.getPrefixes NsStore.upsert
    simp only [multiAdd_getD]
    by_cases h : u = b
    · subst h
      simp only [if_true, mem_appendNew, List.mem_cons, Prod.mk.injEq, and_true]
      exact or_assoc
    · simp [h]

theorem NsStore.nodup (hs : List (String × String)) (s : NsStore) (h : ∀ p, (s.getUris p).Nodup) (h' : ∀ u, (s.getPrefixes u).Nodup) :
    (∀ p, ((hs.foldl NsStore.upsert s).getUris p).Nodup) ∧ (∀ u, ((hs.foldl NsStore.upsert s).getPrefixes u).Nodup) := by
  induction hs generalizing s with
  | nil => exact ⟨h, h'⟩
  | cons x hs ih =>
    rw [List.foldl_cons]
    apply ih
    · intro p
      unfold NsStore.getUris NsStore.upsert
      simp only [multiAdd_getD]
      split
      · exact nodup_appendNew (h p)
      · exact h p
    · intro u
      unfold NsStore.getPrefixes NsStore.upsert
      simp only [multiAdd_getD]
      split
      · exact nodup_appendNew (h' u)
      · exact h' u

/-! ### Networks -/

theorem NetStore.getByType_upsert {τ ν : Type} [DecidableEq τ] (ty : ν → τ) (s : NetStore τ ν) (n : ν) (t : τ) :
    (NetStore.upsert ty s n).getByType t = if t = ty n then s.getByType t ++ [n] else s.getByType t := by
  unfold NetStore.upsert NetStore.getByType
  rw [Dict.get?_set]
  by_cases h : t = ty n
  · subst h; simp
  · have : ¬ ty n = t := fun e => h e.symm
    simp [h, this]

theorem NetStore.run_getByType {τ ν : Type} [DecidableEq τ] (ty : ν → τ) (hs : List ν) (s : NetStore τ ν) (t : τ) :
    (hs.foldl (NetStore.upsert ty) s).getByType t = s.getByType t ++ hs.filter (fun n => ty n = t) := by
  induction hs generalizing s with
  | nil => simp
  | cons n hs ih =>
    rw [List.foldl_cons, ih, NetStore.getByType_upsert]
    by_cases h : t = ty n
    · subst h; simp
    · have : ¬ ty n = t := fun e => h e.symm
      simp [h, this]

theorem NetStore.run_keys {τ ν : Type} [DecidableEq τ] (ty : ν → τ) (hs : List ν) (s : NetStore τ ν) :
    Dict.keys (hs.foldl (NetStore.upsert ty) s) = (hs.map ty).foldl appendNew (Dict.keys s) := by
  induction hs generalizing s with
  | nil => rfl
  | cons n hs ih =>
    rw [List.foldl_cons, ih, List.map_cons, List.foldl_cons]
    unfold NetStore.upsert
    rw [Dict.keys_set]

theorem flatMap_dict {τ ν ω : Type} [DecidableEq τ] (s : Dict τ (List ν)) (g : List ν → List ω) (h : (Dict.keys s).Nodup) :
    s.flatMap (fun e => g e.2) = (Dict.keys s).flatMap (fun t => g ((Dict.get? s t).getD [])) := by
  have : s.flatMap (fun e => g e.2) = s.flatMap (fun e => g ((Dict.get? s e.1).getD [])) := by
    have key : ∀ e ∈ s, g e.2 = g ((Dict.get? s e.1).getD []) := by
      intro e he
      rw [Dict.get?_of_mem s h (k := e.1) (v := e.2) he]; rfl
    rw [List.flatMap_def, List.flatMap_def, List.map_congr_left key]
  rw [this]
  simp [Dict.keys, List.flatMap_map]

/-- Grouping by a key and concatenating the groups is a permutation. -/
theorem group_perm {τ ν : Type} [DecidableEq τ] (ty : ν → τ) (ks : List τ) (hk : ks.Nodup) :
    ∀ hs : List ν, (∀ n ∈ hs, ty n ∈ ks) → (ks.flatMap (fun t => hs.filter (fun n => ty n = t))).Perm hs := by
  induction ks with
  | nil =>
    intro hs h
    cases hs with
    | nil => exact List.Perm.nil
    | cons n hs => exact absurd (h n List.mem_cons_self) (by simp)
  | cons k ks ih =>
    intro hs h
    obtain ⟨h1, h2⟩ := List.nodup_cons.1 hk
    rw [List.flatMap_cons]
    have e : ks.flatMap (fun t => hs.filter (fun n => ty n = t)) =
        ks.flatMap (fun t => (hs.filter (fun n => ¬ ty n = k)).filter (fun n => ty n = t)) := by
      rw [List.flatMap_def, List.flatMap_def]
      congr 1
      apply List.map_congr_left
      intro t ht
      rw [List.filter_filter]
      apply List.filter_congr
      intro n _
      by_cases e : ty n = t
      · have : ¬ ty n = k := fun e' => h1 (e' ▸ e ▸ ht)
        simp [e, this]
        exact fun e' => h1 (e' ▸ ht)
      · simp [e]
    rw [e]
    have p2 := ih h2 (hs.filter (fun n => ¬ ty n = k)) (by
      intro n hn
      have hn' := List.mem_filter.1 hn
      have := h n hn'.1
      rcases List.mem_cons.1 this with h' | h'
      · have := hn'.2; simp [h'] at this
      · exact h')
    refine (List.Perm.append_left _ p2).trans ?_
    have := List.filter_append_perm (fun n => decide (ty n = k)) hs
    simpa using this

/-! ### URI rewriting -/

theorem Dict.get?_erase {κ β : Type} [DecidableEq κ] (d : Dict κ β) (k k' : κ) :
    (d.erase k).get? k' = if k' = k then none else d.get? k' := by
  induction d with
  | nil => simp [Dict.erase, Dict.get?]
  | cons e d ih =>
    obtain ⟨a, b⟩ := e
    unfold Dict.erase at *
    rw [List.filter_cons]
    by_cases h : a = k
    · subst h
      simp only [ne_eq, not_true_eq_false, decide_false, Bool.false_eq_true, if_false, Dict.get?_cons]
      rw [ih]
      by_cases h' : k' = a
      · simp [h']
      · have : ¬ a = k' := fun e => h' e.symm
        simp [h', this]
    · simp only [ne_eq, h, not_false_eq_true, decide_true, if_true, Dict.get?_cons, ih]
      by_cases h' : a = k'
      · subst h'; simp [h]
      · simp [h']

theorem Rewrites.run_get? (ops : List RewriteOp) (o : List Char) :
    Dict.get? (Rewrites.run ops) o = currentRule ops o := by
  have gen : ∀ (ops : List RewriteOp) (d : Rewrites),
      Dict.get? (ops.foldl Rewrites.apply d) o =
        match latest RewriteOp.key ops o with
        | some (.upsert _ r) => some r
        | some (.delete _) => none
        | none => Dict.get? d o := by
    intro ops
    induction ops with
    | nil => intro d; rfl
    | cons op ops ih =>
      intro d
      rw [List.foldl_cons, ih, latest_cons]
      cases h : latest RewriteOp.key ops o with
      | some y => cases y <;> rfl
      | none =>
        simp only [Option.none_or]
        cases op with
        | upsert o' r' =>
          simp only [Rewrites.apply, Rewrites.step, RewriteOp.key, Dict.get?_set]
          by_cases e : o' = o
          · subst e; simp
          · simp [e]
        | delete o' =>
          simp only [Rewrites.apply, Rewrites.step, RewriteOp.key]
          by_cases e : o' = o
          · subst e
            simp only [if_true]
            by_cases hh : Dict.has d o' = true
            · simp [hh, Dict.get?_erase]
            · simp only [hh]
              rw [Dict.has_eq] at hh
              cases hg : Dict.get? d o' with
              | none => simp [hg]
              | some v => rw [hg] at hh; simp at hh
          · simp only [e, if_false]
            by_cases hh : Dict.has d o' = true
            · have : ¬ o = o' := fun h => e h.symm
              simp [hh, Dict.get?_erase, this]
            · simp [hh]
  have := gen ops []
  unfold Rewrites.run currentRule
  rw [this]
  cases latest RewriteOp.key ops o with
  | none => rfl
  | some op => cases op <;> rfl

theorem Dict.keys_erase_nodup {κ β : Type} [DecidableEq κ] (d : Dict κ β) (k : κ) (h : d.keys.Nodup) : (d.erase k).keys.Nodup := by
  unfold Dict.erase Dict.keys
  exact List.Pairwise.sublist (List.Sublist.map _ List.filter_sublist) h

theorem Rewrites.run_nodup (ops : List RewriteOp) : (Dict.keys (Rewrites.run ops)).Nodup := by
  have gen : ∀ (ops : List RewriteOp) (d : Rewrites), (Dict.keys d).Nodup →
      (Dict.keys (ops.foldl Rewrites.apply d)).Nodup := by
    intro ops
    induction ops with
    | nil => intro d h; exact h
    | cons op ops ih =>
      intro d h
      rw [List.foldl_cons]
      apply ih
      cases op with
      | upsert o r => exact Dict.keys_set_nodup h o r
      | delete o =>
        by_cases hh : Dict.has d o = true
        · simp only [Rewrites.apply, Rewrites.step, hh, if_true]
          exact Dict.keys_erase_nodup d o h
        · simp only [Rewrites.apply, Rewrites.step, hh]
          exact h
  exact gen ops [] (by simp [Dict.keys])

theorem Rewrites.rewrite_spec (d : Rewrites) (uri : List Char) :
    (∃ pre o r rest post, d = pre ++ (o, r) :: post ∧ uri = o ++ rest ∧ d.rewrite uri = r ++ rest ∧
        ∀ e ∈ pre, ¬ ∃ rest, uri = e.1 ++ rest) ∨
    ((∀ e ∈ d, ¬ ∃ rest, uri = e.1 ++ rest) ∧ d.rewrite uri = uri) := by
  induction d with
  | nil => exact Or.inr ⟨by simp, rfl⟩
  | cons e d ih =>
    obtain ⟨o, r⟩ := e
    unfold Rewrites.rewrite startsWith
    by_cases h : o.isPrefixOf uri = true
    · have hp := List.isPrefixOf_iff_prefix.1 h
      obtain ⟨rest, rfl⟩ := hp
      refine Or.inl ⟨[], o, r, rest, d, rfl, rfl, ?_, by simp⟩
      simp [h]
    · have hn : ¬ ∃ rest, uri = o ++ rest := by
        rintro ⟨rest, rfl⟩
        exact h (List.isPrefixOf_iff_prefix.2 (List.prefix_append _ _))
      rw [if_neg h]
      rcases ih with ⟨pre, o', r', rest, post, h1, h2, h3, h4⟩ | ⟨h1, h2⟩
      · refine Or.inl ⟨(o, r) :: pre, o', r', rest, post, by rw [h1]; rfl, h2, h3, ?_⟩
        intro e he
        rcases List.mem_cons.1 he with rfl | he
        · exact hn
        · exact h4 e he
      · refine Or.inr ⟨?_, h2⟩
        intro e he
        rcases List.mem_cons.1 he with rfl | he
        · exact hn
        · exact h1 e he

end Brel
