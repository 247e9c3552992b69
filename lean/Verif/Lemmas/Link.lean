import Verif.Spec.Link
import Verif.Lemmas.Network
import Verif.Lemmas.Filing

namespace Brel
open Heap

/-! ### Insertions -/

theorem runAdds_frame : ∀ (ops : List (Nat × Nat)) (h h' : Heap), runAdds h ops = .ok h' → SameFrame h h' := by
  intro ops
  induction ops with
  | nil => intro h h' hr; cases hr; exact SameFrame.refl h
  | cons o ops ih =>
    intro h h' hr
    unfold runAdds at hr
    rw [List.foldlM_cons] at hr
    cases h1 : h.addChild o.1 o.2 with
    | error e => rw [h1] at hr; cases hr
    | ok h2 =>
      rw [h1] at hr
      exact (addChild_frame h1).trans (ih h2 h' hr)

/-- The children of one node after a history of insertions. -/
theorem runAdds_one (h0 : Heap) (p : Nat) (hp : p < h0.length) (hk : h0[p].kind ≠ .label) :
    ∀ (ops pre : List (Nat × Nat)) (h h' : Heap), SameFrame h0 h → ChildrenSpec h0.orderOf (addedTo p pre) (h.children p) →
    (∀ o ∈ ops, o.1 < h0.length ∧ o.2 < h0.length) → runAdds h ops = .ok h' →
    ChildrenSpec h0.orderOf (addedTo p (pre ++ ops)) (h'.children p) := by
  intro ops
  induction ops with
  | nil =>
    intro pre h h' _ hi _ hr
    cases hr
    rw [List.append_nil]
    exact hi
  | cons o ops ih =>
    intro pre h h' hf hi hb hr
    obtain ⟨a, b⟩ := o
    obtain ⟨ha, hbb⟩ := hb (a, b) List.mem_cons_self
    dsimp only at ha hbb
    unfold runAdds at hr
    rw [List.foldlM_cons] at hr
    cases h1 : h.addChild a b with
    | error e => rw [h1] at hr; cases hr
    | ok h2 =>
      rw [h1] at hr
      have hr' : runAdds h2 ops = .ok h' := hr
      have ha' : a < h.length := by rw [hf.1]; exact ha
      have hb' : b < h.length := by rw [hf.1]; exact hbb
      have hch := addChild_children ha' hb' h1 p
      have ho : h.orderOf = h0.orderOf := funext hf.order
      have := ih (pre ++ [(a, b)]) h2 h' (hf.trans (addChild_frame h1)) ?_ (fun o ho => hb o (List.mem_cons_of_mem _ ho)) hr'
      · rw [List.append_assoc, List.singleton_append] at this
        exact this
      · rw [addedTo_snoc, hch]
        by_cases hpa : a = p
        · subst hpa
          have hkk : h[a].kind = h0[a].kind := by
            have := hf.kind a
            rw [List.getElem?_eq_getElem ha', List.getElem?_eq_getElem ha] at this
            simpa using this
          rw [if_pos rfl, if_pos rfl, hkk]
          unfold insertChild
          rw [if_neg hk]
          rw [← ho] at hi ⊢
          exact hi.snoc b
        · rw [if_neg hpa, if_neg (fun h : p = a => hpa h.symm)]
          exact hi

theorem runAdds_label (h0 : Heap) (p : Nat) (hp : p < h0.length) (hk : h0[p].kind = .label) :
    ∀ (ops pre : List (Nat × Nat)) (h h' : Heap), SameFrame h0 h → h.children p = addedTo p pre →
    (∀ o ∈ ops, o.1 < h0.length ∧ o.2 < h0.length) → runAdds h ops = .ok h' →
    h'.children p = addedTo p (pre ++ ops) := by
  intro ops
  induction ops with
  | nil =>
    intro pre h h' _ hi _ hr
    cases hr
    rw [List.append_nil]
    exact hi
  | cons o ops ih =>
    intro pre h h' hf hi hb hr
    obtain ⟨a, b⟩ := o
    obtain ⟨ha, hbb⟩ := hb (a, b) List.mem_cons_self
    dsimp only at ha hbb
    unfold runAdds at hr
    rw [List.foldlM_cons] at hr
    cases h1 : h.addChild a b with
    | error e => rw [h1] at hr; cases hr
    | ok h2 =>
      rw [h1] at hr
      have hr' : runAdds h2 ops = .ok h' := hr
      have ha' : a < h.length := by rw [hf.1]; exact ha
      have hb' : b < h.length := by rw [hf.1]; exact hbb
      have hch := addChild_children ha' hb' h1 p
      have := ih (pre ++ [(a, b)]) h2 h' (hf.trans (addChild_frame h1)) ?_ (fun o ho => hb o (List.mem_cons_of_mem _ ho)) hr'
      · rw [List.append_assoc, List.singleton_append] at this
        exact this
      · rw [addedTo_snoc, hch]
        by_cases hpa : a = p
        · subst hpa
          have hkk : h[a].kind = h0[a].kind := by
            have := hf.kind a
            rw [List.getElem?_eq_getElem ha', List.getElem?_eq_getElem ha] at this
            simpa using this
          rw [if_pos rfl, if_pos rfl, hkk]
          unfold insertChild
          rw [if_pos hk, hi]
        · rw [if_neg hpa, if_neg (fun h : p = a => hpa h.symm)]
          exact hi

theorem runAdds_untouched (p : Nat) : ∀ (ops : List (Nat × Nat)) (h h' : Heap), (∀ o ∈ ops, o.1 ≠ p) → runAdds h ops = .ok h' →
    h'[p]? = h[p]? := by
  intro ops
  induction ops with
  | nil => intro h h' _ hr; cases hr; rfl
  | cons o ops ih =>
    intro h h' hne hr
    unfold runAdds at hr
    rw [List.foldlM_cons] at hr
    cases h1 : h.addChild o.1 o.2 with
    | error e => rw [h1] at hr; cases hr
    | ok h2 =>
      rw [h1] at hr
      rw [ih h2 h' (fun o ho => hne o (List.mem_cons_of_mem _ ho)) hr]
      unfold addChild at h1
      split at h1
      · split at h1
        · split at h1 <;> cases h1
        · cases h1
          rw [List.getElem?_set_ne (hne o List.mem_cons_self)]
      · cases h1; rfl

/-! ### Arcs -/

theorem repeated_nil {α κ : Type} [DecidableEq κ] (key : α → κ) : repeated key [] = [] := rfl

theorem repeated_snoc {α κ : Type} [DecidableEq κ] (key : α → κ) (l : List α) (a : α) :
    repeated key (l ++ [a]) = repeated key l ++ (if l.any (fun b => key b = key a) then [a] else []) := by
  unfold repeated
  rw [List.length_append, List.length_singleton, List.range_succ, List.filterMap_append]
  congr 1
  · apply filterMap_congr'
    intro i hi
    have hi' : i < l.length := List.mem_range.1 hi
    rw [List.getElem?_append_left hi', List.take_append_of_le_length (Nat.le_of_lt hi')]
  · rw [List.filterMap_cons, List.filterMap_nil]
    simp only [List.getElem?_concat_length, Option.bind_some, List.take_left]
    by_cases h : l.any (fun b => decide (key b = key a)) = true
    · simp only [h, if_true]
    · simp only [h]
      rfl

theorem mem_of_firstByKey {α κ : Type} [DecidableEq κ] {k : α → κ} {l : List α} {x : α} (h : x ∈ firstByKey k l) : x ∈ l := by
  obtain ⟨pre, post, rfl, _⟩ := (mem_firstByKey k l x).1 h
  simp

theorem scanArcs_spec (arcs : List Arc) : scanArcs arcs = (firstByKey Arc.key arcs, repeated Arc.key arcs) := by
  have key : ∀ (l pre : List Arc), l.foldl (fun s a => if s.1.any (fun b => b.key = a.key) then (s.1, s.2 ++ [a]) else (s.1 ++ [a], s.2))
      (firstByKey Arc.key pre, repeated Arc.key pre) = (firstByKey Arc.key (pre ++ l), repeated Arc.key (pre ++ l)) := by
    intro l
    induction l with
    | nil => intro pre; rw [List.append_nil]; rfl
    | cons a l ih =>
      intro pre
      rw [List.foldl_cons]
      have hany : (firstByKey Arc.key pre).any (fun b => decide (b.key = a.key)) = pre.any (fun b => decide (b.key = a.key)) := by
        rw [Bool.eq_iff_iff, List.any_eq_true, List.any_eq_true]
        constructor
        · rintro ⟨x, hx, hk⟩
          exact ⟨x, mem_of_firstByKey hx, hk⟩
        · rintro ⟨x, hx, hk⟩
          obtain ⟨y, hy, hyk⟩ := firstByKey_key_mem Arc.key pre x hx
          refine ⟨y, hy, ?_⟩
          simp only [decide_eq_true_eq] at hk ⊢
          rw [hyk, hk]
      have := ih (pre ++ [a])
      rw [List.append_assoc, List.singleton_append] at this
      rw [← this]
      congr 1
      dsimp only
      rw [hany, firstByKey_append, repeated_snoc]
      by_cases hin : pre.any (fun b => decide (b.key = a.key)) = true
      · rw [if_pos hin, if_pos hin]
        have : a.key ∈ pre.map Arc.key := by
          obtain ⟨x, hx, hk⟩ := List.any_eq_true.1 hin
          exact List.mem_map.2 ⟨x, hx, of_decide_eq_true hk⟩
        simp only [firstByKey, List.filter_nil, List.filter_cons, this, not_true_eq_false, decide_false, Bool.false_eq_true, if_false, List.append_nil]
      · rw [if_neg hin, if_neg hin]
        have : a.key ∉ pre.map Arc.key := by
          intro h
          obtain ⟨x, hx, hk⟩ := List.mem_map.1 h
          exact hin (List.any_eq_true.2 ⟨x, hx, decide_eq_true hk⟩)
        simp only [firstByKey, List.filter_nil, List.filter_cons, this, not_false_eq_true, decide_true, if_true, List.append_nil]
  exact key arcs []

/-- A property of the key that some arc has, some used arc has. -/
theorem exists_kept (arcs : List Arc) (P : String × String × String → Prop) :
    (∃ a ∈ firstByKey Arc.key arcs, P a.key) ↔ ∃ a ∈ arcs, P a.key := by
  constructor
  · rintro ⟨a, ha, hp⟩
    exact ⟨a, mem_of_firstByKey ha, hp⟩
  · rintro ⟨a, ha, hp⟩
    obtain ⟨b, hb, hk⟩ := firstByKey_key_mem Arc.key arcs a ha
    exact ⟨b, hb, by rw [hk]; exact hp⟩

theorem mem_incident (kept : List Arc) (l : String) (a : Arc) : a ∈ incident kept l ↔ a ∈ kept ∧ (a.frm = l ∨ a.to = l) := by
  unfold incident
  rw [List.mem_flatMap]
  constructor
  · rintro ⟨b, hb, h⟩
    rcases List.mem_append.1 h with h | h
    · by_cases hf : b.frm = l
      · rw [if_pos hf, List.mem_singleton] at h; subst h; exact ⟨hb, Or.inl hf⟩
      · rw [if_neg hf] at h; cases h
    · by_cases hf : b.to = l
      · rw [if_pos hf, List.mem_singleton] at h; subst h; exact ⟨hb, Or.inr hf⟩
      · rw [if_neg hf] at h; cases h
  · rintro ⟨hb, h⟩
    refine ⟨a, hb, ?_⟩
    rcases h with h | h <;> simp [h]

theorem mem_arcsTo (kept : List Arc) (l : String) (a : Arc) : a ∈ arcsTo kept l ↔ a ∈ kept ∧ a.to = l := by
  unfold arcsTo
  rw [List.mem_filter, mem_incident, decide_eq_true_eq]
  constructor
  · rintro ⟨⟨h1, _⟩, h2⟩; exact ⟨h1, h2⟩
  · rintro ⟨h1, h2⟩; exact ⟨⟨h1, Or.inr h2⟩, h2⟩

theorem mem_arcsFrom (kept : List Arc) (l : String) (a : Arc) : a ∈ arcsFrom kept l ↔ a ∈ kept ∧ a.frm = l := by
  unfold arcsFrom
  rw [List.mem_filter, mem_incident, decide_eq_true_eq]
  constructor
  · rintro ⟨⟨h1, _⟩, h2⟩; exact ⟨h1, h2⟩
  · rintro ⟨h1, h2⟩; exact ⟨⟨h1, Or.inl h2⟩, h2⟩

theorem arcsTo_head (kept : List Arc) (l : String) : (arcsTo kept l).head? = kept.find? (fun a => a.to = l) := by
  unfold arcsTo incident
  induction kept with
  | nil => rfl
  | cons a kept ih =>
    rw [List.flatMap_cons, List.filter_append, List.filter_append, List.find?_cons]
    by_cases ht : a.to = l
    · by_cases hf : a.frm = l <;> simp [ht, hf]
    · by_cases hf : a.frm = l <;> simp [ht, hf, ih]

/-- The first arc with a property of its key is always used. -/
theorem find?_kept (arcs : List Arc) (p : Arc → Bool) (hp : ∀ a b : Arc, a.key = b.key → p a = p b) :
    (firstByKey Arc.key arcs).find? p = arcs.find? p := by
  induction arcs with
  | nil => rfl
  | cons a arcs ih =>
    rw [firstByKey, List.find?_cons, List.find?_cons]
    cases hpa : p a with
    | true => rfl
    | false =>
      rw [← ih]
      simp only [List.find?_filter]
      congr 1
      funext b
      by_cases hk : b.key = a.key
      · simp [hp b a hk, hpa]
      · simp [hk]

/-! ### Nodes -/

theorem nodeData_ok {k : LinkKind} {l : String} {arc : Option Arc} {t : Target} {n : NetNode} (h : nodeData k l arc t = .ok n) :
    n.label = l ∧ n.target = t ∧ n.kind = k.nodeKind ∧ n.children = [] ∧ n.arcRole = (arc.map Arc.role).getD "unknown" := by
  unfold nodeData at h
  cases arc with
  | none => cases h; exact ⟨rfl, rfl, rfl, rfl, rfl⟩
  | some a =>
    dsimp only at h
    split at h
    · cases h; exact ⟨rfl, rfl, rfl, rfl, rfl⟩
    · split at h
      · cases hw : k.arcWeight a with
        | error e => rw [hw] at h; cases h
        | ok w =>
          cases ho : k.arcOrder a with
          | error e => rw [hw, ho] at h; cases h
          | ok o => rw [hw, ho] at h; cases h; exact ⟨rfl, rfl, rfl, rfl, rfl⟩
      · cases h

theorem createNode_data {k : LinkKind} {l : String} {arc : Option Arc} {t : Target} {n : NetNode} :
    createNode k l arc t = .ok n ↔ nodeData k l arc t = .ok n ∧ k.refuses t = none := by
  unfold createNode
  cases nodeData k l arc t with
  | error e => simp [Except.bind]
  | ok m => cases k.refuses t <;> simp [Except.bind]

theorem createNode_ok {k : LinkKind} {l : String} {arc : Option Arc} {t : Target} {n : NetNode} (h : createNode k l arc t = .ok n) :
    n.label = l ∧ n.target = t ∧ n.kind = k.nodeKind ∧ n.children = [] ∧ n.arcRole = (arc.map Arc.role).getD "unknown" :=
  nodeData_ok (createNode_data.1 h).1

/-- What a node takes from an incoming arc. -/
theorem createNode_arc {k : LinkKind} {l : String} {a : Arc} {t : Target} {n : NetNode} (h : createNode k l (some a) t = .ok n)
    (hf : a.frm ≠ l) (ht : a.to = l) :
    k.arcWeight a = .ok n.weight ∧ k.arcOrder a = .ok n.order ∧ n.preferredLabel = k.arcPreferredLabel a := by
  have h := (createNode_data.1 h).1
  unfold nodeData at h
  simp only [if_neg hf, if_pos ht] at h
  cases hw : k.arcWeight a with
  | error e => rw [hw] at h; cases h
  | ok w =>
    cases ho : k.arcOrder a with
    | error e => rw [hw, ho] at h; cases h
    | ok o => rw [hw, ho] at h; cases h; exact ⟨rfl, rfl, rfl⟩

/-- The lists have the same length and corresponding entries are related. -/
inductive Rel2 {α β : Type} (R : α → β → Prop) : List α → List β → Prop where
  | nil : Rel2 R [] []
  | cons {a b l m} : R a b → Rel2 R l m → Rel2 R (a :: l) (b :: m)

theorem mapM_ok_iff {α β : Type} (f : α → Except PyErr β) : ∀ (l : List α) (r : List β), l.mapM f = .ok r ↔ Rel2 (fun a b => f a = .ok b) l r := by
  intro l
  induction l with
  | nil =>
    intro r
    constructor
    · intro h; cases h; exact .nil
    · intro h; cases h; rfl
  | cons a l ih =>
    intro r
    rw [List.mapM_cons]
    cases ha : f a with
    | error e =>
      constructor
      · intro h; cases h
      · intro h; cases h with | cons h1 _ => rw [ha] at h1; cases h1
    | ok b =>
      cases hl : l.mapM f with
      | error e =>
        constructor
        · intro h; cases h
        · intro h
          cases h with
          | cons h1 h2 => rw [(ih _).2 h2] at hl; cases hl
      | ok bs =>
        constructor
        · intro h; cases h; exact .cons ha ((ih _).1 hl)
        · intro h
          cases h with
          | cons h1 h2 =>
            rw [ha] at h1; cases h1
            rw [(ih _).2 h2] at hl; cases hl; rfl

theorem Rel2.mem_left {α β : Type} {R : α → β → Prop} {l : List α} {m : List β} (h : Rel2 R l m) : ∀ a ∈ l, ∃ b ∈ m, R a b := by
  induction h with
  | nil => intro a ha; cases ha
  | cons h1 _ ih =>
    intro a ha
    rcases List.mem_cons.1 ha with rfl | ha
    · exact ⟨_, List.mem_cons_self, h1⟩
    · obtain ⟨b, hb, hr⟩ := ih a ha
      exact ⟨b, List.mem_cons_of_mem _ hb, hr⟩

theorem Rel2.mem_right {α β : Type} {R : α → β → Prop} {l : List α} {m : List β} (h : Rel2 R l m) : ∀ b ∈ m, ∃ a ∈ l, R a b := by
  induction h with
  | nil => intro b hb; cases hb
  | cons h1 _ ih =>
    intro b hb
    rcases List.mem_cons.1 hb with rfl | hb
    · exact ⟨_, List.mem_cons_self, h1⟩
    · obtain ⟨a, ha, hr⟩ := ih b hb
      exact ⟨a, List.mem_cons_of_mem _ ha, hr⟩

theorem Rel2.map_eq {α β γ : Type} {R : α → β → Prop} {l : List α} {m : List β} (h : Rel2 R l m) (f : α → γ) (g : β → γ)
    (hfg : ∀ a ∈ l, ∀ b, R a b → f a = g b) : l.map f = m.map g := by
  induction h with
  | nil => rfl
  | cons h1 _ ih =>
    rw [List.map_cons, List.map_cons, hfg _ List.mem_cons_self _ h1, ih (fun a ha => hfg a (List.mem_cons_of_mem _ ha))]

theorem Rel2.length_eq {α β : Type} {R : α → β → Prop} {l : List α} {m : List β} (h : Rel2 R l m) : l.length = m.length := by
  induction h with
  | nil => rfl
  | cons _ _ ih => rw [List.length_cons, List.length_cons, ih]

theorem mem_rolesAt (arcs : List Arc) (l r : String) :
    r ∈ rolesAt arcs l ↔ (∃ a ∈ arcs, (a.to = l ∨ a.frm = l) ∧ a.role = r) ∨ ((∀ a ∈ arcs, ¬ (a.to = l ∨ a.frm = l)) ∧ r = "unknown") := by
  have hm : ∀ r, r ∈ firstOccurrences ((arcs.filter (fun a => a.to = l || a.frm = l)).map (·.role)) ↔ ∃ a ∈ arcs, (a.to = l ∨ a.frm = l) ∧ a.role = r := by
    intro r
    rw [mem_firstOccurrences, List.mem_map]
    constructor
    · rintro ⟨a, ha, h⟩
      obtain ⟨h1, h2⟩ := List.mem_filter.1 ha
      exact ⟨a, h1, by simpa using h2, h⟩
    · rintro ⟨a, ha, h1, h2⟩
      exact ⟨a, List.mem_filter.2 ⟨ha, by simpa using h1⟩, h2⟩
  unfold rolesAt
  cases hl : firstOccurrences ((arcs.filter (fun a => a.to = l || a.frm = l)).map (·.role)) with
  | nil =>
    have hno : ∀ a ∈ arcs, ¬ (a.to = l ∨ a.frm = l) := by
      intro a ha h
      have := (hm a.role).2 ⟨a, ha, h, rfl⟩
      rw [hl] at this
      cases this
    rw [List.mem_singleton]
    constructor
    · intro h; exact Or.inr ⟨hno, h⟩
    · rintro (⟨a, ha, h, _⟩ | ⟨_, h⟩)
      · exact absurd h (hno a ha)
      · exact h
  | cons r0 rs =>
    dsimp only
    rw [← hl, hm]
    constructor
    · exact Or.inl
    · rintro (h | ⟨h, _⟩)
      · exact h
      · have : r0 ∈ r0 :: rs := List.mem_cons_self
        rw [← hl, hm] at this
        obtain ⟨a, ha, h', _⟩ := this
        exact absurd h' (h a ha)

theorem rolesAt_nodup (arcs : List Arc) (l : String) : (rolesAt arcs l).Nodup := by
  unfold rolesAt
  have := firstOccurrences_nodup ((arcs.filter (fun a => a.to = l || a.frm = l)).map (·.role))
  split
  · simp
  · rename_i h
    rwa [h] at this

theorem rolesAt_kept (arcs : List Arc) (l : String) : (rolesAt (firstByKey Arc.key arcs) l).Perm (rolesAt arcs l) := by
  rw [List.perm_ext_iff_of_nodup (rolesAt_nodup _ _) (rolesAt_nodup _ _)]
  intro r
  rw [mem_rolesAt, mem_rolesAt]
  have h1 := exists_kept arcs (fun k => (k.2.1 = l ∨ k.1 = l) ∧ k.2.2 = r)
  have h2 := exists_kept arcs (fun k => k.2.1 = l ∨ k.1 = l)
  simp only [Arc.key] at h1 h2
  have h3 : (∀ a ∈ firstByKey Arc.key arcs, ¬ (a.to = l ∨ a.frm = l)) ↔ ∀ a ∈ arcs, ¬ (a.to = l ∨ a.frm = l) := by
    constructor
    · intro h a ha hor
      obtain ⟨b, hb, hb'⟩ := h2.2 ⟨a, ha, hor⟩
      exact h b hb hb'
    · intro h a ha hor
      exact h a (mem_of_firstByKey ha) hor
  exact or_congr h1 (and_congr_left' h3)

theorem noIncoming_kept (k : LinkKind) (arcs : List Arc) (n : NetNode) : NoIncoming k (firstByKey Arc.key arcs) n ↔ NoIncoming k arcs n := by
  unfold NoIncoming
  constructor
  · intro h a ha ht hr
    obtain ⟨b, hb, hkey⟩ := firstByKey_key_mem Arc.key arcs a ha
    simp only [Arc.key, Prod.mk.injEq] at hkey
    exact h b hb (hkey.2.1.trans ht) (fun hp => hkey.2.2.trans (hr hp))
  · intro h a ha
    exact h a (mem_of_firstByKey ha)

/-- The nodes of one link end. -/
theorem endNodes_ok {k : LinkKind} {so : SetOrder} {kept : List Arc} {l : String} {t : Target} {r : List (NetNode × Bool)}
    (h : endNodes k so kept l t = .ok r) :
    (∀ p ∈ r, p.1.label = l ∧ p.1.target = t ∧ p.1.kind = k.nodeKind ∧ p.1.children = [] ∧ (p.2 = true ↔ NoIncoming k kept p.1)) ∧
    (k.physical = false → r.length = 1) ∧ (k.physical = true → (r.map (fun p => p.1.arcRole)).Perm (rolesAt kept l)) := by
  unfold endNodes at h
  dsimp only at h
  split at h
  · rename_i hemp
    rw [Bool.and_eq_true, List.isEmpty_iff, List.isEmpty_iff] at hemp
    have hno : ∀ a ∈ kept, ¬ (a.to = l ∨ a.frm = l) := by
      rintro a ha (h' | h')
      · have := (mem_arcsTo kept l a).2 ⟨ha, h'⟩; rw [hemp.1] at this; cases this
      · have := (mem_arcsFrom kept l a).2 ⟨ha, h'⟩; rw [hemp.2] at this; cases this
    cases hc : createNode k l none t with
    | error e => rw [hc] at h; cases h
    | ok n =>
      rw [hc] at h
      cases h
      obtain ⟨h1, h2, h3, h4, h5⟩ := createNode_ok hc
      refine ⟨?_, fun _ => rfl, ?_⟩
      · intro p hp
        rw [List.mem_singleton] at hp
        subst hp
        refine ⟨h1, h2, h3, h4, ?_⟩
        simp only [true_iff]
        intro a ha ht _
        rw [h1] at ht
        exact hno a ha (Or.inl ht)
      · intro _
        rw [List.perm_ext_iff_of_nodup (by simp) (rolesAt_nodup _ _)]
        intro x
        rw [mem_rolesAt]
        simp only [List.map_cons, List.map_nil, List.mem_singleton, h5, Option.map_none, Option.getD_none]
        constructor
        · intro hx; exact Or.inr ⟨hno, hx⟩
        · rintro (⟨a, ha, h', _⟩ | ⟨_, h'⟩)
          · exact absurd h' (hno a ha)
          · exact h'
  · rename_i hemp
    have hsome : ∃ a ∈ kept, a.to = l ∨ a.frm = l := by
      apply Classical.byContradiction
      intro hno
      apply hemp
      rw [Bool.and_eq_true, List.isEmpty_iff, List.isEmpty_iff]
      constructor
      · apply List.eq_nil_iff_forall_not_mem.2
        intro a ha
        exact hno ⟨a, ((mem_arcsTo _ _ _).1 ha).1, Or.inl ((mem_arcsTo _ _ _).1 ha).2⟩
      · apply List.eq_nil_iff_forall_not_mem.2
        intro a ha
        exact hno ⟨a, ((mem_arcsFrom _ _ _).1 ha).1, Or.inr ((mem_arcsFrom _ _ _).1 ha).2⟩
    split at h
    · rename_i hphys
      have hin : ∀ x, x ∈ ((arcsTo kept l).map (·.role)).foldl appendNew [] ↔ ∃ a ∈ kept, a.to = l ∧ a.role = x := by
        intro x
        rw [mem_foldl_appendNew, List.mem_map]
        constructor
        · rintro (h | ⟨a, ha, h⟩)
          · cases h
          · exact ⟨a, ((mem_arcsTo _ _ _).1 ha).1, ((mem_arcsTo _ _ _).1 ha).2, h⟩
        · rintro ⟨a, ha, h1, h2⟩
          exact Or.inr ⟨a, (mem_arcsTo _ _ _).2 ⟨ha, h1⟩, h2⟩
      have hall : ∀ x, x ∈ ((arcsFrom kept l).map (·.role)).foldl appendNew (((arcsTo kept l).map (·.role)).foldl appendNew []) ↔
          ∃ a ∈ kept, (a.to = l ∨ a.frm = l) ∧ a.role = x := by
        intro x
        rw [mem_foldl_appendNew, hin, List.mem_map]
        constructor
        · rintro (⟨a, ha, h1, h2⟩ | ⟨a, ha, h⟩)
          · exact ⟨a, ha, Or.inl h1, h2⟩
          · exact ⟨a, ((mem_arcsFrom _ _ _).1 ha).1, Or.inr ((mem_arcsFrom _ _ _).1 ha).2, h⟩
        · rintro ⟨a, ha, h1 | h1, h2⟩
          · exact Or.inl ⟨a, ha, h1, h2⟩
          · exact Or.inr ⟨a, (mem_arcsFrom _ _ _).2 ⟨ha, h1⟩, h2⟩
      have hallnd := foldl_appendNew_nodup ((arcsFrom kept l).map (·.role)) (((arcsTo kept l).map (·.role)).foldl appendNew [])
        (foldl_appendNew_nodup _ _ List.nodup_nil)
      generalize hA : ((arcsFrom kept l).map (·.role)).foldl appendNew (((arcsTo kept l).map (·.role)).foldl appendNew []) = A at *
      generalize hI : ((arcsTo kept l).map (·.role)).foldl appendNew [] = I at *
      rw [mapM_ok_iff] at h
      have hrel : ∀ x ∈ so.strings A, ∀ p : NetNode × Bool, (do
            let n ← createNode k l (((incident kept l).filter (fun a => a.to = l) ++ (incident kept l).filter (fun a => !decide (a.to = l))).find? (fun a => a.role = x)) t
            return (n, !decide (x ∈ I)) : Except PyErr (NetNode × Bool)) = .ok p →
          p.1.label = l ∧ p.1.target = t ∧ p.1.kind = k.nodeKind ∧ p.1.children = [] ∧ p.1.arcRole = x ∧ (p.2 = true ↔ x ∉ I) := by
        intro x hx p hp
        cases hf : (((incident kept l).filter (fun a => a.to = l) ++ (incident kept l).filter (fun a => !decide (a.to = l))).find? (fun a => a.role = x)) with
        | none =>
          exfalso
          rw [List.find?_eq_none] at hf
          obtain ⟨a, ha, h1, h2⟩ := (hall x).1 ((so.strings_perm A).mem_iff.1 hx)
          have hmem : a ∈ incident kept l := (mem_incident _ _ _).2 ⟨ha, h1.symm⟩
          refine hf a ?_ (by simp [h2])
          rw [List.mem_append, List.mem_filter, List.mem_filter]
          by_cases ht : a.to = l
          · exact Or.inl ⟨hmem, by simp [ht]⟩
          · exact Or.inr ⟨hmem, by simp [ht]⟩
        | some a =>
          rw [hf] at hp
          cases hc : createNode k l (some a) t with
          | error e => rw [hc] at hp; cases hp
          | ok n =>
            rw [hc] at hp
            cases hp
            obtain ⟨h1, h2, h3, h4, h5⟩ := createNode_ok hc
            have hrole : a.role = x := by simpa using List.find?_some hf
            exact ⟨h1, h2, h3, h4, by rw [h5]; exact hrole, by simp⟩
      refine ⟨?_, (by rw [hphys]; exact fun h => absurd h (by simp)), ?_⟩
      · intro p hp
        obtain ⟨x, hx, hxp⟩ := h.mem_right p hp
        obtain ⟨h1, h2, h3, h4, h5, h6⟩ := hrel x hx p hxp
        refine ⟨h1, h2, h3, h4, ?_⟩
        rw [h6, hin]
        unfold NoIncoming
        rw [h1, h5, hphys]
        constructor
        · intro hno a ha ht hr
          exact hno ⟨a, ha, ht, hr rfl⟩
        · rintro hno ⟨a, ha, ht, hr⟩
          exact hno a ha ht (fun _ => hr)
      · intro _
        have := h.map_eq id (fun p => p.1.arcRole) (fun x hx p hp => (hrel x hx p hp).2.2.2.2.1.symm)
        rw [List.map_id] at this
        rw [← this]
        refine (so.strings_perm A).trans ?_
        rw [List.perm_ext_iff_of_nodup hallnd (rolesAt_nodup _ _)]
        intro x
        rw [hall, mem_rolesAt]
        constructor
        · exact Or.inl
        · rintro (h | ⟨h, _⟩)
          · exact h
          · obtain ⟨a, ha, h'⟩ := hsome
            exact absurd h' (h a ha)
    · rename_i hphys
      generalize hx : (arcsTo kept l).head?.or (arcsFrom kept l).head? = x at h
      cases hc : createNode k l x t with
      | error e => rw [hc] at h; cases h
      | ok n =>
        rw [hc] at h
        cases h
        obtain ⟨h1, h2, h3, h4, h5⟩ := createNode_ok hc
        refine ⟨?_, fun _ => rfl, fun h => absurd h hphys⟩
        intro p hp
        rw [List.mem_singleton] at hp
        subst hp
        refine ⟨h1, h2, h3, h4, ?_⟩
        dsimp only
        rw [List.isEmpty_iff]
        unfold NoIncoming
        rw [h1]
        constructor
        · intro he a ha ht
          have := (mem_arcsTo kept l a).2 ⟨ha, ht⟩
          rw [he] at this
          cases this
        · intro hno
          apply List.eq_nil_iff_forall_not_mem.2
          intro a ha
          obtain ⟨h1', h2'⟩ := (mem_arcsTo _ _ _).1 ha
          exact hno a h1' h2' (fun h => absurd h hphys)

/-! ### The whole link -/

theorem mem_lookupNodes (k : LinkKind) (h : Heap) (base : Nat) (l role : String) (i : Nat) :
    i ∈ lookupNodes k h base l role ↔ base ≤ i ∧ ∃ n, h[i]? = some n ∧ n.label = l ∧ (k.physical = true → n.arcRole = role) := by
  unfold lookupNodes
  rw [List.mem_filter, List.mem_range, Bool.and_eq_true, decide_eq_true_eq]
  cases hi : h[i]? with
  | none => simp
  | some n =>
    have hlt : i < h.length := (List.getElem?_eq_some_iff.1 hi).1
    simp only [hlt, true_and, Bool.and_eq_true, decide_eq_true_eq, Bool.or_eq_true, Bool.not_eq_true', Option.some.injEq, exists_eq_left']
    cases k.physical <;> simp

theorem lookupNodes_nodup (k : LinkKind) (h : Heap) (base : Nat) (l role : String) : (lookupNodes k h base l role).Nodup :=
  List.nodup_range.filter _

theorem addedTo_append (p : Nat) (a b : List (Nat × Nat)) : addedTo p (a ++ b) = addedTo p a ++ addedTo p b := by
  unfold addedTo
  rw [List.filter_append, List.map_append]

theorem addedTo_pairs (p : Nat) (B : List Nat) : ∀ A : List Nat, A.Nodup →
    addedTo p (A.flatMap (fun i => B.map (fun j => (i, j)))) = if p ∈ A then B else [] := by
  intro A
  induction A with
  | nil => intro _; rfl
  | cons a A ih =>
    intro hnd
    rw [List.nodup_cons] at hnd
    rw [List.flatMap_cons, addedTo_append, ih hnd.2]
    have hone : addedTo p (B.map (fun j => (a, j))) = if a = p then B else [] := by
      unfold addedTo
      by_cases h : a = p
      · subst h
        rw [if_pos rfl, List.filter_eq_self.2 (by simp)]
        simp [Function.comp_def]
      · rw [if_neg h, List.filter_eq_nil_iff.2 (by simp [h])]
        rfl
    rw [hone]
    by_cases h : a = p
    · subst h
      simp [hnd.1]
    · have h' : ¬ p = a := fun e => h e.symm
      simp [h, h']

theorem addedTo_edgeOps (k : LinkKind) (h : Heap) (base p : Nat) (edges : List (String × String × String)) :
    addedTo p (edgeOps k h base edges) =
      edges.flatMap (fun e => if p ∈ lookupNodes k h base e.1 e.2.2 then lookupNodes k h base e.2.1 e.2.2 else []) := by
  induction edges with
  | nil => rfl
  | cons e edges ih =>
    have : edgeOps k h base (e :: edges) =
        (lookupNodes k h base e.1 e.2.2).flatMap (fun i => (lookupNodes k h base e.2.1 e.2.2).map (fun j => (i, j))) ++ edgeOps k h base edges := by
      unfold edgeOps
      rw [List.flatMap_cons]
    rw [this, addedTo_append, addedTo_pairs p _ _ (lookupNodes_nodup ..), ih, List.flatMap_cons]

theorem edgeOps_bound (k : LinkKind) (h : Heap) (base : Nat) (edges : List (String × String × String)) :
    ∀ o ∈ edgeOps k h base edges, (base ≤ o.1 ∧ o.1 < h.length) ∧ (base ≤ o.2 ∧ o.2 < h.length) := by
  intro o ho
  unfold edgeOps at ho
  obtain ⟨e, _, ho⟩ := List.mem_flatMap.1 ho
  obtain ⟨i, hi, ho⟩ := List.mem_flatMap.1 ho
  obtain ⟨j, hj, rfl⟩ := List.mem_map.1 ho
  obtain ⟨h1, n, hn, _⟩ := (mem_lookupNodes ..).1 hi
  obtain ⟨h2, m, hm, _⟩ := (mem_lookupNodes ..).1 hj
  exact ⟨⟨h1, (List.getElem?_eq_some_iff.1 hn).1⟩, ⟨h2, (List.getElem?_eq_some_iff.1 hm).1⟩⟩

/-- The parts of a parse before labels are handed to elements. -/
structure Parts (k : LinkKind) (so : SetOrder) (linkRole : String) (h : Heap) (arcs : List Arc) (ends : List LinkEnd) (res : LinkResult) where
  made : List (List (NetNode × Bool))
  ends_ok : Rel2 (fun e r => endNodes k so (firstByKey Arc.key arcs) e.1 e.2 = .ok r) (resolvedEnds ends) made
  run : runAdds (h ++ made.flatten.map (·.1)) (edgeOps k (h ++ made.flatten.map (·.1)) h.length (so.edges ((firstByKey Arc.key arcs).map Arc.key))) = .ok res.heap
  nets : res.networks = makeNetworks k so linkRole res.heap (so.nodes ((List.range (h ++ made.flatten.map (·.1)).length).filter
    (fun i => decide (h.length ≤ i) && ((made.flatten[i - h.length]?.map (·.2)).getD false))))
  dups : res.duplicates = repeated Arc.key arcs
  unres : res.unresolved = (ends.filter (fun e => e.target.isNone)).map (·.label)

/-- The parts of a successful parse. -/
structure Parse (k : LinkKind) (so : SetOrder) (linkRole : String) (h : Heap) (arcs : List Arc) (ends : List LinkEnd) (res : LinkResult) extends Parts k so linkRole h arcs ends res where
  labels : List (List (QName × Nat))
  lab : res.networks.mapM (updateReportElements k res.heap) = .ok labels
  lab_eq : res.labels = labels.flatten

theorem parseLink_ok {k : LinkKind} {so : SetOrder} {linkRole : String} {h : Heap} {arcs : List Arc} {ends : List LinkEnd} {res : LinkResult}
    (hp : parseLink k so linkRole h arcs ends = .ok res) : Nonempty (Parse k so linkRole h arcs ends res) := by
  unfold parseLink at hp
  rw [scanArcs_spec] at hp
  dsimp only at hp
  cases h1 : (resolvedEnds ends).mapM (fun e => endNodes k so (firstByKey Arc.key arcs) e.1 e.2) with
  | error e => rw [h1] at hp; cases hp
  | ok made =>
    rw [h1] at hp
    simp only [bind, Except.bind] at hp
    cases h2 : runAdds (h ++ made.flatten.map (·.1)) (edgeOps k (h ++ made.flatten.map (·.1)) h.length (so.edges ((firstByKey Arc.key arcs).map Arc.key))) with
    | error e => rw [h2] at hp; cases hp
    | ok h' =>
      rw [h2] at hp
      dsimp only at hp
      generalize hn : makeNetworks k so linkRole h' _ = nets at hp
      cases h3 : nets.mapM (updateReportElements k h') with
      | error e => rw [h3] at hp; cases hp
      | ok labels =>
        rw [h3] at hp
        cases hp
        exact ⟨⟨⟨made, (mapM_ok_iff _ _ _).1 h1, h2, hn.symm, rfl, rfl⟩, labels, h3, rfl⟩⟩

namespace Parts
variable {k : LinkKind} {so : SetOrder} {linkRole : String} {h : Heap} {arcs : List Arc} {ends : List LinkEnd} {res : LinkResult}

/-- The heap before the second pass. -/
def h0 (P : Parts k so linkRole h arcs ends res) : Heap := h ++ P.made.flatten.map (·.1)

theorem frame (P : Parts k so linkRole h arcs ends res) : SameFrame P.h0 res.heap := runAdds_frame _ _ _ P.run

theorem node_ok (P : Parts k so linkRole h arcs ends res) : ∀ p ∈ P.made.flatten, (p.1.label, p.1.target) ∈ resolvedEnds ends ∧
    p.1.kind = k.nodeKind ∧ p.1.children = [] ∧ (p.2 = true ↔ NoIncoming k arcs p.1) := by
  intro p hp
  obtain ⟨r, hr, hpr⟩ := List.mem_flatten.1 hp
  obtain ⟨e, he, hok⟩ := P.ends_ok.mem_right r hr
  obtain ⟨h1, h2, h3, h4, h5⟩ := (endNodes_ok hok).1 p hpr
  rw [h1, h2]
  exact ⟨he, h3, h4, h5.trans (noIncoming_kept k arcs p.1)⟩

/-- A new node is one of those made for the link ends, apart from its children. -/
theorem new_node (P : Parts k so linkRole h arcs ends res) {i : Nat} {n : NetNode} (hn : NewNode h res i n) :
    ∃ p, P.made.flatten[i - h.length]? = some p ∧ p ∈ P.made.flatten ∧ P.h0[i]? = some p.1 ∧ n.label = p.1.label ∧ n.target = p.1.target ∧
      n.kind = p.1.kind ∧ n.arcRole = p.1.arcRole ∧ n.order = p.1.order ∧ n.weight = p.1.weight ∧ n.preferredLabel = p.1.preferredLabel := by
  obtain ⟨hle, hi⟩ := hn
  have hf := P.frame.2 i
  rw [hi] at hf
  have h0i : P.h0[i]? = (P.made.flatten[i - h.length]?).map (·.1) := by
    unfold Parts.h0
    rw [List.getElem?_append_right hle, List.getElem?_map]
  cases hm : P.made.flatten[i - h.length]? with
  | none => rw [h0i, hm] at hf; cases hf
  | some p =>
    rw [h0i, hm] at hf
    simp only [Option.map_some, Option.some.injEq, Brel.frame, NetNode.mk.injEq] at hf
    refine ⟨p, rfl, List.mem_of_getElem? hm, by rw [h0i, hm]; rfl, ?_⟩
    exact ⟨hf.2.2.2.2.2.2.1, hf.2.1, hf.1, hf.2.2.1, hf.2.2.2.1, hf.2.2.2.2.1, hf.2.2.2.2.2.1⟩

theorem new_of_lt (P : Parts k so linkRole h arcs ends res) {i : Nat} (h1 : h.length ≤ i) (h2 : i < P.h0.length) : ∃ n, NewNode h res i n := by
  have : i < res.heap.length := by rw [P.frame.1]; exact h2
  exact ⟨res.heap[i], h1, List.getElem?_eq_getElem this⟩

theorem lt_of_new (P : Parts k so linkRole h arcs ends res) {i : Nat} {n : NetNode} (hn : NewNode h res i n) : i < P.h0.length := by
  rw [← P.frame.1]
  exact (List.getElem?_eq_some_iff.1 hn.2).1

theorem mem_lookup (P : Parts k so linkRole h arcs ends res) (l role : String) (i : Nat) :
    i ∈ lookupNodes k P.h0 h.length l role ↔ ∃ n, NewNode h res i n ∧ n.label = l ∧ (k.physical = true → n.arcRole = role) := by
  rw [mem_lookupNodes]
  constructor
  · rintro ⟨h1, n0, h2, h3, h4⟩
    obtain ⟨n, hn⟩ := P.new_of_lt h1 (List.getElem?_eq_some_iff.1 h2).1
    obtain ⟨p, _, _, h0i, hl, _, _, hr, _⟩ := P.new_node hn
    rw [h2] at h0i
    cases h0i
    exact ⟨n, hn, hl.trans h3, fun hp => hr.trans (h4 hp)⟩
  · rintro ⟨n, hn, h3, h4⟩
    obtain ⟨p, _, _, h0i, hl, _, _, hr, _⟩ := P.new_node hn
    exact ⟨hn.1, p.1, h0i, hl.symm.trans h3, fun hp => hr.symm.trans (h4 hp)⟩

theorem order_eq (P : Parts k so linkRole h arcs ends res) : P.h0.orderOf = res.heap.orderOf := by
  funext i
  exact (P.frame.order i).symm

/-- What was added to node `i`, in the order of the insertions. -/
def added (P : Parts k so linkRole h arcs ends res) (i : Nat) : List Nat :=
  (so.edges ((firstByKey Arc.key arcs).map Arc.key)).flatMap
    (fun e => if i ∈ lookupNodes k P.h0 h.length e.1 e.2.2 then lookupNodes k P.h0 h.length e.2.1 e.2.2 else [])

theorem children_spec (P : Parts k so linkRole h arcs ends res) {i : Nat} {n : NetNode} (hn : NewNode h res i n) :
    (k ≠ .label → ChildrenSpec res.heap.orderOf (P.added i) n.children) ∧ (k = .label → n.children = P.added i) := by
  have hlt := P.lt_of_new hn
  have hb := edgeOps_bound k P.h0 h.length (so.edges ((firstByKey Arc.key arcs).map Arc.key))
  obtain ⟨p, _, hp, h0i, _, _, hk, _⟩ := P.new_node hn
  have hget : P.h0[i] = p.1 := by
    rw [List.getElem?_eq_getElem hlt] at h0i
    exact Option.some.inj h0i
  have hkind : P.h0[i].kind = k.nodeKind := by rw [hget]; exact (P.node_ok p hp).2.1
  have hch0 : P.h0.children i = [] := by
    unfold Heap.children
    rw [h0i]
    exact (P.node_ok p hp).2.2.1
  have hch : n.children = res.heap.children i := by
    unfold Heap.children
    rw [hn.2]
    rfl
  rw [hch, ← P.order_eq]
  have hadd : P.added i = addedTo i ([] ++ edgeOps k P.h0 h.length (so.edges ((firstByKey Arc.key arcs).map Arc.key))) := by
    rw [List.nil_append, addedTo_edgeOps]
    rfl
  rw [hadd]
  constructor
  · intro hkl
    refine runAdds_one P.h0 i hlt ?_ _ [] P.h0 res.heap (SameFrame.refl _) ?_ (fun o ho => ⟨(hb o ho).1.2, (hb o ho).2.2⟩) P.run
    · rw [hkind]; cases k <;> simp_all [LinkKind.nodeKind]
    · rw [hch0]; exact ChildrenSpec.nil _
  · intro hkl
    refine runAdds_label P.h0 i hlt ?_ _ [] P.h0 res.heap (SameFrame.refl _) ?_ (fun o ho => ⟨(hb o ho).1.2, (hb o ho).2.2⟩) P.run
    · rw [hkind, hkl]; rfl
    · rw [hch0]; rfl

theorem children_perm (P : Parts k so linkRole h arcs ends res) {i : Nat} {n : NetNode} (hn : NewNode h res i n) : n.children.Perm (P.added i) := by
  obtain ⟨h1, h2⟩ := P.children_spec hn
  by_cases hk : k = .label
  · rw [h2 hk]
  · exact (h1 hk).perm

theorem frames (P : Parts k so linkRole h arcs ends res) :
    (res.heap.drop h.length).map Brel.frame = P.made.flatten.map (fun p => Brel.frame p.1) := by
  have h1 : res.heap.map Brel.frame = P.h0.map Brel.frame := by
    apply List.ext_getElem?
    intro i
    rw [List.getElem?_map, List.getElem?_map]
    exact P.frame.2 i
  rw [List.map_drop, h1, ← List.map_drop]
  unfold Parts.h0
  rw [List.drop_left, List.map_map]
  rfl

/-- Every resolved end has a node; with physical factories one per arc role. -/
theorem exists_node (P : Parts k so linkRole h arcs ends res) {l : String} {t : Target} (he : (l, t) ∈ resolvedEnds ends) (r : String)
    (hr : k.physical = true → r ∈ rolesAt arcs l) :
    ∃ i n, NewNode h res i n ∧ n.label = l ∧ n.target = t ∧ (k.physical = true → n.arcRole = r) := by
  have hrel : ∃ m ∈ P.made, endNodes k so (firstByKey Arc.key arcs) l t = .ok m := by
    have := P.ends_ok
    generalize resolvedEnds ends = es at he this
    generalize P.made = made at this ⊢
    induction this with
    | nil => cases he
    | @cons e m es ms h1 _ ih =>
      rcases List.mem_cons.1 he with rfl | he
      · exact ⟨m, List.mem_cons_self, h1⟩
      · obtain ⟨m', hm', h'⟩ := ih he
        exact ⟨m', List.mem_cons_of_mem _ hm', h'⟩
  obtain ⟨m, hm, hok⟩ := hrel
  obtain ⟨h1, h2, h3⟩ := endNodes_ok hok
  have hp : ∃ p ∈ m, k.physical = true → p.1.arcRole = r := by
    cases hphys : k.physical with
    | false =>
      have := h2 hphys
      match m, this with
      | [p], _ => exact ⟨p, by simp, by simp⟩
    | true =>
      have := ((h3 hphys).trans (rolesAt_kept arcs l)).mem_iff.2 (hr hphys)
      obtain ⟨p, hp, he⟩ := List.mem_map.1 this
      exact ⟨p, hp, fun _ => he⟩
  obtain ⟨p, hp, hpr⟩ := hp
  have hfl : p ∈ P.made.flatten := List.mem_flatten.2 ⟨m, hm, hp⟩
  obtain ⟨j, hj, hjp⟩ := List.getElem_of_mem hfl
  have hlt : h.length + j < P.h0.length := by
    unfold Parts.h0
    rw [List.length_append, List.length_map]
    omega
  obtain ⟨n, hn⟩ := P.new_of_lt (i := h.length + j) (Nat.le_add_right _ _) hlt
  obtain ⟨q, hq, _, _, hl, ht, _, hrole, _⟩ := P.new_node hn
  rw [Nat.add_sub_cancel_left, List.getElem?_eq_getElem hj, hjp] at hq
  cases hq
  obtain ⟨e1, e2, _⟩ := h1 p hp
  exact ⟨h.length + j, n, hn, hl.trans e1, ht.trans e2, fun hph => hrole.trans (hpr hph)⟩

/-- The roots collected while making the nodes. -/
def rootList (P : Parts k so linkRole h arcs ends res) : List Nat :=
  so.nodes ((List.range P.h0.length).filter (fun i => decide (h.length ≤ i) && ((P.made.flatten[i - h.length]?.map (·.2)).getD false)))

theorem mem_rootList (P : Parts k so linkRole h arcs ends res) (i : Nat) : i ∈ P.rootList ↔ ∃ n, NewNode h res i n ∧ NoIncoming k arcs n := by
  unfold rootList
  rw [(so.nodes_perm _).mem_iff, List.mem_filter, List.mem_range, Bool.and_eq_true, decide_eq_true_eq]
  constructor
  · rintro ⟨hlt, hle, hb⟩
    obtain ⟨n, hn⟩ := P.new_of_lt hle hlt
    obtain ⟨p, hp, hpm, _, hl, _, _, hr, _⟩ := P.new_node hn
    rw [hp] at hb
    have := (P.node_ok p hpm).2.2.2.1 hb
    refine ⟨n, hn, ?_⟩
    unfold NoIncoming at this ⊢
    rw [hl, hr]
    exact this
  · rintro ⟨n, hn, hno⟩
    obtain ⟨p, hp, hpm, _, hl, _, _, hr, _⟩ := P.new_node hn
    refine ⟨P.lt_of_new hn, hn.1, ?_⟩
    rw [hp]
    apply (P.node_ok p hpm).2.2.2.2
    unfold NoIncoming at hno ⊢
    rw [← hl, ← hr]
    exact hno

theorem rootList_nodup (P : Parts k so linkRole h arcs ends res) : P.rootList.Nodup := by
  unfold rootList
  rw [(so.nodes_perm _).nodup_iff]
  exact List.nodup_range.filter _

theorem nets' (P : Parts k so linkRole h arcs ends res) : res.networks = makeNetworks k so linkRole res.heap P.rootList := P.nets

end Parts

theorem mem_makeNetworks {k : LinkKind} {so : SetOrder} {linkRole : String} {h : Heap} {roots : List Nat} {net : Network}
    (hm : net ∈ makeNetworks k so linkRole h roots) :
    net.linkRole = linkRole ∧ net.kind = k.nodeKind ∧ net.physical = k.physical ∧ net.roots ≠ [] ∧
    (k.physical = false → net.roots = roots) ∧ (k.physical = true → ∃ r, net.roots = roots.filter (fun i => h.arcRoleOf i = r)) := by
  unfold makeNetworks at hm
  split at hm
  · cases hm
  · rename_i hne
    split at hm
    · rename_i hphys
      obtain ⟨r, hr, rfl⟩ := List.mem_map.1 hm
      refine ⟨rfl, rfl, hphys.symm, ?_, by rw [hphys]; exact fun h => absurd h (by simp), fun _ => ⟨r, rfl⟩⟩
      have := (so.strings_perm _).mem_iff.1 hr
      rw [mem_foldl_appendNew] at this
      rcases this with h' | h'
      · cases h'
      · obtain ⟨i, hi, he⟩ := List.mem_map.1 h'
        exact List.ne_nil_of_mem (List.mem_filter.2 ⟨hi, by simpa using he⟩)
    · rename_i hphys
      rw [List.mem_singleton] at hm
      subst hm
      refine ⟨rfl, rfl, by simpa using Eq.symm (Bool.eq_false_iff.2 hphys), ?_, fun _ => rfl, fun h => absurd h hphys⟩
      intro he
      apply hne
      simpa using he

theorem roots_makeNetworks (k : LinkKind) (so : SetOrder) (linkRole : String) (h : Heap) (roots : List Nat) (i : Nat) :
    (∃ net ∈ makeNetworks k so linkRole h roots, i ∈ net.roots) ↔ i ∈ roots := by
  constructor
  · rintro ⟨net, hm, hi⟩
    obtain ⟨_, _, _, _, h1, h2⟩ := mem_makeNetworks hm
    cases hphys : k.physical with
    | false => rw [h1 hphys] at hi; exact hi
    | true =>
      obtain ⟨r, hr⟩ := h2 hphys
      rw [hr] at hi
      exact (List.mem_filter.1 hi).1
  · intro hi
    unfold makeNetworks
    rw [if_neg (by rw [List.isEmpty_iff]; exact List.ne_nil_of_mem hi)]
    split
    · refine ⟨_, List.mem_map.2 ⟨h.arcRoleOf i, ?_, rfl⟩, ?_⟩
      · rw [(so.strings_perm _).mem_iff, mem_foldl_appendNew]
        exact Or.inr (List.mem_map.2 ⟨i, hi, rfl⟩)
      · exact List.mem_filter.2 ⟨hi, by simp⟩
    · exact ⟨_, List.mem_singleton.2 rfl, hi⟩

theorem makeNetworks_roles (k : LinkKind) (so : SetOrder) (linkRole : String) (h : Heap) (roots : List Nat) (hk : k.physical = true) :
    (makeNetworks k so linkRole h roots).Pairwise (fun a b => ∀ i ∈ a.roots, ∀ j ∈ b.roots, h.arcRoleOf i ≠ h.arcRoleOf j) := by
  unfold makeNetworks
  split
  · exact .nil
  · rw [List.pairwise_map]
    have : (so.strings ((roots.map h.arcRoleOf).foldl appendNew [])).Nodup := by
      rw [(so.strings_perm _).nodup_iff]
      exact foldl_appendNew_nodup _ _ List.nodup_nil
    refine this.imp ?_
    intro r s hne i hi j hj he
    have h1 := of_decide_eq_true (List.mem_filter.1 hi).2
    have h2 := of_decide_eq_true (List.mem_filter.1 hj).2
    exact hne (h1.symm.trans (he.trans h2))

theorem count_flatMap_nodup {α : Type} (F : α → List Nat) (hF : ∀ a, (F a).Nodup) (j : Nat) : ∀ l : List α,
    (l.flatMap F).count j = l.countP (fun a => decide (j ∈ F a)) := by
  intro l
  induction l with
  | nil => rfl
  | cons a l ih =>
    rw [List.flatMap_cons, List.count_append, ih, List.countP_cons, (hF a).count, Nat.add_comm]
    simp only [decide_eq_true_eq]

/-! ### Which arc a node is made from -/

theorem arcsTo_find (kept : List Arc) (l : String) (q : Arc → Bool) : (arcsTo kept l).find? q = kept.find? (fun a => decide (a.to = l) && q a) := by
  unfold arcsTo incident
  induction kept with
  | nil => rfl
  | cons a kept ih =>
    rw [List.flatMap_cons, List.filter_append, List.filter_append, List.find?_append, List.find?_append, ih, List.find?_cons]
    by_cases ht : a.to = l
    · by_cases hf : a.frm = l <;> cases hq : q a <;> simp [ht, hf, hq]
    · by_cases hf : a.frm = l <;> simp [ht, hf]

theorem endNodes_arc {k : LinkKind} {so : SetOrder} {kept : List Arc} {l : String} {t : Target} {r : List (NetNode × Bool)}
    (h : endNodes k so kept l t = .ok r) (p : NetNode × Bool) (hp : p ∈ r) (a : Arc)
    (ha : kept.find? (fun a => decide (LeadsTo k a p.1)) = some a) : createNode k l (some a) t = .ok p.1 := by
  have hl := ((endNodes_ok h).1 p hp).1
  have hmem := List.mem_of_find?_eq_some ha
  have hlead : LeadsTo k a p.1 := of_decide_eq_true (List.find?_some (p := fun a => decide (LeadsTo k a p.1)) ha)
  have hto : a ∈ arcsTo kept l := (mem_arcsTo ..).2 ⟨hmem, hlead.1.trans hl⟩
  unfold endNodes at h
  dsimp only at h
  split at h
  · rename_i hemp
    rw [Bool.and_eq_true, List.isEmpty_iff, List.isEmpty_iff] at hemp
    rw [hemp.1] at hto
    cases hto
  · split at h
    · rename_i hphys
      obtain ⟨role, hr, hc⟩ := ((mapM_ok_iff _ _ _).1 h).mem_right p hp
      have hsort : ((incident kept l).filter (fun a => decide (a.to = l)) ++ (incident kept l).filter (fun a => !decide (a.to = l))).find? (fun a => decide (a.role = role)) =
          (kept.find? (fun a => decide (a.to = l) && decide (a.role = role))).or (((incident kept l).filter (fun a => !decide (a.to = l))).find? (fun a => decide (a.role = role))) := by
        rw [List.find?_append]
        congr 1
        exact arcsTo_find kept l _
      cases hcn : createNode k l (((incident kept l).filter (fun a => decide (a.to = l)) ++ (incident kept l).filter (fun a => !decide (a.to = l))).find? (fun a => decide (a.role = role))) t with
      | error e => rw [hcn] at hc; cases hc
      | ok n =>
        rw [hcn] at hc
        cases hc
        have hfind : ∃ b, ((incident kept l).filter (fun a => decide (a.to = l)) ++ (incident kept l).filter (fun a => !decide (a.to = l))).find? (fun a => decide (a.role = role)) = some b := by
          rw [← Option.isSome_iff_exists, List.find?_isSome]
          have hr' := (so.strings_perm _).mem_iff.1 hr
          rw [mem_foldl_appendNew, mem_foldl_appendNew] at hr'
          simp only [List.mem_append, List.mem_filter, decide_eq_true_eq, Bool.not_eq_true', decide_eq_false_iff_not]
          rcases hr' with (h' | h') | h'
          · cases h'
          · obtain ⟨b, hb, rfl⟩ := List.mem_map.1 h'
            have := (mem_arcsTo ..).1 hb
            exact ⟨b, Or.inl ⟨(mem_incident ..).2 ⟨this.1, Or.inr this.2⟩, this.2⟩, rfl⟩
          · obtain ⟨b, hb, rfl⟩ := List.mem_map.1 h'
            have := (mem_arcsFrom ..).1 hb
            by_cases hbt : b.to = l
            · exact ⟨b, Or.inl ⟨(mem_incident ..).2 ⟨this.1, Or.inr hbt⟩, hbt⟩, rfl⟩
            · exact ⟨b, Or.inr ⟨(mem_incident ..).2 ⟨this.1, Or.inl this.2⟩, hbt⟩, rfl⟩
        obtain ⟨b, hb⟩ := hfind
        have hrole : n.arcRole = role := by
          have h5 := (createNode_ok hcn).2.2.2.2
          rw [hb] at h5
          exact h5.trans (of_decide_eq_true (List.find?_some (p := fun a : Arc => decide (a.role = role)) hb))
        have ha' : kept.find? (fun a => decide (a.to = l) && decide (a.role = role)) = some a := by
          rw [← ha]
          congr 1
          funext x
          dsimp only at hl
          simp only [LeadsTo, hphys, hl, hrole, forall_const]
          rw [Bool.eq_iff_iff]
          simp
        rw [hsort, ha', Option.some_or] at hcn
        exact hcn
    · rename_i hphys
      cases hcn : createNode k l ((arcsTo kept l).head?.or (arcsFrom kept l).head?) t with
      | error e => rw [hcn] at h; cases h
      | ok n =>
        rw [hcn] at h
        cases h
        rw [List.mem_singleton] at hp
        subst hp
        have ha' : (arcsTo kept l).head? = some a := by
          rw [arcsTo_head, ← ha]
          congr 1
          funext x
          dsimp only at hl
          have : (k.physical = true → x.role = n.arcRole) ↔ True := by simp [hphys]
          simp only [LeadsTo, hl, this, and_true]
        rw [ha', Option.some_or] at hcn
        exact hcn

/-- A node shows the first arc that leads to it. -/
theorem Parse.node_arc {k : LinkKind} {so : SetOrder} {linkRole : String} {h : Heap} {arcs : List Arc} {ends : List LinkEnd} {res : LinkResult}
    (P : Parse k so linkRole h arcs ends res) {i : Nat} {n : NetNode} (hn : NewNode h res i n) (a : Arc)
    (ha : arcs.find? (fun a => decide (LeadsTo k a n)) = some a) (hself : a.frm ≠ a.to) :
    k.arcWeight a = .ok n.weight ∧ k.arcOrder a = .ok n.order ∧ n.preferredLabel = k.arcPreferredLabel a := by
  obtain ⟨p, _, hp, _, hl, ht, _, hr, ho, hw, hpl⟩ := P.new_node hn
  obtain ⟨r, hrm, hpr⟩ := List.mem_flatten.1 hp
  obtain ⟨e, he, hok⟩ := P.ends_ok.mem_right r hrm
  have heq : (fun a : Arc => decide (LeadsTo k a n)) = (fun a => decide (LeadsTo k a p.1)) := by
    funext x
    simp only [LeadsTo, hl, hr]
  rw [heq] at ha
  rw [← find?_kept arcs _ (by
    intro a b hab
    simp only [Arc.key, Prod.mk.injEq] at hab
    simp only [LeadsTo, hab.2.1, hab.2.2])] at ha
  have hc := endNodes_arc hok p hpr a ha
  have hlead : LeadsTo k a p.1 := of_decide_eq_true (List.find?_some (p := fun a => decide (LeadsTo k a p.1)) ha)
  have hl' := ((endNodes_ok hok).1 p hpr).1
  have hto : a.to = e.1 := hlead.1.trans hl'
  have := createNode_arc hc (fun h' => hself (h'.trans hto.symm)) hto
  rw [ho, hw, hpl]
  exact this

theorem strict_means {x : NumAttr} {d q : Rat} (h : x.strict d = .ok q) : x.means d q := by
  cases x <;> cases h
  · exact Or.inr ⟨Or.inl rfl, rfl⟩
  · exact Or.inl rfl

theorem lenient_means {x : NumAttr} {d q : Rat} (h : x.lenient d = .ok q) : x.means d q := by
  cases x <;> cases h
  · exact Or.inr ⟨Or.inl rfl, rfl⟩
  · exact Or.inr ⟨Or.inr rfl, rfl⟩
  · exact Or.inl rfl

theorem showsArc_of {k : LinkKind} {a : Arc} {n : NetNode} (h : k.arcWeight a = .ok n.weight ∧ k.arcOrder a = .ok n.order ∧ n.preferredLabel = k.arcPreferredLabel a) :
    ShowsArc k a n := by
  obtain ⟨h1, h2, h3⟩ := h
  refine ⟨?_, ?_, ?_, ?_⟩
  · rintro (rfl | rfl | rfl | rfl)
    · exact strict_means h2
    · exact strict_means h2
    · exact lenient_means h2
    · exact lenient_means h2
  · rintro rfl; exact lenient_means h2
  · rintro rfl; exact lenient_means h1
  · rintro rfl; exact h3

/-! ### Attributes that are not read -/

theorem firstByKey_map {α β κ : Type} [DecidableEq κ] (f : α → β) (key : α → κ) (key' : β → κ) (hk : ∀ a, key' (f a) = key a) :
    ∀ l : List α, firstByKey key' (l.map f) = (firstByKey key l).map f
  | [] => rfl
  | a :: l => by
    rw [List.map_cons, firstByKey, firstByKey, List.map_cons, firstByKey_map f key key' hk l, List.filter_map]
    congr 2
    apply List.filter_congr
    intro b _
    simp [hk]

section Use
variable (f : Arc → Arc) (hf : ∀ a, (f a).frm = a.frm ∧ (f a).to = a.to ∧ (f a).role = a.role ∧ (f a).order = a.order ∧ (f a).weight = a.weight ∧
  (f a).preferredLabel = a.preferredLabel)
include hf

theorem incident_map (kept : List Arc) (l : String) : incident (kept.map f) l = (incident kept l).map f := by
  unfold incident
  induction kept with
  | nil => rfl
  | cons a kept ih =>
    rw [List.map_cons, List.flatMap_cons, List.flatMap_cons, List.map_append, ih, (hf a).1, (hf a).2.1]
    by_cases h1 : a.frm = l <;> by_cases h2 : a.to = l <;> simp [h1, h2]

theorem createNode_map (k : LinkKind) (l : String) (x : Option Arc) (t : Target) : createNode k l (x.map f) t = createNode k l x t := by
  unfold createNode
  congr 1
  unfold nodeData
  cases x with
  | none => rfl
  | some a =>
    obtain ⟨h1, h2, h3, h4, h5, h6⟩ := hf a
    have hw : k.arcWeight (f a) = k.arcWeight a := by unfold LinkKind.arcWeight; rw [h5]
    have ho : k.arcOrder (f a) = k.arcOrder a := by unfold LinkKind.arcOrder; rw [h4]
    have hp : k.arcPreferredLabel (f a) = k.arcPreferredLabel a := by unfold LinkKind.arcPreferredLabel; rw [h6]
    simp only [Option.map_some, h1, h2, h3, hw, ho, hp]

theorem endNodes_map (k : LinkKind) (so : SetOrder) (kept : List Arc) (l : String) (t : Target) :
    endNodes k so (kept.map f) l t = endNodes k so kept l t := by
  have hto : arcsTo (kept.map f) l = (arcsTo kept l).map f := by
    unfold arcsTo
    rw [incident_map f hf, List.filter_map]
    congr 1
    apply List.filter_congr
    intro a _
    simp [(hf a).2.1]
  have hfrom : arcsFrom (kept.map f) l = (arcsFrom kept l).map f := by
    unfold arcsFrom
    rw [incident_map f hf, List.filter_map]
    congr 1
    apply List.filter_congr
    intro a _
    simp [(hf a).1]
  have hroles : ∀ x : List Arc, (x.map f).map (·.role) = x.map (·.role) := by
    intro x
    rw [List.map_map]
    apply List.map_congr_left
    intro a _
    exact (hf a).2.2.1
  have hsort : ∀ r, ((incident (kept.map f) l).filter (fun a => decide (a.to = l)) ++ (incident (kept.map f) l).filter (fun a => !decide (a.to = l))).find? (fun a => decide (a.role = r)) =
      (((incident kept l).filter (fun a => decide (a.to = l)) ++ (incident kept l).filter (fun a => !decide (a.to = l))).find? (fun a => decide (a.role = r))).map f := by
    intro r
    rw [incident_map f hf, List.filter_map, List.filter_map, ← List.map_append, List.find?_map]
    have e1 : ((fun a : Arc => decide (a.to = l)) ∘ f) = (fun a : Arc => decide (a.to = l)) := by funext a; simp [(hf a).2.1]
    have e2 : ((fun a : Arc => !decide (a.to = l)) ∘ f) = (fun a : Arc => !decide (a.to = l)) := by funext a; simp [(hf a).2.1]
    have e3 : ((fun a : Arc => decide (a.role = r)) ∘ f) = (fun a : Arc => decide (a.role = r)) := by funext a; simp [(hf a).2.2.1]
    rw [e1, e2, e3]
  have hor : ((arcsTo kept l).map f).head?.or ((arcsFrom kept l).map f).head? = ((arcsTo kept l).head?.or (arcsFrom kept l).head?).map f := by
    rw [List.head?_map, List.head?_map]
    cases (arcsTo kept l).head? <;> rfl
  unfold endNodes
  dsimp only
  rw [hto, hfrom, hroles, hroles, hor, createNode_map f hf, List.isEmpty_map, List.isEmpty_map]
  have hmap : (fun r => (do
      let n ← createNode k l (((incident (kept.map f) l).filter (fun a => decide (a.to = l)) ++ (incident (kept.map f) l).filter (fun a => !decide (a.to = l))).find? (fun a => decide (a.role = r))) t
      return (n, !decide (r ∈ ((arcsTo kept l).map (·.role)).foldl appendNew [])) : Except PyErr (NetNode × Bool))) = (fun r => do
      let n ← createNode k l (((incident kept l).filter (fun a => decide (a.to = l)) ++ (incident kept l).filter (fun a => !decide (a.to = l))).find? (fun a => decide (a.role = r))) t
      return (n, !decide (r ∈ ((arcsTo kept l).map (·.role)).foldl appendNew []))) := by
    funext r
    rw [hsort, createNode_map f hf]
  rw [hmap]

theorem parseLink_map (k : LinkKind) (so : SetOrder) (linkRole : String) (h : Heap) (arcs : List Arc) (ends : List LinkEnd) :
    (parseLink k so linkRole h (arcs.map f) ends).map (fun r => (r.heap, r.networks, r.unresolved, r.labels)) =
      (parseLink k so linkRole h arcs ends).map (fun r => (r.heap, r.networks, r.unresolved, r.labels)) := by
  have hkey : ∀ a, (f a).key = a.key := fun a => by unfold Arc.key; rw [(hf a).1, (hf a).2.1, (hf a).2.2.1]
  have hk2 : ((firstByKey Arc.key arcs).map f).map Arc.key = (firstByKey Arc.key arcs).map Arc.key := by
    rw [List.map_map]
    exact List.map_congr_left (fun a _ => hkey a)
  have hen : (fun e : String × Target => endNodes k so ((firstByKey Arc.key arcs).map f) e.1 e.2) = fun e => endNodes k so (firstByKey Arc.key arcs) e.1 e.2 := by
    funext e
    exact endNodes_map f hf k so _ e.1 e.2
  unfold parseLink
  rw [scanArcs_spec, scanArcs_spec, firstByKey_map f Arc.key Arc.key hkey]
  dsimp only
  rw [hk2, hen]
  cases (resolvedEnds ends).mapM (fun e => endNodes k so (firstByKey Arc.key arcs) e.1 e.2) with
  | error e => rfl
  | ok made =>
    simp only [bind, Except.bind]
    cases runAdds (h ++ made.flatten.map (·.1)) (edgeOps k (h ++ made.flatten.map (·.1)) h.length (so.edges ((firstByKey Arc.key arcs).map Arc.key))) with
    | error e => rfl
    | ok h' =>
      dsimp only
      generalize makeNetworks k so linkRole h' _ = nets
      cases nets.mapM (updateReportElements k h') with
      | error e => rfl
      | ok ls => rfl

end Use

end Brel
