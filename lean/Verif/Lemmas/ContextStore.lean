import Verif.Spec.ContextStore
import Verif.Lemmas.Py

namespace Brel

theorem Characteristic.plain_aspect (c : Characteristic) : c.plain.aspect = c.aspect := by
  unfold Characteristic.plain; split <;> rfl

theorem Characteristic.plain_deepcopy (n : Nat) (c : Characteristic) : (c.deepcopy n).plain = c.plain := by
  obtain ⟨a, v⟩ := c
  cases v <;> rfl

theorem Context.plain_deepcopy (n : Nat) (c : Context) : (c.deepcopy n).plain = c.plain := by
  simp [Context.plain, Context.deepcopy, Characteristic.plain_deepcopy]

theorem map_set_plain (d : Dict String Characteristic) (k : String) (c : Characteristic) :
    (Dict.set d k c).map (fun e => (e.1, e.2.plain)) =
      Dict.set (κ := String) (d.map (fun e => (e.1, e.2.plain))) k c.plain := by
  induction d with
  | nil => rfl
  | cons e d ih =>
    obtain ⟨a, b⟩ := e
    simp only [Dict.set, List.map_cons]
    split
    · rfl
    · simp only [List.map_cons, ih]

theorem Context.plain_add (ctx : Context) (c : Characteristic) : (ctx.add c).plain = ctx.plain.add c.plain := by
  unfold Context.add
  rw [Characteristic.plain_aspect]
  show (if _ then _ else _ : Context).plain = if ctx.aspects.any _ then _ else _
  split
  · rfl
  · simp only [Context.plain, map_set_plain]

theorem Context.plain_foldl (cs : List Characteristic) : ∀ ctx ctx' : Context, ctx.plain = ctx'.plain →
    (cs.foldl Context.add ctx).plain = (cs.foldl Context.add ctx').plain := by
  induction cs with
  | nil => exact fun _ _ h => h
  | cons c cs ih =>
    intro ctx ctx' h
    exact ih _ _ (by rw [Context.plain_add, Context.plain_add, h])

theorem modify_last {α : Type} (g : α → α) (x : α) : ∀ h : List α, (h ++ [x]).modify h.length g = h ++ [g x] := by
  intro h
  induction h with
  | nil => rfl
  | cons a h ih => simp [ih]

theorem foldl_addAt (chars : List Characteristic) : ∀ (h : List Context) (c : Context) (r : Dict String Nat) (f : List Nat),
    chars.foldl (fun s c => CtxStore.addAt s h.length c) { heap := h ++ [c], repo := r, facts := f }
      = { heap := h ++ [chars.foldl Context.add c], repo := r, facts := f } := by
  induction chars with
  | nil => intros; rfl
  | cons x xs ih =>
    intro h c r f
    rw [List.foldl_cons, List.foldl_cons]
    have : CtxStore.addAt { heap := h ++ [c], repo := r, facts := f } h.length x
        = { heap := h ++ [c.add x], repo := r, facts := f } := by
      simp [CtxStore.addAt, modify_last]
    rw [this, ih]

/-- Invariant: what the heap shows against the declarations and the expected fact contexts. -/
structure StoreInv (s : CtxStore) (decls : List Context) (exp : List Context) : Prop where
  stored : ∀ cid, s.stored cid = decls.find? (fun c => c.id = cid)
  bound : ∀ e ∈ s.repo, e.2 < s.heap.length
  fbound : ∀ a ∈ s.facts, a < s.heap.length
  facts : s.factContexts.map (Option.map Context.plain) = exp.map (fun c => some c.plain)

theorem get_append_lt {α : Type} (h : List α) (x : α) (a : Nat) (ha : a < h.length) : (h ++ [x])[a]? = h[a]? := by
  rw [List.getElem?_append_left ha]

theorem stored_append (h : List Context) (x : Context) (r : Dict String Nat) (f f' : List Nat)
    (b : ∀ e ∈ r, e.2 < h.length) (cid : String) :
    CtxStore.stored { heap := h ++ [x], repo := r, facts := f } cid
      = CtxStore.stored { heap := h, repo := r, facts := f' } cid := by
  unfold CtxStore.stored
  simp only
  cases hr : Dict.get? r cid with
  | none => rfl
  | some a =>
    have := b _ (Dict.mem_get? r hr)
    simp only [Option.bind_some]
    exact get_append_lt h x a this

theorem storeInv_step {s : CtxStore} {decls exp : List Context} (inv : StoreInv s decls exp) (op : CtxOp) :
    (∀ c, op = .declare c → StoreInv (s.step op) (decls ++ [c]) exp) ∧
    (∀ cid chars, op = .fact cid chars →
      match decls.find? (fun c => c.id = cid) with
      | none => StoreInv (s.step op) decls exp
      | some c => StoreInv (s.step op) decls (exp ++ [chars.foldl Context.add c])) := by
  obtain ⟨h, r, f⟩ := s
  have hb := inv.bound
  have hfb := inv.fbound
  simp only at hb hfb
  constructor
  · rintro c rfl
    have hst := inv.stored
    have hfacts : (CtxStore.factContexts { heap := h ++ [c], repo := r, facts := f }) =
        (CtxStore.factContexts { heap := h, repo := r, facts := f }) := by
      simp only [CtxStore.factContexts]
      apply List.map_congr_left
      intro a ha
      exact get_append_lt h c a (hfb a ha)
    by_cases hin : Dict.has r c.id = true
    · have e : CtxStore.step { heap := h, repo := r, facts := f } (.declare c) =
          { heap := h ++ [c], repo := r, facts := f } := by
        simp [CtxStore.step, CtxStore.alloc, CtxStore.insertContext, hin]
      rw [e]
      refine ⟨?_, ?_, ?_, ?_⟩
      · intro cid
        rw [stored_append h c r f f hb, hst cid, List.find?_append]
        cases hf : decls.find? (fun c => decide (c.id = cid)) with
        | some x => rfl
        | none =>
          have hne : c.id ≠ cid := by
            rintro rfl
            rw [Dict.has_eq] at hin
            obtain ⟨a, ha⟩ := Option.isSome_iff_exists.1 hin
            have hlt := hb _ (Dict.mem_get? r ha)
            have := hst c.id
            rw [hf] at this
            simp only [CtxStore.stored, ha, Option.bind_some] at this
            rw [List.getElem?_eq_none_iff] at this
            simp only at hlt
            omega
          simp [hne]
      · intro e he; have := hb e he; simp; omega
      · intro a ha; have := hfb a ha; simp; omega
      · rw [hfacts]; exact inv.facts
    · have e : CtxStore.step { heap := h, repo := r, facts := f } (.declare c) =
          { heap := h ++ [c], repo := Dict.set r c.id h.length, facts := f } := by
        simp [CtxStore.step, CtxStore.alloc, CtxStore.insertContext, hin]
      rw [e]
      rw [Dict.has_eq] at hin
      have hnone : Dict.get? r c.id = none := by
        cases hg : Dict.get? r c.id with
        | none => rfl
        | some x => simp [hg] at hin
      refine ⟨?_, ?_, ?_, ?_⟩
      · intro cid
        simp only [CtxStore.stored, Dict.get?_set]
        by_cases e : c.id = cid
        · subst e
          have : decls.find? (fun x => decide (x.id = c.id)) = none := by
            rw [← hst c.id]; simp [CtxStore.stored, hnone]
          simp [this]
        · have h1 := stored_append h c r f f hb cid
          rw [hst cid] at h1
          simp only [CtxStore.stored] at h1
          simp only [e, if_false, h1, List.find?_append]
          simp [e]
      · intro e he
        simp only [List.length_append, List.length_singleton]
        have he2 : e.2 ∈ (Dict.set r c.id h.length).map (·.2) := List.mem_map.2 ⟨e, he, rfl⟩
        rw [Dict.set_of_not_mem r _ _ ((Dict.get?_eq_none_iff r c.id).1 hnone)] at he
        rcases List.mem_append.1 he with he | he
        · have := hb e he; omega
        · simp at he; subst he; simp
      · intro a ha; have := hfb a ha; simp; omega
      · have : (CtxStore.factContexts { heap := h ++ [c], repo := Dict.set r c.id h.length, facts := f }) =
          (CtxStore.factContexts { heap := h ++ [c], repo := r, facts := f }) := rfl
        rw [this, hfacts]; exact inv.facts
  · rintro cid chars rfl
    have hst := inv.stored cid
    simp only [CtxStore.step, CtxStore.getContextCopy]
    cases hr : Dict.get? r cid with
    | none =>
      simp only [CtxStore.stored, hr, Option.bind_none] at hst
      rw [← hst]
      exact inv
    | some addr =>
      have hlt := hb _ (Dict.mem_get? r hr)
      simp only [CtxStore.stored, hr, Option.bind_some] at hst
      have hsome : h[addr]? = some h[addr] := List.getElem?_eq_getElem hlt
      rw [hsome] at hst
      rw [← hst]
      simp only [hsome, CtxStore.alloc]
      rw [foldl_addAt]
      generalize hnew : chars.foldl Context.add (h[addr].deepcopy h.length) = new
      have hplain : new.plain = (chars.foldl Context.add h[addr]).plain := by
        rw [← hnew]; exact Context.plain_foldl _ _ _ (Context.plain_deepcopy _ _)
      refine ⟨?_, ?_, ?_, ?_⟩
      · intro cid'
        rw [stored_append h new r _ f hb]; exact inv.stored cid'
      · intro e he; have := hb e he; simp; omega
      · intro a ha
        simp only [List.mem_append, List.mem_singleton] at ha
        simp only [List.length_append, List.length_singleton]
        rcases ha with ha | ha
        · have := hfb a ha; omega
        · omega
      · have hfacts := inv.facts
        simp only [CtxStore.factContexts, List.map_append, List.map_cons, List.map_nil] at hfacts ⊢
        rw [← hfacts]
        congr 1
        · rw [List.map_map, List.map_map]
          apply List.map_congr_left
          intro a ha
          simp only [Function.comp]
          rw [get_append_lt h new a (hfb a ha)]
        · simp [hplain]

theorem storeInv_run (ops : List CtxOp) : ∀ (s : CtxStore) (decls exp : List Context), StoreInv s decls exp →
    StoreInv (ops.foldl CtxStore.step s) (decls ++ declarations ops) (exp ++ expectedFacts decls ops) := by
  induction ops with
  | nil => intro s decls exp inv; simpa [declarations, expectedFacts] using inv
  | cons op ops ih =>
    intro s decls exp inv
    have hstep := storeInv_step inv op
    cases op with
    | declare c =>
      have := ih _ _ _ (hstep.1 c rfl)
      simpa [declarations, expectedFacts] using this
    | fact cid chars =>
      have h2 := hstep.2 cid chars rfl
      simp only [List.foldl_cons, expectedFacts]
      have hd : declarations (.fact cid chars :: ops) = declarations ops := rfl
      rw [hd]
      cases hf : decls.find? (fun c => decide (c.id = cid)) with
      | none =>
        rw [hf] at h2
        exact ih _ _ _ h2
      | some c =>
        rw [hf] at h2
        have := ih _ _ _ h2
        simpa using this

end Brel
