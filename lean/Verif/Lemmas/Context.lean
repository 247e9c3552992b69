import Verif.Model.Elements
import Verif.Lemmas.Py

namespace Brel

/-- The relation between a context and the history of characteristics added to it. -/
structure CtxInv (ctx : Context) (h : List Characteristic) : Prop where
  names : ∀ n, n ∈ ctx.aspects.map (·.name) ↔ n ∈ h.map (·.aspect.name)
  nodup : (ctx.aspects.map (·.name)).Nodup
  sorted : ctx.aspects.Pairwise (fun a b => a.name ≤ b.name)
  chars : ∀ n, ctx.chars.get? n = h.find? (fun c => c.aspect.name = n)
  mem : ∀ a ∈ ctx.aspects, ∃ c, h.find? (fun c => c.aspect.name = a.name) = some c ∧ c.aspect = a

theorem nameLe_tot (a b : Aspect) : Aspect.nameLe a b = true ∨ Aspect.nameLe b a = true := by
  simp only [Aspect.nameLe, decide_eq_true_eq]; exact String.le_total _ _

theorem nameLe_trans (a b c : Aspect) : Aspect.nameLe a b = true → Aspect.nameLe b c = true →
    Aspect.nameLe a c = true := by
  simp only [Aspect.nameLe, decide_eq_true_eq]; exact String.le_trans

theorem ctxInv_new (id : String) : CtxInv (Context.new id) [] := by
  constructor <;> simp [Context.new]

theorem ctxInv_add {ctx : Context} {h : List Characteristic} (inv : CtxInv ctx h) (c : Characteristic) :
    CtxInv (ctx.add c) (h ++ [c]) := by
  by_cases hin : c.aspect.name ∈ ctx.aspects.map (·.name)
  · have e : ctx.add c = ctx := by
      unfold Context.add
      rw [if_pos]
      obtain ⟨a, ha, hn⟩ := List.mem_map.1 hin
      simp only [List.any_eq_true, Aspect.eq, decide_eq_true_eq]
      exact ⟨a, ha, hn⟩
    rw [e]
    have hin' := (inv.names _).1 hin
    have hex : ∃ x, x ∈ h ∧ x.aspect.name = c.aspect.name := by simpa using hin'
    refine ⟨?_, inv.nodup, inv.sorted, ?_, ?_⟩
    · intro n
      rw [inv.names n, List.map_append, List.mem_append]
      constructor
      · exact Or.inl
      · rintro (h1 | h1)
        · exact h1
        · simp at h1; subst h1; exact hin'
    · intro n
      rw [inv.chars n, List.find?_append]
      cases hf : h.find? (fun c => decide (c.aspect.name = n)) with
      | some x => simp
      | none =>
        have : c.aspect.name ≠ n := by
          rintro rfl
          obtain ⟨x, hx, hxn⟩ := hex
          have := List.find?_eq_none.1 hf x hx
          simp [hxn] at this
        simp [this]
    · intro a ha
      obtain ⟨x, hx, hxa⟩ := inv.mem a ha
      refine ⟨x, ?_, hxa⟩
      rw [List.find?_append, hx]; rfl
  · have e : ctx.add c = { ctx with
        aspects := sortBy Aspect.nameLe (ctx.aspects ++ [c.aspect])
        chars := ctx.chars.set c.aspect.name c } := by
      unfold Context.add
      rw [if_neg]
      simp only [List.any_eq_true, Aspect.eq, decide_eq_true_eq]
      rintro ⟨a, ha, hn⟩
      exact hin (List.mem_map.2 ⟨a, ha, hn⟩)
    have hnot : h.find? (fun x => decide (x.aspect.name = c.aspect.name)) = none := by
      rw [List.find?_eq_none]
      intro x hx hxn
      apply hin
      rw [inv.names]
      exact List.mem_map.2 ⟨x, hx, by simpa using hxn⟩
    have perm := sortBy_perm (le := Aspect.nameLe) (ctx.aspects ++ [c.aspect])
    rw [e]
    refine ⟨?_, ?_, ?_, ?_, ?_⟩
    · intro n
      simp only
      rw [(perm.map (·.name)).mem_iff, List.map_append, List.map_append, List.mem_append, List.mem_append, inv.names]
      simp
    · simp only
      rw [(perm.map (·.name)).nodup_iff, List.map_append, List.nodup_append]
      refine ⟨inv.nodup, by simp, ?_⟩
      intro a ha b hb
      simp at hb
      subst hb
      rintro rfl
      exact hin ha
    · have := sortBy_sorted nameLe_tot nameLe_trans (ctx.aspects ++ [c.aspect])
      simpa [Aspect.nameLe] using this
    · intro n
      simp only [Dict.get?_set, inv.chars n, List.find?_append]
      by_cases hn : c.aspect.name = n
      · subst hn
        simp [hnot]
      · simp [hn]
    · intro a ha
      rw [mem_sortBy, List.mem_append] at ha
      rcases ha with ha | ha
      · obtain ⟨x, hx, hxa⟩ := inv.mem a ha
        refine ⟨x, ?_, hxa⟩
        rw [List.find?_append, hx]; rfl
      · simp at ha
        subst ha
        refine ⟨c, ?_, rfl⟩
        rw [List.find?_append, hnot]
        simp

theorem ctxInv_foldl (cs : List Characteristic) :
    ∀ (ctx : Context) (h : List Characteristic), CtxInv ctx h → CtxInv (cs.foldl Context.add ctx) (h ++ cs) := by
  induction cs with
  | nil => intro ctx h inv; simpa using inv
  | cons c cs ih =>
    intro ctx h inv
    have := ih _ _ (ctxInv_add inv c)
    simpa using this

theorem ctxInv_history (id : String) (cs : List Characteristic) :
    CtxInv (cs.foldl Context.add (Context.new id)) cs := by
  simpa using ctxInv_foldl cs _ _ (ctxInv_new id)

end Brel
