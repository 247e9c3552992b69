import Verif.Lemmas.Context

/-! C01, C02: what a context answers after any history of additions. -/

namespace Brel

/-- C01. Looking up an aspect returns the first characteristic ever added for an aspect of that name, and nothing if none was. -/
theorem C01_first_characteristic_wins (id : String) (cs : List Characteristic) (a : Aspect) :
    (cs.foldl Context.add (Context.new id)).getCharacteristic a
      = cs.find? (fun c => c.aspect.name = a.name) :=
  (ctxInv_history id cs).chars a.name

/-- C01. Adding to a context that already has the aspect changes no answer and no listing. -/
theorem C01_later_addition_ignored (id : String) (cs : List Characteristic) (c : Characteristic)
    (h : ∃ c' ∈ cs, c'.aspect.name = c.aspect.name) :
    (cs.foldl Context.add (Context.new id)).add c = cs.foldl Context.add (Context.new id) := by
  have inv := ctxInv_history id cs
  have : c.aspect.name ∈ (cs.foldl Context.add (Context.new id)).aspects.map (·.name) := by
    rw [inv.names]; simpa using h
  generalize cs.foldl Context.add (Context.new id) = ctx at this
  obtain ⟨a, ha, hn⟩ := List.mem_map.1 this
  unfold Context.add
  rw [if_pos]
  simp only [List.any_eq_true, Aspect.eq, decide_eq_true_eq]
  exact ⟨a, ha, hn⟩

/-- C01. `has_characteristic` agrees with the lookup. -/
theorem C01_has_iff_lookup (id : String) (cs : List Characteristic) (a : Aspect) :
    (cs.foldl Context.add (Context.new id)).hasCharacteristic a = true ↔
      ∃ c ∈ cs, c.aspect.name = a.name := by
  have inv := ctxInv_history id cs
  have := inv.names a.name
  simp only [List.mem_map] at this
  unfold Context.hasCharacteristic
  simp only [List.any_eq_true, Aspect.eq, decide_eq_true_eq]
  constructor
  · rintro ⟨b, hb, e⟩
    obtain ⟨c, hc, hn⟩ := this.1 ⟨b, hb, e.symm⟩
    exact ⟨c, hc, hn⟩
  · rintro ⟨c, hc, hn⟩
    obtain ⟨b, hb, e⟩ := this.2 ⟨c, hc, hn⟩
    exact ⟨b, hb, e.symm⟩

/-- C02. The listed aspects are sorted by name without repetition. -/
theorem C02_aspects_strictly_sorted (id : String) (cs : List Characteristic) :
    (cs.foldl Context.add (Context.new id)).getAspects.Pairwise (fun a b => a.name < b.name) := by
  have inv := ctxInv_history id cs
  have nd : (cs.foldl Context.add (Context.new id)).aspects.Pairwise (fun a b => a.name ≠ b.name) :=
    List.pairwise_map.1 inv.nodup
  refine List.Pairwise.imp ?_ (inv.sorted.and nd)
  intro a b ⟨h1, h2⟩
  have : ¬ b.name ≤ a.name := fun h3 => h2 (String.le_antisymm h1 h3)
  exact String.not_le.1 this

/-- C02. An aspect is listed if and only if it is the aspect of the first characteristic added under its name. -/
theorem C02_aspects_exact (id : String) (cs : List Characteristic) (a : Aspect) :
    a ∈ (cs.foldl Context.add (Context.new id)).getAspects ↔
      ∃ c, cs.find? (fun c => c.aspect.name = a.name) = some c ∧ c.aspect = a := by
  have inv := ctxInv_history id cs
  constructor
  · exact inv.mem a
  · rintro ⟨c, hc, rfl⟩
    have hin := (inv.names c.aspect.name).2 (List.mem_map.2 ⟨c, List.mem_of_find?_eq_some hc, rfl⟩)
    obtain ⟨b, hb, e⟩ := List.mem_map.1 hin
    obtain ⟨c', hc', hc'b⟩ := inv.mem b hb
    rw [e] at hc'
    have : c' = c := Option.some.inj (hc'.symm.trans hc)
    rw [← this, hc'b]; exact hb

/-- A context with a repeated aspect: the premises above range over histories like this one. -/
example :
    let cs := [Characteristic.ofUnit "usd" [] [], Characteristic.ofEntity "1" "s", Characteristic.ofUnit "eur" [] []]
    let ctx := cs.foldl Context.add (Context.new "c")
    ctx.getAspects.map (·.name) = ["entity", "unit"] ∧
    ctx.getCharacteristic .unit = some (Characteristic.ofUnit "usd" [] []) ∧
    ctx.getCharacteristic .period = none ∧
    (∃ c' ∈ cs, c'.aspect.name = (Characteristic.ofUnit "chf" [] []).aspect.name) := by decide

end Brel
