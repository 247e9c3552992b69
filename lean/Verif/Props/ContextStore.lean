import Verif.Lemmas.ContextStore

/-! C03: facts sharing a contextRef do not influence each other. C51: comparing characteristics of facts of one context. -/

namespace Brel

/-- C03. At the end of every run each fact shows the first declared context of its id extended by its own characteristics,
nothing added for another fact. -/
theorem C03_facts_do_not_interfere (ops : List CtxOp) :
    (CtxStore.run ops).factContexts.map (Option.map Context.plain)
      = (expectedFacts [] ops).map (fun c => some c.plain) := by
  unfold CtxStore.run
  have init : StoreInv {} [] [] := ⟨fun _ => rfl, by simp, by simp, rfl⟩
  simpa using (storeInv_run ops {} [] [] init).facts

/-- C03. The stored context of an id is the first declared one, unmodified, whatever facts were built from it. -/
theorem C03_stored_context_unchanged (ops : List CtxOp) (cid : String) :
    (CtxStore.run ops).stored cid = (declarations ops).find? (fun c => c.id = cid) := by
  unfold CtxStore.run
  have init : StoreInv {} [] [] := ⟨fun _ => rfl, by simp, by simp, rfl⟩
  simpa using (storeInv_run ops {} [] [] init).stored cid

/-- A run with two facts of one context, a duplicate declaration and an unknown reference. -/
def C03_sample : List CtxOp :=
  let ctx := (Context.new "c1").add (.ofEntity "e" "s")
  [.declare ctx, .fact "c1" [.ofUnit "usd" [] []], .declare (Context.new "c1"), .fact "c1" [.ofUnit "eur" [] []],
   .fact "c2" [.ofUnit "chf" [] []]]

example : (CtxStore.run C03_sample).factContexts.map (Option.map (fun c => c.getCharacteristic .unit)) =
    [some (some (.ofUnit "usd" [] [])), some (some (.ofUnit "eur" [] []))] ∧
    ((CtxStore.run C03_sample).stored "c1").map (fun c => c.getCharacteristic .unit) = some none := by decide

/-- The dimension used in the C51 witness. -/
def C51_dim : Characteristic :=
  ⟨{ name := "us:AxisX" }, .explicit ⟨"u", "us", "AxisX"⟩ ⟨"u", "us", "MemberY"⟩ [0]⟩

/-- C51 is false: two inline facts with the same contextRef have unequal characteristics for an explicit dimension,
because copying the context copies the member and members are compared by identity. -/
theorem C51_same_context_equal_characteristics_false :
    ¬ ∀ (ops : List CtxOp) (i j : Nat) (a : Aspect) (c d : Characteristic),
      (expectedFacts [] ops)[i]? = (expectedFacts [] ops)[j]? →
      (((CtxStore.run ops).factContexts[i]?).join.bind (·.getCharacteristic a)) = some c →
      (((CtxStore.run ops).factContexts[j]?).join.bind (·.getCharacteristic a)) = some d →
      c.pyEq d = true := by
  intro h
  have := h [.declare ((Context.new "c1").add C51_dim), .fact "c1" [], .fact "c1" []] 0 1 { name := "us:AxisX" }
    (C51_dim.deepcopy 1) (C51_dim.deepcopy 2) (by decide) (by decide) (by decide)
  revert this
  decide

/-- C51, the part that holds: characteristics that are the same up to object identity are equal, except for dimensions.
Missing: explicit and typed dimensions (see `C51_same_context_equal_characteristics_false`). -/
theorem C51_equal_characteristics_partial (c d : Characteristic) (h : c.plain = d.plain)
    (hv : (∃ p, c.value = .period p) ∨ (∃ i s, c.value = .entity i s) ∨ (∃ n ns ds, c.value = .unit n ns ds)) :
    c.pyEq d = true := by
  obtain ⟨a, v⟩ := c
  obtain ⟨b, w⟩ := d
  rcases hv with ⟨p, hv⟩ | ⟨i, s, hv⟩ | ⟨n, ns, ds, hv⟩ <;> simp only at hv <;> subst hv <;>
    cases w <;> simp_all [Characteristic.plain, Characteristic.pyEq]

example : ∃ c d : Characteristic, c.plain = d.plain ∧ (∃ i s, c.value = .entity i s) :=
  ⟨.ofEntity "a" "b", .ofEntity "a" "b", rfl, "a", "b", rfl⟩

end Brel
