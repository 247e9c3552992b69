import Verif.Spec.Network
import Verif.Lemmas.History

namespace Brel
open Heap

/-! ### Recursive traversal -/

theorem visitList_nil (h : Heap) (limit : Nat) (acc : List Nat) : visitList h limit acc [] = .ok acc := rfl

theorem visitList_cons (h : Heap) (limit : Nat) (acc : List Nat) (i : Nat) (is : List Nat) :
    visitList h limit acc (i :: is) = (visit h limit acc i >>= fun a => visitList h limit a is) := rfl

theorem visit_zero (h : Heap) (acc : List Nat) (i : Nat) : visit h 0 acc i = .error .recursionError := rfl

theorem visit_succ (h : Heap) (limit : Nat) (acc : List Nat) (i : Nat) :
    visit h (limit + 1) acc i = visitList h limit (appendNew acc i) (h.children i) := rfl

theorem visitList_ok (h : Heap) (limit : Nat)
    (hv : ∀ acc i r, visit h limit acc i = .ok r → (∀ x, x ∈ r ↔ x ∈ acc ∨ Reachable h.children i x) ∧ (acc.Nodup → r.Nodup)) :
    ∀ (is : List Nat) (acc r : List Nat), visitList h limit acc is = .ok r →
      (∀ x, x ∈ r ↔ x ∈ acc ∨ ∃ i ∈ is, Reachable h.children i x) ∧ (acc.Nodup → r.Nodup) := by
  intro is
  induction is with
  | nil =>
    intro acc r h
    rw [visitList_nil] at h
    cases h
    simp
  | cons i is ih =>
    intro acc r hr
    rw [visitList_cons] at hr
    cases h1 : visit h limit acc i with
    | error e => rw [h1] at hr; cases hr
    | ok a =>
      rw [h1] at hr
      change visitList h limit a is = .ok r at hr
      obtain ⟨b1, b2⟩ := hv acc i a h1
      obtain ⟨c1, c2⟩ := ih a r hr
      refine ⟨?_, fun hn => c2 (b2 hn)⟩
      intro x
      rw [c1, b1]
      constructor
      · rintro ((h | h) | ⟨j, hj, h⟩)
        · exact Or.inl h
        · exact Or.inr ⟨i, by simp, h⟩
        · exact Or.inr ⟨j, by simp [hj], h⟩
      · rintro (h | ⟨j, hj, h⟩)
        · exact Or.inl (Or.inl h)
        · rcases List.mem_cons.1 hj with rfl | hj
          · exact Or.inl (Or.inr h)
          · exact Or.inr ⟨j, hj, h⟩

theorem reachable_cons (ch : Nat → List Nat) (a x : Nat) : Reachable ch a x ↔ x = a ∨ ∃ b ∈ ch a, Reachable ch b x := by
  constructor
  · rintro ⟨n, h⟩
    cases h with
    | refl => exact Or.inl rfl
    | step hb hp => exact Or.inr ⟨_, hb, _, hp⟩
  · rintro (rfl | ⟨b, hb, n, hp⟩)
    · exact ⟨0, .refl _⟩
    · exact ⟨n + 1, .step hb hp⟩

theorem visit_ok (h : Heap) (limit : Nat) : ∀ acc i r, visit h limit acc i = .ok r →
    (∀ x, x ∈ r ↔ x ∈ acc ∨ Reachable h.children i x) ∧ (acc.Nodup → r.Nodup) := by
  induction limit with
  | zero => intro acc i r h; rw [visit_zero] at h; cases h
  | succ limit ih =>
    intro acc i r hr
    rw [visit_succ] at hr
    obtain ⟨h1, h2⟩ := visitList_ok h limit ih _ _ _ hr
    refine ⟨?_, fun hn => h2 (nodup_appendNew hn)⟩
    intro x
    rw [h1, mem_appendNew, reachable_cons h.children i x]
    constructor
    · rintro ((h | h) | h)
      · exact Or.inl h
      · exact Or.inr (Or.inl h)
      · exact Or.inr (Or.inr h)
    · rintro (h | h | h)
      · exact Or.inl (Or.inl h)
      · exact Or.inl (Or.inr h)
      · exact Or.inr h

/-- The traversal fails exactly when a path has as many nodes as the limit or more, and then with `RecursionError`. -/
theorem visit_error (h : Heap) (limit : Nat) : ∀ acc i,
    ((∃ r, visit h limit acc i = .ok r) ↔ ∀ b n, Path h.children i b n → n < limit) ∧
    (∀ e, visit h limit acc i = .error e → e = .recursionError) := by
  induction limit with
  | zero =>
    intro acc i
    constructor
    · constructor
      · rintro ⟨r, hr⟩; rw [visit_zero] at hr; cases hr
      · intro hp; exact absurd (hp i 0 (.refl _)) (Nat.lt_irrefl 0)
    · intro e he; rw [visit_zero] at he; cases he; rfl
  | succ limit ih =>
    have hl : ∀ (is acc : List Nat), ((∃ r, visitList h limit acc is = .ok r) ↔ ∀ i ∈ is, ∀ b n, Path h.children i b n → n < limit) ∧
        (∀ e, visitList h limit acc is = .error e → e = .recursionError) := by
      intro is
      induction is with
      | nil =>
        intro acc
        constructor
        · simp [visitList_nil]
        · intro e he; rw [visitList_nil] at he; cases he
      | cons i is ihl =>
        intro acc
        obtain ⟨a1, a2⟩ := ih acc i
        rw [visitList_cons]
        cases h1 : visit h limit acc i with
        | error e0 =>
          rw [h1] at a1
          constructor
          · constructor
            · rintro ⟨r, hr⟩; cases hr
            · intro hp
              obtain ⟨r, hr⟩ := a1.2 (hp i List.mem_cons_self)
              cases hr
          · intro e he
            cases he
            exact a2 _ h1
        | ok a =>
          show ((∃ r, visitList h limit a is = .ok r) ↔ _) ∧ _
          obtain ⟨b1, b2⟩ := ihl a
          rw [b1]
          constructor
          · constructor
            · intro hp j hj
              rcases List.mem_cons.1 hj with rfl | hj
              · exact a1.1 ⟨a, h1⟩
              · exact hp j hj
            · intro hp j hj
              exact hp j (List.mem_cons_of_mem _ hj)
          · exact b2
    intro acc i
    rw [visit_succ]
    obtain ⟨c1, c2⟩ := hl (h.children i) (appendNew acc i)
    refine ⟨?_, c2⟩
    rw [c1]
    constructor
    · intro hp b n hb
      cases hb with
      | refl => exact Nat.succ_pos _
      | step h1 h2 => exact Nat.succ_lt_succ (hp _ h1 _ _ h2)
    · intro hp j hj b n hb
      exact Nat.lt_of_succ_lt_succ (hp b (n + 1) (.step hj hb))

theorem visitList_exists (h : Heap) (limit : Nat) : ∀ (is acc : List Nat),
    ((∃ r, visitList h limit acc is = .ok r) ↔ ∀ i ∈ is, ∀ b n, Path h.children i b n → n < limit) ∧
    (∀ e, visitList h limit acc is = .error e → e = .recursionError) := by
  intro is
  induction is with
  | nil =>
    intro acc
    constructor
    · simp [visitList_nil]
    · intro e he; rw [visitList_nil] at he; cases he
  | cons i is ihl =>
    intro acc
    obtain ⟨a1, a2⟩ := visit_error h limit acc i
    rw [visitList_cons]
    cases h1 : visit h limit acc i with
    | error e0 =>
      rw [h1] at a1
      constructor
      · constructor
        · rintro ⟨r, hr⟩; cases hr
        · intro hp
          obtain ⟨r, hr⟩ := a1.2 (hp i List.mem_cons_self)
          cases hr
      · intro e he
        cases he
        exact a2 _ h1
    | ok a =>
      show ((∃ r, visitList h limit a is = .ok r) ↔ _) ∧ _
      obtain ⟨b1, b2⟩ := ihl a
      rw [b1]
      constructor
      · constructor
        · intro hp j hj
          rcases List.mem_cons.1 hj with rfl | hj
          · exact a1.1 ⟨a, h1⟩
          · exact hp j hj
        · intro hp j hj
          exact hp j (List.mem_cons_of_mem _ hj)
      · exact b2

/-! ### Worklist traversal -/

theorem Path.snoc {ch : Nat → List Nat} {a b c n : Nat} (hp : Path ch a b n) (hc : c ∈ ch b) : Path ch a c (n + 1) := by
  induction hp with
  | refl => exact .step hc (.refl _)
  | step hb _ ih => exact .step hb (ih hc)

theorem descLoop_sound (h : Heap) (i : Nat) : ∀ steps wl acc r, descLoop h steps wl acc = some r →
    (∀ x ∈ acc, Reachable h.children i x) → (∀ x ∈ wl, Reachable h.children i x) →
    (∀ x ∈ acc, ∀ c ∈ h.children x, c ∈ acc ∨ c ∈ wl) → acc.Nodup →
    (∀ x ∈ r, Reachable h.children i x) ∧ (∀ x ∈ acc, x ∈ r) ∧ (∀ x ∈ wl, x ∈ r) ∧ (∀ x ∈ r, ∀ c ∈ h.children x, c ∈ r) ∧ r.Nodup := by
  intro steps
  induction steps with
  | zero => intro wl acc r hr; cases hr
  | succ steps ih =>
    intro wl acc r hr h1 h2 h3 hn
    rw [descLoop] at hr
    cases hl : wl.getLast? with
    | none =>
      rw [hl] at hr
      cases hr
      have : wl = [] := List.getLast?_eq_none_iff.1 hl
      subst this
      refine ⟨h1, fun x hx => hx, by simp, ?_, hn⟩
      intro x hx c hc
      rcases h3 x hx c hc with h | h
      · exact h
      · cases h
    | some j =>
      rw [hl] at hr
      obtain ⟨wl', rfl⟩ := List.getLast?_eq_some_iff.1 hl
      rw [List.dropLast_concat] at hr
      have hj : Reachable h.children i j := h2 j (by simp)
      have hstep : ∀ c ∈ h.children j, Reachable h.children i c := by
        intro c hc
        obtain ⟨n, hp⟩ := hj
        exact ⟨n + 1, hp.snoc hc⟩
      obtain ⟨r1, r2, r3, r4, r5⟩ := ih _ _ _ hr
        (by intro x hx; rcases mem_appendNew.1 hx with hx | rfl; exact h1 x hx; exact hj)
        (by intro x hx; rcases List.mem_append.1 hx with hx | hx; exact h2 x (by simp [hx]); exact hstep x hx)
        (by
          intro x hx c hc
          rcases mem_appendNew.1 hx with hx | rfl
          · rcases h3 x hx c hc with h' | h'
            · exact Or.inl (mem_appendNew.2 (Or.inl h'))
            · rcases List.mem_append.1 h' with h' | h'
              · exact Or.inr (by simp [h'])
              · have : c = j := by simpa using h'
                exact Or.inl (mem_appendNew.2 (Or.inr this))
          · exact Or.inr (by simp [hc]))
        (nodup_appendNew hn)
      refine ⟨r1, fun x hx => r2 x (mem_appendNew.2 (Or.inl hx)), ?_, r4, r5⟩
      intro x hx
      rcases List.mem_append.1 hx with hx | hx
      · exact r3 x (by simp [hx])
      · have : x = j := by simpa using hx
        exact r2 x (mem_appendNew.2 (Or.inr this))

theorem descLoop_mono (h : Heap) : ∀ s wl acc r, descLoop h s wl acc = some r → ∀ k, descLoop h (s + k) wl acc = some r := by
  intro s
  induction s with
  | zero => intro wl acc r hr; cases hr
  | succ s ih =>
    intro wl acc r hr k
    rw [descLoop] at hr
    rw [Nat.succ_add, descLoop]
    cases hl : wl.getLast? with
    | none => rw [hl] at hr; exact hr
    | some j => rw [hl] at hr; exact ih _ _ _ hr k

/-- Processing a finished node on top of the worklist takes finitely many steps. -/
theorem descLoop_pop (h : Heap) (d : Nat) : ∀ i, (∀ b n, Path h.children i b n → n < d) → ∀ acc,
    ∃ s acc', ∀ steps wl, descLoop h (steps + s) (wl ++ [i]) acc = descLoop h steps wl acc' := by
  induction d with
  | zero => intro i hp; exact absurd (hp i 0 (.refl _)) (Nat.lt_irrefl 0)
  | succ d ih =>
    intro i hp acc
    have hl : ∀ (cs : List Nat), (∀ c ∈ cs, c ∈ h.children i) → ∀ acc, ∃ s acc', ∀ steps wl,
        descLoop h (steps + s) (wl ++ cs.reverse) acc = descLoop h steps wl acc' := by
      intro cs
      induction cs with
      | nil => intro _ acc; exact ⟨0, acc, by simp⟩
      | cons c cs ihc =>
        intro hc acc
        obtain ⟨s1, a1, e1⟩ := ih c (fun b n hb => Nat.lt_of_succ_lt_succ (hp b (n + 1) (.step (hc c (by simp)) hb))) acc
        obtain ⟨s2, a2, e2⟩ := ihc (fun x hx => hc x (by simp [hx])) a1
        refine ⟨s2 + s1, a2, ?_⟩
        intro steps wl
        rw [List.reverse_cons, ← List.append_assoc, ← Nat.add_assoc, e1, e2]
    obtain ⟨s, a, e⟩ := hl (h.children i).reverse (fun _ h => by simpa using h) (appendNew acc i)
    simp only [List.reverse_reverse] at e
    refine ⟨s + 1, a, ?_⟩
    intro steps wl
    rw [← Nat.add_assoc, descLoop]
    simp only [List.getLast?_append, List.getLast?_singleton, Option.some_or, List.dropLast_concat]
    exact e steps wl

theorem descLoop_terminates (h : Heap) (i : Nat) (hp : AcyclicFrom h.children i) : ∃ s r, getAllDescendants h s i = some r := by
  obtain ⟨d, hd⟩ := hp
  obtain ⟨s, a, e⟩ := descLoop_pop h d i hd []
  refine ⟨1 + s, a, ?_⟩
  have := e 1 []
  rw [List.nil_append] at this
  unfold getAllDescendants
  rw [this]
  rfl

/-- The worklist never becomes empty while it holds a node that starts arbitrarily long paths. -/
theorem descLoop_long (h : Heap) : ∀ s wl acc i, i ∈ wl → (∀ d, ∃ b n, Path h.children i b n ∧ d ≤ n) → descLoop h s wl acc = none := by
  intro s
  induction s with
  | zero => intro wl acc i _ _; rfl
  | succ s ih =>
    intro wl acc i hi hlong
    rw [descLoop]
    cases hl : wl.getLast? with
    | none =>
      have : wl = [] := List.getLast?_eq_none_iff.1 hl
      subst this
      cases hi
    | some j =>
      obtain ⟨wl', rfl⟩ := List.getLast?_eq_some_iff.1 hl
      simp only [List.dropLast_concat]
      by_cases hij : i ∈ wl'
      · exact ih _ _ i (by simp [hij]) hlong
      · have : i = j := by
          rcases List.mem_append.1 hi with h' | h'
          · exact absurd h' hij
          · simpa using h'
        subst this
        -- some child starts arbitrarily long paths
        have : ∃ c ∈ h.children i, ∀ d, ∃ b n, Path h.children c b n ∧ d ≤ n := by
          apply Classical.byContradiction
          intro hno
          have hb : ∀ c ∈ h.children i, ∃ d, ∀ b n, Path h.children c b n → n < d := by
            intro c hc
            apply Classical.byContradiction
            intro h'
            apply hno
            refine ⟨c, hc, ?_⟩
            intro d
            apply Classical.byContradiction
            intro h''
            apply h'
            refine ⟨d, ?_⟩
            intro b n hp
            apply Classical.byContradiction
            intro hlt
            exact h'' ⟨b, n, hp, Nat.le_of_not_lt hlt⟩
          have hmax : ∀ l : List Nat, (∀ c ∈ l, ∃ d, ∀ b n, Path h.children c b n → n < d) →
              ∃ D, ∀ c ∈ l, ∀ b n, Path h.children c b n → n < D := by
            intro l
            induction l with
            | nil => intro _; exact ⟨0, by simp⟩
            | cons c l ihl =>
              intro hl
              obtain ⟨d, hd⟩ := hl c List.mem_cons_self
              obtain ⟨D, hD⟩ := ihl (fun c hc => hl c (List.mem_cons_of_mem _ hc))
              refine ⟨d + D, ?_⟩
              intro x hx b n hp
              rcases List.mem_cons.1 hx with rfl | hx
              · exact Nat.lt_of_lt_of_le (hd b n hp) (Nat.le_add_right _ _)
              · exact Nat.lt_of_lt_of_le (hD x hx b n hp) (Nat.le_add_left _ _)
          obtain ⟨D, hD⟩ := hmax _ hb
          obtain ⟨b, n, hp, hn⟩ := hlong (D + 1)
          cases hp with
          | refl => exact absurd hn (Nat.not_succ_le_zero D)
          | step h1 h2 => exact absurd (hD _ h1 _ _ h2) (Nat.not_lt.2 (Nat.le_of_succ_le_succ hn))
        obtain ⟨c, hc, hcl⟩ := this
        exact ih _ _ c (by simp [hc]) hcl

/-! ### Children -/

theorem Rat_le_total (a b : Rat) : a ≤ b ∨ b ≤ a := Rat.le_total

theorem orderLe_total (h : Heap) (a b : Nat) : h.orderLe a b = true ∨ h.orderLe b a = true := by
  simp only [orderLe, decide_eq_true_eq]
  exact Rat.le_total

theorem orderLe_trans (h : Heap) (a b c : Nat) : h.orderLe a b = true → h.orderLe b c = true → h.orderLe a c = true := by
  simp only [orderLe, decide_eq_true_eq]
  exact Rat.le_trans

theorem ChildrenSpec.nil (order : Nat → Rat) : ChildrenSpec order [] [] := ⟨.nil, .nil, fun _ => rfl⟩

theorem ChildrenSpec.snoc {h : Heap} {added cs : List Nat} (hs : ChildrenSpec h.orderOf added cs) (c : Nat) :
    ChildrenSpec h.orderOf (added ++ [c]) (sortBy h.orderLe (cs ++ [c])) := by
  refine ⟨?_, ?_, ?_⟩
  · exact (sortBy_perm _).trans (hs.perm.append_right [c])
  · have := sortBy_sorted (orderLe_total h) (orderLe_trans h) (cs ++ [c])
    refine this.imp ?_
    intro a b hab
    simpa [orderLe] using hab
  · intro o
    rw [sortBy_filter]
    · rw [List.filter_append, List.filter_append, hs.stable]
    · intro x _ y _ hx hy
      simp only [decide_eq_true_eq] at hx hy
      simp only [orderLe, decide_eq_true_eq, hx, hy]
      exact Rat.le_refl

/-- A node without its children. -/
def frame (n : NetNode) : NetNode := { n with children := [] }

/-- Order and class of all nodes agree. -/
def SameFrame (h h' : Heap) : Prop := h'.length = h.length ∧ ∀ i : Nat, (h'[i]?).map frame = (h[i]?).map frame

theorem SameFrame.refl (h : Heap) : SameFrame h h := ⟨rfl, fun _ => rfl⟩

theorem SameFrame.trans {a b c : Heap} (h1 : SameFrame a b) (h2 : SameFrame b c) : SameFrame a c :=
  ⟨h2.1.trans h1.1, fun i => (h2.2 i).trans (h1.2 i)⟩

theorem SameFrame.order {h h' : Heap} (hs : SameFrame h h') (i : Nat) : h'.orderOf i = h.orderOf i := by
  have := hs.2 i
  unfold orderOf
  cases h1 : h[i]? with
  | none =>
    cases h2 : h'[i]? with
    | none => rfl
    | some n => rw [h1, h2] at this; cases this
  | some m =>
    cases h2 : h'[i]? with
    | none => rw [h1, h2] at this; cases this
    | some n =>
      rw [h1, h2] at this
      simp only [Option.map_some, Option.some.injEq, frame, NetNode.mk.injEq] at this
      simp only [this]

theorem SameFrame.kind {h h' : Heap} (hs : SameFrame h h') (i : Nat) : (h'[i]?).map (·.kind) = (h[i]?).map (·.kind) := by
  have := congrArg (Option.map (fun n : NetNode => n.kind)) (hs.2 i)
  simpa [Option.map_map, Function.comp_def, frame] using this

theorem addChild_frame {h h' : Heap} {p c : Nat} (ha : h.addChild p c = .ok h') : SameFrame h h' := by
  unfold addChild at ha
  split at ha
  · rename_i np nc hp hc
    split at ha
    · split at ha <;> cases ha
    · cases ha
      refine ⟨by simp, ?_⟩
      intro i
      rw [List.getElem?_set]
      by_cases hpi : p = i
      · subst hpi
        have hlt : p < h.length := (List.getElem?_eq_some_iff.1 hp).1
        rw [if_pos rfl, if_pos hlt, hp]
        rfl
      · simp [hpi]
  · cases ha
    exact SameFrame.refl h

theorem addChild_children {h h' : Heap} {p c : Nat} (hp : p < h.length) (hc : c < h.length) (ha : h.addChild p c = .ok h') (i : Nat) :
    h'.children i = if i = p then h.insertChild h[p].kind (h.children p) c else h.children i := by
  unfold addChild at ha
  rw [List.getElem?_eq_getElem hp, List.getElem?_eq_getElem hc] at ha
  dsimp only at ha
  split at ha
  · split at ha <;> cases ha
  · cases ha
    unfold Heap.children
    rw [List.getElem?_set]
    by_cases hpi : i = p
    · subst hpi
      simp [hp]
    · rw [if_neg (fun h => hpi h.symm), if_neg hpi]

theorem addedTo_snoc (p : Nat) (ops : List (Nat × Nat)) (a b : Nat) :
    addedTo p (ops ++ [(a, b)]) = if a = p then addedTo p ops ++ [b] else addedTo p ops := by
  unfold addedTo
  rw [List.filter_append]
  by_cases h : a = p <;> simp [h]

theorem runAdds_inv (h0 : Heap) : ∀ (ops pre : List (Nat × Nat)) (h h' : Heap), SameFrame h0 h →
    (∀ p, (hp : p < h0.length) → if h0[p].kind = .label then h.children p = addedTo p pre else ChildrenSpec h0.orderOf (addedTo p pre) (h.children p)) →
    (∀ o ∈ ops, o.1 < h0.length ∧ o.2 < h0.length) → runAdds h ops = .ok h' →
    SameFrame h0 h' ∧
      (∀ p, (hp : p < h0.length) → if h0[p].kind = .label then h'.children p = addedTo p (pre ++ ops)
        else ChildrenSpec h0.orderOf (addedTo p (pre ++ ops)) (h'.children p)) := by
  intro ops
  induction ops with
  | nil =>
    intro pre h h' hf hi _ hr
    cases hr
    refine ⟨hf, ?_⟩
    rw [List.append_nil]
    exact hi
  | cons o ops ih =>
    intro pre h h' hf hi hb hr
    obtain ⟨a, b⟩ := o
    obtain ⟨ha, hbb⟩ := hb (a, b) List.mem_cons_self
    dsimp only at ha hbb
    unfold runAdds at hr
    rw [List.foldlM_cons] at hr
    cases h1 : h.addChild a b with
    | error e => rw [h1] at hr; cases hr
    | ok h2 =>
      rw [h1] at hr
      have hr' : runAdds h2 ops = .ok h' := hr
      have ha' : a < h.length := by rw [hf.1]; exact ha
      have hb' : b < h.length := by rw [hf.1]; exact hbb
      have hch := addChild_children ha' hb' h1
      have hk : h[a].kind = h0[a].kind := by
        have := hf.kind a
        rw [List.getElem?_eq_getElem ha', List.getElem?_eq_getElem ha] at this
        simpa using this
      have hle : h.orderLe = h0.orderLe := by
        funext x y
        simp only [orderLe, hf.order]
      have ho : h.orderOf = h0.orderOf := funext hf.order
      have := ih (pre ++ [(a, b)]) h2 h' (hf.trans (addChild_frame h1)) ?_ (fun o ho => hb o (List.mem_cons_of_mem _ ho)) hr'
      · rw [List.append_assoc, List.singleton_append] at this
        exact this
      · intro p hp
        rw [addedTo_snoc, hch]
        have := hi p hp
        by_cases hpa : a = p
        · subst hpa
          rw [if_pos rfl, if_pos rfl, hk]
          unfold insertChild
          split
          · rename_i hl
            rw [if_pos hl] at this
            rw [this]
          · rename_i hl
            rw [if_neg hl, ← ho] at this
            rw [← ho]
            exact this.snoc b
        · rw [if_neg hpa, if_neg (fun h : p = a => hpa h.symm)]
          exact this

/-- A history runs without exception exactly when every child has the class of its parent, or the parent is a label node. -/
theorem runAdds_ok (h0 : Heap) : ∀ (ops : List (Nat × Nat)) (h : Heap), SameFrame h0 h →
    (∀ o ∈ ops, o.1 < h0.length ∧ o.2 < h0.length) →
    ((∃ h', runAdds h ops = .ok h') ↔ ∀ o ∈ ops, (h0[o.1]?).map (·.kind) = some .label ∨ (h0[o.2]?).map (·.kind) = (h0[o.1]?).map (·.kind)) := by
  intro ops
  induction ops with
  | nil => intro h _ _; simp [runAdds, pure, Except.pure]
  | cons o ops ih =>
    intro h hf hb
    obtain ⟨a, b⟩ := o
    obtain ⟨ha, hbb⟩ := hb (a, b) List.mem_cons_self
    dsimp only at ha hbb
    have ha' : a < h.length := by rw [hf.1]; exact ha
    have hb' : b < h.length := by rw [hf.1]; exact hbb
    unfold runAdds
    rw [List.foldlM_cons]
    have hka := hf.kind a
    have hkb := hf.kind b
    rw [List.getElem?_eq_getElem ha'] at hka
    rw [List.getElem?_eq_getElem hb'] at hkb
    simp only [Option.map_some] at hka hkb
    cases h1 : h.addChild a b with
    | error e =>
      have : ¬ (h[a].kind = .label ∨ h[b].kind = h[a].kind) := by
        intro hor
        unfold addChild at h1
        rw [List.getElem?_eq_getElem ha', List.getElem?_eq_getElem hb'] at h1
        dsimp only at h1
        rw [if_neg (by rintro ⟨x, y⟩; rcases hor with h | h; exact x h; exact y h)] at h1
        cases h1
      constructor
      · rintro ⟨h', hr⟩
        cases hr
      · intro hall
        exfalso
        have := hall (a, b) List.mem_cons_self
        dsimp only at this
        rw [← hka, ← hkb] at this
        simp only [Option.some.injEq] at this
        contradiction
    | ok h2 =>
      have hgood : h[a].kind = .label ∨ h[b].kind = h[a].kind := by
        apply Classical.byContradiction
        intro hno
        unfold addChild at h1
        rw [List.getElem?_eq_getElem ha', List.getElem?_eq_getElem hb'] at h1
        dsimp only at h1
        rw [if_pos (by constructor; exact fun h => hno (Or.inl h); exact fun h => hno (Or.inr h))] at h1
        split at h1 <;> cases h1
      have := ih h2 (hf.trans (addChild_frame h1)) (fun o ho => hb o (List.mem_cons_of_mem _ ho))
      show (∃ h', runAdds h2 ops = .ok h') ↔ _
      rw [this]
      constructor
      · intro hall o ho
        rcases List.mem_cons.1 ho with rfl | ho
        · dsimp only
          rw [← hka, ← hkb]
          simpa using hgood
        · exact hall o ho
      · intro hall o ho
        exact hall o (List.mem_cons_of_mem _ ho)

/-! ### Paths in heaps without cycles -/

/-- The nodes of a path. -/
theorem Path.nodes {ch : Nat → List Nat} {a b n : Nat} (hp : Path ch a b n) :
    ∃ l : List Nat, l.length = n + 1 ∧ l.head? = some a ∧ (∀ x ∈ l, ∃ k, Path ch a x k ∧ k ≤ n) ∧
      l.Pairwise (fun x y => ∃ k, Path ch x y (k + 1)) := by
  induction hp with
  | refl a => exact ⟨[a], rfl, rfl, by intro x hx; rw [List.mem_singleton] at hx; subst hx; exact ⟨0, .refl _, Nat.le_refl _⟩, by simp⟩
  | @step a b c n hb hp ih =>
    obtain ⟨l, h1, h2, h3, h4⟩ := ih
    refine ⟨a :: l, by simp [h1], rfl, ?_, ?_⟩
    · intro x hx
      rcases List.mem_cons.1 hx with rfl | hx
      · exact ⟨0, .refl _, Nat.zero_le _⟩
      · obtain ⟨k, hk, hkn⟩ := h3 x hx
        exact ⟨k + 1, .step hb hk, Nat.succ_le_succ hkn⟩
    · rw [List.pairwise_cons]
      refine ⟨?_, h4⟩
      intro y hy
      obtain ⟨k, hk, _⟩ := h3 y hy
      exact ⟨k, .step hb hk⟩

theorem Path.lt {h : Heap} {a b n : Nat} (hp : Path h.children a b n) (hch : ∀ p, ∀ c ∈ h.children p, c < h.length) (ha : a < h.length) :
    b < h.length := by
  induction hp with
  | refl => exact ha
  | step hb _ ih => exact ih (hch _ _ hb)

/-- Without cycles a path has at most as many nodes as the heap. -/
theorem path_lt_length (h : Heap) (i : Nat) (hi : i < h.length) (hch : ∀ p, ∀ c ∈ h.children p, c < h.length)
    (hac : ∀ x k, Reachable h.children i x → ¬ Path h.children x x (k + 1)) : ∀ b n, Path h.children i b n → n < h.length := by
  intro b n hp
  obtain ⟨l, h1, _, h3, h4⟩ := hp.nodes
  have hlt : ∀ x ∈ l, x < h.length := by
    intro x hx
    obtain ⟨k, hk, _⟩ := h3 x hx
    exact hk.lt hch hi
  have hnd : l.Nodup := by
    refine h4.imp_of_mem ?_
    intro x y hx _ hxy heq
    subst heq
    obtain ⟨k, hk⟩ := hxy
    obtain ⟨m, hm, _⟩ := h3 x hx
    exact hac x k ⟨m, hm⟩ hk
  have := hnd.length_le_of_subset (l₂ := List.range h.length) (fun x hx => List.mem_range.2 (hlt x hx))
  rw [h1, List.length_range] at this
  exact this

end Brel
