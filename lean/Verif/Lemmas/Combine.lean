import Verif.Lemmas.Link
import Verif.Spec.Combine
import Verif.Props.Network

namespace Brel
open Heap

theorem mem_insertChild (h : Heap) (k : NodeKind) (cs : List Nat) (c x : Nat) : x ∈ h.insertChild k cs c ↔ x ∈ cs ∨ x = c := by
  unfold insertChild
  split
  · simp
  · rw [(sortBy_perm _).mem_iff]; simp

theorem runAdds_mem : ∀ (ops : List (Nat × Nat)) (h h' : Heap), (∀ o ∈ ops, o.1 < h.length ∧ o.2 < h.length) → runAdds h ops = .ok h' →
    ∀ i c, c ∈ h'.children i ↔ c ∈ h.children i ∨ (i, c) ∈ ops := by
  intro ops
  induction ops with
  | nil => intro h h' _ hr i c; cases hr; simp
  | cons o ops ih =>
    intro h h' hb hr i c
    obtain ⟨a, b⟩ := o
    unfold runAdds at hr
    rw [List.foldlM_cons] at hr
    cases ha : h.addChild a b with
    | error e => rw [ha] at hr; cases hr
    | ok h1 =>
      rw [ha] at hr
      have hf := addChild_frame ha
      have := ih h1 h' (by intro o ho; rw [hf.1]; exact hb o (List.mem_cons_of_mem _ ho)) hr i c
      rw [this, addChild_children (hb _ List.mem_cons_self).1 (hb _ List.mem_cons_self).2 ha i]
      by_cases hi : i = a
      · subst hi
        rw [if_pos rfl, mem_insertChild, List.mem_cons]
        simp [or_assoc]
      · rw [if_neg hi, List.mem_cons]
        simp [hi]

theorem Path.mono {ch ch' : Nat → List Nat} (hm : ∀ i, ∀ c ∈ ch i, c ∈ ch' i) {a b n : Nat} (hp : Path ch a b n) : Path ch' a b n := by
  induction hp with
  | refl => exact .refl _
  | step hb _ ih => exact .step (hm _ _ hb) ih

theorem Path.trans {ch : Nat → List Nat} {a b c n m : Nat} (h1 : Path ch a b n) (h2 : Path ch b c m) : Path ch a c (n + m) := by
  induction h1 with
  | refl => rw [Nat.zero_add]; exact h2
  | step hb _ ih => rw [Nat.add_right_comm]; exact .step hb (ih h2)

theorem Reachable.mono {ch ch' : Nat → List Nat} (hm : ∀ i, ∀ c ∈ ch i, c ∈ ch' i) {a b : Nat} : Reachable ch a b → Reachable ch' a b := by
  rintro ⟨n, hp⟩
  exact ⟨n, hp.mono hm⟩

theorem SameFrame.target {h h' : Heap} (hs : SameFrame h h') (i : Nat) : h'.targetOf i = h.targetOf i := by
  have := congrArg (Option.map (fun n : NetNode => n.target)) (hs.2 i)
  simpa [targetOf, Option.map_map, Function.comp_def, frame] using this

theorem nodesEqual_target {h : Heap} {a b : Nat} (he : h.nodesEqual a b = true) : h.targetOf a = h.targetOf b := by
  unfold nodesEqual at he
  split at he
  · rename_i x y hx hy
    rw [Bool.and_eq_true, decide_eq_true_eq, decide_eq_true_eq] at he
    unfold targetOf
    rw [hx, hy]
    simp [he.2]
  · cases he

theorem nodesEqual_kind {h : Heap} {a b : Nat} (he : h.nodesEqual a b = true) : (h[a]?).map (·.kind) = (h[b]?).map (·.kind) := by
  unfold nodesEqual at he
  split at he
  · rename_i x y hx hy
    rw [Bool.and_eq_true, decide_eq_true_eq, decide_eq_true_eq] at he
    rw [hx, hy]
    simp [he.1]
  · cases he

theorem nodesEqual_lt {h : Heap} {a b : Nat} (he : h.nodesEqual a b = true) : a < h.length ∧ b < h.length := by
  unfold nodesEqual at he
  split at he
  · rename_i x y hx hy
    exact ⟨(List.getElem?_eq_some_iff.1 hx).1, (List.getElem?_eq_some_iff.1 hy).1⟩
  · cases he

/-- What holds while networks are merged: `h` is the heap before, `all` the roots of all networks, `done` those already handled. -/
structure MergeInv (h : Heap) (all done : List Nat) (s : Heap × List Nat) : Prop where
  same : SameFrame h s.1
  closed : s.1.Closed
  kept : ∀ i, ∀ c ∈ h.children i, c ∈ s.1.children i
  edges : ∀ i, ∀ c ∈ s.1.children i, ∃ j, h.targetOf j = h.targetOf i ∧ c ∈ h.children j ∧ (InNetwork h all i → InNetwork h all j)
  roots : ∀ r ∈ s.2, r ∈ all
  merged : ∀ r ∈ done, r ∈ s.2 ∨ ∃ p, InNetwork s.1 s.2 p ∧ h.targetOf p = h.targetOf r ∧ ∀ c ∈ h.children r, c ∈ s.1.children p
  outside : ∀ i, ¬ InNetwork h all i → s.1.children i = h.children i

theorem InNetwork.mono {h h' : Heap} {rs rs' : List Nat} (hk : ∀ i, ∀ c ∈ h.children i, c ∈ h'.children i) (hr : ∀ r ∈ rs, r ∈ rs') {i : Nat} :
    InNetwork h rs i → InNetwork h' rs' i := by
  rintro ⟨r, hm, hp⟩
  exact ⟨r, hr r hm, hp.mono hk⟩

theorem MergeInv.backward {h : Heap} {all : List Nat} {s : Heap × List Nat} {done : List Nat} (hi : MergeInv h all done s) {i : Nat} (hin : InNetwork s.1 s.2 i) : InNetwork h all i := by
  obtain ⟨r, hr, n, hp⟩ := hin
  have key : ∀ {a b n}, Path s.1.children a b n → InNetwork h all a → InNetwork h all b := by
    intro a b n hp
    induction hp with
    | refl => exact fun h => h
    | step hb _ ih =>
      intro ha
      obtain ⟨j, _, hc, hj⟩ := hi.edges _ _ hb
      obtain ⟨r, hr, m, hpj⟩ := hj ha
      exact ih ⟨r, hr, m + 1, hpj.snoc hc⟩
  exact key hp ⟨r, hi.roots r hr, 0, .refl _⟩

theorem mergeRoot_step {h : Heap} {all done nodes : List Nat} {s s' : Heap × List Nat} {root : Nat} (hi : MergeInv h all done s)
    (hnodes : ∀ n ∈ nodes, InNetwork s.1 s.2 n) (hroot : root ∈ all) (hm : mergeRoot nodes s root = .ok s') :
    MergeInv h all (root :: done) s' ∧ (∀ i, ∀ c ∈ s.1.children i, c ∈ s'.1.children i) ∧ (∀ r ∈ s.2, r ∈ s'.2) := by
  unfold mergeRoot at hm
  split at hm
  · cases hm
    refine ⟨⟨hi.same, hi.closed, hi.kept, hi.edges, ?_, ?_, ?_⟩, fun _ _ hc => hc, fun r hr => List.mem_append_left _ hr⟩
    · intro r hr
      rcases List.mem_append.1 hr with hr | hr
      · exact hi.roots r hr
      · rw [List.mem_singleton] at hr; exact hr ▸ hroot
    · intro r hr
      rcases List.mem_cons.1 hr with rfl | hr
      · exact Or.inl (List.mem_append_right _ (List.mem_singleton.2 rfl))
      · rcases hi.merged r hr with h' | ⟨p, h1, h2, h3⟩
        · exact Or.inl (List.mem_append_left _ h')
        · exact Or.inr ⟨p, h1.mono (fun _ _ hc => hc) (fun r hr => List.mem_append_left _ hr), h2, h3⟩
    · exact hi.outside
  · rename_i p hp
    have heq := List.find?_some (p := fun n => s.1.nodesEqual n root) hp
    have hpn := hnodes p (List.mem_of_find?_eq_some hp)
    have hlt := nodesEqual_lt heq
    have htgt : h.targetOf p = h.targetOf root := by
      rw [← hi.same.target p, ← hi.same.target root]
      exact nodesEqual_target heq
    cases hr : runAdds s.1 ((s.1.children root).map (fun c => (p, c))) with
    | error e => rw [hr] at hm; cases hm
    | ok h2 =>
      rw [hr] at hm
      cases hm
      have hbound : ∀ o ∈ (s.1.children root).map (fun c => (p, c)), o.1 < s.1.length ∧ o.2 < s.1.length := by
        intro o ho
        obtain ⟨c, hc, rfl⟩ := List.mem_map.1 ho
        exact ⟨hlt.1, hi.closed _ c hc⟩
      have hmem := runAdds_mem _ _ _ hbound hr
      have hfr := runAdds_frame _ _ _ hr
      have hkeep : ∀ i, ∀ c ∈ s.1.children i, c ∈ h2.children i := fun i c hc => (hmem i c).2 (Or.inl hc)
      refine ⟨⟨hi.same.trans hfr, ?_, fun i c hc => hkeep i c (hi.kept i c hc), ?_, hi.roots, ?_, ?_⟩, hkeep, fun r hr => hr⟩
      · intro i c hc
        rw [hfr.1]
        rcases (hmem i c).1 hc with hc | hc
        · exact hi.closed i c hc
        · exact (hbound _ hc).2
      · intro i c hc
        rcases (hmem i c).1 hc with hc | hc
        · exact hi.edges i c hc
        · obtain ⟨c', hc', he⟩ := List.mem_map.1 hc
          cases he
          obtain ⟨j, h1, h2', h3⟩ := hi.edges root c hc'
          exact ⟨j, h1.trans htgt.symm, h2', fun _ => h3 ⟨root, hroot, 0, .refl _⟩⟩
      · intro r hr'
        rcases List.mem_cons.1 hr' with rfl | hr'
        · exact Or.inr ⟨p, hpn.mono hkeep (fun _ h => h), htgt, fun c hc => (hmem p c).2 (Or.inr (List.mem_map.2 ⟨c, hi.kept r c hc, rfl⟩))⟩
        · rcases hi.merged r hr' with h' | ⟨q, h1, h2', h3⟩
          · exact Or.inl h'
          · exact Or.inr ⟨q, h1.mono hkeep (fun _ h => h), h2', fun c hc => hkeep q c (h3 c hc)⟩
      · intro i hni
        have hip : i ≠ p := fun he => hni (he ▸ hi.backward hpn)
        show h2.children i = _
        rw [← hi.outside i hni]
        unfold Heap.children
        rw [runAdds_untouched i _ _ _ (by
          intro o ho
          obtain ⟨c, _, rfl⟩ := List.mem_map.1 ho
          exact hip.symm) hr]

theorem mergeRoots_step {h : Heap} {all nodes : List Nat} : ∀ (rs done : List Nat) (s s' : Heap × List Nat), MergeInv h all done s →
    (∀ n ∈ nodes, InNetwork s.1 s.2 n) → (∀ r ∈ rs, r ∈ all) → rs.foldlM (mergeRoot nodes) s = .ok s' →
    MergeInv h all (rs.reverse ++ done) s' ∧ (∀ r ∈ s.2, r ∈ s'.2) := by
  intro rs
  induction rs with
  | nil => intro done s s' hi _ _ hr; cases hr; exact ⟨hi, fun _ h => h⟩
  | cons r rs ih =>
    intro done s s' hi hn hall hr
    rw [List.foldlM_cons] at hr
    cases hm : mergeRoot nodes s r with
    | error e => rw [hm] at hr; cases hr
    | ok s1 =>
      rw [hm] at hr
      obtain ⟨h1, h2, h3⟩ := mergeRoot_step hi hn (hall r List.mem_cons_self) hm
      obtain ⟨g1, g2⟩ := ih (r :: done) s1 s' h1 (fun n hnn => (hn n hnn).mono h2 h3) (fun x hx => hall x (List.mem_cons_of_mem _ hx)) hr
      refine ⟨?_, fun x hx => g2 x (h3 x hx)⟩
      rw [List.reverse_cons, List.append_assoc]
      exact g1

theorem mapM_option_mem {α β : Type} (f : α → Option β) : ∀ (l : List α) (m : List β), l.mapM f = some m → ∀ b ∈ m, ∃ a ∈ l, f a = some b := by
  intro l
  induction l with
  | nil => intro m hm b hb; cases hm; cases hb
  | cons a l ih =>
    intro m hm b hb
    rw [List.mapM_cons] at hm
    cases ha : f a with
    | none => rw [ha] at hm; cases hm
    | some x =>
      cases hl : l.mapM f with
      | none => rw [ha, hl] at hm; cases hm
      | some xs =>
        rw [ha, hl] at hm
        cases hm
        rcases List.mem_cons.1 hb with rfl | hb
        · exact ⟨a, List.mem_cons_self, ha⟩
        · obtain ⟨a', ha', hf⟩ := ih xs hl b hb
          exact ⟨a', List.mem_cons_of_mem _ ha', hf⟩

theorem descendants_in {so : SetOrder} {steps : Nat} {s : Heap × List Nat} {ds : List (List Nat)}
    (hd : s.2.mapM (fun r => (s.1.getAllDescendants steps r).map so.nodes) = some ds) : ∀ n ∈ ds.flatten, InNetwork s.1 s.2 n := by
  intro n hn
  obtain ⟨d, hd', hnd⟩ := List.mem_flatten.1 hn
  obtain ⟨r, hr, hf⟩ := mapM_option_mem _ _ _ hd d hd'
  cases hg : s.1.getAllDescendants steps r with
  | none => rw [hg] at hf; cases hf
  | some l =>
    rw [hg] at hf
    cases hf
    exact ⟨r, hr, ((C19_descendants _ _ _ _ hg).2 n).1 ((so.nodes_perm _).mem_iff.1 hnd)⟩

theorem mergeAll_step {so : SetOrder} {steps : Nat} {h : Heap} {all : List Nat} : ∀ (ns : List Network) (done : List Nat) (s s' : Heap × List Nat),
    MergeInv h all done s → (∀ n ∈ ns, ∀ r ∈ n.roots, r ∈ all) → mergeAll so steps s ns = some (.ok s') →
    ∃ done', MergeInv h all done' s' ∧ (∀ r ∈ done, r ∈ done') ∧ ∀ n ∈ ns, ∀ r ∈ n.roots, r ∈ done' := by
  intro ns
  induction ns with
  | nil =>
    intro done s s' hi _ hr
    cases hr
    exact ⟨done, hi, fun _ h => h, by simp⟩
  | cons n ns ih =>
    intro done s s' hi hall hr
    unfold mergeAll at hr
    cases hm : mergeNetwork so steps s n with
    | none => rw [hm] at hr; cases hr
    | some x =>
      cases x with
      | error e => rw [hm] at hr; cases hr
      | ok s1 =>
        rw [hm] at hr
        dsimp only at hr
        unfold mergeNetwork at hm
        cases hd : s.2.mapM (fun r => (s.1.getAllDescendants steps r).map so.nodes) with
        | none => rw [hd] at hm; cases hm
        | some ds =>
          rw [hd] at hm
          simp only [Option.map_some, Option.some.injEq] at hm
          obtain ⟨h1, _⟩ := mergeRoots_step n.roots done s s1 hi (descendants_in hd) (hall n List.mem_cons_self) hm
          obtain ⟨done', g1, g2, g3⟩ := ih _ s1 s' h1 (fun m hm => hall m (List.mem_cons_of_mem _ hm)) hr
          refine ⟨done', g1, fun r hr => g2 r (List.mem_append_right _ hr), ?_⟩
          intro m hm r hr
          rcases List.mem_cons.1 hm with rfl | hm
          · exact g2 r (List.mem_append_left _ (List.mem_reverse.2 hr))
          · exact g3 m hm r hr

/-- The invariant for the whole combination. -/
theorem combine_inv {so : SetOrder} {steps : Nat} {h h' : Heap} {nets : List Network} {net : Network} (hc : h.Closed)
    (hr : combineNetworks so steps h nets = some (.ok (h', net))) :
    MergeInv h (nets.flatMap (·.roots)) (nets.flatMap (·.roots)) (h', net.roots) := by
  unfold combineNetworks at hr
  cases hrev : nets.reverse with
  | nil => rw [hrev] at hr; cases hr
  | cons last rest =>
    rw [hrev] at hr
    dsimp only at hr
    have hmem : ∀ x, x ∈ nets ↔ x = last ∨ x ∈ rest := by
      intro x
      rw [← List.mem_reverse, hrev, List.mem_cons]
    cases hm : mergeAll so steps (h, last.roots) rest with
    | none => rw [hm] at hr; cases hr
    | some x =>
      cases x with
      | error e => rw [hm] at hr; cases hr
      | ok s =>
        rw [hm] at hr
        cases hr
        have hi : MergeInv h (nets.flatMap (·.roots)) last.roots (h, last.roots) := by
          refine ⟨SameFrame.refl h, hc, fun _ _ hc => hc, fun i c hc => ⟨i, rfl, hc, fun x => x⟩, ?_, fun r hr => Or.inl hr, fun _ _ => rfl⟩
          intro r hr
          exact List.mem_flatMap.2 ⟨last, (hmem last).2 (Or.inl rfl), hr⟩
        obtain ⟨done', h1, h2, h3⟩ := mergeAll_step rest _ _ _ hi (by
          intro n hn r hr
          exact List.mem_flatMap.2 ⟨n, (hmem n).2 (Or.inr hn), hr⟩) hm
        refine ⟨h1.same, h1.closed, h1.kept, h1.edges, h1.roots, ?_, h1.outside⟩
        intro r hr
        obtain ⟨n, hn, hrn⟩ := List.mem_flatMap.1 hr
        rcases (hmem n).1 hn with rfl | hn
        · exact h1.merged r (h2 r hrn)
        · exact h1.merged r (h3 n hn r hrn)

namespace MergeInv
variable {h : Heap} {all : List Nat} {s : Heap × List Nat}

theorem forward (hi : MergeInv h all all s) {i : Nat} (hin : InNetwork h all i) :
    InNetwork s.1 s.2 i ∨ ∃ p, InNetwork s.1 s.2 p ∧ h.targetOf p = h.targetOf i ∧ ∀ c ∈ h.children i, c ∈ s.1.children p := by
  obtain ⟨r, hr, n, hp⟩ := hin
  cases hp with
  | refl =>
    rcases hi.merged i hr with h' | h'
    · exact Or.inl ⟨i, h', 0, .refl _⟩
    · exact Or.inr h'
  | step hb hp' =>
    rcases hi.merged r hr with h' | ⟨p, ⟨q, hq, m, hpq⟩, _, hch⟩
    · exact Or.inl ⟨r, h', _, .step (hi.kept _ _ hb) (hp'.mono hi.kept)⟩
    · exact Or.inl ⟨q, hq, _, (hpq.snoc (hch _ hb)).trans (hp'.mono hi.kept)⟩

end MergeInv

/-! ### Success -/

/-- The edges go up a rank. -/
def RankedBy (h : Heap) (rank : Nat → Nat) : Prop := ∀ i, ∀ c ∈ h.children i, rank i < rank c

theorem exists_bound (rank : Nat → Nat) : ∀ n : Nat, ∃ K, ∀ i < n, rank i < K
  | 0 => ⟨0, by omega⟩
  | n + 1 => by
    obtain ⟨K, hK⟩ := exists_bound rank n
    refine ⟨K + rank n + 1, ?_⟩
    intro i hi
    by_cases h : i = n
    · subst h; omega
    · have := hK i (by omega); omega

theorem RankedBy.acyclic {h : Heap} {rank : Nat → Nat} (hr : RankedBy h rank) (hc : h.Closed) (i : Nat) (hi : i < h.length) : AcyclicFrom h.children i := by
  obtain ⟨K, hK⟩ := exists_bound rank h.length
  have key : ∀ {a b n}, Path h.children a b n → rank a + n ≤ rank b := by
    intro a b n hp
    induction hp with
    | refl => omega
    | step hb _ ih => have := hr _ _ hb; omega
  refine ⟨K, ?_⟩
  intro b n hp
  have h1 := key hp
  have h2 := hK b (hp.lt hc hi)
  omega

theorem mapM_option_all {α β : Type} (f : Nat → α → Option β) (hmono : ∀ s k a b, f s a = some b → f (s + k) a = some b) :
    ∀ l : List α, (∀ a ∈ l, ∃ s b, f s a = some b) → ∃ s m, ∀ k, l.mapM (f (s + k)) = some m
  | [], _ => ⟨0, [], fun _ => rfl⟩
  | a :: l, hl => by
    obtain ⟨s, b, hb⟩ := hl a List.mem_cons_self
    obtain ⟨s', m, hm⟩ := mapM_option_all f hmono l (fun x hx => hl x (List.mem_cons_of_mem _ hx))
    refine ⟨s + s', b :: m, ?_⟩
    intro k
    rw [List.mapM_cons, Nat.add_assoc, hmono s (s' + k) a b hb, Nat.add_left_comm, hm (s + k)]
    rfl

theorem descend_mono (so : SetOrder) (h : Heap) : ∀ s k (a : Nat) (b : List Nat), (h.getAllDescendants s a).map so.nodes = some b →
    (h.getAllDescendants (s + k) a).map so.nodes = some b := by
  intro s k a b hb
  cases hd : h.getAllDescendants s a with
  | none => rw [hd] at hb; cases hb
  | some d => rw [C19_descendants_mono h s k a d hd, ← hd]; exact hb

theorem mergeNetwork_mono {so : SetOrder} {s : Heap × List Nat} {n : Network} {steps k : Nat} {x} (hm : mergeNetwork so steps s n = some x) :
    mergeNetwork so (steps + k) s n = some x := by
  unfold mergeNetwork at hm ⊢
  cases hd : s.2.mapM (fun r => (s.1.getAllDescendants steps r).map so.nodes) with
  | none => rw [hd] at hm; cases hm
  | some ds =>
    have : s.2.mapM (fun r => (s.1.getAllDescendants (steps + k) r).map so.nodes) = some ds := by
      clear hm
      generalize s.2 = l at hd
      induction l generalizing ds with
      | nil => exact hd
      | cons a l ih =>
        rw [List.mapM_cons] at hd ⊢
        cases ha : (s.1.getAllDescendants steps a).map so.nodes with
        | none => rw [ha] at hd; cases hd
        | some d =>
          cases hl : l.mapM (fun r => (s.1.getAllDescendants steps r).map so.nodes) with
          | none => rw [ha, hl] at hd; cases hd
          | some ds' =>
            rw [descend_mono so s.1 steps k a d ha, ih ds' hl]
            rw [ha, hl] at hd
            exact hd
    rw [this, ← hd]
    exact hm

theorem mergeAll_mono {so : SetOrder} {steps k : Nat} : ∀ (ns : List Network) (s : Heap × List Nat) (x : _), mergeAll so steps s ns = some x →
    mergeAll so (steps + k) s ns = some x
  | [], _, _, h => h
  | n :: ns, s, x, h => by
    unfold mergeAll at h ⊢
    cases hm : mergeNetwork so steps s n with
    | none => rw [hm] at h; cases h
    | some y =>
      rw [mergeNetwork_mono hm]
      rw [hm] at h
      cases y with
      | error e => exact h
      | ok s' => exact mergeAll_mono ns s' x h

/-- What holds between two networks: `pending` are those still to be merged. -/
structure Ready (h : Heap) (k : NodeKind) (pending : List Network) (s : Heap × List Nat) : Prop where
  same : SameFrame h s.1
  closed : s.1.Closed
  ranked : ∃ rank, RankedBy s.1 rank
  untouched : ∀ n ∈ pending, ∀ i, InNetwork h n.roots i → s.1.children i = h.children i
  apart : ∀ n ∈ pending, ∀ i, InNetwork s.1 s.2 i → ¬ InNetwork h n.roots i
  kinds : ∀ i, InNetwork s.1 s.2 i → (h[i]?).map (·.kind) = some k
  bound : ∀ r ∈ s.2, r < h.length

/-- What holds while the roots of network `n` are merged into `s`. -/
structure Merging (h : Heap) (k : NodeKind) (n : Network) (pending : List Network) (s : Heap × List Nat) (rank : Nat → Nat) (t : Heap × List Nat) : Prop where
  same : SameFrame h t.1
  closed : t.1.Closed
  ranked : RankedBy t.1 rank
  untouched : ∀ m ∈ n :: pending, ∀ i, InNetwork h m.roots i → t.1.children i = h.children i
  stays : ∀ i, InNetwork s.1 s.2 i ∨ InNetwork h n.roots i → ∀ c ∈ t.1.children i, InNetwork s.1 s.2 c ∨ InNetwork h n.roots c
  roots : ∀ r ∈ t.2, InNetwork s.1 s.2 r ∨ InNetwork h n.roots r
  bound : ∀ r ∈ t.2, r < h.length

theorem InNetwork.child {h : Heap} {rs : List Nat} {i c : Nat} (hi : InNetwork h rs i) (hc : c ∈ h.children i) : InNetwork h rs c := by
  obtain ⟨r, hr, n, hp⟩ := hi
  exact ⟨r, hr, n + 1, hp.snoc hc⟩

theorem InNetwork.lt {h : Heap} {rs : List Nat} (hc : h.Closed) (hb : ∀ r ∈ rs, r < h.length) {i : Nat} (hi : InNetwork h rs i) : i < h.length := by
  obtain ⟨r, hr, n, hp⟩ := hi
  exact hp.lt hc (hb r hr)

theorem merging_step {h : Heap} {k : NodeKind} {n : Network} {pending : List Network} {s t : Heap × List Nat} {rank : Nat → Nat} {nodes : List Nat} {root : Nat}
    (hs : Ready h k (n :: pending) s) (ht : Merging h k n pending s rank t) (hnodes : ∀ x ∈ nodes, InNetwork s.1 s.2 x)
    (hroot : root ∈ n.roots) (hrlt : root < h.length) (hkn : ∀ i, InNetwork h n.roots i → (h[i]?).map (·.kind) = some k)
    (hup : ∀ p c, InNetwork s.1 s.2 p → InNetwork h n.roots c → rank p < rank c)
    (hdis : ∀ m ∈ pending, ∀ i, InNetwork h n.roots i → ¬ InNetwork h m.roots i) :
    ∃ t', mergeRoot nodes t root = .ok t' ∧ Merging h k n pending s rank t' := by
  unfold mergeRoot
  have hrn : InNetwork h n.roots root := ⟨root, hroot, 0, .refl _⟩
  split
  · refine ⟨_, rfl, ht.same, ht.closed, ht.ranked, ht.untouched, ht.stays, ?_, ?_⟩
    · intro r hr
      rcases List.mem_append.1 hr with hr | hr
      · exact ht.roots r hr
      · rw [List.mem_singleton] at hr; subst hr; exact Or.inr hrn
    · intro r hr
      rcases List.mem_append.1 hr with hr | hr
      · exact ht.bound r hr
      · rw [List.mem_singleton] at hr; subst hr; exact hrlt
  · rename_i p hp
    have hpn := hnodes p (List.mem_of_find?_eq_some hp)
    have heq := List.find?_some (p := fun x => t.1.nodesEqual x root) hp
    have hlt := nodesEqual_lt heq
    have hch : t.1.children root = h.children root := ht.untouched n List.mem_cons_self root hrn
    have hops : ∀ o ∈ (t.1.children root).map (fun c => (p, c)), o.1 = p ∧ InNetwork h n.roots o.2 ∧ o.1 < t.1.length ∧ o.2 < t.1.length := by
      intro o ho
      obtain ⟨c, hc, rfl⟩ := List.mem_map.1 ho
      refine ⟨rfl, hrn.child (hch ▸ hc), hlt.1, ht.closed _ _ hc⟩
    have hk : ∀ i : Nat, (t.1[i]?).map (·.kind) = (h[i]?).map (·.kind) := fun i => ht.same.kind i
    obtain ⟨h2, hrun⟩ := (runAdds_ok t.1 ((t.1.children root).map (fun c => (p, c))) t.1 (SameFrame.refl _) (fun o ho => (hops o ho).2.2)).2 (by
      intro o ho
      obtain ⟨h1, h2, _⟩ := hops o ho
      right
      rw [hk, hk, h1, hs.kinds p hpn, hkn _ h2])
    rw [hrun]
    have hmem := runAdds_mem _ _ _ (fun o ho => (hops o ho).2.2) hrun
    have hfr := runAdds_frame _ _ _ hrun
    refine ⟨(h2, t.2), rfl, ht.same.trans hfr, ?_, ?_, ?_, ?_, ht.roots, ht.bound⟩
    · intro i c hc
      rw [hfr.1]
      rcases (hmem i c).1 hc with hc | hc
      · exact ht.closed i c hc
      · exact (hops _ hc).2.2.2
    · intro i c hc
      rcases (hmem i c).1 hc with hc | hc
      · exact ht.ranked i c hc
      · obtain ⟨h1, h2, _⟩ := hops _ hc
        dsimp only at h1 h2
        subst h1
        exact hup i c hpn h2
    · intro m hm i hin
      have hne : ∀ o ∈ (t.1.children root).map (fun c => (p, c)), o.1 ≠ i := by
        intro o ho he
        rw [(hops o ho).1] at he
        subst he
        exact hs.apart m hm p hpn hin
      have := runAdds_untouched i _ _ _ hne hrun
      rw [← ht.untouched m hm i hin]
      unfold Heap.children
      rw [this]
    · intro i hi c hc
      rcases (hmem i c).1 hc with hc | hc
      · exact ht.stays i hi c hc
      · exact Or.inr (hops _ hc).2.1

theorem merging_all {h : Heap} {k : NodeKind} {n : Network} {pending : List Network} {s : Heap × List Nat} {rank : Nat → Nat} {nodes : List Nat}
    (hs : Ready h k (n :: pending) s) (hnodes : ∀ x ∈ nodes, InNetwork s.1 s.2 x) (hb : ∀ r ∈ n.roots, r < h.length)
    (hkn : ∀ i, InNetwork h n.roots i → (h[i]?).map (·.kind) = some k)
    (hup : ∀ p c, InNetwork s.1 s.2 p → InNetwork h n.roots c → rank p < rank c)
    (hdis : ∀ m ∈ pending, ∀ i, InNetwork h n.roots i → ¬ InNetwork h m.roots i) : ∀ (rs : List Nat) (t : Heap × List Nat), (∀ r ∈ rs, r ∈ n.roots) →
    Merging h k n pending s rank t → ∃ t', rs.foldlM (mergeRoot nodes) t = .ok t' ∧ Merging h k n pending s rank t' := by
  intro rs
  induction rs with
  | nil => intro t _ ht; exact ⟨t, rfl, ht⟩
  | cons r rs ih =>
    intro t hrs ht
    obtain ⟨t1, h1, h2⟩ := merging_step hs ht hnodes (hrs r List.mem_cons_self) (hb r (hrs r List.mem_cons_self)) hkn hup hdis
    obtain ⟨t2, h3, h4⟩ := ih t1 (fun x hx => hrs x (List.mem_cons_of_mem _ hx)) h2
    refine ⟨t2, ?_, h4⟩
    rw [List.foldlM_cons, h1]
    exact h3

theorem ready_step {so : SetOrder} {h : Heap} {k : NodeKind} {n : Network} {pending : List Network} {s : Heap × List Nat} 
    (hs : Ready h k (n :: pending) s) (hb : ∀ r ∈ n.roots, r < h.length) (hkn : ∀ i, InNetwork h n.roots i → (h[i]?).map (·.kind) = some k)
    (hdis : ∀ m ∈ pending, ∀ i, InNetwork h n.roots i → ¬ InNetwork h m.roots i) :
    ∃ steps s', mergeNetwork so steps s n = some (.ok s') ∧ Ready h k pending s' := by
  classical
  obtain ⟨rank, hrank⟩ := hs.ranked
  obtain ⟨K, hK⟩ := exists_bound rank s.1.length
  have hblt : ∀ r ∈ s.2, r < s.1.length := by rw [hs.same.1]; exact hs.bound
  obtain ⟨st, ds, hds⟩ := mapM_option_all (fun steps r => (s.1.getAllDescendants steps r).map so.nodes) (descend_mono so s.1) s.2 (by
    intro r hr
    obtain ⟨st, d, hd⟩ := (C19_descendants_terminates s.1 r).2 (hrank.acyclic hs.closed r (hblt r hr))
    exact ⟨st, so.nodes d, by rw [hd]; rfl⟩)
  have hds := hds 0
  rw [Nat.add_zero] at hds
  have hnodes := descendants_in hds
  let rank' := fun i => rank i + if InNetwork h n.roots i then K else 0
  have hin : ∀ i, InNetwork s.1 s.2 i → ¬ InNetwork h n.roots i := hs.apart n List.mem_cons_self
  have hr' : RankedBy s.1 rank' := by
    intro i c hc
    have := hrank i c hc
    show rank i + _ < rank c + _
    by_cases hi : InNetwork h n.roots i
    · have : InNetwork h n.roots c := hi.child (hs.untouched n List.mem_cons_self i hi ▸ hc)
      rw [if_pos hi, if_pos this]
      omega
    · rw [if_neg hi]
      omega
  have hup : ∀ p c, InNetwork s.1 s.2 p → InNetwork h n.roots c → rank' p < rank' c := by
    intro p c hp hc
    show rank p + _ < rank c + _
    rw [if_neg (hin p hp), if_pos hc]
    have := hK p (hp.lt hs.closed hblt)
    omega
  have h0 : Merging h k n pending s rank' s := by
    refine ⟨hs.same, hs.closed, hr', hs.untouched, ?_, ?_, hs.bound⟩
    · rintro i (hi | hi) c hc
      · exact Or.inl (hi.child hc)
      · exact Or.inr (hi.child (hs.untouched n List.mem_cons_self i hi ▸ hc))
    · intro r hr; exact Or.inl ⟨r, hr, 0, .refl _⟩
  obtain ⟨s', h1, h2⟩ := merging_all hs hnodes hb hkn hup hdis n.roots s (fun _ h => h) h0
  refine ⟨st, s', ?_, ?_⟩
  · unfold mergeNetwork
    rw [hds]
    simp only [Option.map_some, h1]
  · have hsub : ∀ i, InNetwork s'.1 s'.2 i → InNetwork s.1 s.2 i ∨ InNetwork h n.roots i := by
      rintro i ⟨r, hr, m, hp⟩
      have key : ∀ {a b m}, Path s'.1.children a b m → (InNetwork s.1 s.2 a ∨ InNetwork h n.roots a) → InNetwork s.1 s.2 b ∨ InNetwork h n.roots b := by
        intro a b m hp
        induction hp with
        | refl => exact fun h => h
        | step hb _ ih => exact fun ha => ih (h2.stays _ ha _ hb)
      exact key hp (h2.roots r hr)
    refine ⟨h2.same, h2.closed, ⟨rank', h2.ranked⟩, fun m hm => h2.untouched m (List.mem_cons_of_mem _ hm), ?_, ?_, h2.bound⟩
    · intro m hm i hi hmi
      rcases hsub i hi with h' | h'
      · exact hs.apart m (List.mem_cons_of_mem _ hm) i h' hmi
      · exact hdis m hm i h' hmi
    · intro i hi
      rcases hsub i hi with h' | h'
      · exact hs.kinds i h'
      · exact hkn i h'

theorem ready_all {so : SetOrder} {h : Heap} {k : NodeKind} (hcl : h.Closed) : ∀ (pending : List Network) (s : Heap × List Nat), Ready h k pending s →
    (∀ n ∈ pending, ∀ r ∈ n.roots, r < h.length) → (∀ n ∈ pending, ∀ i, InNetwork h n.roots i → (h[i]?).map (·.kind) = some k) →
    pending.Pairwise (fun a b => ∀ i, InNetwork h a.roots i → ¬ InNetwork h b.roots i) →
    ∃ steps s', mergeAll so steps s pending = some (.ok s') ∧ Ready h k [] s' := by
  intro pending
  induction pending with
  | nil => intro s hs _ _ _; exact ⟨0, s, rfl, hs⟩
  | cons n ns ih =>
    intro s hs hb hk hd
    rw [List.pairwise_cons] at hd
    obtain ⟨st, s1, h1, h2⟩ := ready_step (so := so) hs (hb n List.mem_cons_self) (hk n List.mem_cons_self) hd.1
    obtain ⟨st', s2, h3, h4⟩ := ih s1 h2 (fun m hm => hb m (List.mem_cons_of_mem _ hm)) (fun m hm => hk m (List.mem_cons_of_mem _ hm)) hd.2
    refine ⟨st + st', s2, ?_, h4⟩
    unfold mergeAll
    rw [mergeNetwork_mono h1]
    dsimp only
    rw [Nat.add_comm]
    exact mergeAll_mono ns s1 _ h3

end Brel
