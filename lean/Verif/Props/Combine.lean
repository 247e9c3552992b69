import Verif.Lemmas.Combine

namespace Brel
open Heap

variable {so : SetOrder} {steps : Nat} {h h' : Heap} {nets : List Network} {net : Network}

/-! ## C21: a combined network has the objects and relations of the networks it is made of -/

/-- C21, objects: an object occurs in the combined network exactly when it occurs in one of the networks. -/
theorem C21_objects (hc : h.Closed) (hr : combineNetworks so steps h nets = some (.ok (h', net))) (t : Option Target) :
    Occurs h' net.roots t ↔ ∃ n ∈ nets, Occurs h n.roots t := by
  have hi := combine_inv hc hr
  constructor
  · rintro ⟨i, hin, ht⟩
    obtain ⟨r, hr, hp⟩ := hi.backward hin
    obtain ⟨n, hn, hrn⟩ := List.mem_flatMap.1 hr
    exact ⟨n, hn, i, ⟨r, hrn, hp⟩, by rw [← ht]; exact (hi.same.target i).symm⟩
  · rintro ⟨n, hn, i, ⟨r, hrn, hp⟩, ht⟩
    rcases hi.forward ⟨r, List.mem_flatMap.2 ⟨n, hn, hrn⟩, hp⟩ with h' | ⟨p, h1, h2, _⟩
    · exact ⟨i, h', (hi.same.target i).trans ht⟩
    · exact ⟨p, h1, (hi.same.target p).trans (h2.trans ht)⟩

/-- C21, relations: two objects are related in the combined network exactly when they are related in one of the networks. -/
theorem C21_relations (hc : h.Closed) (hr : combineNetworks so steps h nets = some (.ok (h', net))) (t u : Option Target) :
    Related h' net.roots t u ↔ ∃ n ∈ nets, Related h n.roots t u := by
  have hi := combine_inv hc hr
  constructor
  · rintro ⟨i, c, hin, hic, ht, hu⟩
    obtain ⟨j, h1, h2, h3⟩ := hi.edges i c hic
    obtain ⟨r, hr, hp⟩ := h3 (hi.backward hin)
    obtain ⟨n, hn, hrn⟩ := List.mem_flatMap.1 hr
    refine ⟨n, hn, j, c, ⟨r, hrn, hp⟩, h2, ?_, ?_⟩
    · rw [h1, ← ht]; exact (hi.same.target i).symm
    · rw [← hu]; exact (hi.same.target c).symm
  · rintro ⟨n, hn, i, c, ⟨r, hrn, hp⟩, hic, ht, hu⟩
    rcases hi.forward ⟨r, List.mem_flatMap.2 ⟨n, hn, hrn⟩, hp⟩ with h' | ⟨p, h1, h2, h3⟩
    · exact ⟨i, c, h', hi.kept i c hic, (hi.same.target i).trans ht, (hi.same.target c).trans hu⟩
    · exact ⟨p, c, h1, h3 c hic, (hi.same.target p).trans (h2.trans ht), (hi.same.target c).trans hu⟩

/-- C21, relations with their data: a child with some order, weight and preferred label is below an object in the combined network exactly when it is in one of the networks. -/
theorem C21_children (hc : h.Closed) (hr : combineNetworks so steps h nets = some (.ok (h', net))) (t : Option Target) (d : NetNode) :
    RelatedAs h' net.roots t d ↔ ∃ n ∈ nets, RelatedAs h n.roots t d := by
  have hi := combine_inv hc hr
  constructor
  · rintro ⟨i, c, hin, hic, ht, hu⟩
    obtain ⟨j, h1, h2, h3⟩ := hi.edges i c hic
    obtain ⟨r, hr, hp⟩ := h3 (hi.backward hin)
    obtain ⟨n, hn, hrn⟩ := List.mem_flatMap.1 hr
    refine ⟨n, hn, j, c, ⟨r, hrn, hp⟩, h2, ?_, ?_⟩
    · rw [h1, ← ht]; exact (hi.same.target i).symm
    · rw [← hu]; exact (hi.same.2 c).symm
  · rintro ⟨n, hn, i, c, ⟨r, hrn, hp⟩, hic, ht, hu⟩
    rcases hi.forward ⟨r, List.mem_flatMap.2 ⟨n, hn, hrn⟩, hp⟩ with h' | ⟨p, h1, h2, h3⟩
    · exact ⟨i, c, h', hi.kept i c hic, (hi.same.target i).trans ht, (hi.same.2 c).trans hu⟩
    · exact ⟨p, c, h1, h3 c hic, (hi.same.target p).trans (h2.trans ht), (hi.same.2 c).trans hu⟩

/-- C21: the order, weight and preferred label of nodes do not change, and the result has the link role and class of the last
network. -/
theorem C21_node_data (hc : h.Closed) (hr : combineNetworks so steps h nets = some (.ok (h', net))) :
    (∀ i : Nat, (h'[i]?).map (fun n => { n with children := [] }) = (h[i]?).map (fun n => { n with children := [] })) ∧
    ∃ last, nets.getLast? = some last ∧ net.linkRole = last.linkRole ∧ net.kind = last.kind ∧ net.physical = last.physical := by
  refine ⟨(combine_inv hc hr).same.2, ?_⟩
  unfold combineNetworks at hr
  rw [← List.head?_reverse]
  cases hrev : nets.reverse with
  | nil => rw [hrev] at hr; cases hr
  | cons last rest =>
    rw [hrev] at hr
    dsimp only at hr
    cases hm : mergeAll so steps (h, last.roots) rest with
    | none => rw [hm] at hr; cases hr
    | some x =>
      cases x with
      | error e => rw [hm] at hr; cases hr
      | ok s => rw [hm] at hr; cases hr; exact ⟨last, rfl, rfl, rfl, rfl⟩

/-- C21: no networks raise `ValueError`, and a single one is returned as it is. -/
theorem C21_none_and_one : combineNetworks so steps h [] = some (.error .valueError) ∧ combineNetworks so steps h [net] = some (.ok (h, net)) :=
  ⟨rfl, rfl⟩

theorem combine_ready (k : NodeKind) (rank : Nat → Nat) (hc : h.Closed) (hrank : ∀ i, ∀ c ∈ h.children i, rank i < rank c)
    (hne : nets ≠ []) (hb : ∀ n ∈ nets, ∀ r ∈ n.roots, r < h.length)
    (hk : ∀ n ∈ nets, ∀ i, InNetwork h n.roots i → (h[i]?).map (·.kind) = some k)
    (hd : nets.Pairwise (fun a b => ∀ i, ¬ (InNetwork h a.roots i ∧ InNetwork h b.roots i))) :
    ∃ steps h' net, combineNetworks so steps h nets = some (.ok (h', net)) ∧ ∃ rank', RankedBy h' rank' := by
  cases hrev : nets.reverse with
  | nil => exact absurd (List.reverse_eq_nil_iff.1 hrev) hne
  | cons last rest =>
    have hmem : ∀ x ∈ last :: rest, x ∈ nets := fun x hx => List.mem_reverse.1 (hrev ▸ hx)
    have hd' : (last :: rest).Pairwise (fun a b => ∀ i, InNetwork h a.roots i → ¬ InNetwork h b.roots i) := by
      rw [← hrev, List.pairwise_reverse]
      exact hd.imp (fun hab i hb ha => hab i ⟨ha, hb⟩)
    rw [List.pairwise_cons] at hd'
    have hready : Ready h k rest (h, last.roots) :=
      ⟨SameFrame.refl h, hc, ⟨rank, hrank⟩, fun _ _ _ _ => rfl, fun n hn i hi hni => hd'.1 n hn i hi hni, hk last (hmem last List.mem_cons_self),
        hb last (hmem last List.mem_cons_self)⟩
    obtain ⟨steps, s', hs', hr'⟩ := ready_all (so := so) hc rest _ hready (fun n hn => hb n (hmem n (List.mem_cons_of_mem _ hn)))
      (fun n hn => hk n (hmem n (List.mem_cons_of_mem _ hn))) hd'.2
    refine ⟨steps, s'.1, { last with roots := s'.2 }, ?_, hr'.ranked⟩
    unfold combineNetworks
    rw [hrev]
    dsimp only
    rw [hs']
    rfl

/-- C21: combining succeeds if the networks have no node objects in common, no cycles, and nodes of one class, as the networks of
different links of one kind have. -/
theorem C21_succeeds (k : NodeKind) (rank : Nat → Nat) (hc : h.Closed) (hrank : ∀ i, ∀ c ∈ h.children i, rank i < rank c)
    (hne : nets ≠ []) (hb : ∀ n ∈ nets, ∀ r ∈ n.roots, r < h.length)
    (hk : ∀ n ∈ nets, ∀ i, InNetwork h n.roots i → (h[i]?).map (·.kind) = some k)
    (hd : nets.Pairwise (fun a b => ∀ i, ¬ (InNetwork h a.roots i ∧ InNetwork h b.roots i))) :
    ∃ steps h' net, combineNetworks so steps h nets = some (.ok (h', net)) := by
  obtain ⟨steps, h', net, h1, _⟩ := combine_ready (so := so) k rank hc hrank hne hb hk hd
  exact ⟨steps, h', net, h1⟩

namespace CombineExample
def q (s : String) : Target := .element ⟨"u", "p", s⟩ true
def pn (s : String) (cs : List Nat) : NetNode := { kind := .presentation, target := q s, arcRole := "pc", order := 1, label := s, children := cs }
def pnet (rs : List Nat) : Network := { roots := rs, linkRole := "r", kind := .presentation, physical := false }
/-- `A > B` in the first link, `B > C` and a root `D` in the second, `Z > A` in the third. -/
def heap : Heap := [pn "A" [1], pn "B" [], pn "B" [3], pn "C" [], pn "D" [], pn "Z" [6], pn "A" []]
end CombineExample

open CombineExample in
/-- The hypotheses of C21 hold in a case where roots are merged and where roots are added. -/
example : heap.Closed ∧ combineNetworks .insertion 100 heap [pnet [2, 4], pnet [0], pnet [5]] =
    some (.ok ([pn "A" [1], pn "B" [3], pn "B" [3], pn "C" [], pn "D" [], pn "Z" [6], pn "A" [1]], pnet [5, 4])) := by
  refine ⟨?_, by decide +kernel⟩
  intro p c hc
  have : p < 7 ∨ 7 ≤ p := by omega
  rcases this with hp | hp
  · revert hc
    revert c
    have : ∀ p < 7, ∀ c ∈ heap.children p, c < heap.length := by decide
    exact this p hp
  · unfold Heap.children at hc
    rw [List.getElem?_eq_none (by simpa [heap] using hp)] at hc
    cases hc

/-! ## C64: the combined network does not depend on the order of the links -/

open CombineExample in
/-- C64 fails: with `A > B` and `B > C` in two links, the combined network is `A > B > C` if the link of `A` comes last, and otherwise it has
the two roots `B` and `A`, with `C` only below the first. -/
theorem C64_link_order_irrelevant_false :
    ∃ (h h1 h2 : Heap) (a b n1 n2 : Network), combineNetworks .insertion 100 h [b, a] = some (.ok (h1, n1)) ∧
      combineNetworks .insertion 100 h [a, b] = some (.ok (h2, n2)) ∧
      n1.roots.map h1.targetOf = [some (q "A")] ∧ n2.roots.map h2.targetOf = [some (q "B"), some (q "A")] ∧
      (∃ i c d, i ∈ n1.roots ∧ c ∈ h1.children i ∧ d ∈ h1.children c ∧ h1.targetOf d = some (q "C")) ∧
      ∀ i ∈ n2.roots, ∀ c ∈ h2.children i, h2.children c = [] :=
  ⟨[pn "A" [1], pn "B" [], pn "B" [3], pn "C" []], [pn "A" [1], pn "B" [3], pn "B" [3], pn "C" []], [pn "A" [1], pn "B" [], pn "B" [3], pn "C" []],
   pnet [0], pnet [2], pnet [0], pnet [2, 0], by decide +kernel, by decide +kernel, by decide, by decide, ⟨0, 1, 3, by decide⟩, by decide⟩

/-- C64, the part that holds: for two orders of the same networks the combined networks have the same objects and relations. Missing: the
same roots and nesting. -/
theorem C64_same_relations_partial {so' : SetOrder} {steps' : Nat} {h2 : Heap} {nets' : List Network} {net' : Network} (hc : h.Closed)
    (hperm : nets'.Perm nets) (hr : combineNetworks so steps h nets = some (.ok (h', net)))
    (hr' : combineNetworks so' steps' h nets' = some (.ok (h2, net'))) (t u : Option Target) :
    (Occurs h' net.roots t ↔ Occurs h2 net'.roots t) ∧ (Related h' net.roots t u ↔ Related h2 net'.roots t u) := by
  rw [C21_objects hc hr, C21_objects hc hr', C21_relations hc hr, C21_relations hc hr']
  simp [hperm.mem_iff]

end Brel
