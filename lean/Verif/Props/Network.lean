import Verif.Lemmas.Network

namespace Brel
open Heap

/-! ## C18: children of a node are in order -/

/-- C18: after any history of insertions into freshly created nodes, the children of a node are a permutation of the inserted ones,
sorted by order, and children of equal order keep their insertion order; label nodes keep the insertion order throughout. Nothing else
about the nodes changes. -/
theorem C18_children_in_order (h h' : Heap) (ops : List (Nat × Nat)) (hfresh : ∀ n ∈ h, n.children = [])
    (hops : ∀ o ∈ ops, o.1 < h.length ∧ o.2 < h.length) (hrun : runAdds h ops = .ok h') (p : Nat) (hp : p < h.length) :
    (h[p].kind ≠ .label → ChildrenSpec h.orderOf (addedTo p ops) (h'.children p)) ∧
    (h[p].kind = .label → h'.children p = addedTo p ops) ∧
    (h'[p]?).map (fun n => (n.kind, n.target, n.arcRole, n.order, n.weight, n.preferredLabel)) =
      some (h[p].kind, h[p].target, h[p].arcRole, h[p].order, h[p].weight, h[p].preferredLabel) := by
  have h0 : ∀ q, (hq : q < h.length) → h.children q = [] := by
    intro q hq
    unfold Heap.children
    rw [List.getElem?_eq_getElem hq]
    exact hfresh _ (List.getElem_mem hq)
  obtain ⟨hf, hi⟩ := runAdds_inv h ops [] h h' (SameFrame.refl h)
    (by
      intro q hq
      rw [h0 q hq]
      split
      · rfl
      · exact ChildrenSpec.nil _) hops hrun
  have := hi p hp
  rw [List.nil_append] at this
  refine ⟨?_, ?_, ?_⟩
  · intro hk
    rwa [if_neg hk] at this
  · intro hk
    rwa [if_pos hk] at this
  · have hfr := congrArg (Option.map (fun n : NetNode => (n.kind, n.target, n.arcRole, n.order, n.weight, n.preferredLabel))) (hf.2 p)
    rw [List.getElem?_eq_getElem hp] at hfr
    simpa [Option.map_map, Function.comp_def, frame] using hfr

/-- C18: a history ends without exception exactly when every inserted child is a node of the parent's class or the parent is a label
node. -/
theorem C18_accepts (h : Heap) (ops : List (Nat × Nat)) (hops : ∀ o ∈ ops, o.1 < h.length ∧ o.2 < h.length) :
    (∃ h', runAdds h ops = .ok h') ↔
      ∀ o ∈ ops, (h[o.1]?).map (·.kind) = some .label ∨ (h[o.2]?).map (·.kind) = (h[o.1]?).map (·.kind) :=
  runAdds_ok h ops h (SameFrame.refl h) hops

/-- C18: a child of another class is refused, with the exception of the class. -/
theorem C18_other_class (h : Heap) (p c : Nat) (hp : p < h.length) (hc : c < h.length) (hl : h[p].kind ≠ .label)
    (hk : h[c].kind ≠ h[p].kind) :
    h.addChild p c = .error (if h[p].kind = .presentation ∨ h[p].kind = .calculation then .typeError else .valueError) := by
  unfold addChild
  rw [List.getElem?_eq_getElem hp, List.getElem?_eq_getElem hc]
  simp only [ne_eq, hl, not_false_eq_true, hk, and_self, if_true]
  split <;> rfl

/-- Nodes for the examples. -/
def exNet (orders : List Int) : Heap :=
  orders.map (fun o : Int => { kind := .presentation, target := .element ⟨"u", "p", "x"⟩ true, arcRole := "r", order := o })

/-- The hypotheses are met, and order and stability are visible: orders 2, 1, 2, 1. -/
example : (runAdds (exNet [0, 2, 1, 2, 1]) [(0, 1), (0, 2), (0, 3), (0, 4)]).map (fun h => h.children 0) = .ok [2, 4, 1, 3] ∧
    (∀ n ∈ exNet [0, 2, 1, 2, 1], n.children = []) := by decide +kernel

/-! ## C19: traversals -/

/-- C19: whenever `get_all_nodes` returns, it returns exactly the nodes reachable from the roots, without duplicates. -/
theorem C19_all_nodes (h : Heap) (limit : Nat) (roots r : List Nat) (hr : h.getAllNodes limit roots = .ok r) :
    r.Nodup ∧ ∀ x, x ∈ r ↔ ∃ root ∈ roots, Reachable h.children root x := by
  obtain ⟨h1, h2⟩ := visitList_ok h limit (visit_ok h limit) roots [] r hr
  exact ⟨h2 List.nodup_nil, by simpa using h1⟩

/-- C19: `get_all_nodes` returns exactly when every path from a root has fewer than `limit` edges (the interpreter's recursion limit);
otherwise it raises `RecursionError`. -/
theorem C19_all_nodes_defined (h : Heap) (limit : Nat) (roots : List Nat) :
    ((∃ r, h.getAllNodes limit roots = .ok r) ↔ ∀ root ∈ roots, ∀ b n, Path h.children root b n → n < limit) ∧
    (∀ e, h.getAllNodes limit roots = .error e → e = .recursionError) := visitList_exists h limit roots []

/-- C19: for a network without cycles and with at most as many nodes as the recursion limit, `get_all_nodes` returns exactly the
reachable nodes. -/
theorem C19_acyclic (h : Heap) (limit : Nat) (roots : List Nat) (hroots : ∀ i ∈ roots, i < h.length)
    (hch : ∀ p, ∀ c ∈ h.children p, c < h.length)
    (hac : ∀ i ∈ roots, ∀ x k, Reachable h.children i x → ¬ Path h.children x x (k + 1)) (hlim : h.length ≤ limit) :
    ∃ r, h.getAllNodes limit roots = .ok r ∧ r.Nodup ∧ ∀ x, x ∈ r ↔ ∃ root ∈ roots, Reachable h.children root x := by
  obtain ⟨r, hr⟩ := (C19_all_nodes_defined h limit roots).1.2
    (fun i hi b n hp => Nat.lt_of_lt_of_le (path_lt_length h i (hroots i hi) hch (hac i hi) b n hp) hlim)
  exact ⟨r, hr, C19_all_nodes h limit roots r hr⟩

/-- C19: a node below a root that lies on a cycle makes `get_all_nodes` raise `RecursionError`, whatever the limit. -/
theorem C19_cycle_raises (h : Heap) (limit : Nat) (roots : List Nat) (i x k : Nat) (hi : i ∈ roots) (hx : Reachable h.children i x)
    (hcyc : Path h.children x x (k + 1)) : h.getAllNodes limit roots = .error .recursionError := by
  have key : ∀ m, ∃ n, m ≤ n ∧ Path h.children x x n := by
    intro m
    induction m with
    | zero => exact ⟨k + 1, Nat.zero_le _, hcyc⟩
    | succ m ih =>
      obtain ⟨n, hmn, hp⟩ := ih
      have happ : ∀ {a b c n m}, Path h.children a b n → Path h.children b c m → Path h.children a c (n + m) := by
        intro a b c n m h1 h2
        induction h1 with
        | refl => rw [Nat.zero_add]; exact h2
        | step hb _ ih => rw [Nat.succ_add]; exact .step hb (ih h2)
      exact ⟨k + 1 + n, by omega, happ hcyc hp⟩
  obtain ⟨d, hd⟩ := hx
  obtain ⟨n, hn, hp⟩ := key limit
  have happ : ∀ {a b c n m}, Path h.children a b n → Path h.children b c m → Path h.children a c (n + m) := by
    intro a b c n m h1 h2
    induction h1 with
    | refl => rw [Nat.zero_add]; exact h2
    | step hb _ ih => rw [Nat.succ_add]; exact .step hb (ih h2)
  obtain ⟨c1, c2⟩ := C19_all_nodes_defined h limit roots
  cases hr : h.getAllNodes limit roots with
  | ok r =>
    exfalso
    have := c1.1 ⟨r, hr⟩ i hi x (d + n) (happ hd hp)
    omega
  | error e => rw [c2 e hr]

/-- C19: `get_all_descendants` of a node, when it returns, returns exactly the nodes reachable from it (the node included), without
duplicates. -/
theorem C19_descendants (h : Heap) (steps i : Nat) (r : List Nat) (hr : h.getAllDescendants steps i = some r) :
    r.Nodup ∧ ∀ x, x ∈ r ↔ Reachable h.children i x := by
  obtain ⟨h1, _, h3, h4, h5⟩ := descLoop_sound h i steps [i] [] r hr (by simp)
    (by intro x hx; rw [List.mem_singleton] at hx; subst hx; exact ⟨0, .refl _⟩) (by simp) List.nodup_nil
  refine ⟨h5, fun x => ⟨h1 x, ?_⟩⟩
  rintro ⟨n, hp⟩
  have : ∀ {a b n}, Path h.children a b n → a ∈ r → b ∈ r := by
    intro a b n hp
    induction hp with
    | refl => exact fun h => h
    | step hb _ ih => exact fun ha => ih (h4 _ ha _ hb)
  exact this hp (h3 i (by simp))

/-- C19: `get_all_descendants` ends exactly when the lengths of the paths from the node are bounded, that is without a cycle below
it; on a cycle it never ends. -/
theorem C19_descendants_terminates (h : Heap) (i : Nat) :
    (∃ steps r, h.getAllDescendants steps i = some r) ↔ AcyclicFrom h.children i := by
  constructor
  · rintro ⟨s, r, hr⟩
    apply Classical.byContradiction
    intro hno
    have := descLoop_long h s [i] [] i (by simp) (by
      intro d
      apply Classical.byContradiction
      intro h'
      apply hno
      refine ⟨d, ?_⟩
      intro b n hp
      apply Classical.byContradiction
      intro hlt
      exact h' ⟨b, n, hp, Nat.le_of_not_lt hlt⟩)
    unfold getAllDescendants at hr
    rw [this] at hr
    cases hr
  · exact descLoop_terminates h i

/-- More steps do not change the result. -/
theorem C19_descendants_mono (h : Heap) (s k i : Nat) (r : List Nat) (hr : h.getAllDescendants s i = some r) :
    h.getAllDescendants (s + k) i = some r := descLoop_mono h s [i] [] r hr k

/-- A diamond: node 3 is reached twice and listed once. -/
def exDiamond : Heap := (runAdds (exNet [0, 2, 1, 2, 1]) [(0, 1), (0, 2), (1, 3), (2, 3)]).toOption.getD []

example : exDiamond.getAllNodes 5 [0] = .ok [0, 2, 3, 1] ∧ exDiamond.getAllDescendants 6 0 = some [0, 1, 3, 2] ∧
    exDiamond.getAllNodes 2 [0] = .error .recursionError := by decide +kernel

example : exDiamond.length = 5 ∧ ∀ p < 5, ∀ c ∈ exDiamond.children p, c < 5 ∧ p < c := by decide +kernel

/-- C19: `get_root` returns the root of a network with a single root, and raises otherwise. -/
theorem C19_get_root (n : Network) :
    (∀ r, n.getRoot = .ok r ↔ n.roots = [r]) ∧ (n.getRoot = .error .indexError ↔ n.roots = []) ∧
    (n.getRoot = .error .valueError ↔ 2 ≤ n.roots.length) := by
  obtain ⟨roots, lr, k, ph⟩ := n
  unfold Network.getRoot
  match roots with
  | [] => simp
  | [x] => simp
  | x :: y :: l => simp

/-- C19: the arc roles of a network are those of its reachable nodes, each once. -/
theorem C19_arc_roles (n : Network) (h : Heap) (limit : Nat) (l : List String) (hl : n.getArcRoles h limit = .ok l) :
    l.Nodup ∧ ∀ a, a ∈ l ↔ ∃ root ∈ n.roots, ∃ i node, Reachable h.children root i ∧ h[i]? = some node ∧ node.arcRole = a := by
  unfold Network.getArcRoles at hl
  cases hr : h.getAllNodes limit n.roots with
  | error e => rw [hr] at hl; cases hl
  | ok r =>
    rw [hr] at hl
    cases hl
    obtain ⟨_, hm⟩ := C19_all_nodes h limit n.roots r hr
    refine ⟨foldl_appendNew_nodup _ _ List.nodup_nil, ?_⟩
    intro a
    rw [mem_foldl_appendNew]
    simp only [List.not_mem_nil, false_or, List.mem_filterMap, Option.map_eq_some_iff, hm]
    constructor
    · rintro ⟨i, ⟨root, h1, h2⟩, node, h3, h4⟩
      exact ⟨root, h1, i, node, h2, h3, h4⟩
    · rintro ⟨root, h1, i, node, h2, h3, h4⟩
      exact ⟨i, ⟨root, h1, h2⟩, node, h3, h4⟩

end Brel
