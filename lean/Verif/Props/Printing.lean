import Verif.Spec.Printing
import Verif.Spec.Network
import Verif.Props.Network
import Verif.Lemmas.Py

/-! Theorems about printing networks (C50) and facts. -/

namespace Brel

/-! ### Trees -/

/-- The recursion limit `k` suffices for the nodes of `f`. -/
def Fits (ch : Nat → List Nat) : Nat → List Nat → Prop
  | 0, f => f = []
  | k + 1, f => ∀ n ∈ f, Fits ch k (ch n)

/-- The places of the siblings `ns`, the first of which has position `i`. -/
def placesFrom (sub : Nat → List (List Nat)) : Nat → List Nat → List (List Nat)
  | _, [] => []
  | i, n :: ns => ([i] :: (sub n).map (fun q => i :: q)) ++ placesFrom sub (i + 1) ns

/-- The places of a forest, up to a depth. -/
def placesOf (ch : Nat → List Nat) : Nat → List Nat → List (List Nat)
  | 0, _ => []
  | k + 1, f => placesFrom (fun n => placesOf ch k (ch n)) 0 f

theorem printSiblings_done (sub : Bool → Nat → Printed) (len : Nat) : ∀ (ns : List Nat) (i : Nat),
    (∀ b, ∀ n ∈ ns, (sub b n).2 = (sub true n).2) →
    ((printSiblings sub len i ns).2 = true ↔ ∀ n ∈ ns, (sub true n).2 = true)
  | [], i, _ => by simp [printSiblings]
  | n :: ns, i, hb => by
    have ih := printSiblings_done sub len ns (i + 1) (fun b m hm => hb b m (by simp [hm]))
    have h1 := hb (decide (i + 1 = len)) n (by simp)
    simp only [printSiblings]
    by_cases hs : (sub (decide (i + 1 = len)) n).2 = true
    · rw [if_pos hs]
      simp only [List.forall_mem_cons]
      rw [ih]
      simp [h1 ▸ hs]
    · rw [if_neg hs]
      simp only [List.forall_mem_cons]
      constructor
      · intro h; exact absurd h hs
      · intro h; rw [h1] at hs; exact absurd h.1 hs

theorem printSub_done (t : NodeTexts) (h : Heap) : ∀ (k : Nat) (header : String) (last : Bool) (i : Nat),
    ((printSubNetwork t h k header last i).2 = true ↔ Fits h.children k [i])
  | 0, header, last, i => by simp [printSubNetwork, Fits]
  | k + 1, header, last, i => by
    have ih := printSub_done t h k
    simp only [printSubNetwork]
    rw [printSiblings_done]
    · simp only [Fits, List.mem_singleton, forall_eq, ih]
      cases k with
      | zero =>
        simp only [Fits]
        constructor
        · intro hh
          cases hc : h.children i with
          | nil => rfl
          | cons x xs => rw [hc] at hh; exact absurd (hh x (by simp)) (by simp)
        · intro hh; rw [hh]; simp
      | succ k => simp [Fits]
    · intro b n _
      rw [Bool.eq_iff_iff, ih, ih]

theorem fits_iff (ch : Nat → List Nat) : ∀ (k : Nat) (f : List Nat), Fits ch k f ↔ ∀ n ∈ f, Fits ch k [n]
  | 0, f => by
    simp only [Fits]
    constructor
    · intro hf; rw [hf]; simp
    · intro hh
      cases f with
      | nil => rfl
      | cons x xs => exact absurd (hh x (by simp)) (by simp)
  | k + 1, f => by simp [Fits]

theorem fits_paths (ch : Nat → List Nat) : ∀ (k : Nat) (f : List Nat),
    Fits ch k f ↔ ∀ n ∈ f, ∀ b m, Path ch n b m → m < k
  | 0, f => by
    simp only [Fits]
    constructor
    · intro hf; rw [hf]; simp
    · intro hh
      cases f with
      | nil => rfl
      | cons x xs => exact absurd (hh x (by simp) x 0 (.refl x)) (by omega)
  | k + 1, f => by
    simp only [Fits]
    constructor
    · intro hh n hn b m hp
      cases hp with
      | refl => omega
      | step hc hp' =>
        have := (fits_paths ch k (ch n)).1 (hh n hn) _ hc _ _ hp'
        omega
    · intro hh n hn
      rw [fits_paths ch k]
      intro c hc b m hp
      have := hh n hn b (m + 1) (.step hc hp)
      omega

theorem lastFlags_ne_nil (ch : Nat → List Nat) (f p : List Nat) (hp : p ≠ []) : lastFlags ch f p ≠ [] := by
  cases p with
  | nil => exact absurd rfl hp
  | cons i q => simp [lastFlags]

theorem drawing_cons (b : Bool) (l : List Bool) (hl : l ≠ []) :
    drawing (b :: l) = (if b then "   " else "│  ") ++ drawing l := by
  cases l with
  | nil => exact absurd rfl hl
  | cons x xs => rfl

theorem nodeAt_cons (ch : Nat → List Nat) (f : List Nat) (i : Nat) (q : List Nat) (hq : q ≠ []) :
    nodeAt ch f (i :: q) = f[i]?.bind (fun n => nodeAt ch (ch n) q) := by
  cases q with
  | nil => exact absurd rfl hq
  | cons x xs => rfl

theorem placeLine_cons (t : NodeTexts) (ch : Nat → List Nat) (f : List Nat) (i n : Nat) (q : List Nat) (hq : q ≠ [])
    (hn : f[i]? = some n) :
    placeLine t ch f (i :: q) = (if decide (i + 1 = f.length) then "   " else "│  ") ++ placeLine t ch (ch n) q := by
  unfold placeLine
  rw [nodeAt_cons ch f i q hq, hn]
  simp only [lastFlags, hn, Option.map_some, Option.getD_some, Option.bind_some]
  rw [drawing_cons _ _ (lastFlags_ne_nil _ _ _ hq), String.append_assoc]

theorem placesFrom_ne_nil (sub : Nat → List (List Nat)) : ∀ (ns : List Nat) (i : Nat), ∀ p ∈ placesFrom sub i ns, p ≠ []
  | [], i, p, hp => by simp [placesFrom] at hp
  | n :: ns, i, p, hp => by
    simp only [placesFrom, List.mem_append, List.mem_cons, List.mem_map] at hp
    rcases hp with (rfl | ⟨q, _, rfl⟩) | hp
    · simp
    · simp
    · exact placesFrom_ne_nil sub ns (i + 1) p hp

theorem placesOf_ne_nil (ch : Nat → List Nat) (k : Nat) (f : List Nat) : ∀ p ∈ placesOf ch k f, p ≠ [] := by
  cases k with
  | zero => simp [placesOf]
  | succ k => exact placesFrom_ne_nil _ f 0

theorem printSiblings_lines (t : NodeTexts) (h : Heap) (header : String) (f : List Nat) (sub : Bool → Nat → Printed)
    (pl : Nat → List (List Nat))
    (hsub : ∀ b, ∀ n ∈ f, (sub b n).2 = true ∧
      (sub b n).1 = (header ++ (if b then "└──" else "├──") ++ t.text n) ::
        (pl n).map (fun q => header ++ (if b then "   " else "│  ") ++ placeLine t h.children (h.children n) q))
    (hpl : ∀ n, ∀ q ∈ pl n, q ≠ []) :
    ∀ (ns done : List Nat), f = done ++ ns →
      (printSiblings sub f.length done.length ns).1 =
        (placesFrom pl done.length ns).map (fun p => header ++ placeLine t h.children f p)
  | [], done, _ => by simp [printSiblings, placesFrom]
  | n :: ns, done, hf => by
    have hn : n ∈ f := by rw [hf]; simp
    have hi : f[done.length]? = some n := by rw [hf]; simp
    obtain ⟨h1, h2⟩ := hsub (decide (done.length + 1 = f.length)) n hn
    have ih := printSiblings_lines t h header f sub pl hsub hpl ns (done ++ [n]) (by rw [hf]; simp)
    simp only [List.length_append, List.length_cons, List.length_nil, Nat.zero_add] at ih
    simp only [printSiblings, placesFrom]
    rw [if_pos h1, h2, ih]
    simp only [List.map_append, List.map_cons, List.map_map, List.cons_append]
    congr 1
    · have : nodeAt h.children f [done.length] = some n := hi
      simp only [placeLine, this, lastFlags, drawing, Option.map_some, Option.getD_some, String.append_assoc]
    · congr 1
      apply List.map_congr_left
      intro q hq
      simp only [Function.comp]
      rw [placeLine_cons t h.children f done.length n q (hpl n q hq) hi, String.append_assoc]

theorem printSub_lines (t : NodeTexts) (h : Heap) : ∀ (k : Nat) (header : String) (last : Bool) (i : Nat),
    Fits h.children (k + 1) [i] →
    (printSubNetwork t h (k + 1) header last i).1 =
      (header ++ (if last then "└──" else "├──") ++ t.text i) ::
        (placesOf h.children k (h.children i)).map
          (fun q => header ++ (if last then "   " else "│  ") ++ placeLine t h.children (h.children i) q)
  | 0, header, last, i, hf => by
    have : h.children i = [] := by simpa [Fits] using hf
    simp [printSubNetwork, this, printSiblings, placesOf]
  | k + 1, header, last, i, hf => by
    have hf' : Fits h.children (k + 1) (h.children i) := by simpa [Fits] using hf
    have hall := (fits_iff h.children (k + 1) (h.children i)).1 hf'
    rw [printSubNetwork]
    have := printSiblings_lines t h (header ++ (if last then "   " else "│  ")) (h.children i)
      (fun l c => printSubNetwork t h (k + 1) (header ++ (if last then "   " else "│  ")) l c)
      (fun n => placesOf h.children k (h.children n))
      (fun b n hn => ⟨(printSub_done t h (k + 1) _ b n).2 (hall n hn), printSub_lines t h k _ b n (hall n hn)⟩)
      (fun n => placesOf_ne_nil _ _ _) (h.children i) [] rfl
    simp only [List.length_nil] at this
    simp only [this, placesOf]

theorem mem_placesFrom (sub : Nat → List (List Nat)) : ∀ (ns : List Nat) (i : Nat) (p : List Nat),
    p ∈ placesFrom sub i ns ↔ ∃ j q, p = (i + j) :: q ∧ ∃ n, ns[j]? = some n ∧ (q = [] ∨ q ∈ sub n)
  | [], i, p => by simp [placesFrom]
  | n :: ns, i, p => by
    simp only [placesFrom, List.mem_append, List.mem_cons, List.mem_map, mem_placesFrom sub ns (i + 1) p]
    constructor
    · rintro ((rfl | ⟨q, hq, rfl⟩) | ⟨j, q, rfl, m, hm, hq⟩)
      · exact ⟨0, [], by simp, n, by simp⟩
      · exact ⟨0, q, by simp, n, by simp [hq]⟩
      · exact ⟨j + 1, q, by simp [Nat.add_comm, Nat.add_left_comm], m, by simpa using hm, hq⟩
    · rintro ⟨j, q, rfl, m, hm, hq⟩
      cases j with
      | zero =>
        simp only [List.getElem?_cons_zero, Option.some.injEq] at hm
        subst hm
        rcases hq with rfl | hq
        · left; left; simp
        · left; right; exact ⟨q, hq, by simp⟩
      | succ j =>
        right
        exact ⟨j, q, by simp [Nat.add_comm, Nat.add_left_comm], m, by simpa using hm, hq⟩

theorem mem_placesOf (ch : Nat → List Nat) : ∀ (k : Nat) (f : List Nat), Fits ch k f →
    ∀ p, p ∈ placesOf ch k f ↔ (nodeAt ch f p).isSome
  | 0, f, hf, p => by
    have : f = [] := hf
    subst this
    cases p with
    | nil => simp [placesOf, nodeAt]
    | cons i q => cases q <;> simp [placesOf, nodeAt]
  | k + 1, f, hf, p => by
    simp only [placesOf, mem_placesFrom, Nat.zero_add]
    constructor
    · rintro ⟨j, q, rfl, n, hn, hq⟩
      rcases hq with rfl | hq
      · simp [nodeAt, hn]
      · have hne := placesOf_ne_nil ch k (ch n) q hq
        rw [nodeAt_cons ch f j q hne, hn]
        have := (mem_placesOf ch k (ch n) (hf n (List.mem_of_getElem? hn)) q).1 hq
        simpa using this
    · intro hp
      cases p with
      | nil => simp [nodeAt] at hp
      | cons i q =>
        cases hn : f[i]? with
        | none => cases q <;> simp [nodeAt, hn] at hp
        | some n =>
          refine ⟨i, q, rfl, n, hn, ?_⟩
          by_cases hq : q = []
          · exact .inl hq
          · right
            rw [nodeAt_cons ch f i q hq, hn] at hp
            exact (mem_placesOf ch k (ch n) (hf n (List.mem_of_getElem? hn)) q).2 (by simpa using hp)

theorem placesFrom_sorted (sub : Nat → List (List Nat)) (hs : ∀ n, (sub n).Pairwise (· < ·)) (hne : ∀ n, ∀ q ∈ sub n, q ≠ []) :
    ∀ (ns : List Nat) (i : Nat), (placesFrom sub i ns).Pairwise (· < ·)
  | [], i => by simp [placesFrom]
  | n :: ns, i => by
    simp only [placesFrom]
    rw [List.pairwise_append]
    refine ⟨?_, placesFrom_sorted sub hs hne ns (i + 1), ?_⟩
    · rw [List.pairwise_cons]
      refine ⟨?_, ?_⟩
      · intro p hp
        obtain ⟨q, hq, rfl⟩ := List.mem_map.1 hp
        have := hne n q hq
        cases q with
        | nil => exact absurd rfl this
        | cons x xs => exact List.cons_lt_cons_iff.2 (.inr ⟨rfl, List.nil_lt_cons _ _⟩)
      · rw [List.pairwise_map]
        exact (hs n).imp (fun hab => List.cons_lt_cons_iff.2 (.inr ⟨rfl, hab⟩))
    · intro a ha b hb
      rw [mem_placesFrom] at hb
      obtain ⟨j, q, rfl, _⟩ := hb
      simp only [List.mem_cons, List.mem_map] at ha
      rcases ha with rfl | ⟨q', _, rfl⟩
      · exact List.cons_lt_cons_iff.2 (.inl (by omega))
      · exact List.cons_lt_cons_iff.2 (.inl (by omega))

theorem placesOf_sorted (ch : Nat → List Nat) : ∀ (k : Nat) (f : List Nat), (placesOf ch k f).Pairwise (· < ·)
  | 0, f => by simp [placesOf]
  | k + 1, f => placesFrom_sorted _ (fun n => placesOf_sorted ch k (ch n)) (fun n => placesOf_ne_nil ch k (ch n)) f 0

theorem depthFirst_placesOf (ch : Nat → List Nat) (k : Nat) (f : List Nat) (hf : Fits ch k f) : DepthFirst ch f (placesOf ch k f) :=
  ⟨mem_placesOf ch k f hf, placesOf_sorted ch k f⟩

theorem printForest_lines (t : NodeTexts) (h : Heap) (k : Nat) (f : List Nat) (hf : Fits h.children k f) :
    (printSiblings (printSubNetwork t h k "") f.length 0 f).1 = (placesOf h.children k f).map (placeLine t h.children f) := by
  cases k with
  | zero =>
    have : f = [] := hf
    subst this
    simp [printSiblings, placesOf]
  | succ k =>
    have hall := (fits_iff h.children (k + 1) f).1 hf
    have := printSiblings_lines t h "" f (printSubNetwork t h (k + 1) "") (fun n => placesOf h.children k (h.children n))
      (fun b n hn => ⟨(printSub_done t h (k + 1) _ b n).2 (hall n hn), printSub_lines t h k _ b n (hall n hn)⟩)
      (fun n => placesOf_ne_nil _ _ _) f [] rfl
    simpa [placesOf] using this

theorem printForest_done (t : NodeTexts) (h : Heap) (k : Nat) (f : List Nat) :
    (printSiblings (printSubNetwork t h k "") f.length 0 f).2 = true ↔ Fits h.children k f := by
  rw [printSiblings_done, fits_iff]
  · simp only [printSub_done]
  · intro b n _
    rw [Bool.eq_iff_iff, printSub_done, printSub_done]

/-! ### C50: printed networks -/

theorem arcRoles_defined (n : Network) (h : Heap) (limit : Nat) :
    (∃ l, n.getArcRoles h limit = .ok l) ↔ Fits h.children limit n.roots := by
  rw [fits_paths, ← (C19_all_nodes_defined h limit n.roots).1]
  unfold Network.getArcRoles
  cases h.getAllNodes limit n.roots with
  | error e => constructor <;> rintro ⟨_, hl⟩ <;> cases hl
  | ok r => exact ⟨fun _ => ⟨r, rfl⟩, fun _ => ⟨_, rfl⟩⟩

theorem arcRoles_error (n : Network) (h : Heap) (limit : Nat) (hf : ¬ Fits h.children limit n.roots) :
    ∃ e, n.getArcRoles h limit = .error e := by
  cases hr : n.getArcRoles h limit with
  | error e => exact ⟨e, rfl⟩
  | ok l => exact absurd ((arcRoles_defined n h limit).1 ⟨l, hr⟩) hf

theorem pprintNetwork_fits (t : NodeTexts) (nt : NetworkTexts) (h : Heap) (limit : Nat) (n : Network) :
    (pprintNetwork t nt h limit (some n)).2 = true ↔ Fits h.children limit n.roots := by
  by_cases hf : Fits h.children limit n.roots
  · obtain ⟨l, hl⟩ := (arcRoles_defined n h limit).2 hf
    simp only [pprintNetwork, hl, printForest_done]
  · obtain ⟨e, he⟩ := arcRoles_error n h limit hf
    simp [pprintNetwork, he, hf]

/-- C50: whenever printing a network ends without an exception, it has printed two header lines, one line for every place of the
network, in depth-first order, and an empty line. The line of a place consists of the drawing determined by its position and the
positions of its ancestors among their siblings, and of the text of its node. -/
theorem C50_lines (t : NodeTexts) (nt : NetworkTexts) (h : Heap) (limit : Nat) (n : Network) (lines : List String)
    (hp : pprintNetwork t nt h limit (some n) = (lines, true)) :
    ∃ places roles, DepthFirst h.children n.roots places ∧ n.getArcRoles h limit = .ok roles ∧
      lines = ("Network (link role: " ++ n.linkRole ++ "), link name: " ++ nt.linkName) ::
        ("arc roles: " ++ nt.arcRoles roles ++ ", arc name: " ++ nt.arcName n.roots.head?) ::
        places.map (placeLine t h.children n.roots) ++ [""] := by
  have hd : (pprintNetwork t nt h limit (some n)).2 = true := by rw [hp]
  have hf := (pprintNetwork_fits t nt h limit n).1 hd
  obtain ⟨l, hl⟩ := (arcRoles_defined n h limit).2 hf
  refine ⟨placesOf h.children limit n.roots, l, depthFirst_placesOf _ _ _ hf, hl, ?_⟩
  have h1 : (pprintNetwork t nt h limit (some n)).1 = lines := by rw [hp]
  rw [← h1]
  have hdone := (printForest_done t h limit n.roots).2 hf
  simp only [pprintNetwork, hl, hdone, if_true, printForest_lines t h limit n.roots hf]

/-- C50: printing a single node prints the tree below it in the same way; printing `None` prints nothing. -/
theorem C50_node (t : NodeTexts) (h : Heap) (limit i : Nat) (lines : List String) (hp : pprintNode t h limit (some i) = (lines, true)) :
    (∃ places, DepthFirst h.children [i] places ∧ lines = places.map (placeLine t h.children [i])) ∧
    pprintNode t h limit none = ([], true) := by
  refine ⟨?_, rfl⟩
  have hd : (printSubNetwork t h limit "" true i).2 = true := by
    have : pprintNode t h limit (some i) = printSubNetwork t h limit "" true i := rfl
    rw [← this, hp]
  have hf := (printSub_done t h limit "" true i).1 hd
  refine ⟨placesOf h.children limit [i], depthFirst_placesOf _ _ _ hf, ?_⟩
  have := printForest_lines t h limit [i] hf
  simp only [printSiblings, List.length_singleton, Nat.zero_add, decide_true, hd, if_true, List.append_nil] at this
  rw [← this]
  have h2 : pprintNode t h limit (some i) = printSubNetwork t h limit "" true i := rfl
  rw [← h2, hp]

/-- C50: printing a network ends without an exception exactly when every path from a root has fewer edges than the recursion limit. -/
theorem C50_defined (t : NodeTexts) (nt : NetworkTexts) (h : Heap) (limit : Nat) (n : Network) :
    (pprintNetwork t nt h limit (some n)).2 = true ↔ ∀ root ∈ n.roots, ∀ b m, Path h.children root b m → m < limit := by
  rw [pprintNetwork_fits, fits_paths]

/-- C50: a network that contains a cycle cannot be printed, whatever the recursion limit; nothing but the first header line comes out. -/
theorem C50_cycle_false (t : NodeTexts) (nt : NetworkTexts) (h : Heap) (limit : Nat) (n : Network) (i x k : Nat) (hi : i ∈ n.roots)
    (hx : Reachable h.children i x) (hcyc : Path h.children x x (k + 1)) :
    ∃ head1, pprintNetwork t nt h limit (some n) = ([head1], false) := by
  have := C19_cycle_raises h limit n.roots i x k hi hx hcyc
  refine ⟨"Network (link role: " ++ n.linkRole ++ "), link name: " ++ nt.linkName, ?_⟩
  simp only [pprintNetwork, Network.getArcRoles, this, bind, Except.bind]

theorem nodeAt_prefix (ch : Nat → List Nat) (i : Nat) : ∀ (p f : List Nat), p ≠ [] → (nodeAt ch f (p ++ [i])).isSome →
    (nodeAt ch f p).isSome
  | [], f, hp, _ => absurd rfl hp
  | [x], f, _, hs => by
    rw [List.cons_append, nodeAt_cons ch f x _ (by simp)] at hs
    cases hn : f[x]? with
    | none => rw [hn] at hs; simp at hs
    | some n => simp [nodeAt, hn]
  | x :: y :: p, f, _, hs => by
    rw [List.cons_append, nodeAt_cons ch f x _ (by simp)] at hs
    rw [nodeAt_cons ch f x _ (by simp)]
    cases hn : f[x]? with
    | none => rw [hn] at hs; simp at hs
    | some n =>
      rw [hn] at hs
      exact nodeAt_prefix ch i (y :: p) (ch n) (by simp) hs

theorem between_prefix (i : Nat) : ∀ (p q : List Nat), p < q → q < p ++ [i] → p.length < q.length
  | [], q, h1, _ => by
    cases q with
    | nil => exact absurd h1 (by simp)
    | cons y q => simp
  | x :: p, q, h1, h2 => by
    cases q with
    | nil => exact absurd h1 (by simp)
    | cons y q =>
      rw [List.cons_lt_cons_iff] at h1
      rw [List.cons_append, List.cons_lt_cons_iff] at h2
      rcases h1 with h1 | ⟨rfl, h1⟩
      · rcases h2 with h2 | ⟨rfl, _⟩ <;> omega
      · rcases h2 with h2 | ⟨_, h2⟩
        · omega
        · have := between_prefix i p q h1 h2
          simp only [List.length_cons]; omega

theorem lt_snoc (i : Nat) : ∀ p : List Nat, p < p ++ [i]
  | [] => List.nil_lt_cons _ _
  | x :: p => List.cons_lt_cons_iff.2 (.inr ⟨rfl, lt_snoc i p⟩)

theorem drawing_length : ∀ l : List Bool, (drawing l).length = 3 * l.length
  | [] => rfl
  | [b] => by cases b <;> rfl
  | b :: c :: l => by
    rw [drawing_cons b (c :: l) (by simp), String.length_append, drawing_length (c :: l)]
    cases b <;> simp only [List.length_cons, if_true, Bool.false_eq_true, if_false]
    · show 3 + _ = _; omega
    · show 3 + _ = _; omega

theorem lastFlags_length (ch : Nat → List Nat) : ∀ (p f : List Nat), (lastFlags ch f p).length = p.length
  | [], f => rfl
  | i :: p, f => by simp [lastFlags, lastFlags_length ch p]

/-- C50: every node is drawn three columns further to the right than its parent, and its parent is the nearest line above it that is
drawn further to the left. -/
theorem C50_parent (ch : Nat → List Nat) (forest : List Nat) (places : List (List Nat)) (hd : DepthFirst ch forest places)
    (p : List Nat) (hp : p ≠ []) (i k : Nat) (hk : places[k]? = some (p ++ [i])) :
    ∃ j, j < k ∧ places[j]? = some p ∧
      (drawing (lastFlags ch forest (p ++ [i]))).length = (drawing (lastFlags ch forest p)).length + 3 ∧
      ∀ m q, j < m → m < k → places[m]? = some q →
        (drawing (lastFlags ch forest (p ++ [i]))).length ≤ (drawing (lastFlags ch forest q)).length := by
  have hmem : p ++ [i] ∈ places := List.mem_of_getElem? hk
  have hpm : p ∈ places := (hd.complete p).2 (nodeAt_prefix ch i p forest hp ((hd.complete _).1 hmem))
  obtain ⟨j, hj, hjp⟩ := List.getElem_of_mem hpm
  obtain ⟨hk1, hk2⟩ := List.getElem?_eq_some_iff.1 hk
  have hord := List.pairwise_iff_getElem.1 hd.ordered
  refine ⟨j, ?_, by rw [List.getElem?_eq_getElem hj, hjp], ?_, ?_⟩
  · rcases Nat.lt_trichotomy j k with hlt | heq | hgt
    · exact hlt
    · subst heq
      rw [hjp] at hk2
      have := congrArg List.length hk2
      simp at this
    · have h1 := hord k j hk1 hj hgt
      rw [hk2, hjp] at h1
      exact absurd (List.lt_trans h1 (lt_snoc i p)) (List.lt_irrefl _)
  · simp only [drawing_length, lastFlags_length, List.length_append, List.length_singleton]; omega
  · intro m q hm1 hm2 hq
    obtain ⟨hml, hmq⟩ := List.getElem?_eq_some_iff.1 hq
    have h1 := hord j m hj hml hm1
    have h2 := hord m k hml hk1 hm2
    rw [hjp, hmq] at h1
    rw [hmq, hk2] at h2
    have := between_prefix i p q h1 h2
    simp only [drawing_length, lastFlags_length, List.length_append, List.length_singleton]; omega

/-! ### C94: the texts of the lines -/

theorem tag_inj {a b : ElementClass} {x y : String} (h : a.tag ++ " " ++ x = b.tag ++ " " ++ y) : a = b ∧ x = y := by
  have h' := congrArg String.toList h
  simp only [String.toList_append] at h'
  cases a <;> cases b <;> simp [ElementClass.tag] at h' <;> exact ⟨rfl, String.toList_injective h'⟩

/-- C94: two nodes without weights that point to report elements print the same text only if the elements are of the same class and
have the same name. -/
theorem C94_elements (t : NodeTexts) (i j : Nat) (a b : ElementClass) (x y : String) (hi : t.shown i = .element a x)
    (hj : t.shown j = .element b y) (hw : t.weight i = none) (hv : t.weight j = none) :
    t.text i = t.text j ↔ a = b ∧ x = y := by
  simp only [NodeTexts.text, hi, hj, hw, hv, weightText, Shown.text, String.empty_append]
  constructor
  · exact tag_inj
  · rintro ⟨rfl, rfl⟩; rfl

/-- C94: nothing is printed about a fact: nodes that point to facts have empty texts. -/
theorem C94_fact_false (t : NodeTexts) (i : Nat) (hi : t.shown i = .fact) (hw : t.weight i = none) : t.text i = "" := by
  simp [NodeTexts.text, hi, hw, weightText, Shown.text]

theorem spaces_length (n : Nat) : (spaces n).length = n := by
  simp [spaces]

theorem printPadding_eq : printPadding = 12 := by decide +kernel

/-- C94: weights are printed in a column of their own: whatever follows starts at the twelfth character, if the weight is written with
at most seven characters. -/
theorem C94_weight (w : String) (hw : w.length ≤ 7) : (weightText (some w)).length = 12 := by
  have h1 : ("[W=" : String).length = 3 := by decide +kernel
  have h2 : ("] " : String).length = 2 := by decide +kernel
  simp only [weightText, String.length_append, spaces_length, width4, printPadding_eq, h1, h2]
  omega

/-- C94: longer weights shift what follows, so that the columns are not aligned. -/
theorem C94_weight_false (w : String) (hw : 7 < w.length) : 12 < (weightText (some w)).length := by
  have h1 : ("[W=" : String).length = 3 := by decide +kernel
  have h2 : ("] " : String).length = 2 := by decide +kernel
  simp only [weightText, String.length_append, spaces_length, width4, printPadding_eq, h1, h2]
  omega

/-! ### C95: printed facts -/

theorem mem_addAspect_names (s : List Aspect) (a : Aspect) (x : String) :
    x ∈ (addAspect s a).map (fun b => b.name) ↔ x ∈ s.map (fun b => b.name) ∨ x = a.name := by
  unfold addAspect
  by_cases h : s.any (fun b => b.eq a) = true
  · rw [if_pos h]
    constructor
    · exact .inl
    · rintro (hx | rfl)
      · exact hx
      · obtain ⟨b, hb, he⟩ := List.any_eq_true.1 h
        simp only [Aspect.eq, decide_eq_true_eq] at he
        exact List.mem_map.2 ⟨b, hb, he⟩
  · rw [if_neg h]; simp

theorem nodup_addAspect_names (s : List Aspect) (a : Aspect) (hs : (s.map (fun b => b.name)).Nodup) :
    ((addAspect s a).map (fun b => b.name)).Nodup := by
  unfold addAspect
  by_cases h : s.any (fun b => b.eq a) = true
  · rw [if_pos h]; exact hs
  · rw [if_neg h, List.map_append, List.nodup_append]
    refine ⟨hs, by simp, ?_⟩
    intro x hx y hy
    simp only [List.map_cons, List.map_nil, List.mem_singleton] at hy
    subst hy
    intro he
    obtain ⟨b, hb, hn⟩ := List.mem_map.1 hx
    exact h (List.any_eq_true.2 ⟨b, hb, by simp [Aspect.eq, hn, he]⟩)

theorem foldl_addAspect (l : List Aspect) : ∀ s : List Aspect, (s.map (fun b => b.name)).Nodup →
    ((l.foldl addAspect s).map (fun b => b.name)).Nodup ∧
    ∀ x, x ∈ (l.foldl addAspect s).map (fun b => b.name) ↔ x ∈ s.map (fun b => b.name) ∨ ∃ a ∈ l, a.name = x := by
  induction l with
  | nil => intro s hs; exact ⟨hs, by simp⟩
  | cons a l ih =>
    intro s hs
    obtain ⟨h1, h2⟩ := ih (addAspect s a) (nodup_addAspect_names s a hs)
    refine ⟨h1, fun x => ?_⟩
    simp only [List.foldl_cons]
    rw [h2, mem_addAspect_names]
    constructor
    · rintro ((hx | rfl) | ⟨b, hb, rfl⟩)
      · exact .inl hx
      · exact .inr ⟨a, by simp, rfl⟩
      · exact .inr ⟨b, by simp [hb], rfl⟩
    · rintro (hx | ⟨b, hb, rfl⟩)
      · exact .inl (.inl hx)
      · rcases List.mem_cons.1 hb with rfl | hb
        · exact .inl (.inr rfl)
        · exact .inr ⟨b, hb, rfl⟩

theorem collectAspects_spec (facts : List Fact) :
    ((collectAspects facts).map (fun b => b.name)).Nodup ∧
    ∀ x, x ∈ (collectAspects facts).map (fun b => b.name) ↔ ∃ f ∈ facts, ∃ a ∈ f.context.getAspects, a.name = x := by
  obtain ⟨h1, h2⟩ := foldl_addAspect (facts.flatMap (fun f => f.context.getAspects)) [] (by simp)
  refine ⟨h1, fun x => ?_⟩
  unfold collectAspects
  rw [h2]
  simp only [List.map_nil, List.not_mem_nil, false_or, List.mem_flatMap]
  constructor
  · rintro ⟨a, ⟨f, hf, ha⟩, rfl⟩; exact ⟨f, hf, a, ha, rfl⟩
  · rintro ⟨f, hf, a, ha, rfl⟩; exact ⟨a, ⟨f, hf, ha⟩, rfl⟩

/-- The digit a column key starts with. -/
theorem aspectSortKey_eq (a : Aspect) : aspectSortKey a =
    if columnRank a.name = 0 then "1" else if columnRank a.name = 1 then "2" else if columnRank a.name = 2 then "3"
    else if columnRank a.name = 3 then "4" else "5" ++ a.name := by
  unfold aspectSortKey columnRank
  simp only [Aspect.eq, Aspect.concept, Aspect.period, Aspect.entity, Aspect.unit, decide_eq_true_eq]
  by_cases h1 : a.name = "concept"
  · simp [h1]
  · by_cases h2 : a.name = "period"
    · simp [h2]
    · by_cases h3 : a.name = "entity"
      · simp [h3]
      · by_cases h4 : a.name = "unit"
        · simp [h4]
        · simp [h1, h2, h3, h4]

theorem columnRank_le (n : String) : columnRank n ≤ 4 := by
  unfold columnRank; split <;> (try omega); split <;> (try omega); split <;> (try omega); split <;> omega

theorem columnRank_inj {a b : String} (h : columnRank a = columnRank b) (h4 : columnRank a ≠ 4) : a = b := by
  unfold columnRank at h h4
  split at h <;> rename_i ha
  · subst ha; split at h <;> rename_i hb
    · exact hb.symm
    · split at h <;> (try omega); split at h <;> (try omega); split at h <;> omega
  · rw [if_neg ha] at h4
    split at h <;> rename_i ha2
    · subst ha2; split at h <;> rename_i hb
      · omega
      · split at h <;> rename_i hb2
        · exact hb2.symm
        · split at h <;> (try omega); split at h <;> omega
    · rw [if_neg ha2] at h4
      split at h <;> rename_i ha3
      · subst ha3; split at h <;> rename_i hb
        · omega
        · split at h <;> rename_i hb2
          · omega
          · split at h <;> rename_i hb3
            · exact hb3.symm
            · split at h <;> omega
      · rw [if_neg ha3] at h4
        split at h <;> rename_i ha4
        · subst ha4; split at h <;> rename_i hb
          · omega
          · split at h <;> rename_i hb2
            · omega
            · split at h <;> rename_i hb3
              · omega
              · split at h <;> rename_i hb4
                · exact hb4.symm
                · omega
        · rw [if_neg ha4] at h4; omega

theorem string_le_iff (a b : String) : a ≤ b ↔ a.toList ≤ b.toList := Iff.rfl

theorem five_append_le (a b : String) : ("5" ++ a ≤ "5" ++ b) ↔ a ≤ b := by
  simp only [string_le_iff, String.toList_append]
  show ('5' :: a.toList ≤ '5' :: b.toList) ↔ _
  rw [List.cons_le_cons_iff]
  simp

theorem digit_le_five (b : String) : ∀ d ∈ ["1", "2", "3", "4"], d ≤ "5" ++ b ∧ ¬ ("5" ++ b ≤ d) := by
  have key : ∀ (c : Char), c < '5' → ('5' :: b.toList ≤ [c] → False) ∧ [c] ≤ '5' :: b.toList := by
    intro c hc
    constructor
    · intro h
      rw [List.cons_le_cons_iff] at h
      rcases h with h | ⟨h, _⟩
      · exact absurd (Char.lt_trans hc h) (Char.lt_irrefl _)
      · subst h; exact Char.lt_irrefl _ hc
    · rw [List.cons_le_cons_iff]; exact .inl hc
  intro d hd
  simp only [List.mem_cons, List.not_mem_nil, or_false] at hd
  simp only [string_le_iff, String.toList_append]
  rcases hd with rfl | rfl | rfl | rfl
  · exact ⟨(key '1' (by decide)).2, (key '1' (by decide)).1⟩
  · exact ⟨(key '2' (by decide)).2, (key '2' (by decide)).1⟩
  · exact ⟨(key '3' (by decide)).2, (key '3' (by decide)).1⟩
  · exact ⟨(key '4' (by decide)).2, (key '4' (by decide)).1⟩

theorem aspectSortKey_le (a b : Aspect) (hn : a.name ≠ b.name) : aspectSortKey a ≤ aspectSortKey b →
    columnRank a.name < columnRank b.name ∨ (columnRank a.name = columnRank b.name ∧ a.name < b.name) := by
  intro hle
  rw [aspectSortKey_eq, aspectSortKey_eq] at hle
  by_cases heq : columnRank a.name = columnRank b.name
  · right
    refine ⟨heq, ?_⟩
    by_cases h4 : columnRank a.name = 4
    · rw [← heq, h4] at hle
      simp only [show ((4:Nat) = 0) = False by decide, show ((4:Nat) = 1) = False by decide, show ((4:Nat) = 2) = False by decide, show ((4:Nat) = 3) = False by decide, if_false] at hle
      have hab := (five_append_le _ _).1 hle
      exact String.not_le.1 (fun hba => hn (String.le_antisymm hab hba))
    · exact absurd (columnRank_inj heq h4) hn
  · left
    rcases Nat.lt_or_gt_of_ne heq with h | h
    · exact h
    · exfalso
      have ha := columnRank_le a.name
      have hb : columnRank b.name < 4 := by omega
      generalize columnRank a.name = x at *
      generalize columnRank b.name = y at *
      have hx : x = 1 ∨ x = 2 ∨ x = 3 ∨ x = 4 := by omega
      have hy : y = 0 ∨ y = 1 ∨ y = 2 ∨ y = 3 := by omega
      rcases hx with rfl | rfl | rfl | rfl <;> rcases hy with rfl | rfl | rfl | rfl <;> first
        | omega
        | (simp only [show ((4:Nat) = 0) = False by decide, show ((4:Nat) = 1) = False by decide, show ((4:Nat) = 2) = False by decide,
            show ((4:Nat) = 3) = False by decide, show ((3:Nat) = 0) = False by decide, show ((3:Nat) = 1) = False by decide,
            show ((3:Nat) = 2) = False by decide, show ((2:Nat) = 0) = False by decide, show ((2:Nat) = 1) = False by decide,
            show ((1:Nat) = 0) = False by decide, if_false, if_true] at hle
           first
            | exact absurd hle (by decide +kernel)
            | exact (digit_le_five a.name _ (by simp)).2 hle)

/-- The columns and rows of the printed table. -/
theorem pprintFacts_ok (iter : List Aspect → List Aspect) (hiter : ∀ l, (iter l).Perm l) (facts : List Fact) :
    ∃ dims : List Aspect, (dims.map (fun d => d.name)).Pairwise
        (fun a b => columnRank a < columnRank b ∨ (columnRank a = columnRank b ∧ a < b)) ∧
      (∀ x, x ∈ dims.map (fun d => d.name) ↔ ∃ f ∈ facts, ∃ a ∈ f.context.getAspects, a.name = x) ∧
      pprintFacts iter facts = newPrintTable (["id"] ++ dims.map (fun d => d.name) ++ ["value"])
        (sortBy (fun a b => decide (rowKey a ≤ rowKey b)) (facts.map (fun f =>
          [PrintCell.id f.id] ++ dims.map (fun d => PrintCell.char (f.context.getCharacteristic d)) ++ [PrintCell.value f.value]))) := by
  refine ⟨sortBy (fun a b => decide (aspectSortKey a ≤ aspectSortKey b)) (iter (collectAspects facts)), ?_, ?_, rfl⟩
  · have hperm : (sortBy (fun a b => decide (aspectSortKey a ≤ aspectSortKey b)) (iter (collectAspects facts))).Perm (collectAspects facts) :=
      (sortBy_perm _).trans (hiter _)
    have hnd : ((sortBy (fun a b => decide (aspectSortKey a ≤ aspectSortKey b)) (iter (collectAspects facts))).map (fun d => d.name)).Nodup :=
      ((hperm.map _).nodup_iff).2 (collectAspects_spec facts).1
    have hs := sortBy_sorted (le := fun a b => decide (aspectSortKey a ≤ aspectSortKey b))
      (fun a b => by simp only [decide_eq_true_eq]; exact String.le_total _ _)
      (fun a b c => by simp only [decide_eq_true_eq]; exact String.le_trans) (iter (collectAspects facts))
    rw [List.pairwise_map]
    rw [List.Nodup, List.pairwise_map] at hnd
    refine (hs.and hnd).imp ?_
    rintro a b ⟨h1, h2⟩
    exact aspectSortKey_le a b h2 (by simpa using h1)
  · intro x
    rw [← (collectAspects_spec facts).2]
    exact (((sortBy_perm _).trans (hiter _)).map _).mem_iff

/-- C95: printing facts shows a table whose columns are the id, the aspects that occur in some fact, each once, and the value. The four
core aspects come first, the others follow in the order of their names. This does not depend on the order in which sets are iterated. -/
theorem C95_columns (iter : List Aspect → List Aspect) (hiter : ∀ l, (iter l).Perm l) (facts : List Fact) (tab : PrintTable)
    (h : pprintFacts iter facts = .ok tab) :
    ∃ names, tab.columns = "id" :: names ++ ["value"] ∧
      names.Pairwise (fun a b => columnRank a < columnRank b ∨ (columnRank a = columnRank b ∧ a < b)) ∧
      ∀ x, x ∈ names ↔ ∃ f ∈ facts, ∃ a ∈ f.context.getAspects, a.name = x := by
  obtain ⟨dims, h1, h2, h3⟩ := pprintFacts_ok iter hiter facts
  rw [h3] at h
  unfold newPrintTable at h
  split at h
  · cases h
    exact ⟨dims.map (fun d => d.name), rfl, h1, h2⟩
  · cases h

theorem sortBy_map {α β : Type} (f : α → β) (le : β → β → Bool) : ∀ l : List α,
    sortBy le (l.map f) = (sortBy (fun a b => le (f a) (f b)) l).map f
  | [] => rfl
  | x :: xs => by
    simp only [List.map_cons, sortBy, sortBy_map f le xs]
    generalize sortBy (fun a b => le (f a) (f b)) xs = ys
    induction ys with
    | nil => rfl
    | cons y ys ih =>
      simp only [List.map_cons, insertBy]
      by_cases h : le (f x) (f y) = true
      · simp [h]
      · simp [h, ih]

/-- C95: the table has one row per fact: its id, its characteristic for each of the aspects, and its value. The rows are sorted by id,
rows with equal ids stay in the order of the facts. -/
theorem C95_rows (iter : List Aspect → List Aspect) (hiter : ∀ l, (iter l).Perm l) (facts : List Fact) (tab : PrintTable)
    (h : pprintFacts iter facts = .ok tab) :
    ∃ (names : List String) (sorted : List Fact), tab.columns = "id" :: names ++ ["value"] ∧
      sorted.Perm facts ∧ sorted.Pairwise (fun a b => a.id.getD "" ≤ b.id.getD "") ∧
      (∀ k, sorted.filter (fun f => decide (f.id.getD "" = k)) = facts.filter (fun f => decide (f.id.getD "" = k))) ∧
      tab.rows = sorted.map (fun f => PrintCell.id f.id :: names.map (fun n => PrintCell.char (f.context.getCharacteristic { name := n }))
        ++ [PrintCell.value f.value]) := by
  obtain ⟨dims, h1, h2, h3⟩ := pprintFacts_ok iter hiter facts
  rw [h3] at h
  unfold newPrintTable at h
  split at h
  · cases h
    have hkey : ∀ f : Fact, rowKey ([PrintCell.id f.id] ++ dims.map (fun d => PrintCell.char (f.context.getCharacteristic d)) ++
        [PrintCell.value f.value]) = f.id.getD "" := by
      intro f; cases hf : f.id <;> rfl
    refine ⟨dims.map (fun d => d.name), sortBy (fun a b => decide (a.id.getD "" ≤ b.id.getD "")) facts, rfl, sortBy_perm _, ?_, ?_, ?_⟩
    · have := sortBy_sorted (le := fun (a b : Fact) => decide (a.id.getD "" ≤ b.id.getD ""))
        (fun a b => by simp only [decide_eq_true_eq]; exact String.le_total _ _)
        (fun a b c => by simp only [decide_eq_true_eq]; exact String.le_trans) facts
      exact this.imp (fun h => by simpa using h)
    · intro k
      apply sortBy_filter
      intro x _ y _ hx hy
      simp only [decide_eq_true_eq] at hx hy ⊢
      rw [hx, hy]; exact String.le_refl _
    · simp only
      rw [sortBy_map]
      simp only [hkey]
      apply List.map_congr_left
      intro f _
      simp only [List.map_map, List.cons_append, List.nil_append]
      rfl
  · cases h

/-- C95: facts can be printed exactly when no aspect is called `id` or `value`; otherwise `ValueError` is raised. -/
theorem C95_defined (iter : List Aspect → List Aspect) (hiter : ∀ l, (iter l).Perm l) (facts : List Fact) :
    ((∃ tab, pprintFacts iter facts = .ok tab) ↔ ∀ f ∈ facts, ∀ a ∈ f.context.getAspects, a.name ≠ "id" ∧ a.name ≠ "value") ∧
    ∀ e, pprintFacts iter facts = .error e → e = .valueError := by
  obtain ⟨dims, h1, h2, h3⟩ := pprintFacts_ok iter hiter facts
  have hnd : (dims.map (fun d => d.name)).Nodup := by
    refine h1.imp ?_
    rintro a b (h | ⟨_, h⟩) rfl
    · exact Nat.lt_irrefl _ h
    · exact String.lt_irrefl _ h
  rw [h3]
  have hcols : (["id"] ++ dims.map (fun d => d.name) ++ ["value"]).Nodup ↔
      ∀ f ∈ facts, ∀ a ∈ f.context.getAspects, a.name ≠ "id" ∧ a.name ≠ "value" := by
    constructor
    · intro h f hf a ha
      have hm := (h2 a.name).2 ⟨f, hf, a, ha, rfl⟩
      rw [List.nodup_append, List.nodup_append] at h
      refine ⟨?_, ?_⟩
      · intro he; exact h.1.2.2 "id" (by simp) a.name hm he.symm
      · intro he; exact h.2.2 a.name (by simp [List.mem_append, hm]) "value" (by simp) he
    · intro h
      rw [List.nodup_append, List.nodup_append]
      refine ⟨⟨by simp, hnd, ?_⟩, by simp, ?_⟩
      · intro a ha b hb he
        obtain ⟨f, hf, x, hx, hxn⟩ := (h2 b).1 hb
        simp only [List.mem_singleton] at ha
        exact (h f hf x hx).1 (by rw [hxn, ← he, ha])
      · intro a ha b hb he
        simp only [List.mem_singleton] at hb
        rcases List.mem_append.1 ha with ha | ha
        · simp only [List.mem_singleton] at ha
          rw [ha, hb] at he; exact absurd he (by decide)
        · obtain ⟨f, hf, x, hx, hxn⟩ := (h2 a).1 ha
          exact (h f hf x hx).2 (by rw [hxn, he, hb])
  unfold newPrintTable
  rw [← hcols]
  by_cases hc : (["id"] ++ dims.map (fun d => d.name) ++ ["value"]).Nodup
  · rw [if_pos hc]
    exact ⟨⟨fun _ => hc, fun _ => ⟨_, rfl⟩⟩, fun e he => by cases he⟩
  · rw [if_neg hc]
    exact ⟨⟨fun ⟨_, h⟩ => (by cases h), fun h => absurd h hc⟩, fun e he => by cases he; rfl⟩

/-- C95: printing one fact always succeeds. The table has one row for every aspect of its context, sorted by name, with the
characteristic, and a last row with the value. -/
theorem C95_fact (f : Fact) :
    ∃ aspects : List Aspect, aspects.Perm f.context.getAspects ∧ aspects.Pairwise (fun a b => a.name ≤ b.name) ∧
      pprintFact f = .ok { columns := ["aspect", "value"]
                           rows := aspects.map (fun a => [PrintCell.name a.name, PrintCell.char (f.context.getCharacteristic a)]) ++
                             [[PrintCell.name "value", PrintCell.value f.value]] } := by
  refine ⟨sortBy (fun a b => decide (a.name ≤ b.name)) f.context.getAspects, sortBy_perm _, ?_, ?_⟩
  · have := sortBy_sorted (le := fun (a b : Aspect) => decide (a.name ≤ b.name))
      (fun a b => by simp only [decide_eq_true_eq]; exact String.le_total _ _)
      (fun a b c => by simp only [decide_eq_true_eq]; exact String.le_trans) f.context.getAspects
    exact this.imp (fun h => by simpa using h)
  · unfold pprintFact newPrintTable
    rw [if_pos (by decide)]
    rw [sortBy_map]
    rfl

namespace PrintExample

/-- A root with two children, the first of which has a child; and a second root. -/
def heap : Heap :=
  [{ kind := .presentation, target := .element ⟨"", "", "a"⟩ false, arcRole := "r", order := 1, children := [1, 3] },
   { kind := .presentation, target := .element ⟨"", "", "b"⟩ false, arcRole := "r", order := 1, children := [2] },
   { kind := .presentation, target := .element ⟨"", "", "c"⟩ true, arcRole := "r", order := 1 },
   { kind := .presentation, target := .element ⟨"", "", "d"⟩ true, arcRole := "r", order := 2 }]

def texts : NodeTexts :=
  { shown := fun i => .element (if i < 2 then .abstract else .concept) (["a", "b", "c", "d"].getD i "")
    weight := fun _ => none }

def netTexts : NetworkTexts := { linkName := "link:presentationLink", arcRoles := fun l => l.headD "", arcName := fun _ => "arc" }

example : pprintNetwork texts netTexts heap 5 (some { roots := [0, 3], linkRole := "x", kind := .presentation, physical := true }) =
    (["Network (link role: x), link name: link:presentationLink", "arc roles: r, arc name: arc",
      "├──[ABSTRACT] a",
      "│  ├──[ABSTRACT] b",
      "│  │  └──[CONCEPT] c",
      "│  └──[CONCEPT] d",
      "└──[CONCEPT] d",
      ""], true) := by decide +kernel

/-- The hypotheses of the theorem about parents are met. -/
example : DepthFirst heap.children [0, 3] (placesOf heap.children 5 [0, 3]) ∧
    placesOf heap.children 5 [0, 3] = [[0], [0, 0], [0, 0, 0], [0, 1], [1]] := by
  refine ⟨depthFirst_placesOf _ _ _ ?_, by decide +kernel⟩
  rw [← printForest_done texts]
  decide +kernel

/-- A cyclic network. -/
def loop : Heap := [{ kind := .definition, target := .element ⟨"", "", "a"⟩ false, arcRole := "r", order := 1, children := [0] }]

example : Path loop.children 0 0 (0 + 1) := .step (by decide +kernel) (.refl _)

def axisChar : Characteristic := ⟨{ name := "a:Axis" }, .explicit ⟨"", "a", "Axis"⟩ ⟨"", "a", "M"⟩ [1]⟩
def ctxA : Context := (((Context.new "c").add (.ofEntity "e" "s")).add (.ofUnit "u" [] [])).add axisChar
def factA : Fact := { id := some "f2", value := "1", context := ctxA }
def factB : Fact := { id := some "f1", value := "2", context := (Context.new "d").add (.ofPeriod (.instant ⟨2020, 1, 1⟩)) }

example : (pprintFacts List.reverse [factA, factB]).map (fun t => (t.columns, t.rows.map (fun r => r.head?))) =
    .ok (["id", "period", "entity", "unit", "a:Axis", "value"], [some (.id (some "f1")), some (.id (some "f2"))]) := by
  decide +kernel

end PrintExample

end Brel
