import Verif.Spec.NetworkDict
import Verif.Spec.Network
import Verif.Lemmas.Link
import Verif.Props.Link
import Verif.Props.Network
/-!
# C113: what a node points to, and its dictionary
-/
namespace Brel
open Spec

/-- For a node that points to something its class is made for, `points_to` names what it is, the getter of that name returns it, and the two others raise ValueError. -/
theorem C113_getters {n : NetNode} (h : Fits n.kind n.target) :
    n.pointsTo = .ok (describe n.target) ∧
    n.getReportElement = (if describe n.target = "report element" then .ok n.target else .error .valueError) ∧
    n.getResource = (if describe n.target = "resource" then .ok n.target else .error .valueError) ∧
    n.getFact = (if describe n.target = "fact" then .ok n.target else .error .valueError) := by
  obtain ⟨k, t, a, o, w, p, l, c⟩ := n
  cases k <;> cases t <;> simp [Fits] at h <;> exact ⟨rfl, rfl, rfl, rfl⟩

theorem rel2_getElem {α β : Type} {R : α → β → Prop} {l : List α} {m : List β} (h : Rel2 R l m) (k : Nat) :
    (l[k]? = none ∧ m[k]? = none) ∨ ∃ a b, l[k]? = some a ∧ m[k]? = some b ∧ R a b := by
  induction h generalizing k with
  | nil => exact .inl ⟨by simp, by simp⟩
  | @cons a b l m h1 h2 ih =>
    cases k with
    | zero => exact .inr ⟨a, b, rfl, rfl, h1⟩
    | succ k => simpa using ih k

theorem rel2_length {α β : Type} {R : α → β → Prop} {l : List α} {m : List β} (h : Rel2 R l m) : l.length = m.length := by
  induction h with
  | nil => rfl
  | cons _ _ ih => simp [ih]

theorem nodeDict_ok {h : Heap} {names : Nat → NodeNames} {limit i : Nat} {d : NodeDict} (hd : h.nodeDict names (limit + 1) i = .ok d) :
    ∃ n p cs, h[i]? = some n ∧ n.pointsTo = .ok p ∧ n.children.mapM (h.nodeDict names limit) = .ok cs ∧
      d = .mk p n.arcRole (names i).arcName.prefixLocal (names i).linkRole (names i).linkName.prefixLocal (h.orderOf i) cs := by
  unfold Heap.nodeDict at hd
  cases hn : h[i]? with
  | none => rw [hn] at hd; cases hd
  | some n =>
    rw [hn] at hd
    simp only [bind, Except.bind, pure, Except.pure] at hd
    cases hp : n.pointsTo with
    | error e => rw [hp] at hd; cases hd
    | ok p =>
      rw [hp] at hd
      simp only at hd
      cases hc : n.children.mapM (h.nodeDict names limit) with
      | error e => rw [hc] at hd; cases hd
      | ok cs =>
        rw [hc] at hd
        injection hd with hd
        exact ⟨n, p, cs, rfl, hp, hc, hd.symm⟩

/-- Wherever one goes in a network and in its dictionary, one finds a node and the entries that say what it is, or nothing in both: nothing is lost, added or moved, and a node that can be reached in several ways is written in all these places. -/
theorem C113_mirrors {h : Heap} {names : Nat → NodeNames} (way : List Nat) : ∀ {limit i : Nat} {d : NodeDict}, h.nodeDict names limit i = .ok d →
    (walk h i way = none ∧ walkDict d way = none) ∨ ∃ j e, walk h i way = some j ∧ walkDict d way = some e ∧ Says h names j e := by
  induction way with
  | nil =>
    intro limit i d hd
    cases limit with
    | zero => simp [Heap.nodeDict] at hd
    | succ limit =>
      obtain ⟨n, p, cs, hn, hp, hc, e⟩ := nodeDict_ok hd
      refine .inr ⟨i, d, rfl, by subst e; rfl, ⟨n, p, cs, hn, hp, ?_, ?_⟩⟩
      · exact (rel2_length ((mapM_ok_iff _ _ _).1 hc)).symm
      · rw [e]; simp only [Heap.orderOf, hn, QName.prefixLocal]
  | cons k way ih =>
    intro limit i d hd
    cases limit with
    | zero => simp [Heap.nodeDict] at hd
    | succ limit =>
      obtain ⟨n, p, cs, hn, hp, hc, e⟩ := nodeDict_ok hd
      have hch : h.children i = n.children := by simp [Heap.children, hn]
      subst e
      simp only [walk, walkDict, hch]
      rcases rel2_getElem ((mapM_ok_iff _ _ _).1 hc) k with ⟨h1, h2⟩ | ⟨a, b, h1, h2, h3⟩
      · rw [h1, h2]; exact .inl ⟨rfl, rfl⟩
      · rw [h1, h2]; exact ih h3

theorem mapM_error {α β : Type} {f : α → Except PyErr β} {l : List α} {e : PyErr} (h : l.mapM f = .error e) : ∃ a ∈ l, f a = .error e := by
  induction l with
  | nil => cases h
  | cons a l ih =>
    rw [List.mapM_cons] at h
    simp only [bind, Except.bind, pure, Except.pure] at h
    cases ha : f a with
    | error e' => rw [ha] at h; injection h with h; subst h; exact ⟨a, by simp, ha⟩
    | ok b =>
      rw [ha] at h
      simp only at h
      cases hl : l.mapM f with
      | error e' =>
        rw [hl] at h; injection h with h; subst h
        obtain ⟨x, hx, hfx⟩ := ih hl
        exact ⟨x, List.mem_cons_of_mem _ hx, hfx⟩
      | ok bs => rw [hl] at h; cases h

/-- When all nodes below a node are there and point to something their classes are made for, the dictionary can be made exactly if every path down has fewer edges than the recursion limit; otherwise RecursionError is raised, as it is for every node above a cycle. -/
theorem C113_defined {h : Heap} {names : Nat → NodeNames} : ∀ (limit i : Nat), (∀ j, Reachable h.children i j → ∃ n, h[j]? = some n ∧ Fits n.kind n.target) →
    ((∃ d, h.nodeDict names limit i = .ok d) ↔ ∀ b n, Path h.children i b n → n < limit) ∧ (∀ e, h.nodeDict names limit i = .error e → e = .recursionError) := by
  intro limit
  induction limit with
  | zero =>
    intro i _
    refine ⟨⟨?_, ?_⟩, ?_⟩
    · rintro ⟨d, hd⟩; simp [Heap.nodeDict] at hd
    · intro hp; exact absurd (hp i 0 (.refl i)) (by omega)
    · intro e he; simp only [Heap.nodeDict, Except.error.injEq] at he; exact he.symm
  | succ limit ih =>
    intro i hall
    obtain ⟨n, hn, hfit⟩ := hall i ⟨0, .refl i⟩
    have hch : h.children i = n.children := by simp [Heap.children, hn]
    have hsub : ∀ c ∈ n.children, ∀ j, Reachable h.children c j → ∃ n, h[j]? = some n ∧ Fits n.kind n.target := by
      rintro c hc j ⟨k, hk⟩
      exact hall j ⟨k + 1, .step (by rw [hch]; exact hc) hk⟩
    have hpt := (C113_getters hfit).1
    have hdef : h.nodeDict names (limit + 1) i = (n.children.mapM (h.nodeDict names limit)).map (fun cs =>
        .mk (describe n.target) n.arcRole (names i).arcName.prefixLocal (names i).linkRole (names i).linkName.prefixLocal (h.orderOf i) cs) := by
      rw [Heap.nodeDict, hn]
      simp only [bind, Except.bind, pure, Except.pure, hpt]
      cases n.children.mapM (h.nodeDict names limit) <;> rfl
    refine ⟨⟨?_, ?_⟩, ?_⟩
    · rintro ⟨d, hd⟩ b k hp
      obtain ⟨n', p, cs, hn', -, hc, -⟩ := nodeDict_ok hd
      rw [hn] at hn'; injection hn' with hn'; subst hn'
      cases hp with
      | refl => omega
      | step hb hp =>
        rw [hch] at hb
        obtain ⟨d', -, hd'⟩ := Rel2.mem_left ((mapM_ok_iff _ _ _).1 hc) _ hb
        have := ((ih _ (hsub _ hb)).1.1 ⟨d', hd'⟩) b _ hp
        omega
    · intro hp
      have : ∃ cs, n.children.mapM (h.nodeDict names limit) = .ok cs := by
        refine mapM_succeeds _ _ fun c hc => ((ih c (hsub c hc)).1.2 ?_)
        intro b k hk
        have := hp b (k + 1) (.step (by rw [hch]; exact hc) hk)
        omega
      obtain ⟨cs, hcs⟩ := this
      rw [hdef, hcs]
      exact ⟨_, rfl⟩
    · intro e he
      rw [hdef] at he
      cases hm : n.children.mapM (h.nodeDict names limit) with
      | ok cs => rw [hm] at he; cases he
      | error e' =>
        rw [hm] at he
        injection he with he; subst he
        obtain ⟨c, hc, hce⟩ := mapM_error hm
        exact (ih c (hsub c hc)).2 _ hce

/-- The dictionary of a network has the dictionaries of its roots, in order, its link role, its link name and whether it is physical. -/
theorem C113_network {n : Network} {h : Heap} {names : Nat → NodeNames} {link : QName} {limit : Nat} {d : NetworkDict} (hd : n.dict h names link limit = .ok d) :
    d.linkRole = n.linkRole ∧ d.linkName = link.pfx ++ ":" ++ link.localName ∧ d.isPhysical = n.physical ∧
    Rel2 (fun i e => h.nodeDict names limit i = .ok e) n.roots d.roots := by
  unfold Network.dict at hd
  simp only [bind, Except.bind, pure, Except.pure] at hd
  cases hm : n.roots.mapM (h.nodeDict names limit) with
  | error e => rw [hm] at hd; cases hd
  | ok rs =>
    rw [hm] at hd
    injection hd with hd
    subst hd
    exact ⟨rfl, rfl, rfl, (mapM_ok_iff _ _ _).1 hm⟩

/-- A heap whose elements have got other names. -/
def renameElements (f : QName → QName) (h : Heap) : Heap :=
  h.map fun n => { n with target := match n.target with | .element q c => .element (f q) c | t => t }

/-- C113 fails: the dictionary does not say which report elements the nodes point to: whatever the elements are replaced with, the dictionaries of all nodes and networks stay the same. -/
theorem C113_elements_false (f : QName → QName) (h : Heap) (names : Nat → NodeNames) : ∀ (limit i : Nat), (renameElements f h).nodeDict names limit i = h.nodeDict names limit i := by
  intro limit
  induction limit with
  | zero => intro i; rfl
  | succ limit ih =>
    intro i
    have hfun : (renameElements f h).nodeDict names limit = h.nodeDict names limit := funext ih
    have hget : (renameElements f h)[i]? = (h[i]?).map fun n => { n with target := match n.target with | .element q c => .element (f q) c | t => t } := by
      simp [renameElements]
    rw [Heap.nodeDict, Heap.nodeDict, hfun, hget]
    cases hn : h[i]? with
    | none => rfl
    | some n =>
      have ho : (renameElements f h).orderOf i = h.orderOf i := by
        simp only [Heap.orderOf, hget, hn, Option.map_some]
      have hp : ({ n with target := match n.target with | .element q c => .element (f q) c | t => t } : NetNode).pointsTo = n.pointsTo := by
        obtain ⟨k, t, a, o, w, p, l, c⟩ := n
        cases k <;> cases t <;> rfl
      simp only [Option.map_some, hp, ho]

namespace DictExample

/-- A network of two elements under one root. -/
def heap : Heap := [⟨.presentation, .element ⟨"u", "p", "A"⟩ true, "r", 1, 0, none, "", [1, 2]⟩, ⟨.presentation, .element ⟨"u", "p", "B"⟩ true, "r", 1, 0, none, "", []⟩,
  ⟨.presentation, .element ⟨"u", "p", "C"⟩ true, "r", 2, 0, none, "", []⟩]

def names : Nat → NodeNames := fun _ => ⟨⟨"l", "link", "presentationArc"⟩, "role", ⟨"l", "link", "presentationLink"⟩⟩

/-- The dictionary is made, and its second child is where the second child is. -/
example : (match heap.nodeDict names 10 0 with | .ok d => (walkDict d [1]).map (fun | .mk p _ a _ _ o cs => (p, a, o, cs.length)) | .error _ => none) =
    some ("report element", "link:presentationArc", 2, 0) ∧ walk heap 0 [1] = some 2 ∧ Fits .presentation (.element ⟨"u", "p", "A"⟩ true) := by
  refine ⟨by decide +kernel, by decide +kernel, trivial⟩

end DictExample
end Brel
