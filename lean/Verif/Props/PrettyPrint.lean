import Verif.Spec.PrettyPrint
import Verif.Props.Printing
import Verif.Props.Rearranged
import Verif.Props.FilingTables
import Verif.Props.LinkValid
import Verif.Props.OpenExample

/-! C131: printing any object. -/

namespace Brel
open Spec

variable {env : PrintEnv}

theorem componentNetworks_eq (c : ComponentOf Network) : componentNetworks c = printedKinds.filterMap c.ofKind := by
  unfold componentNetworks printedKinds
  cases h1 : c.presentation <;> cases h2 : c.calculation <;> cases h3 : c.definition <;> simp [ComponentOf.ofKind, h1, h2, h3]

theorem printNetworks_lines (ns : List Network) (lines : List String) (h : printNetworks env ns = (lines, true)) :
    ∃ parts, Rel2 (NetworkLines env) ns parts ∧ lines = parts.flatMap (· ++ [""]) := by
  induction ns generalizing lines with
  | nil => cases h; exact ⟨[], .nil, rfl⟩
  | cons n ns ih =>
    unfold printNetworks at h
    dsimp only at h
    cases hr : pprintNetwork env.nodes (env.network n) env.heap env.limit (some n) with
    | mk l b =>
      rw [hr] at h
      cases b with
      | false => cases h
      | true =>
        simp only [if_true] at h
        cases hs : printNetworks env ns with
        | mk l' b' =>
          rw [hs] at h
          cases h
          obtain ⟨parts, h1, h2⟩ := ih l' hs
          exact ⟨l :: parts, .cons (C50_lines _ _ _ _ _ _ hr) h1, by rw [List.flatMap_cons, h2]⟩

theorem printNetworks_defined (ns : List Network) :
    (printNetworks env ns).2 = true ↔ ∀ n ∈ ns, ∀ root ∈ n.roots, ∀ b m, Path env.heap.children root b m → m < env.limit := by
  induction ns with
  | nil => simp [printNetworks]
  | cons n ns ih =>
    unfold printNetworks
    dsimp only
    have hd := C50_defined env.nodes (env.network n) env.heap env.limit n
    cases hr : (pprintNetwork env.nodes (env.network n) env.heap env.limit (some n)).2 with
    | false =>
      rw [hr] at hd
      rw [if_neg (by simp), hr]
      constructor
      · intro h; cases h
      · intro h
        exact absurd (hd.2 (h n List.mem_cons_self)) (by simp)
    | true =>
      rw [hr] at hd
      rw [if_pos rfl, ih, List.forall_mem_cons]
      exact ⟨fun h => ⟨hd.1 rfl, h⟩, fun h => h.2⟩

/-- C131: a component is printed with its URI, its description and all its networks, in the order presentation, calculation, definition; a component without networks with a note. -/
theorem C131_component {c : ComponentOf Network} {lines : List String} (h : pprintComponent env c = (lines, true)) : ComponentLines env c lines := by
  unfold pprintComponent at h
  dsimp only at h
  cases hr : printNetworks env (componentNetworks c) with
  | mk l b =>
    rw [hr] at h
    cases b with
    | false => cases h
    | true =>
      rw [if_pos rfl] at h
      cases h
      obtain ⟨parts, h1, h2⟩ := printNetworks_lines _ _ hr
      rw [componentNetworks_eq] at h1
      refine ⟨parts, h1, ?_⟩
      have hi : ((componentNetworks c).length = 0) = (∀ k ∈ printedKinds, c.ofKind k = none) := by
        rw [componentNetworks_eq, List.length_eq_zero_iff, List.filterMap_eq_nil_iff]
      simp only [hi, h2]

/-- C131: printing a component succeeds exactly if its networks are less deep than the recursion limit. Otherwise its URI and its description have been printed before the exception. -/
theorem C131_component_defined (c : ComponentOf Network) : ((pprintComponent env c).2 = true ↔ ComponentFits env c) ∧
    ∃ rest, (pprintComponent env c).1 = ("[bold]Component:[/bold] " ++ c.uri) :: ("[italic]Info:[/italic] " ++ c.info) :: rest := by
  have hd := printNetworks_defined (env := env) (componentNetworks c)
  have he : (∀ n ∈ componentNetworks c, ∀ root ∈ n.roots, ∀ b m, Path env.heap.children root b m → m < env.limit) ↔ ComponentFits env c := by
    rw [componentNetworks_eq]
    constructor
    · intro h k hk n hn
      exact h n (List.mem_filterMap.2 ⟨k, hk, hn⟩)
    · intro h n hn
      obtain ⟨k, hk, hn⟩ := List.mem_filterMap.1 hn
      exact h k hk n hn
  rw [he] at hd
  unfold pprintComponent
  dsimp only
  cases hr : (printNetworks env (componentNetworks c)).2 with
  | false => rw [hr] at hd; exact ⟨hd, _, rfl⟩
  | true => rw [hr] at hd; exact ⟨hd, _, rfl⟩

/-- C131: a list of components is printed one after the other, if all of them can be printed. -/
theorem C131_components {cs : List (ComponentOf Network)} (hne : cs ≠ []) (h : ∀ c ∈ cs, ComponentFits env c) :
    ∃ parts, Rel2 (ComponentLines env) cs parts ∧ pprint env (.list (cs.map .component)) = (parts.flatten.map .line, none) := by
  have key : ∀ cs : List (ComponentOf Network), (∀ c ∈ cs, ComponentFits env c) →
      ∃ parts, Rel2 (ComponentLines env) cs parts ∧ printComponents env (cs.map .component) = (parts.flatten.map .line, none) := by
    intro cs
    induction cs with
    | nil => intro _; exact ⟨[], .nil, rfl⟩
    | cons c cs ih =>
      intro h
      obtain ⟨parts, h1, h2⟩ := ih (fun c hc => h c (List.mem_cons_of_mem _ hc))
      have hd := (C131_component_defined c).1.2 (h c List.mem_cons_self)
      cases hr : pprintComponent env c with
      | mk l b =>
        rw [hr] at hd
        cases hd
        refine ⟨l :: parts, .cons (C131_component hr) h1, ?_⟩
        rw [List.map_cons, printComponents, hr, h2]
        simp [Printed.output]
  obtain ⟨parts, h1, h2⟩ := key cs h
  cases cs with
  | nil => exact absurd rfl hne
  | cons c cs => exact ⟨parts, h1, h2⟩

/-- C131: the first object that is no component ends printing; what comes before it has been printed. -/
theorem C131_interrupted {cs : List (ComponentOf Network)} {x : Printable} {xs : List Printable} (hne : cs ≠ []) (h : ∀ c ∈ cs, ComponentFits env c) (hx : ∀ c, x ≠ .component c) :
    ∃ parts, Rel2 (ComponentLines env) cs parts ∧ pprint env (.list (cs.map .component ++ x :: xs)) = (parts.flatten.map .line, some .attributeError) := by
  have key : ∀ cs : List (ComponentOf Network), (∀ c ∈ cs, ComponentFits env c) →
      ∃ parts, Rel2 (ComponentLines env) cs parts ∧ printComponents env (cs.map .component ++ x :: xs) = (parts.flatten.map .line, some .attributeError) := by
    intro cs
    induction cs with
    | nil =>
      intro _
      refine ⟨[], .nil, ?_⟩
      cases x <;> first | rfl | exact absurd rfl (hx _)
    | cons c cs ih =>
      intro h
      obtain ⟨parts, h1, h2⟩ := ih (fun c hc => h c (List.mem_cons_of_mem _ hc))
      have hd := (C131_component_defined c).1.2 (h c List.mem_cons_self)
      cases hr : pprintComponent env c with
      | mk l b =>
        rw [hr] at hd
        cases hd
        refine ⟨l :: parts, .cons (C131_component hr) h1, ?_⟩
        rw [List.map_cons, List.cons_append, printComponents, hr, h2]
        simp [Printed.output]
  obtain ⟨parts, h1, h2⟩ := key cs h
  cases cs with
  | nil => exact absurd rfl hne
  | cons c cs => exact ⟨parts, h1, h2⟩

/-- C131: a list of facts is printed as the table of these facts, the empty list as an empty table. A list that starts with a fact and contains something else is not printed. -/
theorem C131_facts (fs : List Fact) : pprint env (.list (fs.map .fact)) = tableOutput (pprintFacts env.iter fs) ∧
    ∀ x xs, fs ≠ [] → (∀ f, x ≠ .fact f) → pprint env (.list (fs.map .fact ++ x :: xs)) = ([], some .attributeError) := by
  have key : ∀ fs : List Fact, factsOf (fs.map .fact) = .ok fs := by
    intro fs
    induction fs with
    | nil => rfl
    | cons f fs ih => rw [List.map_cons, factsOf, ih]; rfl
  have bad : ∀ (x : Printable) (xs : List Printable), (∀ f, x ≠ .fact f) → ∀ fs : List Fact, factsOf (fs.map .fact ++ x :: xs) = .error .attributeError := by
    intro x xs hx fs
    induction fs with
    | nil => cases x <;> first | rfl | exact absurd rfl (hx _)
    | cons f fs ih => rw [List.map_cons, List.cons_append, factsOf, ih]; rfl
  constructor
  · cases fs with
    | nil => rfl
    | cons f fs =>
      show (match factsOf (.fact f :: fs.map .fact) with | .ok fs => _ | .error e => _) = _
      rw [show (Printable.fact f :: fs.map .fact) = (f :: fs).map .fact from rfl, key]
  · intro x xs hne hx
    cases fs with
    | nil => exact absurd rfl hne
    | cons f fs =>
      show (match factsOf (.fact f :: (fs.map .fact ++ x :: xs)) with | .ok fs => _ | .error e => _) = _
      rw [show (Printable.fact f :: (fs.map .fact ++ x :: xs)) = (f :: fs).map .fact ++ x :: xs from rfl, bad x xs hx]

/-- C131 fails for objects that are not supported: the documentation promises a `ValueError`; it is a `TypeError`. Nothing is printed. -/
theorem C131_unsupported_false {x : Printable} (h : Unsupported x) : pprint env x = ([], some .typeError) ∧ pprint env x ≠ ([], some .valueError) := by
  have : pprint env x = ([], some .typeError) := by
    cases h with
    | other => rfl
    | @list x xs h1 h2 =>
      cases x with
      | fact f => exact absurd rfl (h1 f)
      | component c => exact absurd rfl (h2 c)
      | _ => rfl
  exact ⟨this, by rw [this]; simp⟩

/-! ## Components of an opened filing -/

/-- C131: a single component, network or node is printed with all its lines if it is less deep than the limit, and else printing ends in a `RecursionError`. -/
theorem C131_single (c : ComponentOf Network) (n : Network) (i : Nat) :
    (ComponentFits env c → ∃ lines, ComponentLines env c lines ∧ pprint env (.component c) = (lines.map .line, none)) ∧
    (¬ ComponentFits env c → (pprint env (.component c)).2 = some .recursionError) ∧
    ((∀ root ∈ n.roots, ∀ b m, Path env.heap.children root b m → m < env.limit) → ∃ lines, NetworkLines env n lines ∧ pprint env (.network n) = (lines.map .line, none)) ∧
    ((∃ root ∈ n.roots, ∃ b m, Path env.heap.children root b m ∧ env.limit ≤ m) → (pprint env (.network n)).2 = some .recursionError) ∧
    ((pprint env (.node i)).2 = none → ∃ places, DepthFirst env.heap.children [i] places ∧ (pprint env (.node i)).1 = places.map (fun p => .line (placeLine env.nodes env.heap.children [i] p))) := by
  have hd := C131_component_defined (env := env) c
  have hnd := C50_defined env.nodes (env.network n) env.heap env.limit n
  refine ⟨fun hf => ?_, fun hf => ?_, fun hf => ?_, ?_, fun hi => ?_⟩
  · have h2 := hd.1.2 hf
    exact ⟨(pprintComponent env c).1, C131_component (Prod.ext rfl h2), by show Printed.output _ = _; unfold Printed.output; rw [h2]; rfl⟩
  · have h2 : (pprintComponent env c).2 = false := Bool.eq_false_iff.2 fun h => hf (hd.1.1 h)
    show (Printed.output _).2 = _
    unfold Printed.output
    rw [h2]
    rfl
  · have h2 := hnd.2 hf
    exact ⟨_, C50_lines env.nodes (env.network n) env.heap env.limit n _ (Prod.ext rfl h2), by show Printed.output _ = _; unfold Printed.output; rw [h2]; rfl⟩
  · rintro ⟨root, hr, b, m, hp, hm⟩
    have h2 : (pprintNetwork env.nodes (env.network n) env.heap env.limit (some n)).2 = false := Bool.eq_false_iff.2 fun h => Nat.not_lt.2 hm (hnd.1 h root hr b m hp)
    show (Printed.output _).2 = _
    unfold Printed.output
    rw [h2]
    rfl
  · have h2 : (pprintNode env.nodes env.heap env.limit (some i)).2 = true := by
      have : (Printed.output (pprintNode env.nodes env.heap env.limit (some i))).2 = none := hi
      unfold Printed.output at this
      cases hb : (pprintNode env.nodes env.heap env.limit (some i)).2 with
      | true => rfl
      | false => rw [hb] at this; cases this
    obtain ⟨places, h3, h4⟩ := (C50_node env.nodes env.heap env.limit i _ (Prod.ext rfl h2)).1
    refine ⟨places, h3, ?_⟩
    show (pprintNode env.nodes env.heap env.limit (some i)).1.map PrintOut.line = _
    refine (congrArg (List.map PrintOut.line) h4).trans ?_
    rw [List.map_map]
    rfl

/-- C131: a component that is too deep ends the printing of a list; what comes before it is printed, and nothing that comes after it. -/
theorem C131_deep {cs : List (ComponentOf Network)} {c : ComponentOf Network} (h : ∀ d ∈ cs, ComponentFits env d) (hc : ¬ ComponentFits env c) :
    ∃ parts rest, Rel2 (ComponentLines env) cs parts ∧ ∀ xs, pprint env (.list (cs.map .component ++ .component c :: xs)) =
      ((parts.flatten ++ ("[bold]Component:[/bold] " ++ c.uri) :: ("[italic]Info:[/italic] " ++ c.info) :: rest).map .line, some .recursionError) := by
  obtain ⟨hd, rest, hrest⟩ := C131_component_defined (env := env) c
  have h2 : (pprintComponent env c).2 = false := Bool.eq_false_iff.2 fun h => hc (hd.1 h)
  have key : ∀ cs : List (ComponentOf Network), (∀ d ∈ cs, ComponentFits env d) → ∃ parts, Rel2 (ComponentLines env) cs parts ∧ ∀ xs,
      printComponents env (cs.map .component ++ .component c :: xs) =
        ((parts.flatten ++ ("[bold]Component:[/bold] " ++ c.uri) :: ("[italic]Info:[/italic] " ++ c.info) :: rest).map .line, some .recursionError) := by
    intro cs
    induction cs with
    | nil =>
      intro _
      refine ⟨[], .nil, fun xs => ?_⟩
      simp only [List.map_nil, List.nil_append, printComponents, Printed.output, h2, hrest, List.flatten_nil]
      rfl
    | cons d cs ih =>
      intro h
      obtain ⟨parts, h3, h4⟩ := ih fun e he => h e (List.mem_cons_of_mem _ he)
      have h5 := (C131_component_defined (env := env) d).1.2 (h d List.mem_cons_self)
      refine ⟨(pprintComponent env d).1 :: parts, .cons (C131_component (Prod.ext rfl h5)) h3, fun xs => ?_⟩
      simp only [List.map_cons, List.cons_append, printComponents, Printed.output, h5, h4, List.flatten_cons, List.append_assoc, List.map_append, if_true]
  obtain ⟨parts, h3, h4⟩ := key cs h
  refine ⟨parts, rest, h3, fun xs => ?_⟩
  rw [← h4 xs]
  cases cs <;> rfl

theorem nodeAt_reach {ch : Nat → List Nat} : ∀ (p f : List Nat) (i : Nat), nodeAt ch f p = some i → ∃ r ∈ f, Reachable ch r i
  | [], _, _, h => by cases h
  | [k], f, i, h => ⟨i, List.mem_of_getElem? h, 0, .refl i⟩
  | k :: k' :: p, f, i, h => by
    unfold nodeAt at h
    obtain ⟨n, h1, h2⟩ := Option.bind_eq_some_iff.1 h
    obtain ⟨r, hr, m, hp⟩ := nodeAt_reach (k' :: p) (ch n) i h2
    exact ⟨n, List.mem_of_getElem? h1, m + 1, .step hr hp⟩

theorem reach_nodeAt {ch : Nat → List Nat} {r i m : Nat} (hp : Path ch r i m) : ∀ f : List Nat, r ∈ f → ∃ p, p ≠ [] ∧ nodeAt ch f p = some i := by
  induction hp with
  | refl a =>
    intro f hf
    obtain ⟨k, hk, e⟩ := List.getElem_of_mem hf
    exact ⟨[k], by simp, by show f[k]? = some a; rw [List.getElem?_eq_getElem hk, e]⟩
  | @step a b c n hb _ ih =>
    intro f hf
    obtain ⟨k, hk, e⟩ := List.getElem_of_mem hf
    obtain ⟨p, hne, h⟩ := ih (ch a) hb
    refine ⟨k :: p, by simp, ?_⟩
    cases p with
    | nil => exact absurd rfl hne
    | cons k' p =>
      unfold nodeAt
      rw [List.getElem?_eq_getElem hk, e]
      exact h

/-- C131 for an opened filing: what is printed for the network of a class has a line for a report element exactly if a link of the class, with the role of the component, locates it. -/
theorem C131_filing {dateOf : String → Option Date} {float : String → Option Rat} {str : XNode → String} {so : SetOrder} {steps : Nat} {docs : List SchemaDoc} {o : OpenedFiling}
    (hv : ValidFiling dateOf float docs) (ho : openXml dateOf float str so steps docs = some (.ok o)) (he : env.heap = o.networks.networks.heap) {c : ComponentOf Network} (hc : c ∈ o.components)
    {p : String × NodeKind} (hp : p ∈ unitedTags) {n : Network} (hn : c.ofKind p.2 = some n) {lines : List String} (hl : NetworkLines env n lines) :
    ∃ (head : List String) (places : List (List Nat)), lines = head ++ places.map (placeLine env.nodes env.heap.children n.roots) ++ [""] ∧
      ∀ q, (∃ pl ∈ places, ∃ i b, nodeAt env.heap.children n.roots pl = some i ∧ env.heap.targetOf i = some (.element q b)) ↔
        ∃ up link l, HasLink (docs.map (·.root)) p.1 c.uri up link ∧ Locates (taxonomyStore docs) link l q := by
  have hs := (opened_shows hv ho).2
  obtain ⟨places, roles, hd, _, rfl⟩ := hl
  obtain ⟨x, _, hx⟩ := hs.components.mem_right c hc
  obtain ⟨g1, g2⟩ := (hx.networks p hp n).1 hn
  refine ⟨[_, _], places, rfl, fun q => ?_⟩
  rw [← hs.objects p hp c.uri q]
  constructor
  · rintro ⟨pl, _, i, b, h1, h2⟩
    refine ⟨n, g1, g2, b, i, ?_, ?_⟩
    · rw [← he]; exact nodeAt_reach _ _ _ h1
    · rw [← he]; exact h2
  · rintro ⟨net, k1, k2, b, i, ⟨r, hr, m, hpth⟩, ht⟩
    have : net = n := by
      have := (hx.networks p hp net).2 ⟨k1, k2⟩
      rw [hn] at this
      exact (Option.some.inj this).symm
    subst this
    rw [← he] at hpth ht
    obtain ⟨pl, _, h⟩ := reach_nodeAt hpth _ hr
    exact ⟨pl, (hd.complete pl).2 (by rw [h]; rfl), i, b, h, ht⟩

theorem ranked_path {h : Heap} {rank : Nat → Nat} (hr : RankedBy h rank) {a b m : Nat} (hp : Path h.children a b m) :
    ∃ l : List Nat, l.length = m ∧ l.Nodup ∧ ∀ x ∈ l, x < h.length ∧ rank a ≤ rank x := by
  induction hp with
  | refl => exact ⟨[], rfl, List.nodup_nil, by simp⟩
  | @step a b c n hb _ ih =>
    obtain ⟨l, h1, h2, h3⟩ := ih
    have hab := hr a b hb
    have ha : a < h.length := by
      refine Nat.lt_of_not_le fun hn => ?_
      unfold Heap.children at hb
      rw [List.getElem?_eq_none hn] at hb
      cases hb
    refine ⟨a :: l, by rw [List.length_cons, h1], List.nodup_cons.2 ⟨fun hm => ?_, h2⟩, ?_⟩
    · have := (h3 a hm).2
      omega
    · intro x hx
      rcases List.mem_cons.1 hx with rfl | hx
      · exact ⟨ha, Nat.le_refl _⟩
      · exact ⟨(h3 x hx).1, by have := (h3 x hx).2; omega⟩

/-- No path is longer than the number of nodes. -/
theorem ranked_bound {h : Heap} {rank : Nat → Nat} (hr : RankedBy h rank) {a b m : Nat} (hp : Path h.children a b m) : m ≤ h.length := by
  obtain ⟨l, rfl, h2, h3⟩ := ranked_path hr hp
  have hs : l ⊆ List.range h.length := fun x hx => List.mem_range.2 (h3 x hx).1
  have := h2.length_le_of_subset hs
  rwa [List.length_range] at this

theorem opened_ranked {dateOf : String → Option Date} {float : String → Option Rat} {str : XNode → String} {so : SetOrder} {steps : Nat} {docs : List SchemaDoc} {o : OpenedFiling}
    (hv : ValidFiling dateOf float docs) (ho : openXml dateOf float str so steps docs = some (.ok o)) : ∃ rank, RankedBy o.networks.networks.heap rank := by
  obtain ⟨st, s, h1, h2⟩ := valid_succeeds (str := str) (so := so) hv.links.plain hv.links.valid
  have h3 := readNetworks_mono (j := st) (opened_reading hv ho).1
  rw [Nat.add_comm, h1 steps] at h3
  cases h3
  exact h2

/-- C131: if the recursion limit exceeds the number of nodes, all components of an opened filing can be printed; they come one after the other, each with what it has. -/
theorem C131_all {dateOf : String → Option Date} {float : String → Option Rat} {str : XNode → String} {so : SetOrder} {steps : Nat} {docs : List SchemaDoc} {o : OpenedFiling}
    (hv : ValidFiling dateOf float docs) (ho : openXml dateOf float str so steps docs = some (.ok o)) (he : env.heap = o.networks.networks.heap) (hlim : env.heap.length < env.limit) :
    (∀ c ∈ o.components, ComponentFits env c) ∧
    (o.components ≠ [] → ∃ parts, Rel2 (ComponentLines env) o.components parts ∧ pprint env (.list (o.components.map .component)) = (parts.flatten.map .line, none)) := by
  obtain ⟨rank, hr⟩ := opened_ranked hv ho
  rw [← he] at hr
  have hf : ∀ c ∈ o.components, ComponentFits env c := fun c _ k _ n _ root _ b m hp => Nat.lt_of_le_of_lt (ranked_bound hr hp) hlim
  exact ⟨hf, fun hne => C131_components hne hf⟩

/-! ## Examples -/

namespace PrettyPrintExample

def heap : Heap := [{ kind := .presentation, target := .element ⟨"u", "p", "A"⟩ false, arcRole := "pc", order := 1, children := [1] }, { kind := .presentation, target := .element ⟨"u", "p", "B"⟩ true, arcRole := "pc", order := 1 }]
def texts : NodeTexts := { shown := fun i => if i = 0 then .element .abstract "p:A" else .element .concept "p:B", weight := fun _ => none }
def net : Network := { roots := [0], linkRole := "r", kind := .presentation, physical := false }
def sample : PrintEnv := { nodes := texts, network := fun _ => ⟨"link:presentationLink", fun _ => "['pc']", fun _ => "link:presentationArc"⟩, heap := heap, limit := 5, iter := id }
def full : ComponentOf Network := { uid := 0, uri := "r", info := "Balance sheet", presentation := some net }
def bare : ComponentOf Network := { uid := 1, uri := "s", info := "" }

example : pprint sample (.list [.component full, .component bare]) = (["[bold]Component:[/bold] r", "[italic]Info:[/italic] Balance sheet", "Network (link role: r), link name: link:presentationLink",
    "arc roles: ['pc'], arc name: link:presentationArc", "└──[ABSTRACT] p:A", "   └──[CONCEPT] p:B", "", "", "", "[bold]Component:[/bold] s", "[italic]Info:[/italic] ",
    "[yellow]No networks in this component.[/yellow]", ""].map .line, none) := by decide +kernel
example : (pprintComponent sample full).2 = true ∧ (pprintComponent { sample with limit := 1 } full).2 = false := by decide +kernel
example : ¬ ComponentFits { sample with limit := 1 } full := fun h => absurd ((C131_component_defined full).1.2 h) (by decide +kernel)
example : ∀ c ∈ [full, bare], ComponentFits sample c := by
  intro c hc
  have : ∀ c ∈ [full, bare], (pprintComponent sample c).2 = true := by decide +kernel
  exact (C131_component_defined c).1.1 (this c hc)
example : pprint sample (.list [.component bare, .other]) = (["[bold]Component:[/bold] s", "[italic]Info:[/italic] ", "[yellow]No networks in this component.[/yellow]", ""].map .line, some .attributeError) := by decide +kernel
example : pprint sample (.list []) = ([.table ⟨["id", "value"], []⟩], none) := by decide +kernel
example : Unsupported (.list [.network net]) := .list (by intro f h; cases h) (by intro c h; cases h)

/-- The filing of `OpenExample`: its component, with its presentation network, is printed. -/
example : ∃ steps o, openXml sampleDates LinkbaseExample.float LinkbaseExample.str .insertion steps OpenExample.docs = some (.ok o) ∧
    let env := { sample with heap := o.networks.networks.heap, limit := o.networks.networks.heap.length + 1 }
    ∃ parts : List (List String), parts.length = 1 ∧ pprint env (.list (o.components.map .component)) = (parts.flatten.map .line, none) := by
  obtain ⟨steps, o, ho, _, hs⟩ := C105_opens (str := LinkbaseExample.str) (so := .insertion) OpenExample.filing_valid
  have hlen : o.components.length = 1 := by
    rw [← hs.components.length_eq]
    decide +kernel
  have hne : o.components ≠ [] := by
    intro h
    rw [h] at hlen
    cases hlen
  obtain ⟨parts, h1, h2⟩ := (C131_all (env := { sample with heap := o.networks.networks.heap, limit := o.networks.networks.heap.length + 1 }) OpenExample.filing_valid (ho 0) rfl (Nat.lt_succ_self _)).2 hne
  exact ⟨steps + 0, o, ho 0, parts, by rw [← h1.length_eq, hlen], h2⟩

end PrettyPrintExample

end Brel
