import Verif.Props.Arcs
import Verif.Props.LinkValidExample

/-! Examples for C115, and where the claim fails without its condition. -/

namespace Brel

theorem agreeOn_of {link : XNode} {name : String}
    (h : (link.descendants.filter (fun x => decide (x.xlinkAttr "type" = some "arc"))).all (fun x => (link.descendants.filter (fun x => decide (x.xlinkAttr "type" = some "arc"))).all (fun y =>
      decide (x.xlinkAttr "to" ≠ y.xlinkAttr "to") || decide (x.attr? name = y.attr? name))) = true) : AgreeOn link name := by
  rintro l l' m x y ⟨o1, r1, p1, _, t1, _⟩ ⟨o2, r2, p2, _, t2, _⟩
  have hx := List.all_eq_true.1 h x (List.mem_filter.2 ⟨p1.below.descendant, by simpa using p1.type⟩)
  have := List.all_eq_true.1 hx y (List.mem_filter.2 ⟨p2.below.descendant, by simpa using p2.type⟩)
  rw [Bool.or_eq_true, decide_eq_true_eq, decide_eq_true_eq] at this
  exact this.resolve_left (fun hn => hn (by rw [t1, t2]))

theorem hasLink_only {root link : XNode} {name role : String} (h : (root.descendants.filter (fun x => decide (x.tag = some (linkTag name)))).length = 1) {up up' : List XNode} {l : XNode}
    (hlink : HasLink [root] name role up' link) (hl : HasLink [root] name role up l) : l = link := by
  have key : ∀ up l, HasLink [root] name role up l → l ∈ root.descendants.filter (fun x => decide (x.tag = some (linkTag name))) := by
    intro up l hl
    obtain ⟨r, hr, own, hb, _⟩ := hl.placed
    rw [List.mem_singleton] at hr
    subst hr
    exact List.mem_filter.2 ⟨hb.descendant, by simpa using hl.tag⟩
  obtain ⟨z, hz⟩ := List.length_eq_one_iff.1 h
  have h1 := key _ _ hl
  have h2 := key _ _ hlink
  rw [hz, List.mem_singleton] at h1 h2
  rw [h1, h2]

namespace ArcsExample
open LinkbaseExample

def elems : ElemStore := ElemStore.run [⟨.concept, nm "T", some "p_T", [], 0⟩, ⟨.concept, nm "X", some "p_X", [], 0⟩, ⟨.concept, nm "Y", some "p_Y", [], 0⟩]
def float (s : String) : Option Rat := if s = "1" then some 1 else if s = "-1" then some (-1) else none
def arc (frm to weight : String) : XNode :=
  .mk (some (linkTag "calculationArc")) [(xl "type", "arc"), (xl "from", frm), (xl "to", to), (xl "arcrole", "si"), ("weight", weight)] none LinkbaseExample.ns []
def link (arcs : List XNode) : XNode :=
  .mk (some (linkTag "calculationLink")) [(xl "type", "extended"), (xl "role", "r")] none LinkbaseExample.ns ([loc "t" "p_T", loc "x" "p_X", loc "y" "p_Y"] ++ arcs)
def doc (arcs : List XNode) : XNode := .mk (some (linkTag "linkbase")) [] none LinkbaseExample.ns [link arcs]
/-- A total of a summand that is added and one that is subtracted. -/
def total : List XNode := [arc "t" "x" "1", arc "t" "y" "-1"]
/-- A summand that is added to one total and subtracted from another. -/
def twice : List XNode := [arc "t" "x" "1", arc "t" "y" "1", arc "x" "y" "-1"]
def good (arcs : List XNode) : Option ReadNetworks := (readNetworks elems (FactStore.run []) float LinkbaseExample.str .insertion 20 [doc arcs]).bind
  (fun r => match r with | .ok s => some s | .error _ => none)

theorem out_of_good {arcs : List XNode} {s : ReadNetworks} (h : good arcs = some s) : readNetworks elems (FactStore.run []) float LinkbaseExample.str .insertion 20 [doc arcs] = some (.ok s) := by
  unfold good at h
  cases ho : readNetworks elems (FactStore.run []) float LinkbaseExample.str .insertion 20 [doc arcs] with
  | none => rw [ho] at h; cases h
  | some r =>
    rw [ho] at h
    cases r with
    | ok t => cases h; rfl
    | error e => cases h

theorem locates {arcs : List XNode} {label id : String} (h : loc label id ∈ (link arcs).children) (hi : '#' ∉ id.toList) {e : ReportElement} (he : elems.byId.get? id = some e) : Locates elems (link arcs) label e.name := by
  have ht : ∀ l i : String, (loc l i).xlinkAttr "type" = some "locator" ∧ (loc l i).xlinkAttr "label" = some l ∧ (loc l i).xlinkAttr "href" = some ("a.xsd#" ++ i) := fun _ _ => ⟨rfl, rfl, rfl⟩
  exact ⟨[loc label id], loc label id, "a.xsd#" ++ id, id, e, ⟨(below_iff ..).2 ⟨_, h, .self⟩, by simp [loc, XNode.tag], (ht _ _).1⟩, (ht _ _).2.1, (ht _ _).2.2, ⟨hi, Or.inr ⟨"a.xsd", rfl⟩⟩, he, rfl⟩

theorem at_t (arcs : List XNode) : Locates elems (link arcs) "t" (nm "T") := locates (id := "p_T") (by simp [link, XNode.children]) (by decide +kernel) (e := ⟨.concept, nm "T", some "p_T", [], 0⟩) (by decide +kernel)
theorem at_x (arcs : List XNode) : Locates elems (link arcs) "x" (nm "X") := locates (id := "p_X") (by simp [link, XNode.children]) (by decide +kernel) (e := ⟨.concept, nm "X", some "p_X", [], 0⟩) (by decide +kernel)
theorem at_y (arcs : List XNode) : Locates elems (link arcs) "y" (nm "Y") := locates (id := "p_Y") (by simp [link, XNode.children]) (by decide +kernel) (e := ⟨.concept, nm "Y", some "p_Y", [], 0⟩) (by decide +kernel)

theorem has (arcs : List XNode) : HasLink [doc arcs] "calculationLink" "r" [link arcs, doc arcs] (link arcs) :=
  ⟨⟨_, List.mem_singleton.2 rfl, [link arcs], (below_iff ..).2 ⟨_, List.mem_cons_self, .self⟩, rfl⟩, rfl, rfl, rfl⟩

theorem rooted {arcs : List XNode} (hf : (arcPairs (link arcs)).all (fun a => decide (a.1 = some "t" ∨ a.1 = some "x")) = true)
    (hr : (arcPairs (link arcs)).all (fun a => decide ((fun l => if l = "t" then 0 else if l = "x" then 1 else 2) (a.1.getD "") < (fun l => if l = "t" then 0 else if l = "x" then 1 else 2) (a.2.getD ""))) = true) :
    Rooted elems (link arcs) := rooted_of (fun l => if l = "t" then 0 else if l = "x" then 1 else 2) hr (by
  intro a ha
  have := List.all_eq_true.1 hf a ha
  rw [decide_eq_true_eq] at this
  rcases this with h | h <;> rw [h]
  · exact ⟨_, at_t _⟩
  · exact ⟨_, at_x _⟩)

theorem read_total : ∃ s, good total = some s := Option.isSome_iff_exists.1 (by decide +kernel)
theorem read_twice : ∃ s, good twice = some s := Option.isSome_iff_exists.1 (by decide +kernel)

/-- The conditions of C115 are met, and the weight that is subtracted is shown. -/
example : ∃ s, good total = some s ∧ s.ShowsChild "r" .calculation (nm "T") (nm "Y") (fun n => n.weight = -1) ∧ s.ShowsChild "r" .calculation (nm "T") (nm "Y") (fun n => n.order = 1) := by
  obtain ⟨s, h⟩ := read_total
  have hp : PlainLinks [doc total] := plainLinks_of (by decide +kernel)
  have only : ∀ up l, HasLink [doc total] "calculationLink" "r" up l → l = link total := fun up l hl => hasLink_only (by decide +kernel) (has _) hl
  have hroot : Rooted elems (link total) := rooted (by decide +kernel) (by decide +kernel)
  have ha : ArcBetween (link total) "t" "y" (arc "t" "y" "-1") := ⟨_, _, child_part (by simp [link, total, XNode.children]) (by simp [ArcsExample.arc, XNode.tag]) rfl, rfl, rfl, rfl⟩
  refine ⟨s, h, (C115_weights_partial (out_of_good h) hp ?_ ?_ _ _ _).2 ?_, (C115_orders_partial (name := "calculationLink") (kk := .calculation) (out_of_good h) hp (Or.inr rfl) ?_ ?_ _ _ _).2 ?_⟩
  · intro up l hl; rw [only _ _ hl]; exact hroot
  · intro up l hl; rw [only _ _ hl]; exact agreeOn_of (by decide +kernel)
  · exact ⟨_, _, _, _, _, has _, ha, at_t _, at_y _, Or.inl ⟨"-1", rfl, by decide, by decide +kernel⟩⟩
  · intro up l hl; rw [only _ _ hl]; exact hroot
  · intro up l hl; rw [only _ _ hl]; exact agreeOn_of (by decide +kernel)
  · exact ⟨_, _, _, _, _, has _, ha, at_t _, at_y _, Or.inr ⟨Or.inl rfl, rfl⟩⟩

end ArcsExample

open ArcsExample LinkbaseExample in
/-- C115 fails: a concept that is added to one total and subtracted from another in the same link is shown as added to both. -/
theorem C115_weights_false : ∃ (roots : List XNode) (up : List XNode) (link : XNode) (s : ReadNetworks), PlainLinks roots ∧ HasLink roots "calculationLink" "r" up link ∧ Rooted ArcsExample.elems link ∧
    readNetworks ArcsExample.elems (FactStore.run []) ArcsExample.float LinkbaseExample.str .insertion 20 roots = some (.ok s) ∧
    StatesArc ArcsExample.elems roots "calculationLink" "r" (nm "X") (nm "Y") (fun x => StatesNumber ArcsExample.float 0 (x.attr? "weight") (-1)) ∧
    ¬ s.ShowsChild "r" .calculation (nm "X") (nm "Y") (fun n => n.weight = -1) ∧ s.ShowsChild "r" .calculation (nm "X") (nm "Y") (fun n => n.weight = 1) := by
  obtain ⟨s, h⟩ := read_twice
  have hall : (ArcsExample.good twice).map (fun s => s.networks.heap.all (fun n => decide (n.weight ≠ -1))) = some true := by decide +kernel
  have hsome : (ArcsExample.good twice).map (fun s => (s.networks.store.getByType .calculation).any (fun net => net.logicalOf "r" .calculation &&
      net.roots.any (fun i => (s.networks.heap.children i).any (fun j => decide (s.networks.heap.targetOf j = some (.element (nm "X") true)) &&
        (s.networks.heap.children j).any (fun c => (s.networks.heap[c]?).any (fun n => decide (n.target = .element (nm "Y") true) && decide (n.weight = 1))))))) = some true := by decide +kernel
  rw [h, Option.map_some, Option.some.injEq] at hall hsome
  refine ⟨[doc twice], _, _, s, plainLinks_of (by decide +kernel), has _, rooted (by decide +kernel) (by decide +kernel), ArcsExample.out_of_good h, ?_, ?_, ?_⟩
  · exact ⟨_, _, _, _, arc "x" "y" "-1", has _, ⟨_, _, child_part (by simp [link, twice, XNode.children]) (by simp [ArcsExample.arc, XNode.tag]) rfl, rfl, rfl, rfl⟩, at_x _, at_y _, Or.inl ⟨"-1", rfl, by decide, by decide +kernel⟩⟩
  · rintro ⟨net, _, _, i, c, n, b, b', _, _, _, hc, _, hw⟩
    have := List.all_eq_true.1 hall n (List.mem_of_getElem? hc)
    rw [decide_eq_true_eq] at this
    exact this hw
  · obtain ⟨net, hn, h1⟩ := List.any_eq_true.1 hsome
    rw [Bool.and_eq_true] at h1
    obtain ⟨i, hi, h2⟩ := List.any_eq_true.1 h1.2
    obtain ⟨j, hj, h3⟩ := List.any_eq_true.1 h2
    rw [Bool.and_eq_true, decide_eq_true_eq] at h3
    obtain ⟨c, hc, h4⟩ := List.any_eq_true.1 h3.2
    rw [Option.any_eq_true] at h4
    obtain ⟨n, hn', h5⟩ := h4
    rw [Bool.and_eq_true, decide_eq_true_eq, decide_eq_true_eq] at h5
    exact ⟨net, hn, h1.1, j, c, n, true, true, ⟨i, hi, ⟨_, .step hj (.refl _)⟩⟩, hc, h3.1, hn', h5.1, h5.2⟩

end Brel
