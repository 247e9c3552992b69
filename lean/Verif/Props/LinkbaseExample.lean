import Verif.Props.Relations

/-! Examples for C100 and C101: a link base that meets the hypotheses, and link bases for which the unrestricted claims fail. -/

namespace Brel

/-! ## Deciding the hypotheses for a given document -/

theorem all_below {r : XNode} {P : XNode → Prop} {b : XNode → Bool} (hb : ∀ x, b x = true → P x) (h : (r.scoped []).all (fun p => b p.2) = true) : ∀ own x, Below r own x → P x := by
  intro own x hx
  have := List.all_eq_true.1 h (own.map XNode.lang, x) ((scoped_iff [] r _).2 ⟨own, hx, by simp⟩)
  exact hb x this

/-- The conditions of `PlainLinks` for one node of a document. -/
def plainNode (x : XNode) : Bool :=
  !isLinkElement x ||
    ((tagKinds.map (·.1)).any (fun name => decide (x.tag = some (linkTag name))) &&
     ((([] : List (Option String)), x) :: x.scoped []).all (fun y => decide (y.2.tag = none) || decide (y.2.ns.get? (some "xlink") = some "http://www.w3.org/1999/xlink")) &&
     (x.scoped []).all (fun y => decide (y.2.tag = none) || decide (y.2.xlinkAttr "type" ≠ some "resource") ||
       ["label", "footnote", "reference"].any (fun name => decide (y.2.tag = some (linkTag name)))))

theorem plainLinks_of {roots : List XNode} (h : roots.all (fun r => (r.scoped []).all (fun p => plainNode p.2)) = true) : PlainLinks roots := by
  have key : ∀ root ∈ roots, ∀ own x, Below root own x → plainNode x = true :=
    fun root hr => all_below (b := plainNode) (fun _ h => h) (List.all_eq_true.1 h root hr)
  have split : ∀ x, plainNode x = true → isLinkElement x = true → _ := fun x hx hl => by
    unfold plainNode at hx
    rw [hl, Bool.not_true, Bool.false_or, Bool.and_eq_true, Bool.and_eq_true] at hx
    exact hx
  refine ⟨?_, ?_, ?_⟩
  · intro root hr own x hx hl
    obtain ⟨name, hn, ht⟩ := List.any_eq_true.1 (split x (key root hr own x hx) hl).1.1
    exact ⟨name, hn, of_decide_eq_true ht⟩
  · intro root hr own x hx hl c y hy ht
    have h2 := List.all_eq_true.1 (split x (key root hr own x hx) hl).1.2
    have hm : ∃ l, (l, y) ∈ (([] : List (Option String)), x) :: x.scoped [] := by
      rcases hy.split with ⟨_, rfl⟩ | ⟨c', hc, ch', h3, _⟩
      · exact ⟨[], List.mem_cons_self⟩
      · exact ⟨_, List.mem_cons_of_mem _ ((scoped_iff [] x (ch'.map XNode.lang, y)).2 ⟨ch', (below_iff ..).2 ⟨c', hc, h3⟩, by simp⟩)⟩
    obtain ⟨l, hm⟩ := hm
    have := h2 _ hm
    simp only [Bool.or_eq_true, decide_eq_true_eq] at this
    exact this.resolve_left ht
  · intro root hr own x hx hl c y hy
    have h3 := List.all_eq_true.1 (split x (key root hr own x hx) hl).2 (c.map XNode.lang, y) ((scoped_iff [] x _).2 ⟨c, hy.below, by simp⟩)
    simp only [Bool.or_eq_true, decide_eq_true_eq] at h3
    rcases h3 with (h3 | h3) | h3
    · exact absurd h3 hy.element
    · exact absurd hy.type h3
    · obtain ⟨name, hn, ht⟩ := List.any_eq_true.1 h3
      exact ⟨name, hn, of_decide_eq_true ht⟩

/-- The arcs of a link: their ends. -/
def arcPairs (x : XNode) : List (Option String × Option String) :=
  ((x.scoped []).filter (fun y => decide (y.2.xlinkAttr "type" = some "arc"))).map (fun y => (y.2.xlinkAttr "from", y.2.xlinkAttr "to"))

theorem joined_pair {x : XNode} {l m : String} (h : Joined x l m) : (some l, some m) ∈ arcPairs x := by
  obtain ⟨own, y, _, hy, h1, h2, _⟩ := h
  exact List.mem_map.2 ⟨(own.map XNode.lang, y), List.mem_filter.2 ⟨(scoped_iff [] x _).2 ⟨own, hy.below, by simp⟩, by simpa using hy.type⟩, by simp [h1, h2]⟩

theorem labelsLast_of {roots : List XNode} (h : roots.all (fun r => (r.scoped []).all (fun p => decide (p.2.tag ≠ some (linkTag "labelLink")) ||
    (arcPairs p.2).all (fun a => (p.2.scoped []).all (fun y => decide (y.2.xlinkAttr "type" ≠ some "locator") || decide (y.2.xlinkAttr "label" ≠ a.2))))) = true) : LabelsLast roots := by
  intro up link role hl l m hj own x hx
  obtain ⟨root, hr, own', hb, _⟩ := hl.placed
  have := all_below (b := fun x => decide (x.tag ≠ some (linkTag "labelLink")) ||
    (arcPairs x).all (fun a => (x.scoped []).all (fun y => decide (y.2.xlinkAttr "type" ≠ some "locator") || decide (y.2.xlinkAttr "label" ≠ a.2)))) (P := fun x => x.tag = some (linkTag "labelLink") →
      ∀ a ∈ arcPairs x, ∀ y ∈ x.scoped [], y.2.xlinkAttr "type" = some "locator" → y.2.xlinkAttr "label" ≠ a.2) (by
    intro x hx ht a ha y hy hloc
    rw [Bool.or_eq_true, decide_eq_true_eq] at hx
    have := List.all_eq_true.1 (List.all_eq_true.1 (hx.resolve_left (fun hn => hn ht)) a ha) y hy
    rw [Bool.or_eq_true, decide_eq_true_eq, decide_eq_true_eq] at this
    exact this.resolve_left (fun hn => hn hloc)) (List.all_eq_true.1 h root hr) own' link hb hl.tag _ (joined_pair hj) (own.map XNode.lang, x) ((scoped_iff [] link _).2 ⟨own, hx.below, by simp⟩) hx.type
  exact this

theorem rooted_of {elems : ElemStore} {x : XNode} (rank : String → Nat)
    (h : (arcPairs x).all (fun a => decide (rank (a.1.getD "") < rank (a.2.getD ""))) = true)
    (hs : ∀ a ∈ arcPairs x, ∃ q, Locates elems x (a.1.getD "") q) : Rooted elems x := by
  refine ⟨⟨rank, fun l m hj => ?_⟩, fun l m hj => ?_⟩
  · simpa using List.all_eq_true.1 h _ (joined_pair hj)
  · simpa using hs _ (joined_pair hj)

/-! ## A link base -/

namespace LinkbaseExample

def ns : NsMap := [(some "link", "http://www.xbrl.org/2003/linkbase"), (some "xlink", "http://www.w3.org/1999/xlink")]
def xl (n : String) : String := "{http://www.w3.org/1999/xlink}" ++ n
def lang : String := "{http://www.w3.org/XML/1998/namespace}lang"
def loc (label id : String) : XNode := .mk (some (linkTag "loc")) [(xl "type", "locator"), (xl "label", label), (xl "href", "a.xsd#" ++ id)] none ns []
def arc (tag frm to role : String) : XNode := .mk (some (linkTag tag)) [(xl "type", "arc"), (xl "from", frm), (xl "to", to), (xl "arcrole", role)] none ns []
/-- A comment. -/
def note : XNode := .mk none [] (some "note") ns []
def lab (l role text : String) (attrs : Dict String String) : XNode := .mk (some (linkTag "label")) ([(xl "type", "resource"), (xl "label", l), (xl "role", role)] ++ attrs) (some text) ns []
/-- Labels for two elements; the language of the second is that of the link, which two labels share. -/
def labels : XNode := .mk (some (linkTag "labelLink")) [(xl "type", "extended"), (xl "role", "http://www.xbrl.org/2003/role/link"), (lang, "en")] none ns
  [note, loc "a" "p_A", loc "b" "p_B", lab "la" "std" "Aktiva" [(lang, "de")], lab "lb" "std" "Bonds" [], arc "labelArc" "a" "la" "cl", arc "labelArc" "b" "lb" "cl"]
/-- Two presentation links of one role. -/
def pres1 : XNode := .mk (some (linkTag "presentationLink")) [(xl "type", "extended"), (xl "role", "r")] none ns [loc "a" "p_A", loc "b" "p_B", arc "presentationArc" "a" "b" "pc"]
def pres2 : XNode := .mk (some (linkTag "presentationLink")) [(xl "type", "extended"), (xl "role", "r")] none ns [loc "x" "p_B", loc "y" "p_C", arc "presentationArc" "x" "y" "pc"]
def labelDoc : XNode := .mk (some (linkTag "linkbase")) [] none ns [note, labels]
def presDoc : XNode := .mk (some (linkTag "linkbase")) [] none ns [pres1, pres2]
def nm (s : String) : QName := ⟨"u", "p", s⟩
def elems : ElemStore := ElemStore.run [⟨.abstract, nm "A", some "p_A", [], 0⟩, ⟨.concept, nm "B", some "p_B", [], 0⟩, ⟨.concept, nm "C", some "p_C", [], 0⟩]
def facts : FactStore := FactStore.run []
def float (s : String) : Option Rat := if s = "1" then some 1 else none
def str (_ : XNode) : String := ""
def out (docs : List XNode) : Option (Except PyErr ReadNetworks) := readNetworks elems facts float str .insertion 20 docs
def good (docs : List XNode) : Option ReadNetworks := (out docs).bind (fun r => match r with | .ok s => some s | .error _ => none)

def bad (docs : List XNode) : Option PyErr := (out docs).bind (fun r => match r with | .ok _ => none | .error e => some e)

theorem out_of_good {docs : List XNode} {s : ReadNetworks} (h : good docs = some s) : out docs = some (.ok s) := by
  unfold good at h
  cases ho : out docs with
  | none => rw [ho] at h; cases h
  | some r =>
    rw [ho] at h
    cases r with
    | ok t => cases h; rfl
    | error e => cases h
theorem out_of_bad {docs : List XNode} {e : PyErr} (h : bad docs = some e) : out docs = some (.error e) := by
  unfold bad at h
  cases ho : out docs with
  | none => rw [ho] at h; cases h
  | some r =>
    rw [ho] at h
    cases r with
    | ok t => cases h
    | error e => cases h; rfl

theorem plain : PlainLinks [labelDoc, presDoc] := plainLinks_of (by decide +kernel)
theorem last : LabelsLast [labelDoc, presDoc] := labelsLast_of (by decide +kernel)

/-- The link base is read, and gives the labels in the languages in force. -/
example : (good [labelDoc]).map (fun s => s.labelsOf (nm "A") ++ s.labelsOf (nm "B")) =
    some [{ text := "Aktiva", label := "la", language := "de", role := "std" }, { text := "Bonds", label := "lb", language := "en", role := "std" }] := by decide +kernel
example : (good [presDoc]).map (fun s => (s.reports.length, s.networks.errs, s.networks.store.getAll.map (fun n => (n.kind, n.roots.length)))) = some (0, [], [(.presentation, 2)]) := by decide +kernel

theorem locates_pres {x : XNode} {label id : String} (h : loc label id ∈ x.children) (hi : '#' ∉ id.toList) {e : ReportElement} (he : elems.byId.get? id = some e) : Locates elems x label e.name := by
  have ht : ∀ l i : String, (loc l i).xlinkAttr "type" = some "locator" ∧ (loc l i).xlinkAttr "label" = some l ∧ (loc l i).xlinkAttr "href" = some ("a.xsd#" ++ i) := fun _ _ => ⟨rfl, rfl, rfl⟩
  refine ⟨[loc label id], loc label id, "a.xsd#" ++ id, id, e, ⟨(below_iff ..).2 ⟨_, h, .self⟩, by simp [loc, XNode.tag], (ht _ _).1⟩, (ht _ _).2.1, (ht _ _).2.2, ⟨hi, Or.inr ⟨"a.xsd", rfl⟩⟩, he, rfl⟩

theorem rooted1 : Rooted elems pres1 := rooted_of (fun l => if l = "a" then 0 else 1) (by decide +kernel) (by
  have : arcPairs pres1 = [(some "a", some "b")] := by decide +kernel
  rw [this]
  intro a ha
  rw [List.mem_singleton] at ha
  subst ha
  exact ⟨_, locates_pres (id := "p_A") (List.mem_cons_self) (by decide +kernel) (e := ⟨.abstract, nm "A", some "p_A", [], 0⟩) (by decide +kernel)⟩)

theorem hasPres1 : HasLink [labelDoc, presDoc] "presentationLink" "r" [pres1, presDoc] pres1 :=
  ⟨⟨presDoc, by simp, [pres1], (below_iff ..).2 ⟨_, List.mem_cons_self, .self⟩, rfl⟩, rfl, rfl, rfl⟩

/-- What C101 says for the first presentation link. -/
example {s : ReadNetworks} (h : out [labelDoc, presDoc] = some (.ok s)) : s.ShowsBelow "r" .presentation (nm "A") (nm "B") := by
  refine (C101_everything h plain (name := "presentationLink") (by decide) hasPres1 rooted1).2 "a" "b" _ _ ?_ ?_ ?_
  · exact ⟨[arc "presentationArc" "a" "b" "pc"], _, "pc", ⟨(below_iff ..).2 ⟨_, by simp [pres1, XNode.children], .self⟩, by simp [arc, XNode.tag], rfl⟩, rfl, rfl, rfl⟩
  · exact locates_pres (id := "p_A") List.mem_cons_self (by decide +kernel) (e := ⟨.abstract, nm "A", some "p_A", [], 0⟩) (by decide +kernel)
  · exact locates_pres (id := "p_B") (by simp [pres1, XNode.children]) (by decide +kernel) (e := ⟨.concept, nm "B", some "p_B", [], 0⟩) (by decide +kernel)

end LinkbaseExample

/-! ## Where the claims fail -/

open LinkbaseExample

/-- C100 fails: a label without `xlink:role`, which XBRL 2.1 makes optional, prevents the filing from being opened. -/
theorem C100_role_optional_false : ∃ (roots : List XNode) (x : XNode), PlainLinks roots ∧ LabelsLast roots ∧
    (∃ link up own, HasLink roots "labelLink" "http://www.xbrl.org/2003/role/link" up link ∧ Part link "resource" own x ∧ x.tag = some (linkTag "label") ∧ x.xlinkAttr "role" = none) ∧
    readNetworks LinkbaseExample.elems LinkbaseExample.facts LinkbaseExample.float LinkbaseExample.str .insertion 20 roots = some (.error .valueError) := by
  let x : XNode := .mk (some (linkTag "label")) [(xl "type", "resource"), (xl "label", "la"), (lang, "en")] (some "Assets") LinkbaseExample.ns []
  let link : XNode := .mk (some (linkTag "labelLink")) [(xl "type", "extended"), (xl "role", "http://www.xbrl.org/2003/role/link")] none LinkbaseExample.ns [loc "a" "p_A", x, arc "labelArc" "a" "la" "cl"]
  let root : XNode := .mk (some (linkTag "linkbase")) [] none LinkbaseExample.ns [link]
  exact ⟨[root], x, plainLinks_of (by decide +kernel), labelsLast_of (by decide +kernel),
    ⟨link, [link, root], [x], ⟨⟨root, List.mem_singleton.2 rfl, [link], (below_iff ..).2 ⟨_, List.mem_cons_self, .self⟩, rfl⟩, rfl, rfl, rfl⟩,
      ⟨(below_iff ..).2 ⟨_, List.mem_cons_of_mem _ List.mem_cons_self, .self⟩, by simp [x, XNode.tag], rfl⟩, rfl, rfl⟩, out_of_bad (docs := [root]) (by decide +kernel)⟩

/-- C100 fails: if the link base binds the name space of XLink to another prefix than `xlink`, its labels are lost (the links are reported as having no role). -/
theorem C100_prefix_free_false : ∃ (roots : List XNode) (s : ReadNetworks), LabelsLast roots ∧
    (∃ link up lab, HasLink roots "labelLink" "http://www.xbrl.org/2003/role/link" up link ∧ Joined link "a" "la" ∧ Locates LinkbaseExample.elems link "a" (nm "A") ∧ Labelled up link "la" lab) ∧
    readNetworks LinkbaseExample.elems LinkbaseExample.facts LinkbaseExample.float LinkbaseExample.str .insertion 20 roots = some (.ok s) ∧ s.labelsOf (nm "A") = [] ∧
    s.networks.errs = ["MISSING_LINK_ROLE"] := by
  let ns : NsMap := [(some "link", "http://www.xbrl.org/2003/linkbase"), (some "xl", "http://www.w3.org/1999/xlink")]
  let x : XNode := .mk (some (linkTag "label")) [(xl "type", "resource"), (xl "label", "la"), (xl "role", "std"), (lang, "en")] (some "Assets") ns []
  let l : XNode := .mk (some (linkTag "loc")) [(xl "type", "locator"), (xl "label", "a"), (xl "href", "a.xsd#p_A")] none ns []
  let a : XNode := .mk (some (linkTag "labelArc")) [(xl "type", "arc"), (xl "from", "a"), (xl "to", "la"), (xl "arcrole", "cl")] none ns []
  let link : XNode := .mk (some (linkTag "labelLink")) [(xl "type", "extended"), (xl "role", "http://www.xbrl.org/2003/role/link")] none ns [l, x, a]
  let root : XNode := .mk (some (linkTag "linkbase")) [] none ns [link]
  have hg : (good [root]).map (fun s => (s.labelsOf (nm "A"), s.networks.errs)) = some ([], ["MISSING_LINK_ROLE"]) := by decide +kernel
  obtain ⟨s, hs, hv⟩ := Option.map_eq_some_iff.1 hg
  refine ⟨[root], s, labelsLast_of (by decide +kernel), ?_, out_of_good hs, congrArg Prod.fst hv, congrArg Prod.snd hv⟩
  refine ⟨link, [link, root], { text := "Assets", label := "la", language := "en", role := "std" },
      ⟨⟨root, List.mem_singleton.2 rfl, [link], (below_iff ..).2 ⟨_, List.mem_cons_self, .self⟩, rfl⟩, rfl, rfl, rfl⟩, ?_, ?_, ?_⟩
  · exact ⟨[a], a, "cl", ⟨(below_iff ..).2 ⟨_, List.mem_cons_of_mem _ (List.mem_cons_of_mem _ List.mem_cons_self), .self⟩, by simp [a, XNode.tag], rfl⟩, rfl, rfl, rfl⟩
  · exact ⟨[l], l, "a.xsd#p_A", "p_A", ⟨.abstract, nm "A", some "p_A", [], 0⟩, ⟨(below_iff ..).2 ⟨_, List.mem_cons_self, .self⟩, by simp [l, XNode.tag], rfl⟩, rfl, rfl,
        ⟨by decide +kernel, Or.inr ⟨"a.xsd", by decide +kernel⟩⟩, by decide +kernel, rfl⟩
  · exact ⟨[x], x, ⟨(below_iff ..).2 ⟨_, List.mem_cons_of_mem _ List.mem_cons_self, .self⟩, by simp [x, XNode.tag], rfl⟩, rfl, rfl, rfl, rfl, rfl, rfl⟩

end Brel
