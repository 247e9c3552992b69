import Verif.Props.Rearranged
import Verif.Props.AggregationExample
import Verif.Props.CalcNetworkExample

/-! Examples for C126, and where the claim fails. -/

namespace Brel
open Spec

namespace RearrangedExample
open LinkbaseExample

theorem apart (arcs : List XNode) : ToldApart (CalcExample.docs arcs) := by
  have hd : schemaDeclarations (CalcExample.docs arcs) = schemaDeclarations (CalcExample.docs []) := rfl
  refine ⟨show ["http://ex/a.xsd", "http://ex/i.xml", "http://ex/c.xml"].Nodup by decide, ?_, ?_⟩ <;> rw [hd] <;> decide +kernel

/-- Opening the sample filing with its documents in reverse order and with sets iterated in reverse order. -/
def again : Option OpenedFiling :=
  (openXml sampleDates ArcsExample.float LinkbaseExample.str .reversed 20 (CalcExample.docs ArcsExample.total).reverse).bind (fun r => match r with | .ok s => some s | .error _ => none)

theorem again_opens {o : OpenedFiling} (h : again = some o) : openXml sampleDates ArcsExample.float LinkbaseExample.str .reversed 20 (CalcExample.docs ArcsExample.total).reverse = some (.ok o) := by
  unfold again at h
  cases ho : openXml sampleDates ArcsExample.float LinkbaseExample.str .reversed 20 (CalcExample.docs ArcsExample.total).reverse with
  | none => rw [ho] at h; cases h
  | some r =>
    rw [ho] at h
    cases r with
    | ok t => cases h; rfl
    | error e => cases h

theorem agree : ∀ up link, HasLink ((CalcExample.docs ArcsExample.total).map (·.root)) "calculationLink" "r" up link → AgreeOn link "weight" := by
  intro up link hh
  have : ∀ r ∈ (CalcExample.docs ArcsExample.total).map (·.root), ∀ x ∈ r.descendants, x.tag = some (linkTag "calculationLink") →
      ((x.descendants.filter (fun x => decide (x.xlinkAttr "type" = some "arc"))).all (fun y => (x.descendants.filter (fun x => decide (x.xlinkAttr "type" = some "arc"))).all (fun z =>
      decide (y.xlinkAttr "to" ≠ z.xlinkAttr "to") || decide (y.attr? "weight" = z.attr? "weight"))) = true) := by decide +kernel
  obtain ⟨root, hr, own, hb, _⟩ := hh.placed
  exact agreeOn_of (this root hr link hb.descendant hh.tag)

/-- The two filings are the same, and their checks say the same. -/
example : ∃ o o' net net', CalcExample.opened ArcsExample.total = some o ∧ again = some o' ∧ SameFiling o o' ∧ net ∈ o.networks.networks.store.getByType .calculation ∧
    net' ∈ o'.networks.networks.store.getByType .calculation ∧
    ∃ depth b, ∀ j, o.isBalanceConsistent ArcsExample.float (depth + j) net = some b ∧ o'.isBalanceConsistent ArcsExample.float (depth + j) net' = some b := by
  have h : (CalcExample.opened ArcsExample.total).map (fun o => (o.networks.networks.store.getByType .calculation).any (Network.logicalOf "r" .calculation)) = some true := by decide +kernel
  have h' : again.map (fun o => (o.networks.networks.store.getByType .calculation).any (Network.logicalOf "r" .calculation)) = some true := by decide +kernel
  obtain ⟨o, ho, h1⟩ := Option.map_eq_some_iff.1 h
  obtain ⟨o', ho', h1'⟩ := Option.map_eq_some_iff.1 h'
  obtain ⟨net, hn, hl⟩ := List.any_eq_true.1 h1
  obtain ⟨net', hn', hl'⟩ := List.any_eq_true.1 h1'
  have hp := (List.reverse_perm (CalcExample.docs ArcsExample.total)).symm
  exact ⟨o, o', net, net', ho, ho', (C126_same_partial hp (apart _) CalcExample.total_valid (CalcExample.openXml_opened ho) (again_opens ho')).1, hn, hn',
    C126_balance_partial hp (apart _) CalcExample.total_valid (CalcExample.openXml_opened ho) (again_opens ho') agree hn hl hn' hl'⟩

/-- The report elements, the facts and the components of the two filings, by name. -/
def inventory (o : OpenedFiling) : List String × List (Option String) × List String :=
  (o.elements.byName.map (fun e => e.1.localName), o.facts.facts.getAll.map (·.id), o.components.map (·.uri))
example : (CalcExample.opened ArcsExample.total).map inventory = some (["T", "X", "Y"], [some "f1", some "f2", some "f3"], ["r"]) ∧
  again.map inventory = some (["T", "X", "Y"], [some "f1", some "f2", some "f3"], ["r"]) := by decide +kernel

/-! ### Ids that are used twice -/

def schemaOf (uri target pfx : String) (items : List (String × String)) : SchemaDoc :=
  ⟨uri, .mk (some "{http://www.w3.org/2001/XMLSchema}schema") [("targetNamespace", target)] none [(some pfx, target)] (items.map (fun i =>
    .mk (some "{http://www.w3.org/2001/XMLSchema}element") [("name", i.1), ("id", i.2), ("substitutionGroup", "xbrli:item"), ("type", "xbrli:monetaryItemType"),
      ("{http://www.xbrl.org/2003/instance}periodType", "instant")] none [(some pfx, target)] []))⟩
/-- Two schemas that use the id `x`, and a calculation link that refers to the one in `a.xsd`. -/
def first : SchemaDoc := schemaOf "http://ex/a.xsd" "u" "p" [("T", "p_T"), ("X", "x")]
def second : SchemaDoc := schemaOf "http://ex/b.xsd" "v" "q" [("Y", "x")]
def empty : Instance := { ns := [(none, "http://www.xbrl.org/2003/instance")], contexts := [], units := [], facts := [] }
def sums : XNode := .mk (some (linkTag "linkbase")) [] none LinkbaseExample.ns
  [.mk (some (linkTag "calculationLink")) [(xl "type", "extended"), (xl "role", "r")] none LinkbaseExample.ns [loc "t" "p_T", loc "x" "x", ArcsExample.arc "t" "x" "1"]]
def sumsDoc : SchemaDoc := ⟨"http://ex/c.xml", sums⟩
def emptyDoc : SchemaDoc := ⟨"http://ex/i.xml", empty.write⟩
def docs : List SchemaDoc := [first, second] ++ emptyDoc :: [sumsDoc]
def docs' : List SchemaDoc := [second, first] ++ emptyDoc :: [sumsDoc]

theorem noInstance : ∀ d ∈ [first, second, sumsDoc], NoInstance d.root := by
  have h1 : ∀ d ∈ [first, second, sumsDoc], factElements d.root = [] := by decide +kernel
  have h2 : ∀ d ∈ [first, second, sumsDoc], ∀ c ∈ d.root.children, partsOf c = none ∧ c.hasLocal "unit" = false := by decide +kernel
  exact fun d hd => ⟨h1 d hd, h2 d hd⟩

theorem empty_valid {data : ReportElement → Concept} {re : ElemStore} : empty.Valid data sampleDates re := by
  refine ⟨?_, ?_, ?_, ?_, ?_, ?_, ?_, ?_, ?_⟩
  · intro c hc; cases hc
  · intro c hc; cases hc
  · intro c hc; cases hc
  · intro c hc; cases hc
  · intro c hc; cases hc
  · exact List.nodup_nil
  · intro c hc; cases hc
  · intro c hc; cases hc
  · intro c hc; cases hc

theorem docs_valid : ValidFiling sampleDates ArcsExample.float docs :=
  ⟨checkSchemas (by decide +kernel) (by decide +kernel) (by decide +kernel), instances_write (pre := [first, second]) (post := [sumsDoc]) (fun d hd => noInstance d (by simpa using hd)) empty_valid,
    checkLinkbases CalcExample.rank (plainLinks_of (by decide +kernel)) (by decide +kernel), checkRoles (by decide +kernel)⟩

theorem docs'_valid : ValidFiling sampleDates ArcsExample.float docs' :=
  ⟨checkSchemas (by decide +kernel) (by decide +kernel) (by decide +kernel), instances_write (pre := [second, first]) (post := [sumsDoc]) (fun d hd => noInstance d (by simp at hd ⊢; rcases hd with h | h | h <;> simp [h])) empty_valid,
    checkLinkbases CalcExample.rank (plainLinks_of (by decide +kernel)) (by decide +kernel), checkRoles (by decide +kernel)⟩

theorem docs_names : (taxonomyStore docs).byId.get? "x" = some ⟨.concept, ⟨"v", "q", "Y"⟩, some "x", [], 0⟩ ∧ ∀ p ∈ (taxonomyStore docs').byId, p.2.name ≠ ⟨"v", "q", "Y"⟩ := by decide +kernel

end RearrangedExample

open RearrangedExample in
/-- C126 fails: if two schemas use the same id, what the calculation network of a valid filing shows depends on the order of the documents, whatever part of a reference precedes the id. -/
theorem C126_ids_false : ∃ docs docs' : List SchemaDoc, docs.Perm docs' ∧ ValidFiling sampleDates ArcsExample.float docs ∧ ValidFiling sampleDates ArcsExample.float docs' ∧
    (docs.map (·.uri)).Nodup ∧ ((schemaDeclarations docs).map Declaration.name).Nodup ∧
    ∀ str so so' steps steps' o o', openXml sampleDates ArcsExample.float str so steps docs = some (.ok o) → openXml sampleDates ArcsExample.float str so' steps' docs' = some (.ok o') →
      o.networks.Shows "r" .calculation ⟨"v", "q", "Y"⟩ ∧ ¬ o'.networks.Shows "r" .calculation ⟨"v", "q", "Y"⟩ := by
  refine ⟨docs, docs', .swap _ _ _, docs_valid, docs'_valid, by decide +kernel, by decide +kernel, ?_⟩
  intro str so so' steps steps' o o' ho ho'
  have h1 := (opened_shows docs_valid ho).2.objects ("calculationLink", .calculation) (by simp [unitedTags]) "r" ⟨"v", "q", "Y"⟩
  have h2 := (opened_shows docs'_valid ho').2.objects ("calculationLink", .calculation) (by simp [unitedTags]) "r" ⟨"v", "q", "Y"⟩
  dsimp only at h1 h2
  rw [h1, h2]
  constructor
  · have ht : (LinkbaseExample.loc "x" "x").xlinkAttr "type" = some "locator" ∧ (LinkbaseExample.loc "x" "x").xlinkAttr "label" = some "x" ∧ (LinkbaseExample.loc "x" "x").xlinkAttr "href" = some ("a.xsd#" ++ "x") := ⟨rfl, rfl, rfl⟩
    refine ⟨_, sums.children.head (by decide +kernel), "x", ⟨⟨sums, by simp [docs, sumsDoc], [sums.children.head (by decide +kernel)], (below_iff ..).2 ⟨_, List.mem_cons_self, .self⟩, rfl⟩, rfl, rfl, rfl⟩, ?_⟩
    exact ⟨[LinkbaseExample.loc "x" "x"], LinkbaseExample.loc "x" "x", "a.xsd#x", "x", _, ⟨(below_iff ..).2 ⟨_, List.mem_cons_of_mem _ List.mem_cons_self, .self⟩, by simp [LinkbaseExample.loc, XNode.tag], ht.1⟩,
      ht.2.1, ht.2.2, ⟨by decide, Or.inr ⟨"a.xsd", rfl⟩⟩, docs_names.1, rfl⟩
  · rintro ⟨_, _, _, _, _, _, _, i, e, _, _, _, _, he, hq⟩
    unfold Dict.get? at he
    obtain ⟨p, hp, rfl⟩ := Option.map_eq_some_iff.1 he
    exact docs_names.2 p (List.mem_of_find?_eq_some hp) hq

open RearrangedExample in
/-- C126 fails: the children of a node whose arcs state the same order, or none, come in an order that depends on the run of Python. -/
theorem C126_children_false : ∃ (docs : List SchemaDoc) (o o' : OpenedFiling) (net net' : Network) (r r' : Nat), ValidFiling sampleDates ArcsExample.float docs ∧
    openXml sampleDates ArcsExample.float LinkbaseExample.str .insertion 20 docs = some (.ok o) ∧ openXml sampleDates ArcsExample.float LinkbaseExample.str .reversed 20 docs.reverse = some (.ok o') ∧
    net ∈ o.networks.networks.store.getByType .calculation ∧ net' ∈ o'.networks.networks.store.getByType .calculation ∧ net.roots = [r] ∧ net'.roots = [r'] ∧
    (o.networks.networks.heap.children r).map o.networks.networks.heap.targetOf ≠ (o'.networks.networks.heap.children r').map o'.networks.networks.heap.targetOf := by
  have h : (CalcExample.opened ArcsExample.total).map (fun o => (o.networks.networks.store.getByType .calculation).map (fun n => n.roots.map (fun r => (o.networks.networks.heap.children r).map o.networks.networks.heap.targetOf))) =
    some [[[some (.element (LinkbaseExample.nm "X") true), some (.element (LinkbaseExample.nm "Y") true)]]] := by decide +kernel
  have h' : again.map (fun o => (o.networks.networks.store.getByType .calculation).map (fun n => n.roots.map (fun r => (o.networks.networks.heap.children r).map o.networks.networks.heap.targetOf))) =
    some [[[some (.element (LinkbaseExample.nm "Y") true), some (.element (LinkbaseExample.nm "X") true)]]] := by decide +kernel
  obtain ⟨o, ho, h1⟩ := Option.map_eq_some_iff.1 h
  obtain ⟨o', ho', h1'⟩ := Option.map_eq_some_iff.1 h'
  have one : ∀ {α β : Type} {f : α → β} {l : List α} {b : β}, l.map f = [b] → ∃ a, l = [a] ∧ f a = b := by
    intro α β f l b h
    obtain ⟨a, rfl⟩ := List.length_eq_one_iff.1 (by rw [← List.length_map (f := f), h]; rfl)
    exact ⟨a, rfl, by simpa using h⟩
  obtain ⟨net, hn, h2⟩ := one h1
  obtain ⟨net', hn', h2'⟩ := one h1'
  obtain ⟨r, hr, h3⟩ := one h2
  obtain ⟨r', hr', h3'⟩ := one h2'
  refine ⟨_, o, o', net, net', r, r', CalcExample.total_valid, CalcExample.openXml_opened ho, again_opens ho', by rw [hn]; exact List.mem_cons_self, by rw [hn']; exact List.mem_cons_self, hr, hr', ?_⟩
  rw [h3, h3']
  decide

end Brel
