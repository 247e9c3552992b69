import Verif.Props.CalcNetwork
import Verif.Props.ArcsExample
import Verif.Props.CheckFiling

/-! Examples for C116: a filing with a calculation link, and where the claim fails without its condition. -/

namespace Brel
open Spec

namespace CalcExample

def xsns : NsMap := [(some "p", "u"), (some "link", "http://www.xbrl.org/2003/linkbase")]
def item (name balance : String) : XNode := .mk (some "{http://www.w3.org/2001/XMLSchema}element") [("name", name), ("id", "p_" ++ name), ("substitutionGroup", "xbrli:item"),
  ("type", "xbrli:monetaryItemType"), ("{http://www.xbrl.org/2003/instance}periodType", "instant"), ("{http://www.xbrl.org/2003/instance}balance", balance)] none xsns []
def role : XNode := .mk (some "{http://www.xbrl.org/2003/linkbase}roleType") [("roleURI", "r")] none xsns [.mk (some "{http://www.xbrl.org/2003/linkbase}usedOn") [] (some "link:calculationLink") xsns []]
def schema : SchemaDoc := ⟨"http://ex/a.xsd", .mk (some "{http://www.w3.org/2001/XMLSchema}schema") [("targetNamespace", "u")] none xsns [role, item "T" "debit", item "X" "debit", item "Y" "credit"]⟩
def reportOf (t x y : String) : Instance where
  ns := [(none, "http://www.xbrl.org/2003/instance"), (some "p", "u")]
  contexts := [{ id := "c1", scheme := "lei", identifier := "X1", period := .between "2020-01-01" "2020-12-31", dims := [] }]
  units := []
  facts := [{ id := "f1", concept := ⟨"u", "p", "T"⟩, context := "c1", unit := none, value := t }, { id := "f2", concept := ⟨"u", "p", "X"⟩, context := "c1", unit := none, value := x },
    { id := "f3", concept := ⟨"u", "p", "Y"⟩, context := "c1", unit := none, value := y }]
def docsOf (r : Instance) (arcs : List XNode) : List SchemaDoc := [schema] ++ ⟨"http://ex/i.xml", r.write⟩ :: [⟨"http://ex/c.xml", ArcsExample.doc arcs⟩]
def docs (arcs : List XNode) : List SchemaDoc := docsOf (reportOf "70" "100" "30") arcs
/-- A summand with the other balance that is subtracted from the total, but added to another summand. -/
def twice : List XNode := [ArcsExample.arc "t" "x" "1", ArcsExample.arc "t" "y" "-1", ArcsExample.arc "x" "y" "1"]

theorem declarations_are (r : Instance) (arcs : List XNode) : schemaDeclarations (docsOf r arcs) = schemaDeclarations (docs []) := rfl
theorem store_of (r : Instance) (arcs : List XNode) : taxonomyStore (docsOf r arcs) = ArcsExample.elems := by
  have : taxonomy (docs []) = [⟨.concept, LinkbaseExample.nm "T", some "p_T", [], 0⟩, ⟨.concept, LinkbaseExample.nm "X", some "p_X", [], 0⟩, ⟨.concept, LinkbaseExample.nm "Y", some "p_Y", [], 0⟩] := by decide +kernel
  unfold taxonomyStore ArcsExample.elems
  rw [← this]
  unfold taxonomy
  rw [declarations_are]

theorem store_is (arcs : List XNode) : taxonomyStore (docs arcs) = ArcsExample.elems := store_of _ _

theorem schemas_valid (r : Instance) (arcs : List XNode) : ValidSchemas (docsOf r arcs) := by
  refine checkSchemas ?_ ?_ ?_ <;> rw [declarations_are] <;> decide +kernel

theorem plain_names : ∀ n ∈ ["T", "X", "Y"], IsClark "u" n ∧ "u" ≠ xmlNs := by
  intro n hn
  simp only [List.mem_cons, List.not_mem_nil, or_false] at hn
  rcases hn with rfl | rfl | rfl <;> exact ⟨⟨by decide, by decide, by decide, by decide⟩, by decide⟩

theorem report_valid {t x y : String} (ht : t ≠ "") (hx : x ≠ "") (hy : y ≠ "") (arcs : List XNode) : (reportOf t x y).Valid (taxonomyConcept (docsOf (reportOf t x y) arcs)) sampleDates (taxonomyStore (docsOf (reportOf t x y) arcs)) := by
  rw [store_of]
  refine ⟨?_, ?_, ?_, ?_, ?_, ?_, ?_, ?_, ?_⟩
  · intro c hc
    simp only [reportOf, List.mem_cons, List.not_mem_nil, or_false] at hc
    subst hc
    exact ⟨by decide, by decide⟩
  · intro c hc c' hc' _
    simp only [reportOf, List.mem_cons, List.not_mem_nil, or_false] at hc hc'
    subst hc hc'
    rfl
  · intro c hc d hd
    simp only [reportOf, List.mem_cons, List.not_mem_nil, or_false] at hc
    subst hc
    cases hd
  · intro u hu; cases hu
  · intro u hu; cases hu
  · exact show ["f1", "f2", "f3"].Nodup by decide
  · have hl : LastPrefixOf (reportOf t x y).ns (some "p") "u" := ⟨[(none, "http://www.xbrl.org/2003/instance")], [], rfl, by decide⟩
    intro f hf
    simp only [reportOf, List.mem_cons, List.not_mem_nil, or_false] at hf
    rcases hf with rfl | rfl | rfl
    · exact ⟨⟨.concept, LinkbaseExample.nm "T", some "p_T", [], 0⟩, show elementOf ArcsExample.elems .concept ⟨"u", "p", "T"⟩ = _ by decide +kernel, (plain_names "T" (by decide)).1, (plain_names "T" (by decide)).2, hl, Or.inl ht⟩
    · exact ⟨⟨.concept, LinkbaseExample.nm "X", some "p_X", [], 0⟩, show elementOf ArcsExample.elems .concept ⟨"u", "p", "X"⟩ = _ by decide +kernel, (plain_names "X" (by decide)).1, (plain_names "X" (by decide)).2, hl, Or.inl hx⟩
    · exact ⟨⟨.concept, LinkbaseExample.nm "Y", some "p_Y", [], 0⟩, show elementOf ArcsExample.elems .concept ⟨"u", "p", "Y"⟩ = _ by decide +kernel, (plain_names "Y" (by decide)).1, (plain_names "Y" (by decide)).2, hl, Or.inl hy⟩
  · intro f hf
    simp only [reportOf, List.mem_cons, List.not_mem_nil, or_false] at hf
    rcases hf with rfl | rfl | rfl <;> exact ⟨_, List.mem_cons_self, rfl⟩
  · intro f hf u hu
    simp only [reportOf, List.mem_cons, List.not_mem_nil, or_false] at hf
    rcases hf with rfl | rfl | rfl <;> cases hu

theorem noInstance {arcs : List XNode} (h1 : factElements (ArcsExample.doc arcs) = []) (h2 : ∀ c ∈ (ArcsExample.doc arcs).children, partsOf c = none ∧ c.hasLocal "unit" = false) : ∀ d ∈ [schema] ++ [(⟨"http://ex/c.xml", ArcsExample.doc arcs⟩ : SchemaDoc)], NoInstance d.root := by
  intro d hd
  simp only [List.cons_append, List.nil_append, List.mem_cons, List.not_mem_nil, or_false] at hd
  rcases hd with rfl | rfl
  · have h1 : factElements schema.root = [] := by decide +kernel
    have h2 : ∀ c ∈ schema.root.children, partsOf c = none ∧ c.hasLocal "unit" = false := by decide +kernel
    exact ⟨h1, h2⟩
  · exact ⟨h1, h2⟩

def rank (l : String) : Nat := if l = "t" then 0 else if l = "x" then 1 else 2

theorem filing_valid {float : String → Option Rat} {t x y : String} {arcs : List XNode} (ht : t ≠ "") (hx : x ≠ "") (hy : y ≠ "") (hp : PlainLinks ((docsOf (reportOf t x y) arcs).map (·.root)))
    (h : ((docsOf (reportOf t x y) arcs).map (·.root)).all (fun r => r.descendants.all (fun x => decide (x.xlinkAttr "type" ≠ some "extended") || checkLink ArcsExample.elems float rank x)) = true)
    (hr : ValidRoles ((docsOf (reportOf t x y) arcs).map (·.root))) (h1 : factElements (ArcsExample.doc arcs) = []) (h2 : ∀ c ∈ (ArcsExample.doc arcs).children, partsOf c = none ∧ c.hasLocal "unit" = false) : ValidFiling sampleDates float (docsOf (reportOf t x y) arcs) :=
  ⟨schemas_valid _ _, instances_write (noInstance h1 h2) (report_valid ht hx hy arcs), by rw [store_of]; exact checkLinkbases rank hp h, hr⟩

theorem total_valid : ValidFiling sampleDates ArcsExample.float (docs ArcsExample.total) := filing_valid (by decide) (by decide) (by decide) (plainLinks_of (by decide +kernel)) (by decide +kernel) (checkRoles (by decide +kernel)) (by decide +kernel) (by decide +kernel)
theorem twice_valid : ValidFiling sampleDates ArcsExample.float (docs twice) := filing_valid (by decide) (by decide) (by decide) (plainLinks_of (by decide +kernel)) (by decide +kernel) (checkRoles (by decide +kernel)) (by decide +kernel) (by decide +kernel)

def opened (arcs : List XNode) : Option OpenedFiling := (openXml sampleDates ArcsExample.float LinkbaseExample.str .insertion 20 (docs arcs)).bind (fun r => match r with | .ok s => some s | .error _ => none)

theorem openXml_opened {arcs : List XNode} {o : OpenedFiling} (h : opened arcs = some o) : openXml sampleDates ArcsExample.float LinkbaseExample.str .insertion 20 (docs arcs) = some (.ok o) := by
  unfold opened at h
  cases ho : openXml sampleDates ArcsExample.float LinkbaseExample.str .insertion 20 (docs arcs) with
  | none => rw [ho] at h; cases h
  | some r =>
    rw [ho] at h
    cases r with
    | ok t => cases h; rfl
    | error e => cases h

theorem has (arcs : List XNode) : HasLink ((docs arcs).map (·.root)) "calculationLink" "r" [ArcsExample.link arcs, ArcsExample.doc arcs] (ArcsExample.link arcs) :=
  ⟨⟨ArcsExample.doc arcs, by simp [docs, docsOf], [ArcsExample.link arcs], (below_iff ..).2 ⟨_, List.mem_cons_self, .self⟩, rfl⟩, rfl, rfl, rfl⟩

/-- The checks of the calculation networks of the filing. -/
def checks (o : OpenedFiling) : List (Option Bool) := (o.networks.networks.store.getByType .calculation).map (o.isBalanceConsistent ArcsExample.float 5)

/-- The filing with a total opens, has a calculation network for the role, and meets the conditions of C116. -/
example : ∃ o net, opened ArcsExample.total = some o ∧ net ∈ o.networks.networks.store.getByType .calculation ∧ net.logicalOf "r" .calculation = true ∧
    (∀ up link, HasLink ((docs ArcsExample.total).map (·.root)) "calculationLink" "r" up link → AgreeOn link "weight") := by
  have h : (opened ArcsExample.total).map (fun o => (o.networks.networks.store.getByType .calculation).any (Network.logicalOf "r" .calculation)) = some true := by decide +kernel
  obtain ⟨o, ho, h1⟩ := Option.map_eq_some_iff.1 h
  obtain ⟨net, hn, hl⟩ := List.any_eq_true.1 h1
  refine ⟨o, net, ho, hn, hl, fun up link hh => ?_⟩
  have : ∀ r ∈ (docs ArcsExample.total).map (·.root), ∀ x ∈ r.descendants, x.tag = some (linkTag "calculationLink") →
      ((x.descendants.filter (fun x => decide (x.xlinkAttr "type" = some "arc"))).all (fun y => (x.descendants.filter (fun x => decide (x.xlinkAttr "type" = some "arc"))).all (fun z =>
      decide (y.xlinkAttr "to" ≠ z.xlinkAttr "to") || decide (y.attr? "weight" = z.attr? "weight"))) = true) := by decide +kernel
  obtain ⟨root, hr, own, hb, _⟩ := hh.placed
  exact agreeOn_of (this root hr link hb.descendant hh.tag)
example : (opened ArcsExample.total).map checks = some [some true] := by decide +kernel
/-- The check notices a summand with the other balance that is added. -/
example : (opened [ArcsExample.arc "t" "y" "1"]).map checks = some [some false] := by decide +kernel

end CalcExample

open CalcExample LinkbaseExample in
/-- C116 fails: a calculation network is called balance consistent although concepts of different balances are added, if another arc to the same locator subtracts. -/
theorem C116_balance_false : ∃ (docs : List SchemaDoc) (o : OpenedFiling) (net : Network), ValidFiling sampleDates ArcsExample.float docs ∧
    openXml sampleDates ArcsExample.float LinkbaseExample.str .insertion 20 docs = some (.ok o) ∧ net ∈ o.networks.networks.store.getByType .calculation ∧ net.logicalOf "r" .calculation = true ∧
    o.isBalanceConsistent ArcsExample.float 5 net = some true ∧ ¬ BalancesAgree ArcsExample.float docs "r" := by
  have h : (opened CalcExample.twice).map (fun o => (o.networks.networks.store.getByType .calculation).any (fun net => net.logicalOf "r" .calculation && decide (o.isBalanceConsistent ArcsExample.float 5 net = some true))) =
    some true := by decide +kernel
  obtain ⟨o, ho, h1⟩ := Option.map_eq_some_iff.1 h
  obtain ⟨net, hn, hl⟩ := List.any_eq_true.1 h1
  rw [Bool.and_eq_true, decide_eq_true_eq] at hl
  refine ⟨_, o, net, twice_valid, openXml_opened ho, hn, hl.1, hl.2, fun hb => ?_⟩
  have hw := (hb.weights (nm "X") (nm "Y") 1 ⟨_, _, _, _, ArcsExample.arc "x" "y" "1", has _,
    ⟨_, _, child_part (by simp [ArcsExample.link, CalcExample.twice, XNode.children]) (by simp [ArcsExample.arc, XNode.tag]) rfl, rfl, rfl, rfl⟩,
    by rw [store_is]; exact ArcsExample.at_x _, by rw [store_is]; exact ArcsExample.at_y _, Or.inl ⟨"1", rfl, by decide, by decide +kernel⟩⟩).2 (by decide +kernel)
  exact absurd hw (by decide +kernel)

end Brel
