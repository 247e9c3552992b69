import Verif.Props.Aggregation
import Verif.Props.CalcNetworkExample

/-! Examples for C120: filings whose sums hold or do not hold, and where the claim fails without its condition. -/

namespace Brel
open Spec

namespace AggregationExample
open CalcExample LinkbaseExample

def float (s : String) : Option Rat := if s = "1" then some 1 else if s = "-1" then some (-1) else if s = "70" then some 70 else if s = "71" then some 71 else if s = "100" then some 100
  else if s = "30" then some 30 else if s = "-30" then some (-30) else if s = "-60" then some (-60) else none

/-- A filing with a total that is right, with one that is wrong, and with two totals that share a summand. -/
def right : List SchemaDoc := docsOf (reportOf "70" "100" "30") ArcsExample.total
def wrong : List SchemaDoc := docsOf (reportOf "71" "100" "30") ArcsExample.total
def shared : List SchemaDoc := docsOf (reportOf "-60" "-30" "30") CalcExample.twice

theorem right_valid : ValidFiling sampleDates float right :=
  filing_valid (by decide) (by decide) (by decide) (plainLinks_of (by decide +kernel)) (by decide +kernel) (checkRoles (by decide +kernel)) (by decide +kernel) (by decide +kernel)
theorem wrong_valid : ValidFiling sampleDates float wrong :=
  filing_valid (by decide) (by decide) (by decide) (plainLinks_of (by decide +kernel)) (by decide +kernel) (checkRoles (by decide +kernel)) (by decide +kernel) (by decide +kernel)
theorem shared_valid : ValidFiling sampleDates float shared :=
  filing_valid (by decide) (by decide) (by decide) (plainLinks_of (by decide +kernel)) (by decide +kernel) (checkRoles (by decide +kernel)) (by decide +kernel) (by decide +kernel)

def opened (docs : List SchemaDoc) : Option OpenedFiling := (openXml sampleDates float str .insertion 20 docs).bind (fun r => match r with | .ok s => some s | .error _ => none)

theorem openXml_opened {docs : List SchemaDoc} {o : OpenedFiling} (h : opened docs = some o) : openXml sampleDates float str .insertion 20 docs = some (.ok o) := by
  unfold opened at h
  cases ho : openXml sampleDates float str .insertion 20 docs with
  | none => rw [ho] at h; cases h
  | some r =>
    rw [ho] at h
    cases r with
    | ok t => cases h; rfl
    | error e => cases h

def checked (o : OpenedFiling) : List (Option (Except PyErr Bool)) := (o.networks.networks.store.getByType .calculation).map (o.isAggregationConsistent float 5 o.facts.facts.getAll)

theorem one (r : Instance) (arcs : List XNode) (h : (linksOfRole [r.write] "calculationLink" "r") = []) (hl : linksOfRole [ArcsExample.doc arcs] "calculationLink" "r" = [ArcsExample.link arcs]) :
    linksOfRole ((docsOf r arcs).map (·.root)) "calculationLink" "r" = [ArcsExample.link arcs] := by
  have h0 : linksOfRole [schema.root] "calculationLink" "r" = [] := by decide +kernel
  have : linksOfRole ((docsOf r arcs).map (·.root)) "calculationLink" "r" = linksOfRole [schema.root] "calculationLink" "r" ++ (linksOfRole [r.write] "calculationLink" "r" ++ linksOfRole [ArcsExample.doc arcs] "calculationLink" "r") := by
    simp [linksOfRole, docsOf]
  rw [this, h0, h, hl]
  rfl

/-- The filings with a total meet the conditions of C120. -/
example : ∃ o net, opened right = some o ∧ linksOfRole (right.map (·.root)) "calculationLink" "r" = [ArcsExample.link ArcsExample.total] ∧ AgreeOn (ArcsExample.link ArcsExample.total) "weight" ∧
    net ∈ o.networks.networks.store.getByType .calculation ∧ net.logicalOf "r" .calculation = true := by
  have h : (opened right).map (fun o => (o.networks.networks.store.getByType .calculation).any (Network.logicalOf "r" .calculation)) = some true := by decide +kernel
  obtain ⟨o, ho, h1⟩ := Option.map_eq_some_iff.1 h
  obtain ⟨net, hn, hl⟩ := List.any_eq_true.1 h1
  exact ⟨o, net, ho, one _ _ (by decide +kernel) rfl, agreeOn_of (by decide +kernel), hn, hl⟩
example : (opened right).map checked = some [some (.ok true)] := by decide +kernel
example : (opened wrong).map checked = some [some (.ok false)] := by decide +kernel

end AggregationExample

open AggregationExample CalcExample LinkbaseExample in
/-- C120 fails: the check of a valid filing succeeds although a total is wrong, if another arc to the summand states another weight. -/
theorem C120_aggregation_false : ∃ (docs : List SchemaDoc) (link : XNode) (o : OpenedFiling) (net : Network), ValidFiling sampleDates AggregationExample.float docs ∧
    openXml sampleDates AggregationExample.float str .insertion 20 docs = some (.ok o) ∧ linksOfRole (docs.map (·.root)) "calculationLink" "r" = [link] ∧
    net ∈ o.networks.networks.store.getByType .calculation ∧ net.logicalOf "r" .calculation = true ∧ o.isAggregationConsistent AggregationExample.float 5 o.facts.facts.getAll net = some (.ok true) ∧
    ∃ l q, Met (taxonomyStore docs) (statedFacts sampleDates docs) link l q ∧ ¬ TotalsHold (taxonomyStore docs) AggregationExample.float (statedFacts sampleDates docs) link l q := by
  have h : (AggregationExample.opened shared).map (fun o => (o.networks.networks.store.getByType .calculation).any (fun net => net.logicalOf "r" .calculation &&
      decide (o.isAggregationConsistent AggregationExample.float 5 o.facts.facts.getAll net = some (.ok true))) &&
      o.facts.facts.getAll.any (fun f => decide (f.getConcept.map (·.name) = .ok (nm "T"))) &&
      o.facts.facts.getAll.any (fun f => decide (f.getConcept.map (·.name) = .ok (nm "X"))) &&
      o.facts.facts.getAll.all (fun f => decide (f.getConcept.map (·.name) = .ok (nm "X") → AggregationExample.float f.value = some (-30))) &&
      o.facts.facts.getAll.all (fun f => decide (f.getConcept.map (·.name) = .ok (nm "Y") → AggregationExample.float f.value = some 30))) = some true := by decide +kernel
  obtain ⟨o, ho, h1⟩ := Option.map_eq_some_iff.1 h
  have hfacts := opened_facts shared_valid (AggregationExample.openXml_opened ho)
  rw [hfacts] at h1
  simp only [Bool.and_eq_true] at h1
  obtain ⟨⟨⟨⟨h1, h2⟩, h3⟩, h4⟩, h5⟩ := h1
  obtain ⟨net, hn, hl⟩ := List.any_eq_true.1 h1
  rw [Bool.and_eq_true, decide_eq_true_eq] at hl
  have named : ∀ q, (statedFacts sampleDates shared).any (fun f => decide (f.getConcept.map (·.name) = .ok q)) = true → ∃ f ∈ statedFacts sampleDates shared, ∃ k, f.HasConcept k ∧ k.name = q := by
    intro q hq
    obtain ⟨f, hf, hc⟩ := List.any_eq_true.1 hq
    obtain ⟨k, hk⟩ := stated_concept f hf
    rw [decide_eq_true_eq, hk.1] at hc
    exact ⟨f, hf, k, hk, Except.ok.inj hc⟩
  refine ⟨shared, ArcsExample.link CalcExample.twice, o, net, shared_valid, AggregationExample.openXml_opened ho, one _ _ (by decide +kernel) rfl, hn, hl.1, by rw [hfacts]; exact hl.2, "x", nm "X", ?_, ?_⟩
  · have hs : taxonomyStore shared = ArcsExample.elems := store_of _ _
    rw [hs]
    have hj : ∀ a b w, ArcsExample.arc a b w ∈ (ArcsExample.link CalcExample.twice).children → Joined (ArcsExample.link CalcExample.twice) a b :=
      fun a b w hm => ⟨_, ArcsExample.arc a b w, "si", child_part hm (by simp [ArcsExample.arc, XNode.tag]) rfl, rfl, rfl, rfl⟩
    refine .under (.top (ArcsExample.at_t _) ?_) (named _ h2) (hj "t" "x" "1" (by simp [ArcsExample.link, CalcExample.twice, XNode.children])) (ArcsExample.at_x _)
    rintro l ⟨own, x, _, hx, _, hto, _⟩
    have : (linkParts (ArcsExample.link CalcExample.twice) "arc").all (fun x => decide (x.xlinkAttr "to" ≠ some "t")) = true := by decide +kernel
    exact absurd hto (of_decide_eq_true (List.all_eq_true.1 this x (part_linkParts hx)))
  · intro ht
    have hsum : summands (ArcsExample.link CalcExample.twice) "x" = [(ArcsExample.arc "x" "y" "1", loc "y" "p_Y")] := rfl
    have hs : taxonomyStore shared = ArcsExample.elems := store_of _ _
    obtain ⟨f, hf, k, hk, hq⟩ := named _ h3
    have hname : locatorName (taxonomyStore shared) (loc "y" "p_Y") = some (nm "Y") := by rw [hs]; decide +kernel
    obtain ⟨v, hv, ha⟩ := ht ⟨_, by rw [hsum]; exact List.mem_singleton.2 rfl, nm "Y", locatorFor_iff.2 hname⟩ f hf ⟨k, hk, hq⟩
    rw [hsum] at ha
    have hv' := of_decide_eq_true (List.all_eq_true.1 h4 f hf) (by rw [hk.1]; exact congrArg Except.ok hq)
    rw [hv] at hv'
    cases hv'
    generalize hz : (-30 : Rat) = z at ha
    cases ha with
    | skip g1 _ => exact g1 _ (locatorFor_iff.2 hname)
    | add g1 g2 g3 g4 g5 =>
      cases g5
      rw [locatorFor_iff, hname] at g1
      cases g1
      obtain ⟨pre, post, e1, ⟨⟨k', e2, e3⟩, _⟩, _⟩ := g2
      have e4 := of_decide_eq_true (List.all_eq_true.1 h5 _ (by rw [e1]; exact List.mem_append_right _ List.mem_cons_self)) (by rw [e2]; exact congrArg Except.ok e3)
      rw [g3] at e4
      cases e4
      have e5 := states_weight.1 g4
      have e6 : arcWeightOf AggregationExample.float (ArcsExample.arc "x" "y" "1") = some 1 := by decide +kernel
      rw [e6] at e5
      cases e5
      exact absurd hz (by decide +kernel)

end Brel
