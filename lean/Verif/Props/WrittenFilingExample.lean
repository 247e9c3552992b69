import Verif.Props.WrittenFiling

/-! A filing for C127: report elements of every kind, two roles, labels in two languages and networks of the three classes. -/

namespace Brel
open Spec

namespace WrittenExample

/-- Three texts are numbers. -/
def float (t : String) : Option Rat := if t = "1" then some 1 else if t = "2" then some 2 else if t = "-1" then some (-1) else none

/-- The calculation network: assets are cash less debts. -/
def calculation : StatedNetwork where
  kind := .calculation
  role := "http://ex/balance"
  objects := ["p_Assets", "p_Cash", "p_Debts"]
  arcs := [{ parent := "p_Assets", child := "p_Cash", arcrole := "http://www.xbrl.org/2003/arcrole/summation-item", order := some "1", weight := some "1" },
    { parent := "p_Assets", child := "p_Debts", arcrole := "http://www.xbrl.org/2003/arcrole/summation-item", order := some "2", weight := some "-1" }]

def presentation : StatedNetwork where
  kind := .presentation
  role := "http://ex/balance"
  objects := ["p_Sheet", "p_Assets", "p_Note"]
  arcs := [{ parent := "p_Sheet", child := "p_Assets", arcrole := "http://www.xbrl.org/2003/arcrole/parent-child", order := some "2", preferredLabel := some "http://www.xbrl.org/2003/role/totalLabel" },
    { parent := "p_Sheet", child := "p_Note", arcrole := "http://www.xbrl.org/2003/arcrole/parent-child", order := some "1" }]

def definition : StatedNetwork where
  kind := .definition
  role := "http://ex/cube"
  objects := ["p_SheetLineItems", "p_Cube", "p_Axis", "p_M"]
  arcs := [{ parent := "p_SheetLineItems", child := "p_Cube", arcrole := "http://xbrl.org/int/dim/arcrole/all" },
    { parent := "p_Cube", child := "p_Axis", arcrole := "http://xbrl.org/int/dim/arcrole/hypercube-dimension" },
    { parent := "p_Axis", child := "p_M", arcrole := "http://xbrl.org/int/dim/arcrole/dimension-domain" }]

def filing : StatedFiling where
  uri := "u"
  pfx := "p"
  elements := [
    { kind := .concept, localName := "Assets", id := "p_Assets", periodType := "instant", balance := some "debit", nillable := false, type := "xbrli:monetaryItemType" },
    { kind := .concept, localName := "Cash", id := "p_Cash", periodType := "instant", balance := some "debit", type := "xbrli:monetaryItemType" },
    { kind := .concept, localName := "Debts", id := "p_Debts", periodType := "instant", balance := some "credit", type := "xbrli:monetaryItemType" },
    { kind := .concept, localName := "Note", id := "p_Note" },
    { kind := .dimension, localName := "Axis", id := "p_Axis" }, { kind := .dimension, localName := "Day", id := "p_Day" },
    { kind := .member, localName := "M", id := "p_M" }, { kind := .hypercube, localName := "Cube", id := "p_Cube" },
    { kind := .lineItems, localName := "SheetLineItems", id := "p_SheetLineItems" }, { kind := .abstract, localName := "Sheet", id := "p_Sheet" }]
  roles := [⟨"http://ex/balance", "Balance sheet"⟩, ⟨"http://ex/cube", ""⟩]
  labels := [{ element := "p_Assets", text := "Assets", language := "en" }, { element := "p_Assets", text := "Aktiva", language := "de" },
    { element := "p_Assets", text := "Total assets", language := "en", role := "http://www.xbrl.org/2003/role/totalLabel" }, { element := "p_Note", text := "", language := "en" }]
  networks := [calculation, presentation, definition, { kind := .presentation, role := "http://ex/cube", objects := [], arcs := [] }]
  report := book

instance (e : StatedElement) : Decidable ("LineItems".toList <:+: e.localName.toList) := decidable_of_iff _ (isInfix_iff _ _)
instance (e : StatedElement) : Decidable ("domainItemType".toList <:+: e.type.toList) := decidable_of_iff _ (isInfix_iff _ _)

theorem elements_valid : ∀ e ∈ filing.elements, e.Valid := by
  have h : ∀ e ∈ filing.elements, (e.localName ≠ "" ∧ '{' ∉ e.localName.toList) ∧ '#' ∉ e.id.toList ∧ (e.kind = .lineItems → "LineItems".toList <:+: e.localName.toList) ∧
      (e.kind = .abstract → ¬ "LineItems".toList <:+: e.localName.toList) ∧ (e.periodType = "instant" ∨ e.periodType = "duration") ∧
      (e.balance = none ∨ e.balance = some "debit" ∨ e.balance = some "credit") ∧ (e.kind = .concept → ¬ "domainItemType".toList <:+: e.type.toList) := by decide +kernel
  intro e he
  obtain ⟨h1, h2, h3, h4, h5, h6, h7⟩ := h e he
  exact ⟨h1, h2, h3, h4, h5, h6, h7⟩

/-- A rank that all networks go up. -/
def rank (i : String) : Nat := if i ∈ ["p_Sheet", "p_SheetLineItems"] then 0 else if i ∈ ["p_Assets", "p_Cube"] then 1 else if i ∈ ["p_Axis", "p_Cash", "p_Debts", "p_Note"] then 2 else 3

theorem numbers {t : String} (h : t ∈ ["1", "2", "-1"]) : t ≠ "" ∧ ∃ v, float t = some v := by
  simp only [List.mem_cons, List.not_mem_nil, or_false] at h
  rcases h with rfl | rfl | rfl
  · exact ⟨by decide, 1, rfl⟩
  · exact ⟨by decide, 2, rfl⟩
  · exact ⟨by decide, -1, rfl⟩

theorem networks_valid : ∀ n ∈ filing.networks, n.Valid filing float := by
  have h : ∀ n ∈ filing.networks, n.kind ∈ [NodeKind.presentation, .calculation, .definition] ∧ (∀ i ∈ n.objects, ∃ e ∈ filing.elements, e.id = i ∧ (n.kind = .calculation → e.kind = .concept)) ∧
      (∀ a ∈ n.arcs, a.parent ∈ n.objects ∧ a.child ∈ n.objects) ∧ (n.arcs.map (fun a => (a.parent, a.child, a.arcrole))).Nodup ∧ (∀ a ∈ n.arcs, rank a.parent < rank a.child) ∧
      (∀ a ∈ n.arcs, ∀ t ∈ a.order, t ∈ ["1", "2", "-1"]) ∧ (∀ a ∈ n.arcs, ∀ t ∈ a.weight, t ∈ ["1", "2", "-1"]) := by decide +kernel
  intro n hn
  obtain ⟨h1, h2, h3, h4, h5, h6, h7⟩ := h n hn
  exact ⟨h1, h2, h3, h4, ⟨rank, h5⟩, fun a ha t ht => numbers (h6 a ha t ht), fun a ha t ht => numbers (h7 a ha t ht)⟩

theorem book_valid : book.Valid filing.data sampleDates filing.store := by
  have hb := Brel.book_valid
  refine ⟨hb.periods, hb.entities, ?_, hb.measures, hb.unitIds, hb.factIds, ?_, hb.contexts, hb.units⟩
  · intro c hc d hd
    refine ⟨?_, (hb.dims c hc d hd).2⟩
    simp only [book, List.mem_cons, List.not_mem_nil, or_false] at hc
    rcases hc with rfl | rfl <;> simp only [List.mem_cons, List.not_mem_nil, or_false] at hd
    rcases hd with rfl | rfl <;> decide +kernel
  · intro f hf
    have ht : ∀ f ∈ book.facts, ∃ e ∈ filing.store.byName.map (·.2), elementOf filing.store .concept f.concept = some e ∧ (f.value ≠ "" ∨ (filing.data e).nillable = true) := by decide +kernel
    obtain ⟨_, _, h2, h3, h4, _⟩ := hb.concepts f hf
    obtain ⟨e, _, h5, h6⟩ := ht f hf
    exact ⟨e, h5, h2, h3, h4, h6⟩

theorem filing_valid : filing.Valid sampleDates float where
  target := by decide +kernel
  pfx := by decide
  elements := elements_valid
  names := by decide +kernel
  ids := by decide +kernel
  labels := by decide +kernel
  networks := networks_valid
  report := book_valid
  typed := by
    intro c hc a t v h
    simp only [filing, book, List.mem_cons, List.not_mem_nil, or_false] at hc
    rcases hc with rfl | rfl <;> simp only [List.mem_cons, List.not_mem_nil, or_false, reduceCtorEq, false_or, StatedDim.typed.injEq] at h
    obtain ⟨_, rfl, _⟩ := h
    decide

example (str : XNode → String) (so : SetOrder) : ∃ steps o, (∀ j, openXml sampleDates float str so (steps + j) filing.write = some (.ok o)) ∧ o.Silent ∧ ShowsStated sampleDates filing o :=
  C127_roundtrip str so filing_valid

theorem agrees : ∀ n ∈ filing.networks, n.Agrees := by
  have h : ∀ n ∈ filing.networks, ∀ a ∈ n.arcs, ∀ a' ∈ n.arcs, a.child = a'.child → a.order = a'.order ∧ a.weight = a'.weight ∧ a.preferredLabel = a'.preferredLabel := by decide +kernel
  exact h

example (str : XNode → String) (so : SetOrder) : ∃ steps o, openXml sampleDates float str so steps filing.write = some (.ok o) ∧ ShowsStatedArcs float filing o ∧
    o.networks.ShowsChild "http://ex/balance" .calculation ⟨"u", "p", "Assets"⟩ ⟨"u", "p", "Debts"⟩ (fun n => n.weight = -1) ∧
    o.components.map (fun c => (c.uri, c.info)) = [("http://ex/balance", "Balance sheet"), ("http://ex/cube", "")] := by
  obtain ⟨steps, o, h1, _, h3⟩ := C127_roundtrip str so filing_valid
  have h4 := C127_arcs_partial str so filing_valid agrees (h1 0)
  refine ⟨steps, o, h1 0, h4, ?_, h3.roles⟩
  refine (h4.weights _ _ _ _).2 ⟨calculation, by simp [filing], rfl, rfl, _, List.mem_cons_of_mem _ List.mem_cons_self, ?_, ?_, Or.inl ⟨"-1", rfl, by decide, rfl⟩⟩
  · exact ⟨_, List.mem_cons_self, rfl, rfl⟩
  · exact ⟨_, List.mem_cons_of_mem _ (List.mem_cons_of_mem _ List.mem_cons_self), rfl, rfl⟩

/-- The kinds of the report elements that are read from the documents of a filing. -/
def kindsShown (s : StatedFiling) : Option (List ElemKind) :=
  match parseReportElements s.write with
  | .ok o => some (o.byName.map (·.2.kind))
  | _ => none

/-- A filing with one report element and nothing else. -/
def single (e : StatedElement) : StatedFiling := { uri := "u", pfx := "p", elements := [e], roles := [], labels := [], networks := [], report := ⟨[], [], [], []⟩ }

end WrittenExample

/-- C127 is false for abstract elements with any name, and for concepts with any type: an abstract element is taken for line items if its name contains `LineItems`, and a concept for a
member if the name of its type contains `domainItemType`. -/
theorem C127_names_false : (∃ e : StatedElement, e.kind = .abstract ∧ WrittenExample.kindsShown (WrittenExample.single e) = some [.lineItems]) ∧
    ∃ e : StatedElement, e.kind = .concept ∧ WrittenExample.kindsShown (WrittenExample.single e) = some [.member] :=
  ⟨⟨{ kind := .abstract, localName := "NotesToLineItemsAbstract", id := "a" }, rfl, by decide +kernel⟩,
   ⟨{ kind := .concept, localName := "Country", id := "a", type := "ex:subdomainItemType" }, rfl, by decide +kernel⟩⟩

end Brel
