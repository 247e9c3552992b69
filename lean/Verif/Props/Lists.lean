import Verif.Props.Filing
import Verif.Props.Repos

/-! C108: the lists of concepts, abstracts, line items, hypercubes, dimensions and members. -/

namespace Brel

/-- The list a filing has for each class of report elements. -/
def FilingData.listOf (d : FilingData) : ElemKind → List ReportElement
  | .concept => d.getAllConcepts
  | .abstract => d.getAllAbstracts
  | .lineItems => d.getAllLineItems
  | .hypercube => d.getAllHypercubes
  | .dimension => d.getAllDimensions
  | .member => d.getAllMembers

theorem listOf_eq (d : FilingData) (k : ElemKind) : d.listOf k = d.getAllReportElements.filter (fun e => e.kind = k) := by
  cases k <;> rfl

/-- C108. After any history of definitions, an element is in the list of a class if it is the latest with its name and has that class. -/
theorem C108_members (d : FilingData) (hs : List ReportElement) (he : d.elems = ElemStore.run hs) (k : ElemKind) (e : ReportElement) :
    e ∈ d.listOf k ↔ latest (·.name) hs e.name = some e ∧ e.kind = k := by
  rw [listOf_eq, List.mem_filter, FilingData.getAllReportElements, he, (C22_all hs k).2.1, decide_eq_true_eq]

/-- C108. No name occurs twice in all lists together, no element in two lists, and each list keeps the order of the report elements. -/
theorem C108_disjoint (d : FilingData) (hs : List ReportElement) (he : d.elems = ElemStore.run hs) :
    (∀ k, ((d.listOf k).map ReportElement.name).Nodup) ∧
    (∀ k k' e e', e ∈ d.listOf k → e' ∈ d.listOf k' → e.name = e'.name → k = k' ∧ e = e') ∧
    (∀ k, (d.listOf k).Sublist d.getAllReportElements) := by
  have hsub : ∀ k, (d.listOf k).Sublist d.getAllReportElements := fun k => by rw [listOf_eq]; exact List.filter_sublist
  have hall : (d.getAllReportElements.map ReportElement.name).Nodup := by
    rw [FilingData.getAllReportElements, he, (C22_all hs .concept).1]
    refine List.Nodup.sublist ?_ (firstOccurrences_nodup (hs.map ReportElement.name))
    generalize firstOccurrences (hs.map ReportElement.name) = l
    induction l with
    | nil => exact List.Sublist.slnil
    | cons q l ih =>
      rw [List.filterMap_cons]
      split
      · exact ih.cons q
      · rename_i x hx
        rw [List.map_cons, (latest_some _ _ _ _ hx).2]
        exact ih.cons_cons q
  refine ⟨fun k => (hall.sublist ((hsub k).map _)), ?_, hsub⟩
  intro k k' e e' h h' hn
  obtain ⟨h1, h2⟩ := (C108_members d hs he k e).1 h
  obtain ⟨h3, h4⟩ := (C108_members d hs he k' e').1 h'
  rw [hn, h3] at h1
  cases h1
  exact ⟨h2.symm.trans h4, rfl⟩

/-- C108. The six lists together have exactly the report elements of the filing. -/
theorem C108_complete (d : FilingData) : (d.getAllConcepts ++ d.getAllAbstracts ++ d.getAllLineItems ++ d.getAllHypercubes ++ d.getAllDimensions ++ d.getAllMembers).Perm d.getAllReportElements := by
  unfold FilingData.getAllConcepts FilingData.getAllAbstracts FilingData.getAllLineItems FilingData.getAllHypercubes FilingData.getAllDimensions FilingData.getAllMembers
  generalize d.getAllReportElements = l
  rw [List.perm_iff_count]
  intro x
  simp only [List.count_append]
  by_cases hx : x ∈ l
  · have hf : ∀ k, (l.filter (fun e => e.kind = k)).count x = if x.kind = k then l.count x else 0 := by
      intro k
      split
      · rename_i h; exact List.count_filter (by simpa using h)
      · rename_i h; exact List.count_eq_zero_of_not_mem (fun hm => h (by simpa using (List.mem_filter.1 hm).2))
    rw [hf, hf, hf, hf, hf, hf]
    cases x.kind <;> simp
  · rw [List.count_eq_zero_of_not_mem hx]
    have hf : ∀ k, (l.filter (fun e => e.kind = k)).count x = 0 := fun k => List.count_eq_zero_of_not_mem (fun hm => hx (List.mem_filter.1 hm).1)
    rw [hf, hf, hf, hf, hf, hf]

/-- A filing in which an element has been redefined: it is in the list of its new class only. -/
example :
    let hs : List ReportElement := [⟨.concept, ⟨"u", "p", "A"⟩, none, [], 0⟩, ⟨.member, ⟨"u", "p", "B"⟩, none, [], 0⟩, ⟨.abstract, ⟨"u", "p", "A"⟩, none, [], 1⟩]
    let d : FilingData := { elems := ElemStore.run hs }
    (d.listOf .concept).length = 0 ∧ (d.listOf .abstract).map (·.tag) = [1] ∧ (d.listOf .member).length = 1 := by decide +kernel

end Brel
