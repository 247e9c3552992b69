import Verif.Props.Open
import Verif.Props.Instance
import Verif.Props.LinkValidExample

/-! C105 for filings whose instance document is written as in C97, and an example: a schema, an instance, labels, presentation links and a role. -/

namespace Brel
open Spec

/-- A document that has nothing of an instance in it: no contexts, units or facts. -/
structure NoInstance (r : XNode) : Prop where
  facts : factElements r = []
  parts : ∀ c ∈ r.children, partsOf c = none ∧ c.hasLocal "unit" = false

theorem entitiesOf_none {xs : List XNode} (h : ∀ x ∈ xs, partsOf x = none) : entitiesOf xs = [] := by
  unfold entitiesOf
  rw [List.filterMap_eq_nil_iff]
  intro x hx
  rw [h x hx]
  rfl

theorem membersOf_none {xs : List XNode} (h : ∀ x ∈ xs, partsOf x = none) : membersOf xs = [] := by
  unfold membersOf
  rw [List.flatMap_eq_nil_iff]
  intro x hx
  rw [h x hx]

theorem unambiguous_add {re : ElemStore} {xs ys zs : List XNode} (h : Unambiguous re ys) (hx : ∀ x ∈ xs, partsOf x = none) (hz : ∀ x ∈ zs, partsOf x = none) :
    Unambiguous re (xs ++ (ys ++ zs)) := by
  have he : entitiesOf (xs ++ (ys ++ zs)) = entitiesOf ys := by
    have a := entitiesOf_none hx
    have b := entitiesOf_none hz
    unfold entitiesOf at *
    rw [List.filterMap_append, List.filterMap_append, a, b, List.nil_append, List.append_nil]
  have hm : membersOf (xs ++ (ys ++ zs)) = membersOf ys := by
    have a := membersOf_none hx
    have b := membersOf_none hz
    unfold membersOf at *
    rw [List.flatMap_append, List.flatMap_append, a, b, List.nil_append, List.append_nil]
  refine ⟨?_, ?_, ?_, ?_, ?_⟩
  · intro x hm p e hp
    rw [List.mem_append, List.mem_append] at hm
    rcases hm with h1 | h1 | h1
    · rw [hx x h1] at hp; cases hp
    · exact h.dates x h1 p e hp
    · rw [hz x h1] at hp; cases hp
  · rw [he]; exact h.entities
  · rw [hm]; exact h.axes
  · rw [hm]; exact h.explicit
  · rw [hm]; exact h.typed

/-- An instance document that is written as in C97 and meets the conditions there makes a filing with other documents that are no instances valid. -/
theorem instances_write {dateOf : String → Option Date} {pre post : List SchemaDoc} {uri : String} {i : Instance} (hn : ∀ d ∈ pre ++ post, NoInstance d.root)
    (hv : i.Valid (taxonomyConcept (pre ++ ⟨uri, i.write⟩ :: post)) dateOf (taxonomyStore (pre ++ ⟨uri, i.write⟩ :: post))) : ValidInstances dateOf (pre ++ ⟨uri, i.write⟩ :: post) := by
  have hpre : ∀ d ∈ pre, NoInstance d.root := fun d hd => hn d (List.mem_append_left _ hd)
  have hpost : ∀ d ∈ post, NoInstance d.root := fun d hd => hn d (List.mem_append_right _ hd)
  have hel : elementsOf ((pre ++ ⟨uri, i.write⟩ :: post).map (·.root)) = i.facts.map (fun f => (i.write, writeFact i.ns f)) := by
    unfold elementsOf
    rw [List.map_append, List.map_cons, List.flatMap_append, List.flatMap_cons]
    have nil : ∀ ds : List SchemaDoc, (∀ d ∈ ds, NoInstance d.root) → (ds.map (·.root)).flatMap (fun r => (factElements r).map (fun x => (r, x))) = [] := by
      intro ds h
      rw [List.flatMap_eq_nil_iff]
      intro r hr
      obtain ⟨d, hd, rfl⟩ := List.mem_map.1 hr
      rw [(h d hd).facts]
      rfl
    rw [nil _ hpre, nil _ hpost, List.nil_append, List.append_nil]
    show (factElements i.write).map _ = _
    rw [factElements_write, List.map_map]
    rfl
  have none_of : ∀ ds : List SchemaDoc, (∀ d ∈ ds, NoInstance d.root) → ∀ x ∈ (ds.map (·.root)).flatMap XNode.children, partsOf x = none := by
    intro ds h x hx
    obtain ⟨r, hr, hx⟩ := List.mem_flatMap.1 hx
    obtain ⟨d, hd, rfl⟩ := List.mem_map.1 hr
    exact ((h d hd).parts x hx).1
  refine ⟨?_, ?_, ?_, ?_, ?_, ?_⟩
  · intro p hp
    rw [hel] at hp
    obtain ⟨f, hf, rfl⟩ := List.mem_map.1 hp
    exact validFact_write hv hf
  · intro p hp
    rw [hel] at hp
    obtain ⟨f, hf, rfl⟩ := List.mem_map.1 hp
    intro hh
    cases hh
  · rw [hel, List.map_map]
    exact List.pairwise_map.2 ((List.pairwise_map.1 hv.factIds).imp (fun h hh => h (Option.some.inj hh)))
  · rw [List.map_append, List.map_cons, List.flatMap_append, List.flatMap_cons]
    exact unambiguous_add (unambiguous_write hv) (none_of _ hpre) (none_of _ hpost)
  · have only : ∀ r ∈ (pre ++ ⟨uri, i.write⟩ :: post).map (·.root), ∀ u x, findById r "unit" u = some x → r = i.write := by
      intro r hr u x hx
      obtain ⟨d, hd, rfl⟩ := List.mem_map.1 hr
      rw [List.mem_append, List.mem_cons] at hd
      have no : NoInstance d.root → d.root = i.write := by
        intro h
        unfold findById at hx
        have h1 := List.mem_of_find?_eq_some hx
        have h2 := List.find?_some hx
        rw [(h.parts x h1).2] at h2
        cases h2
      rcases hd with h | rfl | h
      · exact no (hpre d h)
      · rfl
      · exact no (hpost d h)
    intro r hr r' hr' u x x' h1 h2
    rw [only r hr u x h1] at h1
    rw [only r' hr' u x' h2, h1] at h2
    rw [Option.some.inj h2]
  · intro x hx y hy hxy
    rw [hel, List.map_map] at hx hy
    obtain ⟨f, _, rfl⟩ := List.mem_map.1 hx
    obtain ⟨g, _, rfl⟩ := List.mem_map.1 hy
    have hxy' : some f.concept.clark = some g.concept.clark := hxy
    unfold conceptOf
    simp only [Function.comp_apply, writeFact, XNode.tag, XNode.ns, hxy']

namespace OpenExample
open LinkbaseExample

def xsns : NsMap := [(some "p", "u"), (some "xbrldt", dimensionsNs), (some "link", "http://www.xbrl.org/2003/linkbase")]
def item (name : String) (abstract : String) : XNode := .mk (some "{http://www.w3.org/2001/XMLSchema}element") [("name", name), ("id", "p_" ++ name), ("abstract", abstract), ("substitutionGroup", "xbrli:item"),
  ("type", "xbrli:stringItemType"), ("nillable", "true"), ("{http://www.xbrl.org/2003/instance}periodType", "instant")] none xsns []
def role : XNode := .mk (some "{http://www.xbrl.org/2003/linkbase}roleType") [("roleURI", "r")] none xsns
  [.mk (some "{http://www.xbrl.org/2003/linkbase}definition") [] (some "Balance sheet") xsns [], .mk (some "{http://www.xbrl.org/2003/linkbase}usedOn") [] (some "link:presentationLink") xsns []]
def schema : SchemaDoc := ⟨"http://ex/a.xsd", .mk (some "{http://www.w3.org/2001/XMLSchema}schema") [("targetNamespace", "u")] none xsns [.mk (some "annotation") [] none xsns [role], item "A" "true", item "B" "false", item "C" "false"]⟩
def report : Instance where
  ns := [(none, "http://www.xbrl.org/2003/instance"), (some "p", "u"), (some "iso", "w")]
  contexts := [{ id := "c1", scheme := "lei", identifier := "X1", period := .between "2020-01-01" "2020-12-31", dims := [] }]
  units := [{ id := "EUR", measure := ⟨"w", "iso", "EUR"⟩, per := none }]
  facts := [{ id := "f1", concept := ⟨"u", "p", "B"⟩, context := "c1", unit := some "EUR", value := "100" }, { id := "f2", concept := ⟨"u", "p", "C"⟩, context := "c1", unit := none, value := "" }]
def pre : List SchemaDoc := [schema]
def post : List SchemaDoc := [⟨"http://ex/l.xml", labelDoc⟩, ⟨"http://ex/p.xml", presDoc⟩]
def docs : List SchemaDoc := pre ++ ⟨"http://ex/i.xml", report.write⟩ :: post

theorem store_is : taxonomyStore docs = LinkbaseExample.elems := by
  have : taxonomy docs = [⟨.abstract, nm "A", some "p_A", [], 0⟩, ⟨.concept, nm "B", some "p_B", [], 0⟩, ⟨.concept, nm "C", some "p_C", [], 0⟩] := by decide +kernel
  unfold taxonomyStore LinkbaseExample.elems
  rw [this]

theorem schemas_valid : ValidSchemas docs := by
  refine ⟨?_, ?_, ?_⟩
  · intro d hd
    have : ∀ d ∈ schemaDeclarations docs, (decide (d.ns ≠ "" ∧ '}' ∉ d.ns.toList ∧ d.x.attr? "name" ≠ some "" ∧ '{' ∉ ((d.x.attr? "name").getD "").toList)) = true := by decide +kernel
    have h := this d hd
    rw [decide_eq_true_eq] at h
    exact h
  · intro d hd _ _ k hk
    have : ∀ d ∈ schemaDeclarations docs, ∀ k ∈ conceptChecks d.x d.name, k.1 = true := by decide +kernel
    exact this d hd k hk
  · intro d hd hg
    have : ∀ d ∈ schemaDeclarations docs, isInfix "dimensionItem".toList ((d.x.attr? "substitutionGroup").getD "").toList = false := by decide +kernel
    have h := (isInfix_iff _ _).2 hg
    rw [this d hd] at h
    cases h

theorem noInstance : ∀ d ∈ pre ++ post, NoInstance d.root := by
  intro d hd
  have h1 : ∀ d ∈ pre ++ post, factElements d.root = [] := by decide +kernel
  have h2 : ∀ d ∈ pre ++ post, ∀ c ∈ d.root.children, partsOf c = none ∧ c.hasLocal "unit" = false := by decide +kernel
  exact ⟨h1 d hd, h2 d hd⟩

theorem report_valid : report.Valid (taxonomyConcept docs) sampleDates (taxonomyStore docs) := by
  rw [store_is]
  refine ⟨?_, ?_, ?_, ?_, ?_, ?_, ?_, ?_, ?_⟩
  · intro c hc
    simp only [report, List.mem_cons, List.not_mem_nil, or_false] at hc
    subst hc
    exact ⟨by decide, by decide⟩
  · intro c hc c' hc' _
    simp only [report, List.mem_cons, List.not_mem_nil, or_false] at hc hc'
    subst hc hc'
    rfl
  · intro c hc d hd
    simp only [report, List.mem_cons, List.not_mem_nil, or_false] at hc
    subst hc
    cases hd
  · intro u hu
    simp only [report, List.mem_cons, List.not_mem_nil, or_false] at hu
    subst hu
    exact ⟨⟨by decide, by decide, by decide⟩, by intro q hq; cases hq⟩
  · decide
  · decide
  · have hl : LastPrefixOf report.ns (some "p") "u" := ⟨[(none, "http://www.xbrl.org/2003/instance")], [(some "iso", "w")], rfl, by decide⟩
    intro f hf
    simp only [report, List.mem_cons, List.not_mem_nil, or_false] at hf
    rcases hf with rfl | rfl
    · exact ⟨⟨.concept, nm "B", some "p_B", [], 0⟩, by decide +kernel, ⟨by decide, by decide, by decide, by decide⟩, by decide, hl, Or.inl (by decide)⟩
    · exact ⟨⟨.concept, nm "C", some "p_C", [], 0⟩, by decide +kernel, ⟨by decide, by decide, by decide, by decide⟩, by decide, hl, Or.inr (by decide +kernel)⟩
  · intro f hf
    simp only [report, List.mem_cons, List.not_mem_nil, or_false] at hf
    rcases hf with rfl | rfl <;> exact ⟨_, List.mem_cons_self, rfl⟩
  · intro f hf u hu
    simp only [report, List.mem_cons, List.not_mem_nil, or_false] at hf
    rcases hf with rfl | rfl <;> cases hu <;> exact ⟨_, List.mem_cons_self, rfl⟩

theorem extended_only {up : List XNode} {link : XNode} {name : String} (h : ContainsLink (docs.map (·.root)) name up link) : ContainsLink [labelDoc, presDoc] name up link := by
  obtain ⟨⟨root, hr, own, hb, hu⟩, ht, hx⟩ := h
  have no : ∀ r ∈ [schema.root, report.write], ∀ x ∈ r.descendants, x.xlinkAttr "type" = none := by decide +kernel
  have hr' : root ∈ [schema.root, report.write] ∨ root ∈ [labelDoc, presDoc] := by
    have : docs.map (·.root) = [schema.root, report.write] ++ [labelDoc, presDoc] := rfl
    rw [this] at hr
    exact List.mem_append.1 hr
  rcases hr' with h1 | h1
  · rw [no root h1 link hb.descendant] at hx; cases hx
  · exact ⟨⟨root, h1, own, hb, hu⟩, ht, hx⟩

theorem hasLink_only {up : List XNode} {link : XNode} {name role : String} (h : HasLink (docs.map (·.root)) name role up link) : HasLink [labelDoc, presDoc] name role up link := by
  have := extended_only ⟨h.placed, h.tag, h.extended⟩
  exact ⟨this.placed, this.tag, this.extended, h.role⟩

theorem locator_is {name role : String} {up own : List XNode} {link x : XNode} {href i : String} (h : HasLink [labelDoc, presDoc] name role up link) (hp : Part link "locator" own x)
    (hh : x.xlinkAttr "href" = some href) (hr : Refers href i) : ∃ e, LinkbaseExample.elems.byId.get? i = some e := by
  have all : ∀ y ∈ labelDoc.descendants ++ presDoc.descendants, y.xlinkAttr "type" = some "locator" →
      (y.xlinkAttr "href").all (fun h => (LinkbaseExample.elems.byId.get? (String.ofList (fragment h.toList))).isSome) = true := by decide +kernel
  have hx : x ∈ labelDoc.descendants ++ presDoc.descendants := by
    have sub : ∀ l ∈ [labels, pres1, pres2], ∀ y ∈ l.descendants, y ∈ labelDoc.descendants ++ presDoc.descendants := by
      intro l hl y hy
      simp only [List.mem_cons, List.not_mem_nil, or_false] at hl
      have h1 : labelDoc.descendants = note :: labels :: labels.descendants := rfl
      have h2 : presDoc.descendants = pres1 :: (pres1.descendants ++ pres2 :: pres2.descendants) := rfl
      rw [h1, h2]
      rcases hl with rfl | rfl | rfl <;> simp [hy]
    refine sub link ?_ x hp.below.descendant
    rcases links_are h with ⟨rfl, _⟩ | ⟨rfl | rfl, _⟩ <;> simp
  have := all x hx hp.type
  rw [hh, Option.all_some, ← refers_unique hr] at this
  exact Option.isSome_iff_exists.1 this

theorem lineage_self {c x : XNode} {own : List XNode} (h : Lineage c own x) : x ∈ own := by
  cases h <;> simp

theorem links_valid : ValidLinkbases (taxonomyStore docs) (FactStore.run (statedFacts sampleDates docs)) LinkbaseExample.float (docs.map (·.root)) := by
  rw [store_is]
  refine ⟨plainLinks_of (by decide +kernel), ?_, ?_, ?_, ?_, ?_, ?_⟩
  · intro name role up link h
    exact valid_links _ name role up link (hasLink_only h)
  · intro name up link h
    obtain ⟨⟨root, hr, own, hb, _⟩, _, hx⟩ := h
    have all : ∀ r ∈ docs.map (·.root), ∀ x ∈ r.descendants, x.xlinkAttr "type" = some "extended" → (x.xlinkAttr "role").isSome = true := by decide +kernel
    exact Option.isSome_iff_exists.1 (all root hr link hb.descendant hx)
  · intro name role up link h own x href i hp hh hr
    exact Or.inl (locator_is (hasLink_only h) hp hh hr)
  · intro name role up link h own x hp _
    have h := hasLink_only h
    have hl : link = labels := by
      rcases links_are h with ⟨h1, _⟩ | ⟨h1, _⟩
      · exact h1
      · have no : ∀ l ∈ [pres1, pres2], ∀ y ∈ l.descendants, y.xlinkAttr "type" ≠ some "resource" := by decide +kernel
        have hm : link ∈ [pres1, pres2] := by rcases h1 with rfl | rfl <;> simp
        exact absurd hp.type (no link hm x hp.below.descendant)
    obtain ⟨root, _, own', hb, rfl⟩ := h.placed
    obtain ⟨c, _, hc⟩ := (below_iff ..).1 hb
    have hm := lineage_self hc
    refine Option.isSome_iff_exists.1 ?_
    unfold nearestLang
    rw [List.findSome?_isSome_iff]
    refine ⟨link, by simp [hm], ?_⟩
    rw [hl]
    rfl
  · intro name role up link h
    rcases links_are (hasLink_only h) with ⟨rfl, _⟩ | ⟨rfl | rfl, _⟩ <;> decide +kernel
  · intro p hp role up link h l m hj
    have ha := joined_pair hj
    rcases links_are (hasLink_only h) with ⟨_, hn⟩ | ⟨rfl | rfl, _⟩
    · have : ∀ p ∈ unitedTags, p.1 ≠ "labelLink" := by decide
      exact absurd hn (this p hp)
    · have : arcPairs pres1 = [(some "a", some "b")] := by decide +kernel
      rw [this] at ha
      simp only [List.mem_singleton, Prod.mk.injEq, Option.some.injEq] at ha
      rw [ha.1]
      exact ⟨_, locates_pres (id := "p_A") List.mem_cons_self (by decide +kernel) (e := ⟨.abstract, nm "A", some "p_A", [], 0⟩) (by decide +kernel)⟩
    · have : arcPairs pres2 = [(some "x", some "y")] := by decide +kernel
      rw [this] at ha
      simp only [List.mem_singleton, Prod.mk.injEq, Option.some.injEq] at ha
      rw [ha.1]
      exact ⟨_, locates_pres (id := "p_B") List.mem_cons_self (by decide +kernel) (e := ⟨.concept, nm "B", some "p_B", [], 0⟩) (by decide +kernel)⟩

theorem roles_valid : ValidRoles (docs.map (·.root)) := by
  intro x hx
  have hd : (docs.map (·.root)).flatMap declaredRoles = [role] := rfl
  rw [hd, List.mem_singleton] at hx
  subst hx
  refine ⟨"r", ⟨rfl, by decide⟩, ?_⟩
  intro p hp up link h
  rcases links_are (hasLink_only h) with ⟨_, hn⟩ | ⟨_, hn⟩
  · have : ∀ p ∈ unitedTags, p.1 ≠ "labelLink" := by decide
    exact absurd hn (this p hp)
  · rw [hn]
    decide +kernel

theorem filing_valid : ValidFiling sampleDates LinkbaseExample.float docs := ⟨schemas_valid, instances_write noInstance report_valid, links_valid, roles_valid⟩

theorem prefixed : ∀ d ∈ schemaDeclarations docs, d.prefixed := by
  intro d hd
  have : ∀ d ∈ schemaDeclarations docs, d.x.ns = xsns ∧ d.ns = "u" := by decide +kernel
  obtain ⟨h1, h2⟩ := this d hd
  unfold Declaration.prefixed
  rw [h1, h2]
  exact ⟨⟨"p", by decide⟩, by decide⟩

/-- The filing opens without a report; the component for the role has its presentation network, and the facts of `B` are found by that name. -/
example : ∃ steps o, (∀ j, openXml sampleDates LinkbaseExample.float LinkbaseExample.str .insertion (steps + j) docs = some (.ok o)) ∧ o.Silent ∧ ShowsDocuments sampleDates docs o :=
  C105_opens filing_valid
example : (counting (schemaDeclarations docs)).length = 3 ∧ (elementsOf (docs.map (·.root))).length = 2 ∧ ((docs.map (·.root)).flatMap declaredRoles).length = 1 := by decide +kernel
example : ((factsNamed (statedFacts sampleDates docs) (nm "B")).map (fun f => (f.id, f.value))) = [(some "f1", "100")] := by decide +kernel
example := C105_facts_by_concept (str := LinkbaseExample.str) (so := .insertion) filing_valid prefixed

def unroled : XNode := .mk (some (linkTag "label")) [(xl "type", "resource"), (xl "label", "la"), (lang, "en")] (some "Assets") LinkbaseExample.ns []
def unroledLink : XNode := .mk (some (linkTag "labelLink")) [(xl "type", "extended"), (xl "role", "http://www.xbrl.org/2003/role/link")] none LinkbaseExample.ns [loc "a" "p_A", unroled, arc "labelArc" "a" "la" "cl"]
def unroledDoc : XNode := .mk (some (linkTag "linkbase")) [] none LinkbaseExample.ns [unroledLink]
def failure (docs : List SchemaDoc) : Option PyErr :=
  (openXml sampleDates LinkbaseExample.float LinkbaseExample.str .insertion 20 docs).bind (fun r => match r with | .ok _ => none | .error e => some e)

theorem openXml_failure {docs : List SchemaDoc} {e : PyErr} (h : failure docs = some e) : openXml sampleDates LinkbaseExample.float LinkbaseExample.str .insertion 20 docs = some (.error e) := by
  unfold failure at h
  cases ho : openXml sampleDates LinkbaseExample.float LinkbaseExample.str .insertion 20 docs with
  | none => rw [ho] at h; cases h
  | some r =>
    rw [ho] at h
    cases r with
    | ok t => cases h
    | error e => cases h; rfl

end OpenExample

open LinkbaseExample OpenExample in
/-- C105 fails: one label without `xlink:role`, which XBRL 2.1 makes optional, prevents a filing from being opened, although its schemas, instances and other links are valid. -/
theorem C105_role_optional_false : ∃ (docs : List SchemaDoc) (bad : SchemaDoc), ValidFiling sampleDates LinkbaseExample.float docs ∧ bad.root.children = [unroledLink] ∧
    PlainLinks ((docs ++ [bad]).map (·.root)) ∧ unroled.xlinkAttr "role" = none ∧ openXml sampleDates LinkbaseExample.float LinkbaseExample.str .insertion 20 (docs ++ [bad]) = some (.error .valueError) :=
  ⟨OpenExample.docs, ⟨"http://ex/m.xml", unroledDoc⟩, filing_valid, rfl, plainLinks_of (by decide +kernel), by decide, openXml_failure (by decide +kernel)⟩

end Brel
