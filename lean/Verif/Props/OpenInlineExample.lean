import Verif.Props.OpenInline
import Verif.Props.OpenExample
import Verif.Props.InlineInstance
import Verif.Props.RoleRefs

/-! An example for C110: a schema, an inline document with a number, a text and a footnote that is continued and explains the number, labels, presentation links and a role. -/

namespace Brel
open Spec

namespace InlineExample
open LinkbaseExample OpenExample

def ixns : NsMap := sampleNs ++ [(some "xlink", "http://www.w3.org/1999/xlink")]
def context : XNode := .mk (some "{http://www.xbrl.org/2003/instance}context") [("id", "c1")] none ixns [xentity (some "1") "lei" [], xduration "2020-01-01" "2020-12-31"]
def unit : XNode := writeUnit ixns ⟨"EUR", ⟨"u", "p", "EUR"⟩, none⟩
def roleRef : XNode := .mk (some "{http://www.xbrl.org/2003/linkbase}roleRef")
  [("{http://www.w3.org/1999/xlink}type", "simple"), ("{http://www.w3.org/1999/xlink}href", "a.xsd#r"), ("roleURI", "http://a/notes")] none ixns []
def arcroleRef : XNode := .mk (some "{http://www.xbrl.org/2003/linkbase}arcroleRef")
  [("{http://www.w3.org/1999/xlink}type", "simple"), ("{http://www.w3.org/1999/xlink}href", "a.xsd#r"), ("arcroleURI", "http://a/explains")] none ixns []
def relationship : XNode := ixel "relationship" [("fromRefs", "f1 f2"), ("toRefs", "n1"), ("order", "1"), ("linkRole", "http://a/notes")] ixns []
def schemaRef : XNode := .mk (some "{http://www.xbrl.org/2003/linkbase}schemaRef") [] none ixns []
def references : XNode := ixel "references" [("id", "r1")] ixns [schemaRef]
def resources : XNode := ixel "resources" [] ixns [context, unit, roleRef, arcroleRef, relationship]
def header : XNode := ixel "header" [] ixns [references, resources]
def number : InlineElem := inlineElem 1 (ixel "nonFraction" [("id", "f1"), ("name", "p:B"), ("contextRef", "c1"), ("unitRef", "EUR")] ixns []) "100" []
def text : InlineElem := inlineElem 2 (ixel "nonNumeric" [("id", "f2"), ("name", "p:C"), ("contextRef", "c1")] ixns []) "a" []
def footnote : InlineElem := { inlineElem 3 (ixel "footnote" [("id", "n1"), ("continuedAt", "k1")] ixns []) "as of " [] with langs := [none, some "en"] }
def more : InlineElem := inlineElem 4 (ixel "continuation" [("id", "k1")] ixns []) "today" []
def page : SchemaDoc := ⟨"http://ex/i.htm", .mk (some "{http://www.w3.org/1999/xhtml}html") [] none ixns [header]⟩
def docs : List FilingDoc := [⟨schema, []⟩, ⟨page, [number, text, footnote, more]⟩, ⟨⟨"http://ex/l.xml", labelDoc⟩, []⟩, ⟨⟨"http://ex/p.xml", presDoc⟩, []⟩]
def plain : List SchemaDoc := [schema, page, ⟨"http://ex/l.xml", labelDoc⟩, ⟨"http://ex/p.xml", presDoc⟩]
def ds : List InlineDoc := [⟨page.root, [number, text, footnote, more]⟩]

theorem plain_is : docs.map (·.doc) = plain := rfl
theorem ds_is : inlineDocs docs = ds := by rfl
theorem roots_are : docs.map (·.doc.root) = [schema.root, page.root] ++ [labelDoc, presDoc] := rfl

theorem store_is : taxonomyStore plain = LinkbaseExample.elems := by
  have : taxonomy plain = [⟨.abstract, nm "A", some "p_A", [], 0⟩, ⟨.concept, nm "B", some "p_B", [], 0⟩, ⟨.concept, nm "C", some "p_C", [], 0⟩] := by decide +kernel
  unfold taxonomyStore LinkbaseExample.elems
  rw [this]

theorem schemas_valid : ValidSchemas plain := by
  refine ⟨?_, ?_, ?_⟩
  · intro d hd
    have : ∀ d ∈ schemaDeclarations plain, (decide (d.ns ≠ "" ∧ '}' ∉ d.ns.toList ∧ d.x.attr? "name" ≠ some "" ∧ '{' ∉ ((d.x.attr? "name").getD "").toList)) = true := by decide +kernel
    have h := this d hd
    rw [decide_eq_true_eq] at h
    exact h
  · intro d hd _ _ k hk
    have : ∀ d ∈ schemaDeclarations plain, ∀ k ∈ conceptChecks d.x d.name, k.1 = true := by decide +kernel
    exact this d hd k hk
  · intro d hd hg
    have : ∀ d ∈ schemaDeclarations plain, isInfix "dimensionItem".toList ((d.x.attr? "substitutionGroup").getD "").toList = false := by decide +kernel
    have h := (isInfix_iff _ _).2 hg
    rw [this d hd] at h
    cases h

theorem refs_are : headerElems ds "ix:references" = [references] := by rfl
theorem resources_are : headerElems ds "ix:resources" = [resources] := by rfl
theorem contexts_are : resourceElems ds "xbrli:context" = [context] := by rfl
theorem units_are : resourceElems ds "xbrli:unit" = [unit] := by rfl
theorem roleRefs_are : resourceElems ds "link:roleRef" = [roleRef] := by rfl
theorem arcroleRefs_are : resourceElems ds "link:arcroleRef" = [arcroleRef] := by rfl
theorem relationships_are : resourceElems ds "ix:relationship" = [relationship] := by rfl
theorem facts_are : inlineFacts ds = [number, text] := by rfl
theorem footnotes_are : inlineFootnotes ds = [footnote] := by rfl
theorem conts_are : inlineConts ds = [more] := by rfl
theorem links_are' : (inlineConts ds).map (·.link) = [more.link] := by rfl

theorem paths {o : Option String} {cs : List ContElem} (h : Spec.Path (continuationOf [more.link]) o cs) : cs = [] ∨ cs = [more.link] := by
  cases h with
  | done => exact Or.inl rfl
  | unknown h => exact Or.inl rfl
  | step hi hp =>
    have hm := (continuationOf_mem hi).1
    rw [List.mem_singleton] at hm
    subst hm
    have : more.link.continuedAt = none := by rfl
    rw [this] at hp
    cases hp
    exact Or.inr rfl

theorem declarations_valid : ValidDeclarations sampleDates LinkbaseExample.elems ds := by
  have hh : headers ds = [header] := by rfl
  have hd : headerElems ds "ix:hidden" = [] := by rfl
  refine ⟨?_, ?_, ?_, ?_, ?_, ?_, ?_, ?_⟩
  · rw [hh]; simp
  · rw [hh]
    intro h hm
    rw [List.mem_singleton.1 hm]
    refine ⟨?_, by decide +kernel, by decide +kernel⟩
    intro x hx
    simp only [header, ixel, XNode.children, List.mem_cons, List.not_mem_nil, or_false] at hx
    rcases hx with rfl | rfl
    · exact ⟨"ix:references", by simp, by rfl⟩
    · exact ⟨"ix:resources", by simp, by rfl⟩
  · rw [resources_are]; simp
  · rw [refs_are]
    intro x hm
    rw [List.mem_singleton.1 hm]
    refine ⟨by simp [references, ixel, XNode.children], ?_⟩
    intro x hx
    simp only [references, ixel, XNode.children, List.mem_cons, List.not_mem_nil, or_false] at hx
    subst hx
    exact ⟨"link:schemaRef", by simp, by rfl⟩
  · rw [hd]; simp
  · rw [resources_are]
    intro x hm
    rw [List.mem_singleton.1 hm]
    intro x hx
    simp only [resources, ixel, XNode.children, List.mem_cons, List.not_mem_nil, or_false] at hx
    rcases hx with rfl | rfl | rfl | rfl | rfl
    · exact ⟨"xbrli:context", by simp, by rfl⟩
    · exact ⟨"xbrli:unit", by simp, by rfl⟩
    · exact ⟨"link:roleRef", by simp, by rfl⟩
    · exact ⟨"link:arcroleRef", by simp, by rfl⟩
    · exact ⟨"ix:relationship", by simp, by rfl⟩
  · rw [contexts_are]
    intro x hm
    rw [List.mem_singleton.1 hm]
    refine ⟨by rfl, ⟨_, _, by rfl, by decide +kernel, by decide +kernel, ?_⟩⟩
    intro m hm
    cases hm
  · rw [units_are]
    intro x hm
    rw [List.mem_singleton.1 hm]
    exact ⟨by rfl, .simple _ rfl rfl rfl⟩

theorem inline_valid : ValidInline (taxonomyConcept plain) sampleDates sampleDigits sampleFloat LinkbaseExample.elems ds := by
  refine ⟨declarations_valid, ?_, ?_, ?_⟩
  · rw [links_are']
    have hst : (continuable ds).map (·.link) = [text.link, footnote.link] := by rfl
    rw [hst]
    refine ⟨?_, ?_, ?_, ?_, ?_, ?_⟩
    · intro c hm; rw [List.mem_singleton.1 hm]; rfl
    · intro e he i hi
      refine ⟨_, List.mem_singleton.2 rfl, ?_⟩
      simp only [List.cons_append, List.nil_append, List.mem_cons, List.not_mem_nil, or_false] at he
      rcases he with rfl | rfl | rfl
      · cases hi
      · exact hi
      · cases hi
    · decide +kernel
    · intro i n hv
      cases hv with
      | succ h _ =>
        obtain ⟨c, hc, hn⟩ := h
        have hm := (continuationOf_mem hc).1
        rw [List.mem_singleton] at hm
        subst hm
        cases hn
    · intro c hm
      rw [List.mem_singleton.1 hm]
      exact ⟨footnote.link, by simp, [more.link], .step (i := "k1") (by rfl) .done, by simp⟩
    · intro e he cs hp a ha b hb
      have hin : ∀ a ∈ e :: cs, a.inside = [] := by
        intro a ha
        have hc : ∀ a ∈ cs, a = more.link := by
          rcases paths hp with rfl | rfl
          · intro a h; cases h
          · intro a h; exact List.mem_singleton.1 h
        simp only [List.mem_cons, List.not_mem_nil, or_false] at he ha
        rcases ha with rfl | ha
        · rcases he with rfl | rfl <;> rfl
        · rw [hc a ha]; rfl
      rw [hin a ha]; simp
  · rw [facts_are]
    intro e he
    simp only [List.mem_cons, List.not_mem_nil, or_false] at he
    rcases he with rfl | rfl
    · refine ⟨by decide +kernel, ⟨"c1", by rfl, by decide +kernel⟩, ?_, Or.inr ⟨by decide +kernel, ⟨"EUR", by rfl, by decide⟩, _, by rfl, by decide +kernel⟩⟩
      intro u hu _
      have : u = "EUR" := Option.some.inj (hu.symm.trans (by rfl))
      subst this
      decide +kernel
    · refine ⟨by decide +kernel, ⟨"c1", by rfl, by decide +kernel⟩, ?_, Or.inl ⟨by decide +kernel, ?_⟩⟩
      · intro u hu _
        cases hu
      · intro cs hcs hp
        have hn : text.link.continuedAt = none := by rfl
        rw [hn] at hp
        cases cs with
        | nil => exact ⟨_, by rfl, by decide +kernel⟩
        | cons c cs => cases hp
  · exact ⟨by decide +kernel, by decide +kernel⟩

theorem texts_unambiguous : Unambiguous LinkbaseExample.elems (resourceElems ds "xbrli:context") := by
  have hm : membersOf [context] = [] := by rfl
  have he : entitiesOf [context] = [("1", "lei")] := by rfl
  rw [contexts_are]
  refine ⟨?_, ?_, ?_, ?_, ?_⟩
  · intro x hx
    rw [List.mem_singleton.1 hx]
    intro p e hp
    have h : partsOf context = some (xduration "2020-01-01" "2020-12-31", xentity (some "1") "lei" []) := by rfl
    rw [h] at hp
    cases hp
    intro c hc t ht
    simp only [xduration, xel, XNode.children, List.mem_cons, List.not_mem_nil, or_false] at hc
    rcases hc with rfl | rfl <;> (cases ht; decide)
  · rw [he]
    intro a ha b hb _
    rw [List.mem_singleton.1 ha, List.mem_singleton.1 hb]
  all_goals (rw [hm]; intro m h; cases h)

theorem notes_valid : ValidNotes (fun _ => true) LinkbaseExample.float ds := by
  refine ⟨?_, ?_, ?_, ?_, ?_, ?_⟩
  · rw [footnotes_are]
    intro e he
    rw [List.mem_singleton.1 he]
    exact ⟨"n1", by rfl, by decide⟩
  · intros; rfl
  · rw [footnotes_are]
    intro e he
    rw [List.mem_singleton.1 he]
    exact ⟨"en", by rfl, by decide⟩
  · rw [roleRefs_are]
    intro x hx
    rw [List.mem_singleton.1 hx]
    exact ⟨by decide +kernel, by decide +kernel, by decide +kernel, ⟨_, (by decide +kernel : _ = some "a.xsd#r"), by decide, rfl⟩, ⟨_, (by decide +kernel : _ = some "http://a/notes"), by decide, rfl⟩, by decide +kernel⟩
  · rw [arcroleRefs_are]
    intro x hx
    rw [List.mem_singleton.1 hx]
    exact ⟨⟨by decide +kernel, by decide +kernel, by decide +kernel, ⟨_, (by decide +kernel : _ = some "a.xsd#r"), by decide, rfl⟩, ⟨_, (by decide +kernel : _ = some "http://a/explains"), by decide, rfl⟩,
      by decide +kernel⟩, by decide +kernel⟩
  · rw [relationships_are]
    intro x hx
    rw [List.mem_singleton.1 hx]
    have hf : refIds relationship "fromRefs" = ["f1", "f2"] := by decide +kernel
    have ht : refIds relationship "toRefs" = ["n1"] := by decide +kernel
    refine ⟨⟨⟨"f1", ?_⟩, ?_⟩, ⟨⟨"n1", ?_⟩, ?_⟩, ⟨"1", 1, by rfl, by decide, by rfl⟩, ?_⟩
    · rw [← mem_refIds, hf]; simp
    · intro i hi
      rw [← mem_refIds, hf] at hi
      rw [facts_are]
      simp only [List.mem_cons, List.not_mem_nil, or_false] at hi
      rcases hi with rfl | rfl
      · exact ⟨number, by simp, by rfl⟩
      · exact ⟨text, by simp, by rfl⟩
    · rw [← mem_refIds, ht]; simp
    · intro i hi
      rw [← mem_refIds, ht] at hi
      rw [footnotes_are]
      rw [List.mem_singleton.1 hi]
      exact ⟨footnote, by simp, by rfl⟩
    · intro a ha r hr
      refine ⟨?_, rfl⟩
      rintro rfl
      revert hr
      revert a
      decide +kernel

theorem hasLink_only {up : List XNode} {link : XNode} {name role : String} (h : HasLink (docs.map (·.doc.root)) name role up link) : HasLink [labelDoc, presDoc] name role up link := by
  obtain ⟨⟨root, hr, own, hb, hu⟩, ht, hx, hrole⟩ := h
  have no : ∀ r ∈ [schema.root, page.root], ∀ x ∈ r.descendants, x.xlinkAttr "type" ≠ some "extended" := by decide +kernel
  rw [roots_are, List.mem_append] at hr
  rcases hr with h1 | h1
  · exact absurd hx (no root h1 link hb.descendant)
  · exact ⟨⟨root, h1, own, hb, hu⟩, ht, hx, hrole⟩

theorem links_valid (facts : FactStore) : ValidLinkbases (taxonomyStore plain) facts LinkbaseExample.float (docs.map (·.doc.root)) := by
  rw [store_is]
  refine ⟨plainLinks_of (by decide +kernel), ?_, ?_, ?_, ?_, ?_, ?_⟩
  · intro name role up link h
    exact valid_links _ name role up link (hasLink_only h)
  · intro name up link h
    obtain ⟨⟨root, hr, own, hb, _⟩, _, hx⟩ := h
    have all : ∀ r ∈ docs.map (·.doc.root), ∀ x ∈ r.descendants, x.xlinkAttr "type" = some "extended" → (x.xlinkAttr "role").isSome = true := by decide +kernel
    exact Option.isSome_iff_exists.1 (all root hr link hb.descendant hx)
  · intro name role up link h own x href i hp hh hr
    exact Or.inl (locator_is (hasLink_only h) hp hh hr)
  · intro name role up link h own x hp _
    have h := hasLink_only h
    have hl : link = labels := by
      rcases links_are h with ⟨h1, _⟩ | ⟨h1, _⟩
      · exact h1
      · have no : ∀ l ∈ [pres1, pres2], ∀ y ∈ l.descendants, y.xlinkAttr "type" ≠ some "resource" := by decide +kernel
        have hm : link ∈ [pres1, pres2] := by rcases h1 with rfl | rfl <;> simp
        exact absurd hp.type (no link hm x hp.below.descendant)
    obtain ⟨root, _, own', hb, rfl⟩ := h.placed
    obtain ⟨c, _, hc⟩ := (below_iff ..).1 hb
    have hm := lineage_self hc
    refine Option.isSome_iff_exists.1 ?_
    unfold nearestLang
    rw [List.findSome?_isSome_iff]
    refine ⟨link, by simp [hm], ?_⟩
    rw [hl]
    rfl
  · intro name role up link h
    rcases links_are (hasLink_only h) with ⟨rfl, _⟩ | ⟨rfl | rfl, _⟩ <;> decide +kernel
  · intro p hp role up link h l m hj
    have ha := joined_pair hj
    rcases links_are (hasLink_only h) with ⟨_, hn⟩ | ⟨rfl | rfl, _⟩
    · have : ∀ p ∈ unitedTags, p.1 ≠ "labelLink" := by decide
      exact absurd hn (this p hp)
    · have : arcPairs pres1 = [(some "a", some "b")] := by decide +kernel
      rw [this] at ha
      simp only [List.mem_singleton, Prod.mk.injEq, Option.some.injEq] at ha
      rw [ha.1]
      exact ⟨_, locates_pres (id := "p_A") List.mem_cons_self (by decide +kernel) (e := ⟨.abstract, nm "A", some "p_A", [], 0⟩) (by decide +kernel)⟩
    · have : arcPairs pres2 = [(some "x", some "y")] := by decide +kernel
      rw [this] at ha
      simp only [List.mem_singleton, Prod.mk.injEq, Option.some.injEq] at ha
      rw [ha.1]
      exact ⟨_, locates_pres (id := "p_B") List.mem_cons_self (by decide +kernel) (e := ⟨.concept, nm "B", some "p_B", [], 0⟩) (by decide +kernel)⟩

theorem roles_valid : ValidRoles (docs.map (·.doc.root)) := by
  intro x hx
  have hd : (docs.map (·.doc.root)).flatMap declaredRoles = [role] := rfl
  rw [hd, List.mem_singleton] at hx
  subst hx
  refine ⟨"r", ⟨rfl, by decide⟩, ?_⟩
  intro p hp up link h
  rcases links_are (hasLink_only h) with ⟨_, hn⟩ | ⟨_, hn⟩
  · have : ∀ p ∈ unitedTags, p.1 ≠ "labelLink" := by decide
    exact absurd hn (this p hp)
  · rw [hn]
    decide +kernel

theorem filing_valid : ValidInlineFiling sampleDates sampleDigits sampleFloat (fun _ => true) LinkbaseExample.float docs := by
  refine ⟨?_, ?_, ?_, ?_, ?_, ?_, ?_, roles_valid⟩
  · rw [plain_is]; exact schemas_valid
  · rw [plain_is, ds_is, store_is]; exact inline_valid
  · rw [plain_is, ds_is, store_is]; exact texts_unambiguous
  · rw [ds_is]; decide +kernel
  · rw [ds_is]; decide +kernel
  · rw [ds_is]; exact notes_valid
  · intro fs _
    rw [plain_is]
    exact links_valid _

example : ∃ steps o, (∀ j, openXhtml sampleDates sampleDigits sampleFloat (fun _ => true) LinkbaseExample.float LinkbaseExample.str .insertion 2 (steps + j) docs = some (.ok o)) ∧ o.Reports docs ∧
    ShowsInline sampleDates sampleDigits sampleFloat docs o :=
  C110_opens_partial filing_valid (by rw [ds_is]; decide +kernel)

/-- What it says about footnotes: one network, in which the footnote is below the number and below the text. -/
example : (resourceElems (inlineDocs docs) "ix:relationship").map rolesOf = [("http://a/notes", "http://www.xbrl.org/2003/arcrole/fact-footnote")] := by rw [ds_is]; rfl
example : Names relationship "fromRefs" "f2" ∧ Names relationship "toRefs" "n1" ∧ ¬ Names relationship "fromRefs" "f1 f2" := by
  rw [← mem_refIds, ← mem_refIds, ← mem_refIds]; decide +kernel

end InlineExample

end Brel
