import Verif.Props.OpenPath
import Verif.Props.OpenInlineExample

/-! Examples for C111: an instance document and an inline document on a server, each with a schema it refers to. -/

namespace Brel
open Spec

namespace PathExample
open LinkbaseExample OpenExample

/-- The address of a document, the address of a schema, and what the document says. -/
def schemaAt : String := "http://ex/a.xsd"
def textOf (u : String) : String := if u = schemaAt then "<xs:schema/>" else if u = "http://ex/i.xml" then "<xbrl><link:schemaRef xlink:href='a.xsd'/></xbrl>" else "<html><link:schemaRef xlink:href=\"a.xsd#p\"/></html>"
def parsed (t : String) : Except PyErr XNode :=
  if t = textOf schemaAt then .ok schema.root else if t = textOf "http://ex/i.xml" then .ok report.write else .ok InlineExample.page.root
def server : LoadEnv where
  web := fun u => if u ∈ [schemaAt, "http://ex/i.xml", "http://ex/i.xhtml"] then some (textOf u) else none
  disk := fun _ => none
  parse := parsed
  join := fun _ u => if isHttp u then u else "http://ex/" ++ u
  urlPath := id
  rewrites := []
  so := .insertion
def opener : OpenEnv where
  load := server
  dateOf := sampleDates
  dig := sampleDigits
  flt := sampleFloat
  validUri := fun _ => true
  float := LinkbaseExample.float
  str := LinkbaseExample.str
  view := fun d => if d.uri = "http://ex/i.xhtml" then [InlineExample.number, InlineExample.text, InlineExample.footnote, InlineExample.more] else []

theorem readable {i : String} (hi : i = "http://ex/i.xml" ∨ i = "http://ex/i.xhtml") : EntriesReadable server [] textOf [i, schemaAt] [i] where
  documents := by
    have key : ∀ v, v = i ∨ v = schemaAt → ∀ u, isHttp v = true → Available server [] u v (textOf v) := by
      intro v hv u hh
      unfold Available
      rw [show Dict.get? ([] : Dict String String) (fileName v) = none from rfl]
      dsimp only
      rw [if_pos (Or.inl hh)]
      unfold server
      dsimp only
      rw [if_pos]
      rcases hv with rfl | rfl
      · rcases hi with rfl | rfl <;> simp
      · simp
    refine ⟨?_, ?_, ?_, ?_, ?_, ?_, ?_⟩
    · rcases hi with rfl | rfl <;> decide +kernel
    · intro u hu
      simp only [List.mem_cons, List.not_mem_nil, or_false] at hu
      rcases hu with rfl | rfl
      · rcases hi with rfl | rfl
        · exact ⟨".xml", by simp, ⟨"http://ex/i".toList, by decide⟩⟩
        · exact ⟨".xhtml", by simp, ⟨"http://ex/i".toList, by decide⟩⟩
      · exact ⟨".xsd", by simp, ⟨"http://ex/a".toList, by decide⟩⟩
    · intro u _
      unfold server parsed
      dsimp only
      split
      · exact ⟨_, rfl⟩
      · split <;> exact ⟨_, rfl⟩
    · intro u hu
      simp only [List.mem_cons, List.not_mem_nil, or_false] at hu
      rcases hu with rfl | rfl
      · rcases hi with rfl | rfl <;> exact ⟨["a.xsd"], by decide +kernel⟩
      · exact ⟨[], by decide +kernel⟩
    · intro u hu v hv
      obtain ⟨rs, r, h1, h2, rfl⟩ := hv
      simp only [List.mem_cons, List.not_mem_nil, or_false] at hu
      rcases hu with rfl | rfl
      · have e1 : extractReferences (textOf u) = .ok ["a.xsd"] := by rcases hi with rfl | rfl <;> decide +kernel
        have e2 : resolveUri server u "a.xsd" = schemaAt := by rcases hi with rfl | rfl <;> decide +kernel
        rw [e1] at h1
        cases h1
        rw [List.mem_singleton.1 h2, e2]
        exact ⟨by simp, key _ (Or.inr rfl) _ (by decide)⟩
      · rw [show extractReferences (textOf schemaAt) = .ok [] by decide +kernel] at h1
        cases h1
        cases h2
    · rcases hi with rfl | rfl <;> decide +kernel
    · intros; rfl
  entries := by
    intro e he
    rw [List.mem_singleton.1 he]
    have e2 : resolveUri server "." i = i := by rcases hi with rfl | rfl <;> decide +kernel
    rw [e2]
    refine ⟨by simp, ?_⟩
    unfold Available
    rw [show Dict.get? ([] : Dict String String) (fileName i) = none from rfl]
    dsimp only
    rw [if_pos (Or.inl (by rcases hi with rfl | rfl <;> decide))]
    rcases hi with rfl | rfl <;> decide +kernel

/-- The documents reached are two, in one order or the other. -/
theorem two_docs {i : String} (hi : i = "http://ex/i.xml" ∨ i = "http://ex/i.xhtml") {t : XNode} (ht : server.parse (textOf i) = .ok t) {docs : List SchemaDoc} (h : ReachedDocs server textOf [i] docs) :
    docs = [schema, ⟨i, t⟩] ∨ docs = [⟨i, t⟩, schema] := by
  have e0 : resolveUri server "." i = i := by rcases hi with rfl | rfl <;> decide +kernel
  have e1 : extractReferences (textOf i) = .ok ["a.xsd"] := by rcases hi with rfl | rfl <;> decide +kernel
  have e2 : resolveUri server i "a.xsd" = schemaAt := by rcases hi with rfl | rfl <;> decide +kernel
  have hps : server.parse (textOf schemaAt) = .ok schema.root := rfl
  have hreach : ∀ k, Reaches server textOf i k → k = i ∨ k = schemaAt := by
    intro k hk
    induction hk with
    | refl => exact Or.inl rfl
    | step _ hr ih =>
      obtain ⟨rs, r, h1, h2, rfl⟩ := hr
      rcases ih with rfl | rfl
      · rw [e1] at h1
        cases h1
        rw [List.mem_singleton.1 h2, e2]
        exact Or.inr rfl
      · rw [show extractReferences (textOf schemaAt) = .ok [] by decide +kernel] at h1
        cases h1
        cases h2
  have hm : ∀ d, d ∈ docs ↔ d = schema ∨ d = ⟨i, t⟩ := by
    intro d
    rw [h.members]
    constructor
    · rintro ⟨⟨e, he, hr⟩, hp⟩
      rw [List.mem_singleton.1 he, e0] at hr
      obtain ⟨u, r⟩ := d
      dsimp only at hr hp
      rcases hreach u hr with rfl | rfl
      · rw [ht] at hp; cases hp; exact Or.inr rfl
      · rw [hps] at hp; cases hp; exact Or.inl rfl
    · rintro (rfl | rfl)
      · exact ⟨⟨i, by simp, by rw [e0]; exact .step .refl ⟨_, _, e1, by simp, e2.symm⟩⟩, hps⟩
      · exact ⟨⟨i, by simp, by rw [e0]; exact .refl⟩, ht⟩
  have hn : docs.Nodup := by
    have := h.once
    exact (List.pairwise_map.1 this).imp (fun hne e => hne (by rw [e]))
  have hne : schema ≠ ⟨i, t⟩ := by
    intro e
    have : schemaAt = i := congrArg SchemaDoc.uri e
    rcases hi with rfl | rfl
    · exact absurd this (by decide)
    · exact absurd this (by decide)
  cases docs with
  | nil => exact absurd ((hm schema).2 (Or.inl rfl)) (by simp)
  | cons a l =>
    have hl : ∀ x ∈ l, x = schema ∨ x = ⟨i, t⟩ := fun x hx => (hm x).1 (List.mem_cons_of_mem _ hx)
    rw [List.nodup_cons] at hn
    cases l with
    | nil =>
      have h1 := (hm schema).2 (Or.inl rfl)
      have h2 := (hm ⟨i, t⟩).2 (Or.inr rfl)
      rw [List.mem_singleton] at h1 h2
      exact absurd (h1.trans h2.symm) hne
    | cons b l =>
      rw [List.nodup_cons] at hn
      have hab : a ≠ b := fun e => hn.1 (by rw [e]; simp)
      have hlnil : l = [] := by
        cases l with
        | nil => rfl
        | cons c l =>
          have hac : a ≠ c := fun e => hn.1 (by rw [e]; simp)
          have hbc : b ≠ c := fun e => hn.2.1 (by rw [e]; simp)
          rcases (hm a).1 (by simp) with ha | ha <;> rcases hl b (by simp) with hb | hb <;> rcases hl c (by simp) with hc | hc
          all_goals first
            | exact absurd (ha.trans hb.symm) hab
            | exact absurd (ha.trans hc.symm) hac
            | exact absurd (hb.trans hc.symm) hbc
      subst hlnil
      rcases (hm a).1 (by simp) with ha | ha <;> rcases hl b (by simp) with hb | hb
      · exact absurd (ha.trans hb.symm) hab
      · rw [ha, hb]; exact Or.inl rfl
      · rw [ha, hb]; exact Or.inr rfl
      · exact absurd (ha.trans hb.symm) hab

/-! ### What holds for both orders -/

section
variable {docs : List SchemaDoc} (hd : schemaDeclarations docs = schemaDeclarations OpenExample.docs)
include hd

theorem concept_is : taxonomyConcept docs = taxonomyConcept OpenExample.docs := by
  funext e
  unfold taxonomyConcept
  rw [hd]

theorem store_is : taxonomyStore docs = taxonomyStore OpenExample.docs := by
  unfold taxonomyStore taxonomy
  rw [hd]

theorem schemas_valid : ValidSchemas docs := by
  refine ⟨?_, ?_, ?_⟩
  · rw [hd]; exact OpenExample.schemas_valid.plain
  · rw [hd]; exact OpenExample.schemas_valid.concepts
  · rw [hd]
    intro d hd hg
    have : ∀ d ∈ schemaDeclarations OpenExample.docs, isInfix "dimensionItem".toList ((d.x.attr? "substitutionGroup").getD "").toList = false := by decide +kernel
    have h := (isInfix_iff _ _).2 hg
    rw [this d hd] at h
    cases h
end

theorem no_links {roots : List XNode} (h : ∀ r ∈ roots, ∀ x ∈ r.descendants, x.xlinkAttr "type" ≠ some "extended") {name : String} {up : List XNode} {link : XNode} :
    ¬ ContainsLink roots name up link := by
  rintro ⟨⟨root, hr, own, hb, _⟩, _, hx⟩
  exact h root hr link hb.descendant hx

theorem no_has {roots : List XNode} (h : ∀ r ∈ roots, ∀ x ∈ r.descendants, x.xlinkAttr "type" ≠ some "extended") {name role : String} {up : List XNode} {link : XNode} :
    ¬ HasLink roots name role up link := fun hl => no_links h ⟨hl.placed, hl.tag, hl.extended⟩

theorem links_valid (elems : ElemStore) (facts : FactStore) (float : String → Option Rat) {roots : List XNode} (h : ∀ r ∈ roots, ∀ x ∈ r.descendants, x.xlinkAttr "type" ≠ some "extended")
    (hp : roots.all (fun r => (r.scoped []).all (fun p => plainNode p.2)) = true) : ValidLinkbases elems facts float roots := by
  refine ⟨plainLinks_of hp, ?_, ?_, ?_, ?_, ?_, ?_⟩
  · intro name role up link hl; exact absurd hl (no_has h)
  · intro name up link hl; exact absurd hl (no_links h)
  · intro name role up link hl; exact absurd hl (no_has h)
  · intro name role up link hl; exact absurd hl (no_has h)
  · intro name role up link hl; exact absurd hl (no_has h)
  · intro p _ role up link hl; exact absurd hl (no_has h)

theorem roles_valid {roots : List XNode} (h : ∀ r ∈ roots, ∀ x ∈ r.descendants, x.xlinkAttr "type" ≠ some "extended") (hr : roots.flatMap declaredRoles = [role]) : ValidRoles roots := by
  intro x hx
  rw [hr, List.mem_singleton] at hx
  subst hx
  exact ⟨"r", ⟨rfl, by decide⟩, fun p _ up link hl => absurd hl (no_has h)⟩

/-! ### The XML filing -/

theorem xml_valid {pre post : List SchemaDoc} (hn : ∀ d ∈ pre ++ post, d = schema) (hd : schemaDeclarations (pre ++ ⟨"http://ex/i.xml", report.write⟩ :: post) = schemaDeclarations OpenExample.docs)
    (h : ∀ r ∈ (pre ++ (⟨"http://ex/i.xml", report.write⟩ : SchemaDoc) :: post).map (·.root), ∀ x ∈ r.descendants, x.xlinkAttr "type" ≠ some "extended")
    (hp : ((pre ++ (⟨"http://ex/i.xml", report.write⟩ : SchemaDoc) :: post).map (·.root)).all (fun r => (r.scoped []).all (fun p => plainNode p.2)) = true)
    (hr : ((pre ++ (⟨"http://ex/i.xml", report.write⟩ : SchemaDoc) :: post).map (·.root)).flatMap declaredRoles = [role]) :
    ValidFiling sampleDates LinkbaseExample.float (pre ++ ⟨"http://ex/i.xml", report.write⟩ :: post) := by
  refine ⟨schemas_valid hd, instances_write ?_ ?_, links_valid _ _ _ h hp, roles_valid h hr⟩
  · intro d hdm
    rw [hn d hdm]
    exact OpenExample.noInstance schema (by simp [OpenExample.pre])
  · rw [concept_is hd, store_is hd]
    exact OpenExample.report_valid

theorem xml_docs {docs : List SchemaDoc} (h : ReachedDocs server textOf ["http://ex/i.xml"] docs) : ValidFiling sampleDates LinkbaseExample.float docs := by
  rcases two_docs (Or.inl rfl) (t := report.write) rfl h with rfl | rfl
  · exact xml_valid (pre := [schema]) (post := []) (by simp) rfl (by decide +kernel) (by decide +kernel) rfl
  · exact xml_valid (pre := []) (post := [schema]) (by simp) rfl (by decide +kernel) (by decide +kernel) rfl

example : ∃ docs steps o, ReachedDocs server textOf ["http://ex/i.xml"] docs ∧ (∀ j, openPath opener 3 0 (steps + j) [] .other [] "http://ex/i.xml" = some (.ok (.xml [] o))) ∧ o.Silent ∧
    ShowsDocuments sampleDates docs o :=
  C111_xml_partial (env := opener) (files := ["http://ex/i.xml"]) (by rfl) (by simp) (.none (by
    intro f hf
    rw [List.mem_singleton.1 hf]
    intro hc
    have := (endsWith_iff _ _).2 hc
    revert this
    decide)) (by intro f hf; rw [List.mem_singleton.1 hf]; exact ⟨".xml", by simp, ⟨"http://ex/i".toList, by decide⟩⟩) (readable (Or.inl rfl)) (by decide) (fun _ h => xml_docs h)

/-! ### The inline filing -/

theorem inline_docs {docs : List SchemaDoc} (h : ReachedDocs server textOf ["http://ex/i.xhtml"] docs) :
    ValidInlineFiling sampleDates sampleDigits sampleFloat (fun _ => true) LinkbaseExample.float (docs.map (fun d => ⟨d, opener.view d⟩)) ∧
      (inlineConts (inlineDocs (docs.map (fun d => ⟨d, opener.view d⟩)))).length < 2 := by
  have key : ∀ docs : List SchemaDoc, inlineDocs (docs.map (fun d => ⟨d, opener.view d⟩)) = InlineExample.ds → schemaDeclarations docs = schemaDeclarations OpenExample.docs →
      (∀ r ∈ docs.map (·.root), ∀ x ∈ r.descendants, x.xlinkAttr "type" ≠ some "extended") → (docs.map (·.root)).all (fun r => (r.scoped []).all (fun p => plainNode p.2)) = true →
      (docs.map (·.root)).flatMap declaredRoles = [role] → ValidInlineFiling sampleDates sampleDigits sampleFloat (fun _ => true) LinkbaseExample.float (docs.map (fun d => ⟨d, opener.view d⟩)) ∧
      (inlineConts (inlineDocs (docs.map (fun d => ⟨d, opener.view d⟩)))).length < 2 := by
    intro docs hds hd h hp hr
    have hroots : (docs.map (fun d => (⟨d, opener.view d⟩ : FilingDoc))).map (·.doc.root) = docs.map (·.root) := by rw [List.map_map]; rfl
    have hdocs : (docs.map (fun d => (⟨d, opener.view d⟩ : FilingDoc))).map (·.doc) = docs := by rw [List.map_map]; exact List.map_id _
    have hst : taxonomyStore docs = LinkbaseExample.elems := (store_is hd).trans OpenExample.store_is
    have hco : taxonomyConcept docs = taxonomyConcept InlineExample.plain := by
      rw [concept_is hd]
      exact (concept_is (docs := InlineExample.plain) rfl).symm
    refine ⟨⟨?_, ?_, ?_, ?_, ?_, ?_, ?_, ?_⟩, ?_⟩
    · rw [hdocs]; exact schemas_valid hd
    · rw [hdocs, hds, hst, hco]; exact InlineExample.inline_valid
    · rw [hdocs, hds, hst]; exact InlineExample.texts_unambiguous
    · rw [hds]; decide +kernel
    · rw [hds]; decide +kernel
    · rw [hds]; exact InlineExample.notes_valid
    · intro fs _
      rw [hdocs, hroots]
      exact links_valid _ _ _ h hp
    · rw [hroots]; exact roles_valid h hr
    · rw [hds]; decide +kernel
  rcases two_docs (Or.inr rfl) (t := InlineExample.page.root) rfl h with rfl | rfl
  · exact key _ (by rfl) (by rfl) (by decide +kernel) (by decide +kernel) rfl
  · exact key _ (by rfl) (by rfl) (by decide +kernel) (by decide +kernel) rfl

example : ∃ docs steps o, ReachedDocs server textOf ["http://ex/i.xhtml"] docs ∧ (∀ j, openPath opener 3 2 (steps + j) [] .other [] "http://ex/i.xhtml" = some (.ok (.xhtml [] o))) ∧
    o.Reports (docs.map (fun d => ⟨d, opener.view d⟩)) ∧ ShowsInline sampleDates sampleDigits sampleFloat (docs.map (fun d => ⟨d, opener.view d⟩)) o :=
  C111_inline_partial (env := opener) (files := ["http://ex/i.xhtml"]) (by rfl) (by simp) (.none (by
    intro f hf
    rw [List.mem_singleton.1 hf]
    intro hc
    have := (endsWith_iff _ _).2 hc
    revert this
    decide)) (by
      refine ⟨?_, "http://ex/i.xhtml", by simp, ".xhtml", by simp, ⟨"http://ex/i".toList, by decide⟩⟩
      intro f hf; rw [List.mem_singleton.1 hf]; exact ⟨".xhtml", by simp, ⟨"http://ex/i".toList, by decide⟩⟩) (readable (Or.inr rfl)) (by decide) (fun _ h => inline_docs h)

/-- Files with a catalog. -/
example : CatalogOf { server with disk := fun _ => some "c", parse := fun _ => .ok (CatalogExample.catalog [CatalogExample.rule "http://a/" "../a/"]) } ["p/a.xml", "p/META-INF/catalog.xml"] ["p/a.xml"]
    [("http://a/".toList, "p/META-INF/../a/".toList)] := by
  refine CatalogOf.some (folder := "p/META-INF") (root := CatalogExample.catalog [CatalogExample.rule "http://a/" "../a/"]) (text := "c") ?_ rfl rfl rfl ?_ ?_
  · refine ⟨["p/a.xml"], [], rfl, ⟨"p/".toList, by decide⟩, ?_, by simp⟩
    intro f hf hc
    rw [List.mem_singleton.1 hf] at hc
    exact absurd ((endsWith_iff _ _).2 hc) (by decide)
  · have h : rules (CatalogExample.catalog [CatalogExample.rule "http://a/" "../a/"]) = [CatalogExample.rule "http://a/" "../a/"] := by rfl
    rw [h]
    intro x hx
    rw [List.mem_singleton.1 hx]
    decide
  · decide +kernel

/-- A text file is refused. -/
example : ∃ e, openPath opener 3 2 9 [] .file [] "notes.txt" = some (.error e) := C111_refused _ _ _ _ _ _ _ _ (by intro files h; cases h)

end PathExample

end Brel
