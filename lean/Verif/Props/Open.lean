import Verif.Spec.Open
import Verif.Props.Schema
import Verif.Props.Instance
import Verif.Props.LinkValid
import Verif.Props.Relations
import Verif.Props.Components
import Verif.Props.Filing

/-! C105: a valid XML filing is opened without an error and shows what its documents say. -/

namespace Brel
open Spec

/-! ## The taxonomy -/

theorem set_mapValues {κ β γ : Type} [DecidableEq κ] (g : β → γ) (d : Dict κ β) (k : κ) (v : β) :
    (d.set k v).map (fun p => (p.1, g p.2)) = Dict.set (d.map (fun p => (p.1, g p.2))) k (g v) := by
  induction d with
  | nil => rfl
  | cons p d ih =>
    obtain ⟨k', v'⟩ := p
    simp only [Dict.set, List.map_cons]
    by_cases h : k' = k
    · simp [h]
    · simp [h, ih]

theorem store_upsert (s : SchemaState) (e : SchemaElement) : (s.upsert e).store = s.store.upsert e.element := by
  unfold SchemaState.upsert ElemStore.upsert SchemaState.store
  have hid : e.element.id = e.id := rfl
  have hname : e.element.name = e.name := rfl
  rw [hid, hname]
  cases e.id <;> simp only [set_mapValues SchemaElement.element]

theorem elemRun_snoc (l : List ReportElement) (e : ReportElement) : ElemStore.run (l ++ [e]) = (ElemStore.run l).upsert e := by
  unfold ElemStore.run
  rw [List.foldl_append]
  rfl

/-- The store is what inserting its elements gives. -/
def StoredInOrder (s : SchemaState) : Prop := s.store = ElemStore.run (s.byName.map (fun p => p.2.element))

theorem StoredInOrder.upsert {s : SchemaState} (h : StoredInOrder s) (e : SchemaElement) (hn : e.name ∉ s.byName.keys) : StoredInOrder (s.upsert e) := by
  unfold StoredInOrder at h ⊢
  have hb : (s.upsert e).byName = s.byName ++ [(e.name, e)] := by
    rw [← Dict.set_of_not_mem s.byName e.name e hn]
    unfold SchemaState.upsert
    cases e.id <;> rfl
  rw [store_upsert, hb, List.map_append, List.map_cons, List.map_nil, elemRun_snoc, h]

theorem StoredInOrder.step {docs : List SchemaDoc} {s s' : SchemaState} {d : Declaration} (h : StoredInOrder s) (hs : schemaStep docs s d = .ok s') : StoredInOrder s' := by
  unfold schemaStep parseReportElement at hs
  simp only [bind, Except.bind, pure, Except.pure] at hs
  cases hn : d.x.attr "name" with
  | error e => rw [hn] at hs; cases hs
  | ok n =>
    rw [hn] at hs
    dsimp only at hs
    cases hq : qnameFromStr ("{" ++ d.ns ++ "}" ++ n) d.x.ns with
    | error e => rw [hq] at hs; cases hs
    | ok q =>
      rw [hq] at hs
      dsimp only at hs
      cases hm : (createElement d.x q).1 with
      | none => rw [hm] at hs; cases hs; exact h
      | some e =>
        obtain ⟨he, _⟩ := createElement_named d.x q hm
        rw [hm] at hs
        dsimp only at hs
        by_cases hh : s.byName.has q = true
        · rw [if_pos hh] at hs; cases hs; exact h
        · rw [if_neg hh] at hs
          have hfresh : q ∉ s.byName.keys := fun h => hh ((Dict.has_iff_mem_keys _ _).2 h)
          have h0 : StoredInOrder { s with errs := s.errs ++ (createElement d.x q).2 } := h
          by_cases hk : e.kind = .dimension
          · rw [if_pos hk] at hs
            cases ht : typedDomain docs d.doc d.x with
            | error er => rw [ht] at hs; cases hs
            | ok t =>
              rw [ht] at hs
              cases hs
              exact h0.upsert { e with typed := t.1 } (by rw [show ({ e with typed := t.1 } : SchemaElement).name = q from he]; exact hfresh)
          · rw [if_neg hk] at hs
            cases hs
            exact h0.upsert e (by rw [he]; exact hfresh)

theorem storedInOrder_of {docs : List SchemaDoc} {s : SchemaState} (h : parseReportElements docs = .ok s) : StoredInOrder s := by
  rw [parseReportElements_steps] at h
  have main : ∀ (ds : List Declaration) (s0 : SchemaState), StoredInOrder s0 → ds.foldlM (schemaStep docs) s0 = .ok s → StoredInOrder s := by
    intro ds
    induction ds with
    | nil => intro s0 h0 h; cases h; exact h0
    | cons d ds ih =>
      intro s0 h0 h
      rw [List.foldlM_cons] at h
      cases hd : schemaStep docs s0 d with
      | error e => rw [hd] at h; cases h
      | ok s1 => rw [hd] at h; exact ih s1 (h0.step hd) h
  exact main _ {} rfl h

theorem declared_elements {docs : List SchemaDoc} {ds : List Declaration} {es : List SchemaElement} (h : Rel2 (DeclaredAs docs) ds es) :
    es.map SchemaElement.element = ds.filterMap (fun d => (createElement d.x d.name).1.map (·.element)) := by
  induction h with
  | nil => rfl
  | @cons d e ds es h1 _ ih =>
    obtain ⟨e0, h2, h3, h4, _⟩ := h1.made
    rw [List.map_cons, List.filterMap_cons, h2, Option.map_some]
    have : e0.element = e.element := by
      unfold SchemaElement.element
      rw [h3, h4, (createElement_named _ _ h2).1, ← h1.name]
    rw [ih, this]

theorem declared_concept {docs : List SchemaDoc} {ds : List Declaration} {d : Dict QName SchemaElement} (h : Rel2 (DeclaredAs docs) ds (d.map (·.2))) (hk : ∀ e ∈ d, e.1 = e.2.name) (q : QName) :
    (d.get? q).bind (·.concept) = (ds.find? (fun d => decide (d.name = q))).bind (fun d => (createElement d.x d.name).1.bind (·.concept)) := by
  induction d generalizing ds with
  | nil => cases h; rfl
  | cons p d ih =>
    obtain ⟨k, e⟩ := p
    cases h with
    | @cons dc _ _ _ h1 h2 =>
      have hke : k = e.name := hk (k, e) (by simp)
      unfold Dict.get?
      rw [List.find?_cons, List.find?_cons]
      by_cases hq : e.name = q
      · have : (decide (k = q)) = true := by simp [hke, hq]
        rw [this]
        have : (decide (dc.name = q)) = true := by simpa using h1.name.symm.trans hq
        rw [this]
        obtain ⟨e0, g2, _, _, g5⟩ := h1.made
        simp [g2, g5]
      · have : (decide (k = q)) = false := by simp [hke, hq]
        rw [this]
        have : (decide (dc.name = q)) = false := by simpa using fun hh => hq (h1.name.trans hh)
        rw [this]
        exact ih h2 (fun x hx => hk x (by simp [hx]))

/-- The repository of report elements after the schemas were read. -/
theorem taxonomy_of {docs : List SchemaDoc} {s : SchemaState} (h : parseReportElements docs = .ok s) (hp : ∀ d ∈ schemaDeclarations docs, d.plain) :
    s.store = taxonomyStore docs ∧ s.concept = taxonomyConcept docs := by
  have hc := C85_elements docs hp
  rw [h] at hc
  obtain ⟨h1, h2, _⟩ := hc
  constructor
  · rw [storedInOrder_of h]
    unfold taxonomyStore taxonomy
    rw [← declared_elements h1, List.map_map]
    rfl
  · funext e
    unfold SchemaState.concept taxonomyConcept
    rw [declared_concept h1 h2]

theorem schemas_read {docs : List SchemaDoc} (hv : ValidSchemas docs) :
    ∃ s, parseReportElements docs = .ok s ∧ s.errs = [] ∧ Rel2 (DeclaredAs docs) (counting (schemaDeclarations docs)) (s.byName.map (·.2)) := by
  have hmem : ∀ d ∈ counting (schemaDeclarations docs), d ∈ schemaDeclarations docs := fun d hd => (List.mem_filter.1 (mem_of_firstByKey hd)).1
  have htyped : ∀ d ∈ counting (schemaDeclarations docs), (createElement d.x d.name).1.map (·.kind) = some .dimension → ∃ t, typedDomain docs d.doc d.x = .ok (t, []) := by
    intro d hd hk
    obtain ⟨_, _, _, k4, _⟩ := C43_kinds d.x d.name
    obtain ⟨_, _, _, hg⟩ := k4.1 hk
    obtain ⟨hns, href⟩ := hv.dimensions d (hmem d hd) hg
    obtain ⟨c1, c2, _⟩ := C86_typed_partial docs d.doc d.x hns
    cases hr : d.x.domainRef with
    | none => exact ⟨none, c1 hr⟩
    | some ref =>
      obtain ⟨uri, i, target, e, t, rfl, h1, h2, h3, h4, h5⟩ := href ref hr
      have := (c2 uri i target hr h1 h2 h3).1 e h4
      rw [h5] at this
      obtain ⟨q, hq⟩ : ∃ q, qnameFromStr t e.ns = .ok q := qnameFromStr_total t e.ns
      exact ⟨some q, by rw [this]; dsimp only; rw [hq]; rfl⟩
  have hc := C85_elements docs hv.plain
  cases hr : parseReportElements docs with
  | error e =>
    rw [hr] at hc
    obtain ⟨d, hd, hk, ht⟩ := hc
    obtain ⟨t, ht'⟩ := htyped d hd hk
    rw [ht] at ht'
    cases ht'
  | ok s =>
    rw [hr] at hc
    obtain ⟨h1, _, _, _, h5⟩ := hc
    refine ⟨s, rfl, ?_, h1⟩
    have hnil : (schemaDeclarations docs).flatMap (fun d => (createElement d.x d.name).2) ++ (counting (schemaDeclarations docs)).flatMap (typeReports docs) = [] := by
      rw [List.append_eq_nil_iff, List.flatMap_eq_nil_iff, List.flatMap_eq_nil_iff]
      constructor
      · intro d hd
        obtain ⟨_, k2, k3⟩ := C85_created d.x d.name
        by_cases hi : ¬ typeHas d.x "domainItemType" ∧ d.x.attr? "abstract" ≠ some "true" ∧ groupHas d.x "item"
        · rw [k2 hi, List.find?_eq_none.2]
          · rfl
          · intro k hk
            simp [hv.concepts d hd hi.2.1 hi.2.2 k hk]
        · exact k3 hi
      · intro d hd
        unfold typeReports
        by_cases hk : (createElement d.x d.name).1.map (·.kind) = some .dimension
        · obtain ⟨t, ht⟩ := htyped d hd hk
          rw [if_pos hk, ht]
        · rw [if_neg hk]
    rw [hnil] at h5
    exact h5.eq_nil

/-! ## The networks and components -/

variable {elems : ElemStore} {facts : FactStore} {float : String → Option Rat} {str : XNode → String} {so : SetOrder} {steps : Nat} {roots : List XNode} {s : ReadNetworks}

theorem class_name : ∀ p ∈ tagKinds, ∀ k' ∈ p.2, ∀ p' ∈ unitedTags, p'.2 = k'.nodeKind → p.1 = p'.1 := by decide +kernel

/-- A network of the role and the class comes from a link of the role with the tag. -/
theorem parsed_link (h : readNetworks elems facts float str so steps roots = some (.ok s)) (hp : PlainLinks roots) {h1 : Heap} {parsed : List Network}
    (hrun : LinkRun so [] (inOrder ((linkNodes roots).map (linkOf elems facts float str))) h1 parsed s.networks.labels)
    {name : String} {k : NodeKind} (hk : (name, k) ∈ unitedTags) {n : Network} (hn : n ∈ parsed) (hkind : n.kind = k) : ∃ up link, HasLink roots name n.linkRole up link := by
  obtain ⟨lx, hlx, r, hr, k', hk', h0, res, hpl, hnr, hkept⟩ := hrun.networks_of.2.1 n hn
  rw [mem_inOrder] at hlx
  obtain ⟨l, hlm, rfl⟩ := List.mem_map.1 hlx
  obtain ⟨c1, c2, _, _⟩ := (C20_networks hpl).1 n hnr
  subst c1
  have hrole' : l.node.xlinkAttr "role" = some n.linkRole := by
    rw [role_eq, linkOf_node, xlink?_eq (hp.scope_link hlm) (by decide +kernel) (by decide +kernel)] at hr
    exact Except.ok.inj hr
  obtain ⟨name', hn', ht⟩ := hp.tag_link hlm
  obtain ⟨p, hpt, rfl⟩ := List.mem_map.1 hn'
  rw [linkOf_node, ht, Option.getD_some, linkKinds_names p hpt] at hk'
  have hname := class_name p hpt k' hk' (name, k) hk (by rw [← c2, hkind])
  dsimp only at hname
  rw [hname] at ht
  obtain ⟨up, hlink, _⟩ := node_hasLink hlm ht hrole'
  exact ⟨up, _, hlink⟩

theorem ofKind_candidates {stored : List Network} {x : XNode} {r : String} {c : ComponentOf Network} (h : IsComponentOf stored x r c) {p : String × NodeKind} (hp : p ∈ unitedTags) :
    c.ofKind p.2 = (candidates stored r p.2).head? := by
  simp only [unitedTags, List.mem_cons, List.not_mem_nil, or_false] at hp
  rcases hp with rfl | rfl | rfl
  · exact h.presentation
  · exact h.calculation
  · exact h.definition

theorem united_class : ∀ p ∈ unitedTags, p.2 ∈ [NodeKind.presentation, .calculation, .definition] := by decide
theorem class_united : ∀ c ∈ componentClasses, ∃ p ∈ unitedTags, p.2 = c.1 ∧ c.2.1 = "link:" ++ p.1 := by decide +kernel

theorem components_read (h : readNetworks elems facts float str so steps roots = some (.ok s)) (hp : PlainLinks roots) (hv : ValidRoles roots) :
    ∃ cs, parseComponents s.networks.store roots = .ok (cs, []) ∧ Rel2 (ShownComponent s) (roots.flatMap declaredRoles) cs := by
  obtain ⟨hparse, _, _, _⟩ := readNetworks_ok h
  obtain ⟨h1, parsed, stored, hst, hrun, hone, hcand, hex⟩ := filing_store hparse
  obtain ⟨cs, hcs, hrel⟩ := C42_all stored roots (fun x hx => (hv x hx).imp (fun r hr => hr.1))
  have hreports : (roots.flatMap declaredRoles).flatMap (fun x => roleReports stored x ((x.attr? "roleURI").getD "")) = [] := by
    rw [List.flatMap_eq_nil_iff]
    intro x hx
    obtain ⟨r, hr, hused⟩ := hv x hx
    rw [hr.1, Option.getD_some]
    unfold roleReports
    rw [List.append_eq_nil_iff, List.map_eq_nil_iff, List.map_eq_nil_iff, List.filter_eq_nil_iff, List.filter_eq_nil_iff]
    constructor
    · intro cl hcl hh
      simp only [Bool.and_eq_true, decide_eq_true_iff] at hh
      obtain ⟨n, hn, hnr, hnk⟩ := (hex r cl.1).1 hh.1
      obtain ⟨p, hpu, hp1, hp2⟩ := class_united cl hcl
      obtain ⟨up, link, hl⟩ := parsed_link h hp hrun (name := p.1) (k := p.2) hpu hn (hnk.trans hp1.symm)
      rw [hnr] at hl
      exact hh.2 (by rw [hp2]; exact hused p hpu up link hl)
    · intro cl hcl hh
      obtain ⟨p, hpu, hp1, _⟩ := class_united cl hcl
      rw [hcand r cl.1 (hp1 ▸ united_class p hpu)] at hh
      rcases hone r cl.1 with ⟨_, ha⟩ | ⟨net, ha, _⟩ <;> simp [ha] at hh
  refine ⟨cs, by rw [hst, hcs, hreports], ?_⟩
  refine hrel.imp ?_
  intro x hx c hc
  obtain ⟨r, hr, _⟩ := hv x hx
  rw [hr.1, Option.getD_some] at hc
  refine ⟨by rw [hr.1, hc.uri], hc.info, ?_⟩
  intro p hpu net
  rw [ofKind_candidates hc hpu, hcand r p.2 (united_class p hpu), hc.uri, ← List.mem_filter]
  rcases hone r p.2 with ⟨_, ha⟩ | ⟨net', ha, _⟩
  · simp [ha]
  · simp [ha, eq_comm]

/-! ## The filing -/

theorem filterMap_of_map {α β : Type} {f : α → Option β} {l : List α} {r : List β} (h : l.map f = r.map some) : l.filterMap f = r := by
  have : (l.map f).filterMap id = l.filterMap f := by rw [List.filterMap_map]; rfl
  rw [← this, h, List.filterMap_map]
  exact List.filterMap_some

/-- C105: a valid filing is opened without an exception and without a report, and shows what its documents say: the report elements they declare, the facts they state, the labels, the
networks and the components. The traversals of the networks end. -/
theorem C105_opens {dateOf : String → Option Date} {docs : List SchemaDoc} (hv : ValidFiling dateOf float docs) :
    ∃ steps o, (∀ j, openXml dateOf float str so (steps + j) docs = some (.ok o)) ∧ o.Silent ∧ ShowsDocuments dateOf docs o := by
  obtain ⟨s, hs, herr, hrel⟩ := schemas_read hv.schemas
  obtain ⟨hst, hco⟩ := taxonomy_of hs hv.schemas.plain
  obtain ⟨fs, fst, hf1, hf2, hf3, hf4, hf5⟩ := C96_accepted_partial (dateOf := dateOf) hv.instances.texts hv.instances.units hv.instances.concepts hv.instances.facts
  have hstated : statedFacts dateOf docs = fs := filterMap_of_map hf3
  have hl := hv.links
  rw [hstated, ← hf4] at hl
  obtain ⟨steps, n, hn, hn1, hn2⟩ := C102_silent (str := str) (so := so) hl.plain hl.valid hl.roles hl.resolved hl.languages hl.once
  obtain ⟨cs, hcs, hcrel⟩ := components_read (hn 0) hl.plain hv.components
  refine ⟨steps, { namespaces := registerPrefixes (docs.map (·.root)), elements := s, facts := fst, networks := n, components := cs, componentReports := [] }, ?_, ⟨herr, hf2, ⟨hn1, hn2⟩, rfl⟩, ?_⟩
  · intro j
    unfold openXml
    dsimp only
    rw [hs]
    dsimp only
    rw [hco, hst, hf1]
    dsimp only
    rw [hn j]
    simp only [Option.map_some, Except.bind, hcs, Except.map]
  · have hrooted : ∀ p ∈ unitedTags, ∀ role up link, HasLink (docs.map (·.root)) p.1 role up link → Rooted (taxonomyStore docs) link :=
      fun p hp role up link h => ⟨(hl.valid p.1 role up link h).acyclic, hl.sources p hp role up link h⟩
    refine ⟨hrel, ?_, ?_, ?_, ?_, hcrel⟩
    · rw [hf5 hv.instances.identified hv.instances.distinct, hf3]
    · refine C100_labels (hn 0) hl.plain ?_
      intro up link role h l m hj own x hx hm
      exact ((hl.valid _ role up link h).labels rfl).2 own x m hx hm l hj
    · intro p hp role q
      refine ⟨(C101_nothing_else (hn 0) hl.plain (name := p.1) (k := p.2) hp).1 q, ?_⟩
      rintro ⟨up, link, l, h1, h2⟩
      exact (C101_everything (hn 0) hl.plain (name := p.1) (k := p.2) hp h1 (hrooted p hp role up link h1)).1 l q h2
    · intro p hp role q q'
      refine ⟨(C101_nothing_else (hn 0) hl.plain (name := p.1) (k := p.2) hp).2 q q', ?_⟩
      rintro ⟨up, link, l, m, h1, h2, h3, h4⟩
      exact (C101_everything (hn 0) hl.plain (name := p.1) (k := p.2) hp h1 (hrooted p hp role up link h1)).2 l m q q' h2 h3 h4

/-! ## Searching -/

theorem taxonomy_mem {docs : List SchemaDoc} {e : ReportElement} (h : e ∈ taxonomy docs) : ∃ d ∈ counting (schemaDeclarations docs), e.name = d.name ∧ e.id = d.x.attr? "id" ∧
    (createElement d.x d.name).1.map (·.kind) = some e.kind := by
  obtain ⟨d, hd, he⟩ := List.mem_filterMap.1 h
  obtain ⟨e0, h0, rfl⟩ := Option.map_eq_some_iff.1 he
  obtain ⟨k1, _⟩ := C85_created d.x d.name
  exact ⟨d, hd, (k1 e0 h0).1, (k1 e0 h0).2.1, by rw [h0]; rfl⟩

theorem taxonomy_names (docs : List SchemaDoc) : ((taxonomy docs).map (·.name)).Nodup := by
  have hsub : ∀ ds : List Declaration, ((ds.filterMap (fun d => (createElement d.x d.name).1.map (·.element))).map (·.name)).Sublist (ds.map Declaration.name) := by
    intro ds
    induction ds with
    | nil => exact .slnil
    | cons d ds ih =>
      rw [List.filterMap_cons, List.map_cons]
      cases hm : (createElement d.x d.name).1 with
      | none => exact ih.cons _
      | some e =>
        rw [Option.map_some, List.map_cons, show e.element.name = d.name from (createElement_named _ _ hm).1]
        exact ih.cons_cons _
  exact (hsub _).nodup (firstByKey_keys_nodup _ _)

theorem latest_of_distinct {α κ : Type} [DecidableEq κ] (k : α → κ) (l : List α) (h : (l.map k).Nodup) (x : α) : latest k l (k x) = some x ↔ x ∈ l := by
  constructor
  · intro hl; exact (latest_some _ _ _ _ hl).1
  · intro hx
    obtain ⟨pre, post, rfl⟩ := List.append_of_mem hx
    refine (latest_eq_some_iff _ _ _ _).2 ⟨pre, post, rfl, rfl, ?_⟩
    intro y hy he
    rw [List.map_append, List.map_cons, List.nodup_append] at h
    have := (List.nodup_cons.1 h.2.1).1
    exact this (he ▸ List.mem_map_of_mem hy)

theorem declaration_place {docs : List SchemaDoc} {d : Declaration} (h : d ∈ schemaDeclarations docs) : d.doc ∈ docs ∧ d.x ∈ d.doc.root.descendants := by
  unfold schemaDeclarations at h
  obtain ⟨c, hc, hd⟩ := List.mem_flatMap.1 h
  cases ht : c.root.attr? "targetNamespace" with
  | none => rw [ht] at hd; cases hd
  | some ns =>
    rw [ht] at hd
    obtain ⟨x, hx, rfl⟩ := List.mem_map.1 hd
    exact ⟨hc, (List.mem_filter.1 hx).1⟩

theorem name_registered {docs : List SchemaDoc} {d : Declaration} (h : d ∈ schemaDeclarations docs) (hp : d.prefixed) :
    (d.name.pfx, d.name.uri) ∈ registeredNamespaces (((docs.map (·.root)).flatMap (fun r => r :: r.descendants)).map (·.ns)) := by
  obtain ⟨h1, h2⟩ := declaration_place h
  unfold registeredNamespaces Declaration.name
  dsimp only
  by_cases hx : d.ns = xmlNs
  · rw [if_pos hx, hx]; exact List.mem_cons_self
  · rw [if_neg hx]
    obtain ⟨⟨p0, hp0⟩, hn⟩ := hp
    obtain ⟨p, hpm, hpe⟩ := invertNs_bound d.x.ns d.ns (some p0) hp0
    cases p with
    | none => exact absurd hpm hn
    | some p =>
      rw [hpe]
      refine List.mem_cons_of_mem _ (List.mem_flatMap.2 ⟨d.x.ns, List.mem_map.2 ⟨d.x, List.mem_flatMap.2 ⟨d.doc.root, List.mem_map_of_mem h1, List.mem_cons_of_mem _ h2⟩, rfl⟩, ?_⟩)
      exact List.mem_filterMap.2 ⟨(some p, d.ns), hpm, rfl⟩

theorem openXml_parts {dateOf : String → Option Date} {docs : List SchemaDoc} {o : OpenedFiling} (h : openXml dateOf float str so steps docs = some (.ok o)) :
    parseReportElements docs = .ok o.elements ∧ parseFactsXml o.elements.concept dateOf o.elements.store (docs.map (·.root)) {} = .ok o.facts ∧
    readNetworks o.elements.store o.facts.facts float str so steps (docs.map (·.root)) = some (.ok o.networks) ∧
    parseComponents o.networks.networks.store (docs.map (·.root)) = .ok (o.components, o.componentReports) ∧ o.namespaces = registerPrefixes (docs.map (·.root)) := by
  unfold openXml at h
  dsimp only at h
  cases h1 : parseReportElements docs with
  | error e => rw [h1] at h; cases h
  | ok s =>
    rw [h1] at h
    dsimp only at h
    cases h2 : parseFactsXml s.concept dateOf s.store (docs.map (·.root)) {} with
    | error e => rw [h2] at h; cases h
    | ok f =>
      rw [h2] at h
      dsimp only at h
      cases h3 : readNetworks s.store f.facts float str so steps (docs.map (·.root)) with
      | none => rw [h3] at h; cases h
      | some r =>
        rw [h3] at h
        cases r with
        | error e => cases h
        | ok n =>
          simp only [Option.map_some, Except.bind, Option.some.injEq] at h
          cases h4 : parseComponents n.networks.store (docs.map (·.root)) with
          | error e => rw [h4] at h; cases h
          | ok c => rw [h4] at h; cases h; exact ⟨rfl, h2, h3, h4, rfl⟩

/-- C105: in an opened filing whose schemas bind a prefix to their name space, the search by a text finds without repetition exactly the declared elements whose name the text denotes. -/
theorem C105_search {dateOf : String → Option Date} {docs : List SchemaDoc} {o : OpenedFiling} (h : openXml dateOf float str so steps docs = some (.ok o))
    (hp : ∀ d ∈ schemaDeclarations docs, d.plain ∧ d.prefixed) (d : FilingData) (hn : d.ns = o.namespaces) (he : d.elems = o.elements.store) (s : String) :
    ∃ R, d.searchElements s = .ok R ∧ R.Nodup ∧ ∀ e, e ∈ R ↔ e ∈ taxonomy docs ∧ Denotes s e.name := by
  obtain ⟨h1, _, _, _, h5⟩ := openXml_parts h
  obtain ⟨hst, _⟩ := taxonomy_of h1 (fun d hd => (hp d hd).1)
  rw [h5] at hn
  rw [hst] at he
  obtain ⟨R, r1, r2, r3⟩ := C28_search_complete_partial d _ (taxonomy docs) hn he (by
    intro e hm
    obtain ⟨dc, hd, g1, _⟩ := taxonomy_mem hm
    have hd' := (List.mem_filter.1 (mem_of_firstByKey hd)).1
    rw [g1]
    exact name_registered hd' (hp dc hd').2) s
  refine ⟨R, r1, r2, fun e => ?_⟩
  rw [r3, latest_of_distinct ReportElement.name _ (taxonomy_names docs) e]

/-- C105: the facts found in a valid filing by the name of a concept are the stated facts of that concept, in order. -/
theorem C105_facts_by_concept {dateOf : String → Option Date} {docs : List SchemaDoc} (hv : ValidFiling dateOf float docs) (hp : ∀ d ∈ schemaDeclarations docs, d.prefixed) :
    ∃ steps o, (∀ j, openXml dateOf float str so (steps + j) docs = some (.ok o)) ∧
      ∀ (d : FilingData) (s : String) (e : ReportElement), d.ns = o.namespaces → d.elems = o.elements.store → d.facts = o.facts.facts →
        (∀ e', (e' ∈ taxonomy docs ∧ e'.kind = .concept ∧ Denotes s e'.name) ↔ e' = e) →
        d.getFactsByConceptName (.str s) = .ok (factsNamed (statedFacts dateOf docs) e.name) := by
  obtain ⟨steps, o, ho, _, hshow⟩ := C105_opens (str := str) (so := so) hv
  refine ⟨steps, o, ho, ?_⟩
  intro d s e hn he hf hone
  obtain ⟨h1, _, _, _, h5⟩ := openXml_parts (ho 0)
  obtain ⟨hst, _⟩ := taxonomy_of h1 hv.schemas.plain
  rw [h5] at hn
  rw [hst] at he
  have hall : d.getAllFacts = statedFacts dateOf docs := by
    unfold FilingData.getAllFacts statedFacts
    rw [hf]
    exact (filterMap_of_map hshow.facts.symm).symm
  rw [← hall]
  refine (C08_by_text d _ (taxonomy docs) hn he s _).2 ⟨e, ?_, ?_, rfl⟩
  · intro e'
    rw [← hone]
    unfold FoundBy
    rw [latest_of_distinct ReportElement.name _ (taxonomy_names docs) e']
    constructor
    · rintro ⟨⟨a, b, _⟩, c⟩; exact ⟨a, c, b⟩
    · rintro ⟨a, c, b⟩
      refine ⟨⟨a, b, fun _ => ?_⟩, c⟩
      obtain ⟨dc, hd, g1, _⟩ := taxonomy_mem a
      have hd' := (List.mem_filter.1 (mem_of_firstByKey hd)).1
      rw [g1]
      exact name_registered hd' (hp dc hd')
  · rw [hall]
    intro f hf
    obtain ⟨p, _, hp⟩ := List.mem_filterMap.1 hf
    obtain ⟨_, _, ⟨c, _, hc⟩, _⟩ := C41_fact hp
    exact ⟨c, by unfold Fact.getConcept; rw [hc]; rfl⟩

end Brel
