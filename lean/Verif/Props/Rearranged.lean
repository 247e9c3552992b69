import Verif.Spec.Rearranged
import Verif.Props.Open
import Verif.Props.Arcs
import Verif.Props.CalcNetwork
import Verif.Props.Aggregation

/-! C126: what an opened filing shows depends neither on the order of its documents nor on the order in which Python iterates over sets. -/

namespace Brel
open Spec

variable {dateOf : String → Option Date} {float : String → Option Rat} {str str' : XNode → String} {so so' : SetOrder} {steps steps' : Nat} {docs docs' : List SchemaDoc}

/-! ## Looking things up in another order -/

theorem eq_of_filterMap_nodup {α β : Type} {f : α → Option β} : ∀ {l : List α}, (l.filterMap f).Nodup → ∀ {a b : α} {i : β}, a ∈ l → b ∈ l → f a = some i → f b = some i → a = b
  | [], _, _, _, _, ha, _, _, _ => by cases ha
  | x :: l, h, a, b, i, ha, hb, fa, fb => by
    have hmem : ∀ c ∈ l, f c = some i → i ∈ l.filterMap f := fun c hc he => List.mem_filterMap.2 ⟨c, hc, he⟩
    cases hx : f x with
    | none =>
      rw [List.filterMap_cons, hx] at h
      rcases List.mem_cons.1 ha with rfl | ha
      · rw [hx] at fa; cases fa
      rcases List.mem_cons.1 hb with rfl | hb
      · rw [hx] at fb; cases fb
      exact eq_of_filterMap_nodup h ha hb fa fb
    | some j =>
      rw [List.filterMap_cons, hx] at h
      obtain ⟨h1, h2⟩ := List.nodup_cons.1 h
      rcases List.mem_cons.1 ha with rfl | ha' <;> rcases List.mem_cons.1 hb with rfl | hb'
      · rfl
      · rw [hx] at fa; cases fa; exact absurd (hmem _ hb' fb) h1
      · rw [hx] at fb; cases fb; exact absurd (hmem _ ha' fa) h1
      · exact eq_of_filterMap_nodup h2 ha' hb' fa fb

theorem latest_perm {α κ : Type} [DecidableEq κ] {k : α → κ} {l l' : List α} (hp : l.Perm l') {i : κ} (hu : ∀ a ∈ l, ∀ b ∈ l, k a = i → k b = i → a = b) : latest k l i = latest k l' i := by
  cases h : latest k l i with
  | none =>
    rw [latest_none] at h
    exact ((latest_none k l' i).2 (fun x hx => h x (hp.mem_iff.2 hx))).symm
  | some a =>
    obtain ⟨ha, hk⟩ := latest_some k l i a h
    cases h' : latest k l' i with
    | none => exact absurd hk ((latest_none k l' i).1 h' a (hp.mem_iff.1 ha))
    | some b =>
      obtain ⟨hb, hk'⟩ := latest_some k l' i b h'
      rw [hu a ha b (hp.mem_iff.2 hb) hk hk']

theorem find_perm {α : Type} {p : α → Bool} {l l' : List α} (hp : l.Perm l') (hu : ∀ a ∈ l, ∀ b ∈ l, p a = true → p b = true → a = b) : l.find? p = l'.find? p := by
  cases h : l.find? p with
  | none =>
    rw [List.find?_eq_none] at h
    exact (List.find?_eq_none.2 (fun x hx => h x (hp.mem_iff.2 hx))).symm
  | some a =>
    cases h' : l'.find? p with
    | none => exact absurd (List.find?_some h) (List.find?_eq_none.1 h' a (hp.mem_iff.1 (List.mem_of_find?_eq_some h)))
    | some b => rw [hu a (List.mem_of_find?_eq_some h) b (hp.mem_iff.2 (List.mem_of_find?_eq_some h')) (List.find?_some h) (List.find?_some h')]

theorem eq_of_map_nodup {α κ : Type} {k : α → κ} {l : List α} (h : (l.map k).Nodup) {a b : α} (ha : a ∈ l) (hb : b ∈ l) (he : k a = k b) : a = b := by
  refine eq_of_filterMap_nodup (f := fun x => some (k x)) (i := k a) ?_ ha hb rfl (by rw [he])
  have : l.filterMap (fun x => some (k x)) = l.map k := by rw [← List.filterMap_eq_map]; rfl
  rw [this]; exact h

/-! ## The taxonomy in another order -/

theorem counting_all (ht : ToldApart docs) : counting (schemaDeclarations docs) = (schemaDeclarations docs).filter Declaration.yields := firstByKey_self _ _ ht.names

theorem validLink_congr {elems elems' : ElemStore} {facts facts' : FactStore} (he : ∀ i, elems.byId.get? i = elems'.byId.get? i) (hf : ∀ i, facts.byId.get? i = facts'.byId.get? i)
    {name : String} {link : XNode} (h : ValidLink elems facts float name link) : ValidLink elems' facts' float name link := by
  refine ⟨h.arcs, ?_, h.resources, h.labels, h.acyclic⟩
  intro own x hx
  obtain ⟨h1, href, i, h2, h3, h4, h5⟩ := h.locators own x hx
  rw [he] at h4 h5
  rw [hf] at h5
  exact ⟨h1, href, i, h2, h3, h4, h5⟩

section
variable (hp : docs.Perm docs') (ht : ToldApart docs)
include hp

theorem roots_perm : (docs.map (·.root)).Perm (docs'.map (·.root)) := hp.map _

theorem declarations_perm : (schemaDeclarations docs).Perm (schemaDeclarations docs') := hp.flatMap_right _

theorem ToldApart.perm (ht : ToldApart docs) : ToldApart docs' :=
  ⟨(hp.map _).nodup_iff.1 ht.uris, (((declarations_perm hp).filter _).map _).nodup_iff.1 ht.names, (((declarations_perm hp).filter _).filterMap _).nodup_iff.1 ht.ids⟩

include ht

theorem counting_perm : (counting (schemaDeclarations docs)).Perm (counting (schemaDeclarations docs')) := by
  rw [counting_all ht, counting_all (ht.perm hp)]
  exact (declarations_perm hp).filter _

theorem taxonomy_perm : (taxonomy docs).Perm (taxonomy docs') := (counting_perm hp ht).filterMap _

theorem taxonomy_byName (q : QName) : (taxonomyStore docs).byName.get? q = (taxonomyStore docs').byName.get? q := by
  unfold taxonomyStore
  rw [ElemStore.run_get?_name, ElemStore.run_get?_name]
  exact latest_perm (taxonomy_perm hp ht) (fun a ha b hb h1 h2 => eq_of_map_nodup (taxonomy_names docs) ha hb (h1.trans h2.symm))

theorem taxonomy_byId (i : String) : (taxonomyStore docs).byId.get? i = (taxonomyStore docs').byId.get? i := by
  unfold taxonomyStore
  rw [ElemStore.run_get?_id, ElemStore.run_get?_id]
  refine latest_perm (taxonomy_perm hp ht) (fun a ha b hb h1 h2 => ?_)
  obtain ⟨d, hd, g1, g2, _⟩ := taxonomy_mem ha
  obtain ⟨d', hd', g1', g2', _⟩ := taxonomy_mem hb
  rw [counting_all ht] at hd hd'
  have hdd : d = d' := eq_of_filterMap_nodup ht.ids hd hd' (g2.symm.trans h1) (g2'.symm.trans h2)
  exact eq_of_map_nodup (taxonomy_names docs) ha hb (by rw [g1, g1', hdd])

theorem taxonomyConcept_perm : taxonomyConcept docs = taxonomyConcept docs' := by
  funext e
  unfold taxonomyConcept
  rw [find_perm (counting_perm hp ht)]
  intro a ha b hb h1 h2
  rw [counting_all ht] at ha hb
  exact eq_of_map_nodup ht.names ha hb ((of_decide_eq_true h1).trans (of_decide_eq_true h2).symm)

theorem elementOf_perm : elementOf (taxonomyStore docs) = elementOf (taxonomyStore docs') := by
  funext k q
  unfold elementOf
  rw [taxonomy_byName hp ht]

theorem conceptOf_perm : conceptOf (taxonomyConcept docs) (taxonomyStore docs) = conceptOf (taxonomyConcept docs') (taxonomyStore docs') := by
  funext x
  unfold conceptOf
  rw [elementOf_perm hp ht, taxonomyConcept_perm hp ht]

theorem explicitOf_perm : explicitOf (taxonomyStore docs) = explicitOf (taxonomyStore docs') := by
  funext x
  unfold explicitOf
  rw [elementOf_perm hp ht]

theorem typedOf_perm : typedOf (taxonomyStore docs) = typedOf (taxonomyStore docs') := by
  funext x
  unfold typedOf
  rw [elementOf_perm hp ht]

theorem dimensionOf_perm : dimensionOf (taxonomyStore docs) = dimensionOf (taxonomyStore docs') := by
  funext x
  unfold dimensionOf
  rw [explicitOf_perm hp ht, typedOf_perm hp ht]

theorem factOf_perm : factOf (taxonomyConcept docs) dateOf (taxonomyStore docs) = factOf (taxonomyConcept docs') dateOf (taxonomyStore docs') := by
  funext root x
  unfold factOf statedBy
  rw [conceptOf_perm hp ht, dimensionOf_perm hp ht]

theorem locates_perm (link : XNode) (l : String) (q : QName) : Locates (taxonomyStore docs) link l q ↔ Locates (taxonomyStore docs') link l q := by
  unfold Locates
  simp only [taxonomy_byId hp ht]

omit ht in
theorem elementsOf_perm : (elementsOf (docs.map (·.root))).Perm (elementsOf (docs'.map (·.root))) := (roots_perm hp).flatMap_right _

theorem statedFacts_perm : (statedFacts dateOf docs).Perm (statedFacts dateOf docs') := by
  unfold statedFacts
  rw [factOf_perm hp ht]
  exact (elementsOf_perm hp).filterMap _

omit ht in
theorem hasLink_perm {name role : String} {up : List XNode} {link : XNode} : HasLink (docs.map (·.root)) name role up link ↔ HasLink (docs'.map (·.root)) name role up link := by
  constructor
  · rintro ⟨⟨r, hr, h⟩, h1, h2, h3⟩; exact ⟨⟨r, (roots_perm hp).mem_iff.1 hr, h⟩, h1, h2, h3⟩
  · rintro ⟨⟨r, hr, h⟩, h1, h2, h3⟩; exact ⟨⟨r, (roots_perm hp).mem_iff.2 hr, h⟩, h1, h2, h3⟩

theorem getEtree_perm (uri : String) : getEtree docs uri = getEtree docs' uri := by
  unfold getEtree
  rw [find_perm hp]
  intro a ha b hb h1 h2
  exact eq_of_map_nodup ht.uris ha hb ((of_decide_eq_true h1).trans (of_decide_eq_true h2).symm)

theorem typedDomain_perm (doc : SchemaDoc) (x : XNode) : typedDomain docs doc x = typedDomain docs' doc x := by
  unfold typedDomain
  simp only [getEtree_perm hp ht]

theorem refersToDoc_perm {doc : SchemaDoc} {uri : String} {target : SchemaDoc} (h : RefersToDoc docs doc uri target) : RefersToDoc docs' doc uri target := by
  unfold RefersToDoc at h ⊢
  split
  · rename_i hu; rw [if_pos hu] at h; exact h
  · rename_i hu
    rw [if_neg hu] at h
    obtain ⟨pre, post, rfl, hu, _⟩ := h
    have hm : target ∈ docs' := hp.mem_iff.1 (by simp)
    obtain ⟨pre', post', rfl⟩ := List.append_of_mem hm
    refine ⟨pre', post', rfl, hu, ?_⟩
    intro d hd he
    have hn := (ht.perm hp).uris
    rw [List.map_append, List.map_cons, List.nodup_append] at hn
    exact hn.2.2 _ (List.mem_map_of_mem hd) target.uri List.mem_cons_self (he.trans hu.symm)

/-! ## Validity does not depend on the order -/

theorem validSchemas_perm (hv : ValidSchemas docs) : ValidSchemas docs' where
  plain d hd := hv.plain d ((declarations_perm hp).mem_iff.2 hd)
  concepts d hd := hv.concepts d ((declarations_perm hp).mem_iff.2 hd)
  dimensions d hd hg := by
    obtain ⟨h1, h2⟩ := hv.dimensions d ((declarations_perm hp).mem_iff.2 hd) hg
    refine ⟨h1, fun ref hr => ?_⟩
    obtain ⟨uri, i, target, e, t, g1, g2, g3, g4, g5⟩ := h2 ref hr
    exact ⟨uri, i, target, e, t, g1, g2, g3, refersToDoc_perm hp ht g4, g5⟩

theorem validContext_perm {x : XNode} (h : ValidContext dateOf (taxonomyStore docs) x) : ValidContext dateOf (taxonomyStore docs') x := by
  obtain ⟨p, e, h1, h2, h3, h4⟩ := h.parts
  rw [dimensionOf_perm hp ht] at h4
  exact ⟨p, e, h1, h2, h3, h4⟩

theorem validInstances_perm (hv : ValidInstances dateOf docs) : ValidInstances dateOf docs' where
  facts p hm := by
    obtain ⟨h1, h2, ref, cx, h3, h4, h5⟩ := hv.facts p ((elementsOf_perm hp).mem_iff.2 hm)
    rw [conceptOf_perm hp ht] at h1
    exact ⟨h1, h2, ref, cx, h3, h4, validContext_perm hp ht h5⟩
  identified p hm := hv.identified p ((elementsOf_perm hp).mem_iff.2 hm)
  distinct := ((elementsOf_perm hp).map _).nodup_iff.1 hv.distinct
  texts := by
    have hc : ((docs.map (·.root)).flatMap XNode.children).Perm ((docs'.map (·.root)).flatMap XNode.children) := (roots_perm hp).flatMap_right _
    have he : (entitiesOf ((docs.map (·.root)).flatMap XNode.children)).Perm (entitiesOf ((docs'.map (·.root)).flatMap XNode.children)) := hc.filterMap _
    have hm : (membersOf ((docs.map (·.root)).flatMap XNode.children)).Perm (membersOf ((docs'.map (·.root)).flatMap XNode.children)) := hc.flatMap_right _
    have h := hv.texts
    refine ⟨fun x hx => h.dates x (hc.mem_iff.2 hx), fun a ha b hb => h.entities a (he.mem_iff.2 ha) b (he.mem_iff.2 hb), fun m hx => h.axes m (hm.mem_iff.2 hx), ?_, ?_⟩
    · rw [← explicitOf_perm hp ht]
      exact fun m h1 m' h2 => h.explicit m (hm.mem_iff.2 h1) m' (hm.mem_iff.2 h2)
    · rw [← typedOf_perm hp ht]
      exact fun m h1 m' h2 => h.typed m (hm.mem_iff.2 h1) m' (hm.mem_iff.2 h2)
  units r hr r' hr' := hv.units r ((roots_perm hp).mem_iff.2 hr) r' ((roots_perm hp).mem_iff.2 hr')
  concepts := by
    have hm := (elementsOf_perm hp).map Prod.snd
    have h := hv.concepts
    unfold SameConcepts at h ⊢
    rw [← conceptOf_perm hp ht]
    exact fun x hx y hy => h x (hm.mem_iff.2 hx) y (hm.mem_iff.2 hy)

theorem factStore_perm (hv : ValidInstances dateOf docs) (i : String) :
    (FactStore.run (statedFacts dateOf docs)).byId.get? i = (FactStore.run (statedFacts dateOf docs')).byId.get? i := by
  rw [FactStore.run_get?, FactStore.run_get?]
  refine latest_perm (statedFacts_perm hp ht) ?_
  intro a ha b hb h1 h2
  obtain ⟨p, hpm, hpa⟩ := List.mem_filterMap.1 ha
  obtain ⟨p', hpm', hpb⟩ := List.mem_filterMap.1 hb
  have key : ∀ {p : XNode × XNode} {f : Fact}, factOf (taxonomyConcept docs) dateOf (taxonomyStore docs) p.1 p.2 = some f → f.id = p.2.attr? "id" := by
    intro p f h
    unfold factOf at h
    simp only [bind, Option.bind_eq_some_iff, pure, Option.some.injEq] at h
    obtain ⟨_, _, _, _, _, _, rfl⟩ := h
    rfl
  have : p = p' := eq_of_map_nodup hv.distinct hpm hpm' (by rw [← key hpa, ← key hpb, h1, h2])
  subst this
  exact Option.some.inj (hpa.symm.trans hpb)

omit ht in
theorem plainLinks_perm (h : PlainLinks (docs.map (·.root))) : PlainLinks (docs'.map (·.root)) :=
  ⟨fun r hr => h.tags r ((roots_perm hp).mem_iff.2 hr), fun r hr => h.scope r ((roots_perm hp).mem_iff.2 hr), fun r hr => h.resources r ((roots_perm hp).mem_iff.2 hr)⟩

theorem validLinkbases_perm (hi : ValidInstances dateOf docs)
    (hv : ValidLinkbases (taxonomyStore docs) (FactStore.run (statedFacts dateOf docs)) float (docs.map (·.root))) :
    ValidLinkbases (taxonomyStore docs') (FactStore.run (statedFacts dateOf docs')) float (docs'.map (·.root)) where
  plain := plainLinks_perm hp hv.plain
  valid name role up link h := validLink_congr (taxonomy_byId hp ht) (factStore_perm hp ht hi) (hv.valid name role up link ((hasLink_perm hp).2 h))
  roles name up link h := by
    obtain ⟨⟨r, hr, hb⟩, h1, h2⟩ := h
    exact hv.roles name up link ⟨⟨r, (roots_perm hp).mem_iff.2 hr, hb⟩, h1, h2⟩
  resolved name role up link h own x href i h1 h2 h3 := by
    have := hv.resolved name role up link ((hasLink_perm hp).2 h) own x href i h1 h2 h3
    rw [taxonomy_byId hp ht, factStore_perm hp ht hi] at this
    exact this
  languages name role up link h := hv.languages name role up link ((hasLink_perm hp).2 h)
  once name role up link h := hv.once name role up link ((hasLink_perm hp).2 h)
  sources p hu role up link h l m hj := by
    obtain ⟨q, hq⟩ := hv.sources p hu role up link ((hasLink_perm hp).2 h) l m hj
    exact ⟨q, (locates_perm hp ht _ _ _).1 hq⟩

omit ht in
theorem validRoles_perm (hv : ValidRoles (docs.map (·.root))) : ValidRoles (docs'.map (·.root)) := by
  intro x hx
  obtain ⟨r, h1, h2⟩ := hv x (((roots_perm hp).flatMap_right _).mem_iff.2 hx)
  exact ⟨r, h1, fun p hu up link h => h2 p hu up link ((hasLink_perm hp).2 h)⟩

/-- C126: whether a filing is valid does not depend on the order of its documents. -/
theorem C126_valid (hv : ValidFiling dateOf float docs) : ValidFiling dateOf float docs' :=
  ⟨validSchemas_perm hp ht hv.schemas, validInstances_perm hp ht hv.instances, validLinkbases_perm hp ht hv.instances hv.links, validRoles_perm hp hv.components⟩

end

/-! ## What an opened filing shows -/

theorem openXml_mono {j : Nat} {x : Except PyErr OpenedFiling} (h : openXml dateOf float str so steps docs = some x) : openXml dateOf float str so (steps + j) docs = some x := by
  unfold openXml at h ⊢
  dsimp only at h ⊢
  cases h1 : parseReportElements docs with
  | error e => rw [h1] at h; exact h
  | ok s =>
    rw [h1] at h
    dsimp only at h ⊢
    cases h2 : parseFactsXml s.concept dateOf s.store (docs.map (·.root)) {} with
    | error e => rw [h2] at h; exact h
    | ok f =>
      rw [h2] at h
      dsimp only at h ⊢
      obtain ⟨r, h3, h4⟩ := Option.map_eq_some_iff.1 h
      rw [readNetworks_mono h3]
      exact congrArg some h4

theorem opened_shows (hv : ValidFiling dateOf float docs) {o : OpenedFiling} (ho : openXml dateOf float str so steps docs = some (.ok o)) : o.Silent ∧ ShowsDocuments dateOf docs o := by
  obtain ⟨st, o', h1, h2⟩ := C105_opens (str := str) (so := so) hv
  have h3 := openXml_mono (j := st) ho
  rw [Nat.add_comm, h1 steps] at h3
  cases h3
  exact h2

/-- Every network of these classes shows a report element. -/
theorem network_shows {elems : ElemStore} {facts : FactStore} {roots : List XNode} {s : ReadNetworks} (h : readNetworks elems facts float str so steps roots = some (.ok s)) (hp : PlainLinks roots)
    {p : String × NodeKind} (hu : p ∈ unitedTags) {role : String} {net : Network} (hn : net ∈ s.networks.store.getByType p.2) (hl : net.logicalOf role p.2 = true) :
    ∃ q, s.Shows role p.2 q := by
  obtain ⟨hparse, _, _, _⟩ := readNetworks_ok h
  obtain ⟨h1, parsed, hrun, hlog, _⟩ := C84_networks hparse
  obtain ⟨s1, _⟩ := Networks.shown (hlog role p.2)
  rcases hlog role p.2 with ⟨_, h2⟩ | ⟨net', h2, h3, _⟩
  · have := List.mem_filter.2 ⟨hn, hl⟩
    rw [h2] at this
    cases this
  obtain ⟨n, hn'⟩ := List.exists_mem_of_ne_nil _ h3
  obtain ⟨hnm, hnl⟩ := List.mem_filter.1 hn'
  obtain ⟨l, hlm, up, hlink, r, es, R, k', h0, res, hpl, hnr, hkept⟩ := network_link h hp hrun (name := p.1) hu hnm hnl
  obtain ⟨_, c2, _, c4, _⟩ := (C20_networks hpl).1 n hnr
  obtain ⟨i, hi⟩ := List.exists_mem_of_ne_nil _ c4
  have hin : InNetwork res.heap n.roots i := .root hi
  obtain ⟨m, hm⟩ := inside_new hpl hnr hin
  obtain ⟨e, he, _, e2⟩ := new_end hpl hm
  have ha := C69_objects hpl e he _ e2
  obtain ⟨_, d2, _⟩ := logicalOf_iff.1 hnl
  rw [d2] at c2
  have hel : ∃ q b, m.target = .element q b := by
    have hc := united_class p hu
    rw [c2] at hc
    cases k' <;> simp [LinkKind.nodeKind] at hc <;> first
      | exact ha
      | exact ⟨ha.choose, true, ha.choose_spec⟩
  obtain ⟨q, b, hq⟩ := hel
  have ho : Occurs res.heap n.roots (some (.element q b)) := ⟨i, hin, by rw [targetOf_new hm, hq]⟩
  rw [← kept_occurs (parseLink_grow hpl).1 hnr hkept] at ho
  obtain ⟨net'', g1, g2, g3⟩ := (s1 _).2 ⟨n, hnm, hnl, ho⟩
  exact ⟨q, net'', g1, g2, b, g3⟩

theorem Rel2.unique {α β : Type} {R : α → β → Prop} (hu : ∀ a b c, R a b → R a c → b = c) : ∀ {l : List α} {m m' : List β}, Rel2 R l m → Rel2 R l m' → m = m'
  | _, _, _, .nil, .nil => rfl
  | _, _, _, .cons h t, .cons h' t' => by rw [hu _ _ _ h h', Rel2.unique hu t t']

theorem Rel2.join {α β γ : Type} {R : α → β → Prop} {S : α → γ → Prop} {T : β → γ → Prop} (hj : ∀ a b c, R a b → S a c → T b c) : ∀ {l : List α} {m : List β} {m' : List γ}, Rel2 R l m → Rel2 S l m' →
    Rel2 T m m'
  | _, _, _, .nil, .nil => .nil
  | _, _, _, .cons h t, .cons h' t' => .cons (hj _ _ _ h h') (Rel2.join hj t t')

/-- C126: opening a valid filing again, with its documents in another order and with sets iterated in another order, shows the same and reports nothing either. -/
theorem C126_same_partial (hp : docs.Perm docs') (ht : ToldApart docs) (hv : ValidFiling dateOf float docs) {o o' : OpenedFiling} (ho : openXml dateOf float str so steps docs = some (.ok o))
    (ho' : openXml dateOf float str' so' steps' docs' = some (.ok o')) : SameFiling o o' ∧ o.Silent ∧ o'.Silent := by
  have hv' := C126_valid hp ht hv
  obtain ⟨hs, hd⟩ := opened_shows hv ho
  obtain ⟨hs', hd'⟩ := opened_shows hv' ho'
  have hobj : ∀ p ∈ unitedTags, ∀ role q, o.networks.Shows role p.2 q ↔ o'.networks.Shows role p.2 q := by
    intro p hu role q
    rw [hd.objects p hu, hd'.objects p hu]
    simp only [hasLink_perm hp, locates_perm hp ht]
  refine ⟨⟨?_, ?_, ?_, hobj, ?_, ?_⟩, hs, hs'⟩
  · obtain ⟨m, hm1, hm2⟩ := hd.elements.perm (counting_perm hp ht)
    refine hm1.trans ?_
    have hu : ∀ d e e', DeclaredAs docs d e → DeclaredAs docs' d e' → e = e' := by
      rintro d ⟨k, n, i, c, t⟩ ⟨k', n', i', c', t'⟩ ⟨h1, ⟨e0, h2, h3, h4, h5⟩, h6⟩ ⟨g1, ⟨e1, g2, g3, g4, g5⟩, g6⟩
      rw [h2] at g2
      cases g2
      dsimp only at *
      subst h1 g1 h3 h4 h5 g3 g4 g5
      have : t = t' := by
        split at h6
        · rename_i hk
          rw [if_pos hk] at g6
          obtain ⟨_, h6⟩ := h6
          obtain ⟨_, g6⟩ := g6
          rw [typedDomain_perm hp ht, g6] at h6
          cases h6
          rfl
        · rename_i hk
          rw [if_neg hk] at g6
          rw [h6, g6]
      rw [this]
    have := Rel2.join (T := fun a b => a = b) hu hm2 hd'.elements
    have he := Rel2.map_eq this (fun x => x) (fun x => x) (by intros; assumption)
    rw [List.map_id', List.map_id'] at he
    rw [he]
  · have h1 := hd.facts
    rw [factOf_perm hp ht] at h1
    have h2 := (elementsOf_perm hp).map (fun p => factOf (taxonomyConcept docs') dateOf (taxonomyStore docs') p.1 p.2)
    rw [← h1, ← hd'.facts] at h2
    have := h2.filterMap id
    rw [List.filterMap_map, List.filterMap_map] at this
    simpa using this
  · intro q lab
    rw [hd.labels, hd'.labels]
    simp only [hasLink_perm hp, locates_perm hp ht]
  · intro p hu role q q'
    rw [hd.relations p hu, hd'.relations p hu]
    simp only [hasLink_perm hp, locates_perm hp ht]
  · obtain ⟨m, hm1, hm2⟩ := hd'.components.perm ((roots_perm hp.symm).flatMap_right declaredRoles)
    refine ⟨m, hm1, Rel2.join ?_ hd.components hm2⟩
    intro x c c' hc hc'
    have huri : c.uri = c'.uri := Option.some.inj (hc.uri.symm.trans hc'.uri)
    refine ⟨huri, hc.info.trans hc'.info.symm, ?_⟩
    obtain ⟨hr, _⟩ := opened_reading hv ho
    obtain ⟨hr', _⟩ := opened_reading hv' ho'
    have key : ∀ p ∈ unitedTags, (c.ofKind p.2).isSome = (c'.ofKind p.2).isSome := by
      intro p hu
      rw [Bool.eq_iff_iff]
      simp only [Option.isSome_iff_exists]
      constructor
      · rintro ⟨net, hnet⟩
        obtain ⟨h1, h2⟩ := (hc.networks p hu net).1 hnet
        obtain ⟨q, hq⟩ := network_shows hr hv.links.plain hu h1 h2
        obtain ⟨net', g1, g2, _⟩ := (hobj p hu _ q).1 hq
        exact ⟨net', (hc'.networks p hu net').2 ⟨g1, huri ▸ g2⟩⟩
      · rintro ⟨net, hnet⟩
        obtain ⟨h1, h2⟩ := (hc'.networks p hu net).1 hnet
        obtain ⟨q, hq⟩ := network_shows hr' hv'.links.plain hu h1 h2
        obtain ⟨net', g1, g2, _⟩ := (hobj p hu _ q).2 hq
        exact ⟨net', (hc.networks p hu net').2 ⟨g1, huri.symm ▸ g2⟩⟩
    intro k hk
    simp only [List.mem_cons, List.not_mem_nil, or_false] at hk
    rcases hk with rfl | rfl | rfl
    · exact key ("presentationLink", _) (by simp [unitedTags])
    · exact key ("calculationLink", _) (by simp [unitedTags])
    · exact key ("definitionLink", _) (by simp [unitedTags])

/-! ## What the arcs, the checks and the queries say -/

theorem rooted_links (hv : ValidFiling dateOf float docs) {p : String × NodeKind} (hu : p ∈ unitedTags) {role : String} :
    ∀ up link, HasLink (docs.map (·.root)) p.1 role up link → Rooted (taxonomyStore docs) link :=
  fun up link h => ⟨(hv.links.valid p.1 role up link h).acyclic, hv.links.sources p hu role up link h⟩

section
variable (hp : docs.Perm docs') (ht : ToldApart docs)
include hp ht

theorem statesArc_perm {name role : String} {q q' : QName} {P : XNode → Prop} :
    StatesArc (taxonomyStore docs) (docs.map (·.root)) name role q q' P ↔ StatesArc (taxonomyStore docs') (docs'.map (·.root)) name role q q' P := by
  unfold StatesArc
  simp only [hasLink_perm hp, locates_perm hp ht]

/-- C126: the networks state the same weights, if arcs of a link that lead to the same locator agree on the weight. -/
theorem C126_weights_partial (hv : ValidFiling dateOf float docs) {o o' : OpenedFiling} (ho : openXml dateOf float str so steps docs = some (.ok o))
    (ho' : openXml dateOf float str' so' steps' docs' = some (.ok o')) {role : String} (hag : ∀ up link, HasLink (docs.map (·.root)) "calculationLink" role up link → AgreeOn link "weight")
    (q q' : QName) (w : Rat) :
    o.networks.ShowsChild role .calculation q q' (fun n => n.weight = w) ↔ o'.networks.ShowsChild role .calculation q q' (fun n => n.weight = w) := by
  have hv' := C126_valid hp ht hv
  rw [C115_weights_partial (opened_reading hv ho).1 hv.links.plain (rooted_links hv (p := ("calculationLink", .calculation)) (by simp [unitedTags])) hag,
    C115_weights_partial (opened_reading hv' ho').1 hv'.links.plain (rooted_links hv' (p := ("calculationLink", .calculation)) (by simp [unitedTags]))
      (fun up link h => hag up link ((hasLink_perm hp).2 h)), statesArc_perm hp ht]

/-- C126: the networks state the same orders, if arcs of a link that lead to the same locator agree on the order. -/
theorem C126_orders_partial (hv : ValidFiling dateOf float docs) {o o' : OpenedFiling} (ho : openXml dateOf float str so steps docs = some (.ok o))
    (ho' : openXml dateOf float str' so' steps' docs' = some (.ok o')) {name role : String} {kk : LinkKind}
    (hkk : (name, kk) = ("presentationLink", .presentation) ∨ (name, kk) = ("calculationLink", .calculation))
    (hag : ∀ up link, HasLink (docs.map (·.root)) name role up link → AgreeOn link "order") (q q' : QName) (v : Rat) :
    o.networks.ShowsChild role kk.nodeKind q q' (fun n => n.order = v) ↔ o'.networks.ShowsChild role kk.nodeKind q q' (fun n => n.order = v) := by
  have hv' := C126_valid hp ht hv
  have hu : (name, kk.nodeKind) ∈ unitedTags := by rcases hkk with hkk | hkk <;> cases hkk <;> simp [unitedTags, LinkKind.nodeKind]
  rw [C115_orders_partial (opened_reading hv ho).1 hv.links.plain hkk (rooted_links hv (p := (name, kk.nodeKind)) hu) hag,
    C115_orders_partial (opened_reading hv' ho').1 hv'.links.plain hkk (rooted_links hv' (p := (name, kk.nodeKind)) hu)
      (fun up link h => hag up link ((hasLink_perm hp).2 h)), statesArc_perm hp ht]

/-- C126: the networks state the same preferred labels, if arcs of a link that lead to the same locator agree on the preferred label. -/
theorem C126_preferred_labels_partial (hv : ValidFiling dateOf float docs) {o o' : OpenedFiling} (ho : openXml dateOf float str so steps docs = some (.ok o))
    (ho' : openXml dateOf float str' so' steps' docs' = some (.ok o')) {role : String} (hag : ∀ up link, HasLink (docs.map (·.root)) "presentationLink" role up link → AgreeOn link "preferredLabel")
    (q q' : QName) (v : Option String) :
    o.networks.ShowsChild role .presentation q q' (fun n => n.preferredLabel = v) ↔ o'.networks.ShowsChild role .presentation q q' (fun n => n.preferredLabel = v) := by
  have hv' := C126_valid hp ht hv
  rw [C115_labels_partial (opened_reading hv ho).1 hv.links.plain (rooted_links hv (p := ("presentationLink", .presentation)) (by simp [unitedTags])) hag,
    C115_labels_partial (opened_reading hv' ho').1 hv'.links.plain (rooted_links hv' (p := ("presentationLink", .presentation)) (by simp [unitedTags]))
      (fun up link h => hag up link ((hasLink_perm hp).2 h)), statesArc_perm hp ht]

theorem balanceOf_perm (q : QName) : BalanceOf docs q = BalanceOf docs' q := by
  unfold BalanceOf
  rw [find_perm (counting_perm hp ht)]
  intro a ha b hb h1 h2
  rw [counting_all ht] at ha hb
  exact eq_of_map_nodup ht.names ha hb ((of_decide_eq_true h1).trans (of_decide_eq_true h2).symm)

theorem balancesAgree_perm {role : String} : BalancesAgree float docs role ↔ BalancesAgree float docs' role := by
  constructor
  · rintro ⟨h1, h2⟩
    simp only [hasLink_perm hp, locates_perm hp ht, balanceOf_perm hp ht, statesArc_perm hp ht] at h1 h2
    exact ⟨h1, h2⟩
  · rintro ⟨h1, h2⟩
    simp only [← hasLink_perm hp, ← locates_perm hp ht, ← balanceOf_perm hp ht, ← statesArc_perm hp ht] at h1 h2
    exact ⟨h1, h2⟩

/-- C126: the balance check of the calculation network of a role says the same, if arcs of a link that lead to the same locator agree on the weight. -/
theorem C126_balance_partial (hv : ValidFiling dateOf float docs) {o o' : OpenedFiling} (ho : openXml dateOf float str so steps docs = some (.ok o))
    (ho' : openXml dateOf float str' so' steps' docs' = some (.ok o')) {role : String} (hag : ∀ up link, HasLink (docs.map (·.root)) "calculationLink" role up link → AgreeOn link "weight")
    {net net' : Network} (hn : net ∈ o.networks.networks.store.getByType .calculation) (hl : net.logicalOf role .calculation = true)
    (hn' : net' ∈ o'.networks.networks.store.getByType .calculation) (hl' : net'.logicalOf role .calculation = true) :
    ∃ depth b, ∀ j, o.isBalanceConsistent float (depth + j) net = some b ∧ o'.isBalanceConsistent float (depth + j) net' = some b := by
  obtain ⟨d, h1, h2⟩ := C116_balance_partial hv ho hag hn hl
  obtain ⟨d', h1', h2'⟩ := C116_balance_partial (C126_valid hp ht hv) ho' (fun up link h => hag up link ((hasLink_perm hp).2 h)) hn' hl'
  have e : ∀ j, o.isBalanceConsistent float (d + d' + j) net = o'.isBalanceConsistent float (d + d' + j) net' := by
    intro j
    have a1 := h1 (d' + j)
    have a2 := h2 (d' + j)
    have b1 := h1' (d + j)
    have b2 := h2' (d + j)
    rw [← balancesAgree_perm hp ht, ← a2] at b2
    rw [show d' + (d + j) = d + (d' + j) by omega] at b1 b2
    rw [show d + d' + j = d + (d' + j) by omega]
    obtain ⟨x, hx⟩ := Option.isSome_iff_exists.1 a1
    obtain ⟨y, hy⟩ := Option.isSome_iff_exists.1 b1
    rw [hx, hy] at b2 ⊢
    cases x <;> cases y <;> simp_all
  by_cases hb : BalancesAgree float docs role
  · refine ⟨d + d', true, fun j => ⟨?_, ?_⟩⟩
    · rw [Nat.add_assoc]; exact (h2 _).2 hb
    · rw [← e j, Nat.add_assoc]; exact (h2 _).2 hb
  · refine ⟨d + d', false, fun j => ?_⟩
    have key : o.isBalanceConsistent float (d + d' + j) net = some false := by
      rw [Nat.add_assoc]
      obtain ⟨x, hx⟩ := Option.isSome_iff_exists.1 (h1 (d' + j))
      cases x with
      | false => exact hx
      | true => exact absurd ((h2 _).1 hx) hb
    exact ⟨key, (e j).symm.trans key⟩

end

theorem uniqueMatch_perm {facts facts' : List Fact} (hp : facts.Perm facts') {f g : Fact} {c : Concept} (h : UniqueMatch facts f c g) : UniqueMatch facts' f c g := by
  obtain ⟨pre, post, rfl, h1, h2⟩ := h
  have hm : g ∈ facts' := hp.mem_iff.1 (by simp)
  obtain ⟨pre', post', rfl⟩ := List.append_of_mem hm
  refine ⟨pre', post', rfl, h1, ?_⟩
  have hq : (pre ++ post).Perm (pre' ++ post') := ((List.perm_middle.symm.trans hp).trans List.perm_middle).cons_inv
  exact fun x hx => h2 x (hq.mem_iff.2 hx)

theorem locatorFor_congr {elems elems' : ElemStore} (he : ∀ i, elems.byId.get? i = elems'.byId.get? i) {x : XNode} {q : QName} : LocatorFor elems x q ↔ LocatorFor elems' x q := by
  unfold LocatorFor
  simp only [he]

theorem addsUp_congr {elems elems' : ElemStore} (he : ∀ i, elems.byId.get? i = elems'.byId.get? i) {facts facts' : List Fact} (hf : facts.Perm facts') {f : Fact} {l : List (XNode × XNode)} {v : Rat}
    (h : AddsUp elems float facts f l v) : AddsUp elems' float facts' f l v := by
  induction h with
  | nil => exact .nil
  | skip h1 _ ih => exact .skip (fun q hq => h1 q ((locatorFor_congr he).2 hq)) ih
  | add h1 h2 h3 h4 _ ih => exact .add ((locatorFor_congr he).1 h1) (uniqueMatch_perm hf h2) h3 h4 ih

theorem totalsHold_congr {elems elems' : ElemStore} (he : ∀ i, elems.byId.get? i = elems'.byId.get? i) {facts facts' : List Fact} (hf : facts.Perm facts') {link : XNode} {l : String} {q : QName}
    (h : TotalsHold elems float facts link l q) : TotalsHold elems' float facts' link l q := by
  rintro ⟨p, hp, q', hq'⟩ f hfm hc
  obtain ⟨v, h1, h2⟩ := h ⟨p, hp, q', (locatorFor_congr he).2 hq'⟩ f (hf.mem_iff.2 hfm) hc
  exact ⟨v, h1, addsUp_congr he hf h2⟩

theorem met_congr {elems elems' : ElemStore} (he : ∀ i, elems.byId.get? i = elems'.byId.get? i) {facts facts' : List Fact} (hf : facts.Perm facts') {link : XNode} {l : String} {q : QName}
    (h : Met elems facts link l q) : Met elems' facts' link l q := by
  have hloc : ∀ {l q}, Locates elems link l q → Locates elems' link l q := by
    intro l q h
    unfold Locates at h ⊢
    simpa only [he] using h
  induction h with
  | top h1 h2 => exact .top (hloc h1) h2
  | under _ h2 h3 h4 ih =>
    obtain ⟨f, hfm, hk⟩ := h2
    exact .under ih ⟨f, hf.mem_iff.1 hfm, hk⟩ h3 (hloc h4)

/-- C126: the aggregation check of the calculation network of a role, run on the facts of the filing, accepts in both cases or in neither, if the role has one calculation link whose arcs
agree on the weight of a locator. -/
theorem C126_aggregation_partial (hp : docs.Perm docs') (ht : ToldApart docs) (hv : ValidFiling dateOf float docs) {o o' : OpenedFiling} (ho : openXml dateOf float str so steps docs = some (.ok o))
    (ho' : openXml dateOf float str' so' steps' docs' = some (.ok o')) {role : String} {link : XNode} (hone : linksOfRole (docs.map (·.root)) "calculationLink" role = [link])
    (hag : AgreeOn link "weight") {net net' : Network} (hn : net ∈ o.networks.networks.store.getByType .calculation) (hl : net.logicalOf role .calculation = true)
    (hn' : net' ∈ o'.networks.networks.store.getByType .calculation) (hl' : net'.logicalOf role .calculation = true) :
    ∃ depth, ∀ j, ∃ r r', o.isAggregationConsistent float (depth + j) o.facts.facts.getAll net = some r ∧ o'.isAggregationConsistent float (depth + j) o'.facts.facts.getAll net' = some r' ∧
      (r = .ok true ↔ r' = .ok true) := by
  have hone' : linksOfRole (docs'.map (·.root)) "calculationLink" role = [link] := by
    have : (linksOfRole (docs.map (·.root)) "calculationLink" role).Perm (linksOfRole (docs'.map (·.root)) "calculationLink" role) := (roots_perm hp).flatMap_right _
    rw [hone] at this
    exact List.perm_singleton.1 this.symm
  obtain ⟨d, h1⟩ := C120_own_facts_partial hv ho hone hag hn hl
  obtain ⟨d', h1'⟩ := C120_own_facts_partial (C126_valid hp ht hv) ho' hone' hag hn' hl'
  refine ⟨d + d', fun j => ?_⟩
  obtain ⟨r, h2, h3⟩ := h1 (d' + j)
  obtain ⟨r', h2', h3'⟩ := h1' (d + j)
  refine ⟨r, r', by rw [Nat.add_assoc]; exact h2, by rw [show d + d' + j = d' + (d + j) by omega]; exact h2', ?_⟩
  have he := taxonomy_byId hp ht
  have hf := statedFacts_perm (dateOf := dateOf) hp ht
  rw [h3, h3']
  constructor
  · exact fun h l q hm => totalsHold_congr he hf (h l q (met_congr (fun i => (he i).symm) hf.symm hm))
  · exact fun h l q hm => totalsHold_congr (fun i => (he i).symm) hf.symm (h l q (met_congr he hf hm))

/-- C126: the search by a text finds the same report elements. -/
theorem C126_search (hp : docs.Perm docs') (ht : ToldApart docs) {o o' : OpenedFiling} (ho : openXml dateOf float str so steps docs = some (.ok o))
    (ho' : openXml dateOf float str' so' steps' docs' = some (.ok o')) (hd : ∀ d ∈ schemaDeclarations docs, d.plain ∧ d.prefixed) {d d' : FilingData} (hn : d.ns = o.namespaces)
    (he : d.elems = o.elements.store) (hn' : d'.ns = o'.namespaces) (he' : d'.elems = o'.elements.store) (s : String) :
    ∃ R R', d.searchElements s = .ok R ∧ d'.searchElements s = .ok R' ∧ R.Perm R' := by
  obtain ⟨R, h1, h2, h3⟩ := C105_search ho hd d hn he s
  obtain ⟨R', h1', h2', h3'⟩ := C105_search ho' (fun x hx => hd x ((declarations_perm hp).mem_iff.2 hx)) d' hn' he' s
  refine ⟨R, R', h1, h1', (List.perm_ext_iff_of_nodup h2 h2').2 (fun e => ?_)⟩
  rw [h3, h3', (taxonomy_perm hp ht).mem_iff]

/-- C126: the same facts are found by the text of a concept, if the text denotes one. -/
theorem C126_facts_by_concept (hp : docs.Perm docs') (ht : ToldApart docs) (hv : ValidFiling dateOf float docs) (hpre : ∀ d ∈ schemaDeclarations docs, d.prefixed) {o o' : OpenedFiling}
    (ho : openXml dateOf float str so steps docs = some (.ok o)) (ho' : openXml dateOf float str' so' steps' docs' = some (.ok o')) {d d' : FilingData} (hn : d.ns = o.namespaces)
    (he : d.elems = o.elements.store) (hf : d.facts = o.facts.facts) (hn' : d'.ns = o'.namespaces) (he' : d'.elems = o'.elements.store) (hf' : d'.facts = o'.facts.facts) {s : String}
    {e : ReportElement} (hone : ∀ e', (e' ∈ taxonomy docs ∧ e'.kind = .concept ∧ Denotes s e'.name) ↔ e' = e) :
    ∃ fs fs', d.getFactsByConceptName (.str s) = .ok fs ∧ d'.getFactsByConceptName (.str s) = .ok fs' ∧ fs.Perm fs' := by
  have key : ∀ {docs : List SchemaDoc} {str : XNode → String} {so : SetOrder} {steps : Nat} {o : OpenedFiling}, ValidFiling dateOf float docs → (∀ d ∈ schemaDeclarations docs, d.prefixed) →
      openXml dateOf float str so steps docs = some (.ok o) → ∀ {d : FilingData}, d.ns = o.namespaces → d.elems = o.elements.store → d.facts = o.facts.facts →
      (∀ e', (e' ∈ taxonomy docs ∧ e'.kind = .concept ∧ Denotes s e'.name) ↔ e' = e) → d.getFactsByConceptName (.str s) = .ok (factsNamed (statedFacts dateOf docs) e.name) := by
    intro docs str so steps o hv hpre ho d hn he hf hone
    obtain ⟨st, o1, h1, h2⟩ := C105_facts_by_concept (str := str) (so := so) hv hpre
    have h3 := openXml_mono (j := st) ho
    rw [Nat.add_comm, h1 steps] at h3
    cases h3
    exact h2 d s e hn he hf hone
  refine ⟨_, _, key hv hpre ho hn he hf hone, key (C126_valid hp ht hv) (fun x hx => hpre x ((declarations_perm hp).mem_iff.2 hx)) ho' hn' he' hf'
    (fun e' => by rw [← hone e', (taxonomy_perm hp ht).mem_iff]), ?_⟩
  exact (statedFacts_perm hp ht).filter _

end Brel
