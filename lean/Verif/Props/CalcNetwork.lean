import Verif.Spec.CalcNetwork
import Verif.Props.Arcs
import Verif.Props.Open
import Verif.Props.Calc
import Verif.Props.LinkKinds

/-! C116: the balance check of a calculation network of an opened filing, in terms of the documents. -/

namespace Brel

variable {elems : ElemStore} {facts : FactStore} {float : String → Option Rat} {str : XNode → String} {so : SetOrder} {steps : Nat} {roots : List XNode} {s : ReadNetworks}

/-! ## Trees and nodes -/

theorem mapM_option_iff {α β : Type} {f : α → Option β} {l : List α} {m : List β} : l.mapM f = some m ↔ Rel2 (fun a b => f a = some b) l m := by
  induction l generalizing m with
  | nil =>
    constructor
    · intro h; cases h; exact .nil
    · intro h; cases h; rfl
  | cons a l ih =>
    rw [List.mapM_cons]
    constructor
    · intro h
      cases ha : f a with
      | none => rw [ha] at h; cases h
      | some b =>
        cases hl : l.mapM f with
        | none => rw [ha, hl] at h; cases h
        | some m' => rw [ha, hl] at h; cases h; exact .cons ha (ih.1 hl)
    · intro h
      cases h with
      | cons h1 h2 => rw [h1, ih.2 h2]; rfl

variable {concept : QName → Concept} {h : Heap}

theorem calcTree_succ {d i : Nat} {t : CalcTree Rat} : h.calcTree concept (d + 1) i = some t ↔
    ∃ n q b, h[i]? = some n ∧ n.target = .element q b ∧ t.concept = concept q ∧ t.weight = n.weight ∧ Rel2 (fun c u => h.calcTree concept d c = some u) n.children t.children := by
  rw [Heap.calcTree]
  constructor
  · intro ht
    obtain ⟨n, hn, ht⟩ := Option.bind_eq_some_iff.1 ht
    cases hg : n.target with
    | element q b =>
      rw [hg] at ht
      obtain ⟨cs, hcs, rfl⟩ := Option.map_eq_some_iff.1 ht
      exact ⟨n, q, b, hn, hg, rfl, rfl, mapM_option_iff.1 hcs⟩
    | _ => rw [hg] at ht; cases ht
  · rintro ⟨n, q, b, hn, hg, h1, h2, h3⟩
    rw [hn, Option.bind_some]
    simp only [hg]
    rw [mapM_option_iff.2 h3]
    cases t with
    | node c w cs =>
      simp only [CalcTree.concept, CalcTree.weight] at h1 h2
      subst h1 h2
      rfl

theorem calcTree_step (d : Nat) : ∀ i t, h.calcTree concept d i = some t → h.calcTree concept (d + 1) i = some t := by
  induction d with
  | zero => intro i t ht; rw [Heap.calcTree] at ht; cases ht
  | succ d ih =>
    intro i t ht
    obtain ⟨n, q, b, h1, h2, h3, h4, h5⟩ := calcTree_succ.1 ht
    exact calcTree_succ.2 ⟨n, q, b, h1, h2, h3, h4, h5.imp (fun c _ u hc => ih c u hc)⟩

theorem calcTree_mono (d j i : Nat) (t : CalcTree Rat) (ht : h.calcTree concept d i = some t) : h.calcTree concept (d + j) i = some t := by
  induction j with
  | zero => exact ht
  | succ j ih => exact calcTree_step _ _ _ ih

theorem rank_bound (f : Nat → Nat) : ∀ n, ∃ b, ∀ i < n, f i ≤ b
  | 0 => ⟨0, fun _ hi => absurd hi (Nat.not_lt_zero _)⟩
  | n + 1 => by
    obtain ⟨b, hb⟩ := rank_bound f n
    refine ⟨max b (f n), fun i hi => ?_⟩
    rcases Nat.lt_succ_iff_lt_or_eq.1 hi with hi | rfl
    · exact Nat.le_trans (hb i hi) (Nat.le_max_left _ _)
    · exact Nat.le_max_right _ _

theorem inNetwork_child {rts : List Nat} {i c : Nat} (hi : InNetwork h rts i) (hc : c ∈ h.children i) : InNetwork h rts c := by
  obtain ⟨r, hr, n, hp⟩ := hi
  refine ⟨r, hr, n + 1, ?_⟩
  clear hr
  induction hp with
  | refl a => exact .step hc (.refl _)
  | step h1 _ ih => exact .step h1 (ih hc)

theorem children_of {i : Nat} {n : NetNode} (hn : h[i]? = some n) : h.children i = n.children := by
  unfold Heap.children; rw [hn]; rfl

theorem forest_exists {rts : List Nat} {rank : Nat → Nat} (hrank : ∀ i, ∀ c ∈ h.children i, rank i < rank c)
    (hel : ∀ i, InNetwork h rts i → ∃ q b, h.targetOf i = some (.element q b)) : ∃ d ts, ∀ j, rts.mapM (h.calcTree concept (d + j)) = some ts := by
  obtain ⟨R, hR⟩ := rank_bound rank h.length
  have key : ∀ d i, InNetwork h rts i → R < rank i + d → ∃ t, h.calcTree concept d i = some t := by
    intro d
    induction d with
    | zero =>
      intro i hi hd
      obtain ⟨q, b, ht⟩ := hel i hi
      obtain ⟨n, hn, _⟩ := Option.map_eq_some_iff.1 ht
      have := hR i (List.getElem?_eq_some_iff.1 hn).1
      omega
    | succ d ih =>
      intro i hi hd
      obtain ⟨q, b, ht⟩ := hel i hi
      obtain ⟨n, hn, hnt⟩ := Option.map_eq_some_iff.1 ht
      have hch : ∀ c ∈ n.children, ∃ t, h.calcTree concept d c = some t := by
        intro c hc
        rw [← children_of hn] at hc
        have := hrank i c hc
        exact ih c (inNetwork_child hi hc) (by omega)
      have : ∃ cs, Rel2 (fun c u => h.calcTree concept d c = some u) n.children cs := by
        generalize n.children = l at hch
        induction l with
        | nil => exact ⟨[], .nil⟩
        | cons a l ihl =>
          obtain ⟨t, ht⟩ := hch a List.mem_cons_self
          obtain ⟨cs, hcs⟩ := ihl (fun c hc => hch c (List.mem_cons_of_mem _ hc))
          exact ⟨t :: cs, .cons ht hcs⟩
      obtain ⟨cs, hcs⟩ := this
      exact ⟨.node (concept q) n.weight cs, calcTree_succ.2 ⟨n, q, b, hn, hnt, rfl, rfl, hcs⟩⟩
  exact mapM_option_all _ (fun d j i t => calcTree_mono d j i t) rts (fun i hi => by
    obtain ⟨t, ht⟩ := key (R + 1) i ⟨i, hi, 0, .refl _⟩ (by omega)
    exact ⟨_, t, ht⟩)

/-- The tree is the one for the node. -/
def TreeOf (concept : QName → Concept) (h : Heap) (i : Nat) (t : CalcTree Rat) : Prop := ∃ d, h.calcTree concept d i = some t

theorem TreeOf.data {i : Nat} {t : CalcTree Rat} (ht : TreeOf concept h i t) : ∃ n q b, h[i]? = some n ∧ n.target = .element q b ∧ t.concept = concept q ∧ t.weight = n.weight ∧
    Rel2 (TreeOf concept h) n.children t.children := by
  obtain ⟨d, ht⟩ := ht
  cases d with
  | zero => rw [Heap.calcTree] at ht; cases ht
  | succ d =>
    obtain ⟨n, q, b, h1, h2, h3, h4, h5⟩ := calcTree_succ.1 ht
    exact ⟨n, q, b, h1, h2, h3, h4, h5.imp (fun c _ u hc => ⟨d, hc⟩)⟩

theorem inForest_node {rts : List Nat} {ts : List (CalcTree Rat)} (hr : Rel2 (TreeOf concept h) rts ts) {t : CalcTree Rat} (ht : InForest ts t) : ∃ i, InNetwork h rts i ∧ TreeOf concept h i t := by
  induction ht with
  | root hm =>
    obtain ⟨i, hi, hit⟩ := hr.mem_right _ hm
    exact ⟨i, ⟨i, hi, 0, .refl _⟩, hit⟩
  | child _ hm ih =>
    obtain ⟨i, hi, hit⟩ := ih
    obtain ⟨n, q, b, h1, _, _, _, h5⟩ := hit.data
    obtain ⟨c, hc, hct⟩ := h5.mem_right _ hm
    exact ⟨c, inNetwork_child hi (by rw [children_of h1]; exact hc), hct⟩

theorem node_inForest {rts : List Nat} {ts : List (CalcTree Rat)} (hr : Rel2 (TreeOf concept h) rts ts) {i : Nat} (hi : InNetwork h rts i) : ∃ t, InForest ts t ∧ TreeOf concept h i t := by
  obtain ⟨r, hm, n, hp⟩ := hi
  obtain ⟨t, ht, hrt⟩ := hr.mem_left _ hm
  have key : ∀ {a b n}, Path h.children a b n → ∀ t, InForest ts t → TreeOf concept h a t → ∃ u, InForest ts u ∧ TreeOf concept h b u := by
    intro a b n hp
    induction hp with
    | refl a => exact fun t h1 h2 => ⟨t, h1, h2⟩
    | step hc _ ih =>
      intro t h1 h2
      obtain ⟨n, q, b, g1, _, _, _, g5⟩ := h2.data
      rw [children_of g1] at hc
      obtain ⟨u, hu, hut⟩ := g5.mem_left _ hc
      exact ih u (.child h1 hu) hut
  exact key hp t (.root ht) hrt

/-- C16 for the nodes of a network. -/
theorem balance_nodes {rts : List Nat} {ts : List (CalcTree Rat)} (hr : Rel2 (TreeOf concept h) rts ts) :
    isBalanceConsistent (ratOps float) ts = true ↔
      (∀ q b, Occurs h rts (some (.element q b)) → (concept q).balance ≠ none) ∧
      (∀ q b n q' b', (∃ i c, InNetwork h rts i ∧ c ∈ h.children i ∧ h.targetOf i = some (.element q b) ∧ h[c]? = some n ∧ n.target = .element q' b') →
        ((concept q).balance = (concept q').balance → 0 ≤ n.weight) ∧ ((concept q).balance ≠ (concept q').balance → n.weight ≤ 0)) := by
  have hlt : ∀ a b : Rat, decide (a < b) = false ↔ b ≤ a := by
    intro a b; rw [decide_eq_false_iff_not]; exact Rat.not_lt
  rw [C16_balance]
  constructor
  · rintro ⟨h1, h2⟩
    constructor
    · rintro q b ⟨i, hi, hit⟩
      obtain ⟨t, ht, htr⟩ := node_inForest hr hi
      obtain ⟨n, q', b', g1, g2, g3, _, _⟩ := htr.data
      have : h.targetOf i = some n.target := by unfold Heap.targetOf; rw [g1]; rfl
      rw [this, g2] at hit
      cases hit
      rw [← g3]
      exact h1 t ht
    · rintro q b n q' b' ⟨i, c, hi, hc, hit, hcn, hct⟩
      obtain ⟨t, ht, htr⟩ := node_inForest hr hi
      obtain ⟨n0, q0, b0, g1, g2, g3, _, g5⟩ := htr.data
      have : h.targetOf i = some n0.target := by unfold Heap.targetOf; rw [g1]; rfl
      rw [this, g2] at hit
      cases hit
      rw [children_of g1] at hc
      obtain ⟨u, hu, hut⟩ := g5.mem_left _ hc
      obtain ⟨n1, q1, b1, f1, f2, f3, f4, _⟩ := hut.data
      rw [hcn] at f1
      cases f1
      rw [hct] at f2
      cases f2
      have := h2 t u ht hu
      rw [g3, f3, f4] at this
      exact ⟨fun he => (hlt _ _).1 (this.1 he), fun he => (hlt _ _).1 (this.2 he)⟩
  · rintro ⟨h1, h2⟩
    constructor
    · intro t ht
      obtain ⟨i, hi, htr⟩ := inForest_node hr ht
      obtain ⟨n, q, b, g1, g2, g3, _, _⟩ := htr.data
      rw [g3]
      exact h1 q b ⟨i, hi, by unfold Heap.targetOf; rw [g1, Option.map_some, g2]⟩
    · intro t u ht hu
      obtain ⟨i, hi, htr⟩ := inForest_node hr ht
      obtain ⟨n, q, b, g1, g2, g3, _, g5⟩ := htr.data
      obtain ⟨c, hc, hut⟩ := g5.mem_right _ hu
      obtain ⟨n1, q1, b1, f1, f2, f3, f4, _⟩ := hut.data
      have := h2 q b n1 q1 b1 ⟨i, c, hi, by rw [children_of g1]; exact hc, by unfold Heap.targetOf; rw [g1, Option.map_some, g2], f1, f2⟩
      rw [g3, f3, f4]
      exact ⟨fun he => (hlt _ _).2 (this.1 he), fun he => (hlt _ _).2 (this.2 he)⟩

/-! ## The networks of a filing -/

/-- The nodes of calculation networks stand for concepts. -/
theorem calculation_concepts (h : readNetworks elems facts float str so steps roots = some (.ok s)) (hp : PlainLinks roots) {role : String} {net : Network}
    (hn : net ∈ s.networks.store.getByType .calculation) (hl : net.logicalOf role .calculation = true) {i : Nat} (hi : InNetwork s.networks.heap net.roots i) :
    ∃ q, s.networks.heap.targetOf i = some (.element q true) := by
  obtain ⟨hparse, _, _, _⟩ := readNetworks_ok h
  obtain ⟨h1, parsed, hrun, hlog, _⟩ := C84_networks hparse
  obtain ⟨s1, _⟩ := Networks.shown (hlog role .calculation)
  obtain ⟨n, hn, hnl, ho⟩ := (s1 _).1 ⟨net, hn, hl, i, hi, rfl⟩
  obtain ⟨l, hlm, up, hlink, r, es, R, k', h0, res, hpl, hnr, hkept⟩ := network_link h hp hrun (name := "calculationLink") (by simp [unitedTags]) hn hnl
  rw [kept_occurs (parseLink_grow hpl).1 hnr hkept] at ho
  obtain ⟨j, hj, hjt⟩ := ho
  obtain ⟨m, hm⟩ := inside_new hpl hnr hj
  rw [targetOf_new hm] at hjt
  obtain ⟨e, he, _, e2⟩ := new_end hpl hm
  have ha := C69_objects hpl e he _ e2
  obtain ⟨_, c2, _, _⟩ := (C20_networks hpl).1 n hnr
  obtain ⟨_, d2, _⟩ := logicalOf_iff.1 hnl
  rw [d2] at c2
  have hk : k' = .calculation := by cases k' <;> simp [LinkKind.nodeKind] at c2 ⊢
  subst hk
  rw [← hjt]
  cases ht : m.target with
  | element q b =>
    rw [ht] at ha
    cases b with
    | true => exact ⟨q, rfl⟩
    | false => exact absurd ha (by simp [Admissible])
  | _ => rw [ht] at ha; exact absurd ha (by simp [Admissible])

/-- The concept found under a name that a locator of a calculation link refers to has the declared balance. -/
theorem located_balance {docs : List SchemaDoc} {link : XNode} (hvl : ValidLink (taxonomyStore docs) facts float "calculationLink" link) {l : String} {q : QName}
    (hloc : Locates (taxonomyStore docs) link l q) :
    ((((counting (schemaDeclarations docs)).find? (fun d => decide (d.name = q))).bind (fun d => (createElement d.x d.name).1.bind (·.concept))).getD { name := q }).balance = BalanceOf docs q := by
  obtain ⟨own, x, href, i, e, hx, _, hh, hri, he, rfl⟩ := hloc
  obtain ⟨_, href', i', h1, h2, h3, _⟩ := hvl.locators own x hx
  rw [hh] at h1
  cases h1
  have hii : i' = i := by rw [refers_unique h2, ← refers_unique hri]
  subst hii
  have hkind := h3 e he rfl
  have hmem : e ∈ taxonomy docs := by
    unfold taxonomyStore at he
    rw [ElemStore.run_get?_id] at he
    exact (latest_some _ _ _ _ he).1
  obtain ⟨d, hd, hdn, _, hdk⟩ := taxonomy_mem hmem
  obtain ⟨e0, he0, hek⟩ := Option.map_eq_some_iff.1 hdk
  obtain ⟨_, _, _, hc⟩ := (C85_created d.x d.name).1 e0 he0
  rw [hek, hkind, if_pos rfl] at hc
  obtain ⟨c, hc, hsh⟩ := hc
  have hfind : (counting (schemaDeclarations docs)).find? (fun d => decide (d.name = e.name)) = some d := by
    have hnd : ((counting (schemaDeclarations docs)).map Declaration.name).Nodup := firstByKey_keys_nodup _ _
    generalize counting (schemaDeclarations docs) = ds at hd hnd
    induction ds with
    | nil => cases hd
    | cons a ds ih =>
      rw [List.find?_cons]
      rw [List.map_cons, List.nodup_cons] at hnd
      by_cases ha : a.name = e.name
      · rw [decide_eq_true ha]
        rcases List.mem_cons.1 hd with rfl | hd
        · rfl
        · exact absurd (List.mem_map.2 ⟨d, hd, by rw [← hdn, ha]⟩) hnd.1
      · rw [decide_eq_false ha]
        rcases List.mem_cons.1 hd with rfl | hd
        · exact absurd hdn.symm ha
        · exact ih hd hnd.2
  unfold BalanceOf
  rw [hfind, Option.bind_some, Option.bind_some, he0, Option.bind_some, hc]
  exact hsh.balance.symm

/-- The networks of an opened filing, with the repositories in terms of the documents. -/
theorem opened_reading {dateOf : String → Option Date} {docs : List SchemaDoc} (hv : ValidFiling dateOf float docs) {o : OpenedFiling}
    (ho : openXml dateOf float str so steps docs = some (.ok o)) :
    readNetworks (taxonomyStore docs) (FactStore.run (statedFacts dateOf docs)) float str so steps (docs.map (·.root)) = some (.ok o.networks) ∧
    ∀ q, o.conceptNamed q = (((counting (schemaDeclarations docs)).find? (fun d => decide (d.name = q))).bind (fun d => (createElement d.x d.name).1.bind (·.concept))).getD { name := q } := by
  obtain ⟨h1, h2, h3, _⟩ := openXml_parts ho
  obtain ⟨hst, hco⟩ := taxonomy_of h1 hv.schemas.plain
  obtain ⟨fs, fst, hf1, hf2, hf3, hf4, hf5⟩ := C96_accepted_partial (dateOf := dateOf) hv.instances.texts hv.instances.units hv.instances.concepts hv.instances.facts
  have hstated : statedFacts dateOf docs = fs := filterMap_of_map hf3
  rw [hst, hco, hf1] at h2
  have h2' := Except.ok.inj h2
  rw [hst, ← h2', hf4] at h3
  rw [hstated]
  refine ⟨h3, fun q => ?_⟩
  have := congrFun hco ⟨.concept, q, none, [], 0⟩
  exact this

/-- The balance check for the networks that were read from valid link bases, with the concepts that the schemas declare. -/
theorem balance_of_links {docs : List SchemaDoc} (hlk : ValidLinkbases (taxonomyStore docs) facts float (docs.map (·.root)))
    (hr : readNetworks (taxonomyStore docs) facts float str so steps (docs.map (·.root)) = some (.ok s)) {con : QName → Concept}
    (hcon : ∀ q, con q = (((counting (schemaDeclarations docs)).find? (fun d => decide (d.name = q))).bind (fun d => (createElement d.x d.name).1.bind (·.concept))).getD { name := q })
    {role : String} (hag : ∀ up link, HasLink (docs.map (·.root)) "calculationLink" role up link → AgreeOn link "weight")
    {net : Network} (hn : net ∈ s.networks.store.getByType .calculation) (hl : net.logicalOf role .calculation = true) :
    ∃ depth ts, (∀ j, net.roots.mapM (s.networks.heap.calcTree con (depth + j)) = some ts) ∧ (isBalanceConsistent (ratOps float) ts = true ↔ BalancesAgree float docs role) := by
  have hroot : ∀ up link, HasLink (docs.map (·.root)) "calculationLink" role up link → Rooted (taxonomyStore docs) link := fun up link hh =>
    ⟨(hlk.valid _ role up link hh).acyclic, hlk.sources ("calculationLink", .calculation) (by simp [unitedTags]) role up link hh⟩
  obtain ⟨rank, hrank⟩ := C102_no_cycles hlk.plain hlk.valid hr
  obtain ⟨depth, ts, hts⟩ := forest_exists (concept := con) hrank (fun i hi => by
    obtain ⟨q, hq⟩ := calculation_concepts hr hlk.plain hn hl hi
    exact ⟨q, true, hq⟩)
  refine ⟨depth, ts, hts, ?_⟩
  have hone : ∀ net' ∈ s.networks.store.getByType .calculation, net'.logicalOf role .calculation = true → net' = net := by
    intro net' h1 h2
    have hlen := C101_one_network hr role .calculation
    have m1 := List.mem_filter.2 ⟨h1, h2⟩
    have m2 := List.mem_filter.2 ⟨hn, hl⟩
    match hf : (s.networks.store.getByType .calculation).filter (Network.logicalOf role .calculation), hlen, m1, m2 with
    | [a], _, m1, m2 => rw [List.mem_singleton.1 m1, List.mem_singleton.1 m2]
    | a :: b :: l, hlen, _, _ => simp at hlen
  have hbal : ∀ up link l q, HasLink (docs.map (·.root)) "calculationLink" role up link → Locates (taxonomyStore docs) link l q → (con q).balance = BalanceOf docs q := by
    intro up link l q h1 h2
    rw [hcon]
    exact located_balance (hlk.valid _ role up link h1) h2
  rw [balance_nodes (mapM_option_iff.1 (hts 0) |>.imp (fun _ _ _ hc => ⟨_, hc⟩))]
  have hobj : ∀ q, (∃ b, Occurs s.networks.heap net.roots (some (.element q b))) ↔ ∃ up link l, HasLink (docs.map (·.root)) "calculationLink" role up link ∧ Locates (taxonomyStore docs) link l q := by
    intro q
    constructor
    · intro hb
      exact (C101_nothing_else hr hlk.plain (name := "calculationLink") (k := .calculation) (by simp [unitedTags])).1 q ⟨net, hn, hl, hb⟩
    · rintro ⟨up, link, l, h1, h2⟩
      obtain ⟨net', g1, g2, hb⟩ := (C101_everything hr hlk.plain (name := "calculationLink") (k := .calculation) (by simp [unitedTags]) h1 (hroot up link h1)).1 l q h2
      rw [hone net' g1 g2] at hb
      exact hb
  have hw := C115_weights_partial hr hlk.plain hroot hag
  constructor
  · rintro ⟨a1, a2⟩
    refine ⟨fun up link l q h1 h2 => ?_, fun q q' w h1 => ?_⟩
    · obtain ⟨b, hb⟩ := (hobj q).2 ⟨up, link, l, h1, h2⟩
      rw [← hbal up link l q h1 h2]
      exact a1 q b hb
    · have h1' := h1
      obtain ⟨up, link, l, m, x, e1, _, e3, e4, _⟩ := h1'
      obtain ⟨net', g1, g2, i, c, n, b, b', f1, f2, f3, f4, f5, f6⟩ := (hw q q' w).2 h1
      rw [hone net' g1 g2] at f1
      have := a2 q b n q' b' ⟨i, c, f1, f2, f3, f4, f5⟩
      rw [hbal up link l q e1 e3, hbal up link m q' e1 e4, f6] at this
      exact this
  · intro hb
    refine ⟨fun q b h1 => ?_, ?_⟩
    · obtain ⟨up, link, l, e1, e2⟩ := (hobj q).1 ⟨b, h1⟩
      rw [hbal up link l q e1 e2]
      exact hb.declared up link l q e1 e2
    · rintro q b n q' b' ⟨i, c, f1, f2, f3, f4, f5⟩
      have hst := (hw q q' n.weight).1 ⟨net, hn, hl, i, c, n, b, b', f1, f2, f3, f4, f5, rfl⟩
      have hst' := hst
      obtain ⟨up, link, l, m, x, e1, _, e3, e4, _⟩ := hst'
      rw [hbal up link l q e1 e3, hbal up link m q' e1 e4]
      exact hb.weights q q' _ hst

/-- C116: the balance check of the calculation network of a role of an opened filing ends, and its result says whether the balances of the schemas agree with the weights of the links of
the role, if arcs of a link that lead to the same locator agree on the weight. -/
theorem C116_balance_partial {dateOf : String → Option Date} {docs : List SchemaDoc} (hv : ValidFiling dateOf float docs) {o : OpenedFiling}
    (ho : openXml dateOf float str so steps docs = some (.ok o)) {role : String} (hag : ∀ up link, HasLink (docs.map (·.root)) "calculationLink" role up link → AgreeOn link "weight")
    {net : Network} (hn : net ∈ o.networks.networks.store.getByType .calculation) (hl : net.logicalOf role .calculation = true) :
    ∃ depth, (∀ j, (o.isBalanceConsistent float (depth + j) net).isSome) ∧ ∀ j, o.isBalanceConsistent float (depth + j) net = some true ↔ BalancesAgree float docs role := by
  obtain ⟨hr, hcon⟩ := opened_reading hv ho
  obtain ⟨depth, ts, hts, hb⟩ := balance_of_links hv.links hr hcon hag hn hl
  refine ⟨depth, fun j => ?_, fun j => ?_⟩
  · unfold OpenedFiling.isBalanceConsistent OpenedFiling.calcForest
    rw [hts j]; rfl
  · unfold OpenedFiling.isBalanceConsistent OpenedFiling.calcForest
    rw [hts j, Option.map_some, Option.some.injEq]
    exact hb

end Brel
