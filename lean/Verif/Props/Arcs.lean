import Verif.Props.Relations
import Verif.Spec.Arcs

/-! C115: children show the order, weight and preferred label that the arcs to them state. -/

namespace Brel

variable {elems : ElemStore} {facts : FactStore} {float : String → Option Rat} {str : XNode → String} {so : SetOrder} {steps : Nat} {roots : List XNode} {s : ReadNetworks}

/-- The node without its children. -/
def NetNode.bare (n : NetNode) : NetNode := { n with children := [] }

theorem ShowsArc.bare {k : LinkKind} {a : Arc} {n : NetNode} (h : ShowsArc k a n) : ShowsArc k a n.bare := ⟨h.order, h.definitionOrder, h.weight, h.preferredLabel⟩

section link
variable {k : LinkKind} {linkRole : String} {h : Heap} {arcs : List Arc} {ends : List LinkEnd} {res : LinkResult}

/-- The child at the end of an arc shows some arc that leads to the same place. -/
theorem shows_some_arc (hp : parseLink k so linkRole h arcs ends = .ok res) (rank : String → Nat) (hrank : ∀ a ∈ arcs, rank a.frm < rank a.to) {i : Nat} {n : NetNode} (hn : NewNode h res i n)
    {a : Arc} (ha : a ∈ arcs) (hl : LeadsTo k a n) : ∃ b ∈ arcs, b.to = n.label ∧ ShowsArc k b n := by
  have hs : ∃ b, arcs.find? (fun a => decide (LeadsTo k a n)) = some b := by
    rw [← Option.isSome_iff_exists, List.find?_isSome]
    exact ⟨a, ha, decide_eq_true hl⟩
  obtain ⟨b, hb⟩ := hs
  have hbm := List.mem_of_find?_eq_some hb
  have hbl : LeadsTo k b n := of_decide_eq_true (List.find?_some (p := fun a => decide (LeadsTo k a n)) hb)
  refine ⟨b, hbm, hbl.1, C60_first_arc_partial hp i n hn b hb ?_⟩
  intro he
  have := hrank b hbm
  rw [he] at this
  exact Nat.lt_irrefl _ this

theorem link_relatedAs (hp : parseLink k so linkRole h arcs ends = .ok res) (rank : String → Nat) (hrank : ∀ a ∈ arcs, rank a.frm < rank a.to) {net : Network} (hm : net ∈ res.networks)
    {t : Target} {d : NetNode} (ho : RelatedAs res.heap net.roots (some t) d) :
    ∃ a ∈ arcs, (∃ e ∈ ends, e.label = a.frm ∧ e.target = some t) ∧ (∃ e ∈ ends, e.label = a.to ∧ e.target = some d.target) ∧ ∃ b ∈ arcs, b.to = a.to ∧ ShowsArc k b d := by
  obtain ⟨i, c, hi, hc, ht, hu⟩ := ho
  obtain ⟨n, hn⟩ := inside_new hp hm hi
  have hc' : c ∈ n.children := by
    unfold Heap.children at hc
    rw [hn.2] at hc
    exact hc
  obtain ⟨m, hmn⟩ := (C20_edges hp i n hn).1 c hc'
  obtain ⟨a, ha, h1, h2, h3⟩ := (C20_edge_iff hp i c n m hn hmn).1 hc'
  rw [targetOf_new hn] at ht
  rw [hmn.2] at hu
  cases ht
  cases hu
  obtain ⟨e, he, g1, g2⟩ := new_end hp hn
  obtain ⟨e', he', g3, g4⟩ := new_end hp hmn
  obtain ⟨b, hb, hb1, hb2⟩ := shows_some_arc hp rank hrank hmn ha ⟨h2, fun hph => (h3 hph).2⟩
  exact ⟨a, ha, ⟨e, he, g1.trans h1.symm, g2⟩, ⟨e', he', g3.trans h2.symm, g4⟩, b, hb, hb1.trans h2.symm, hb2.bare⟩

theorem relatedAs_link (hp : parseLink k so linkRole h arcs ends = .ok res) (rank : String → Nat)
    (hrank : ∀ a ∈ arcs, rank a.frm < rank a.to) (hsrc : ∀ a ∈ arcs, ∃ e ∈ ends, e.label = a.frm ∧ e.target ≠ none) {a : Arc} (ha : a ∈ arcs) {e e' : LinkEnd} (he : e ∈ ends)
    (hel : e.label = a.frm) {t : Target} (ht : e.target = some t) (he' : e' ∈ ends) (hel' : e'.label = a.to) {u : Target} (hu : e'.target = some u) :
    ∃ net ∈ res.networks, ∃ d, RelatedAs res.heap net.roots (some t) d ∧ d.target = u ∧ ∃ b ∈ arcs, b.to = a.to ∧ ShowsArc k b d := by
  obtain ⟨P⟩ := parseLink_ok hp
  obtain ⟨i, n, hn, h1, h2, h3⟩ := P.exists_node (end_resolved he ht) a.role (fun _ => (mem_rolesAt ..).2 (Or.inl ⟨a, ha, Or.inr hel.symm, rfl⟩))
  obtain ⟨j, m, hm, g1, g2, g3⟩ := P.exists_node (end_resolved he' hu) a.role (fun _ => (mem_rolesAt ..).2 (Or.inl ⟨a, ha, Or.inl hel'.symm, rfl⟩))
  obtain ⟨net, hnet, r', hr', hre⟩ := C67_reachable_partial hp rank hrank hsrc i n hn
  have hch := (C20_edge_iff hp i j n m hn hm).2 ⟨a, ha, by rw [h1, hel], by rw [g1, hel'], fun hph => ⟨(h3 hph).symm, (g3 hph).symm⟩⟩
  obtain ⟨b, hb, hb1, hb2⟩ := shows_some_arc hp rank hrank hm ha ⟨by rw [g1, hel'], fun hph => (g3 hph).symm⟩
  refine ⟨net, hnet, m.bare, ⟨i, j, ⟨r', hr', hre⟩, ?_, by rw [targetOf_new hn, h2], by rw [hm.2]; rfl⟩, g2, b, hb, by rw [hb1, g1, hel'], hb2.bare⟩
  unfold Heap.children
  rw [hn.2]
  exact hch

end link

theorem kept_relatedAs {h a b : Heap} {ns : List Network} {n : Network} (g : Grow h a ns) (hn : n ∈ ns) (hk : KeptIn a b) (t : Option Target) (d : NetNode) :
    RelatedAs b n.roots t d ↔ RelatedAs a n.roots t d := by
  constructor
  · rintro ⟨i, c, hi, hc, ht, hu⟩
    rw [kept_inNetwork g hn hk] at hi
    have h1 := g.inside hn hi
    rw [kept_children hk h1.2] at hc
    have h2 := g.closed i h1.1 c hc
    exact ⟨i, c, hi, hc, by rw [← kept_target hk h1.2]; exact ht, by rw [← hk c h2.2]; exact hu⟩
  · rintro ⟨i, c, hi, hc, ht, hu⟩
    have h1 := g.inside hn hi
    have h2 := g.closed i h1.1 c hc
    exact ⟨i, c, (kept_inNetwork g hn hk i).2 hi, by rw [kept_children hk h1.2]; exact hc, by rw [kept_target hk h1.2]; exact ht, by rw [hk c h2.2]; exact hu⟩

theorem Networks.shown_data {h1 : Heap} {parsed : List Network} {k : NodeKind} {role : String} {n : Networks} (hc : (parsed.filter (Network.logicalOf role k) = [] ∧ (n.store.getByType k).filter (Network.logicalOf role k) = []) ∨
        ∃ net, (n.store.getByType k).filter (Network.logicalOf role k) = [net] ∧ parsed.filter (Network.logicalOf role k) ≠ [] ∧
          Unites h1 (parsed.filter (Network.logicalOf role k)) n.heap net) (t : Option Target) (d : NetNode) :
    (∃ net ∈ n.store.getByType k, net.logicalOf role k = true ∧ RelatedAs n.heap net.roots t d) ↔ ∃ m ∈ parsed, m.logicalOf role k = true ∧ RelatedAs h1 m.roots t d := by
  have hmem : ∀ {l : List Network} {m : Network}, m ∈ l → m.logicalOf role k = true → m ∈ l.filter (Network.logicalOf role k) := fun h1 h2 => List.mem_filter.2 ⟨h1, h2⟩
  rcases hc with ⟨h1, h2⟩ | ⟨net, h2, h3, hu⟩
  · constructor
    · rintro ⟨m, g1, g2, _⟩
      have := hmem g1 g2; rw [h2] at this; cases this
    · rintro ⟨m, g1, g2, _⟩
      have := hmem g1 g2; rw [h1] at this; cases this
  · have hnet : net ∈ n.store.getByType k ∧ net.logicalOf role k = true := by
      have : net ∈ (n.store.getByType k).filter (Network.logicalOf role k) := by rw [h2]; exact List.mem_singleton.2 rfl
      exact List.mem_filter.1 this
    constructor
    · rintro ⟨m, g1, g2, g3⟩
      have := hmem g1 g2
      rw [h2, List.mem_singleton] at this
      subst this
      obtain ⟨m', e1, e2⟩ := (hu.data t d).1 g3
      exact ⟨m', (List.mem_filter.1 e1).1, (List.mem_filter.1 e1).2, e2⟩
    · rintro ⟨m, g1, g2, g3⟩
      exact ⟨net, hnet.1, hnet.2, (hu.data t d).2 ⟨m, hmem g1 g2, g3⟩⟩

theorem showsChild_iff {role : String} {k : NodeKind} {q q' : QName} {P : NetNode → Prop} (hP : ∀ n : NetNode, P n.bare ↔ P n) :
    s.ShowsChild role k q q' P ↔ ∃ b b' d, (∃ net ∈ s.networks.store.getByType k, net.logicalOf role k = true ∧ RelatedAs s.networks.heap net.roots (some (.element q b)) d) ∧ d.target = .element q' b' ∧ P d := by
  constructor
  · rintro ⟨net, h1, h2, i, c, n, b, b', g1, g2, g3, g4, g5, g6⟩
    exact ⟨b, b', n.bare, ⟨net, h1, h2, i, c, g1, g2, g3, by rw [g4]; rfl⟩, g5, (hP n).2 g6⟩
  · rintro ⟨b, b', d, ⟨net, h1, h2, i, c, g1, g2, g3, g4⟩, g5, g6⟩
    obtain ⟨n, hn, rfl⟩ := Option.map_eq_some_iff.1 g4
    exact ⟨net, h1, h2, i, c, n, b, b', g1, g2, g3, hn, g5, (hP n).1 g6⟩

/-- The arc as it is read from the element. -/
def ArcRead (float : String → Option Rat) (x : XNode) (a : Arc) : Prop :=
  a.order = numAttr float (x.attr? "order") ∧ a.weight = numAttr float (x.attr? "weight") ∧ a.preferredLabel = x.attr? "preferredLabel"

theorem Reading.arc_between {l : LinkNode} {r : LinkReading} {es : List EndReading} (R : Reading elems facts float str l r es) (hp : PlainLinks roots) (hl : l ∈ linkNodes roots)
    {a : Arc} (ha : a ∈ r.link.arcs) : ∃ x, ArcBetween l.node a.frm a.to x ∧ ArcRead float x a := by
  obtain ⟨own, x, hx, hxa⟩ := R.arc_of hp hl ha
  obtain ⟨c1, c2, c3, c4, c5, c6, _⟩ := readArc_ok (hp.scope_part hl hx) hxa
  exact ⟨x, ⟨own, _, hx, c1, c2, c3⟩, c4, c5, c6⟩

theorem Reading.between_arc {l : LinkNode} {r : LinkReading} {es : List EndReading} (R : Reading elems facts float str l r es) (hp : PlainLinks roots) (hl : l ∈ linkNodes roots)
    {f t : String} {x : XNode} (hx : ArcBetween l.node f t x) : ∃ a ∈ r.link.arcs, a.frm = f ∧ a.to = t ∧ ArcRead float x a := by
  obtain ⟨own, role, hx, x1, x2, x3⟩ := hx
  obtain ⟨a, ha, hxa⟩ := R.of_arc hp hl hx
  obtain ⟨c1, c2, c3, c4, c5, c6, _⟩ := readArc_ok (hp.scope_part hl hx) hxa
  rw [x1] at c1
  rw [x2] at c2
  exact ⟨a, ha, (Option.some.inj c1).symm, (Option.some.inj c2).symm, c4, c5, c6⟩

theorem Rooted.arcs {l : LinkNode} {r : LinkReading} {es : List EndReading} (R : Reading elems facts float str l r es) (hp : PlainLinks roots) (hl : l ∈ linkNodes roots)
    (hroot : Rooted elems l.node) : (∃ rank : String → Nat, ∀ a ∈ r.link.arcs, rank a.frm < rank a.to) ∧ ∀ a ∈ r.link.arcs, ∃ e ∈ r.link.ends, e.label = a.frm ∧ e.target ≠ none := by
  obtain ⟨rank, hrank⟩ := hroot.rank
  refine ⟨⟨rank, fun a ha => hrank _ _ ((R.joined hp hl _ _).1 ⟨a, ha, rfl, rfl⟩)⟩, fun a ha => ?_⟩
  obtain ⟨q, hq⟩ := hroot.source _ _ ((R.joined hp hl _ _).1 ⟨a, ha, rfl, rfl⟩)
  obtain ⟨e, he, e1, b, e2⟩ := (R.locates hp hl _ _).2 hq
  exact ⟨e, he, e1, by rw [e2]; simp⟩

/-- What is shown by a child, for an attribute that the nodes of this kind read from their arc. -/
theorem shown_attribute (h : readNetworks elems facts float str so steps roots = some (.ok s)) (hp : PlainLinks roots) {name role : String} {kk : LinkKind}
    (hk : (name, kk.nodeKind) ∈ unitedTags) (hkk : ∀ k : LinkKind, k.physical = false → k.nodeKind = kk.nodeKind → k = kk)
    (hroot : ∀ up link, HasLink roots name role up link → Rooted elems link) {attr : String} {α : Type} (val : NetNode → α) (hval : ∀ n : NetNode, val n.bare = val n)
    (States : Option String → α → Prop) (hst : ∀ o v v', States o v → States o v' → v = v') (hsh : ∀ a x n, ArcRead float x a → ShowsArc kk a n → States (x.attr? attr) (val n))
    (hag : ∀ up link, HasLink roots name role up link → AgreeOn link attr) (q q' : QName) (v : α) :
    s.ShowsChild role kk.nodeKind q q' (fun n => val n = v) ↔ StatesArc elems roots name role q q' (fun x => States (x.attr? attr) v) := by
  obtain ⟨hparse, _, _, _⟩ := readNetworks_ok h
  obtain ⟨h1, parsed, hrun, hlog, _⟩ := C84_networks hparse
  have sd := Networks.shown_data (hlog role kk.nodeKind)
  rw [showsChild_iff (fun n => by rw [hval])]
  constructor
  · rintro ⟨b, b', d, g1, g2, g3⟩
    obtain ⟨n, hn, hl, ho⟩ := (sd _ _).1 g1
    obtain ⟨l, hlm, up, hlink, r, es, R, k', h0, res, hpl, hnr, hkept⟩ := network_link h hp hrun hk hn hl
    rw [kept_relatedAs (parseLink_grow hpl).1 hnr hkept] at ho
    obtain ⟨c1, c2, c3, _⟩ := (C20_networks hpl).1 n hnr
    obtain ⟨_, d2, d3⟩ := logicalOf_iff.1 hl
    obtain rfl := hkk k' (c3.symm.trans d3) (c2.symm.trans d2)
    obtain ⟨⟨rank, hrank⟩, _⟩ := (hroot up l.node hlink).arcs R hp hlm
    obtain ⟨a, ha, ⟨e, he, e1, e2⟩, ⟨e', he', e3, e4⟩, a', ha', a1, a2⟩ := link_relatedAs hpl rank hrank hnr ho
    obtain ⟨x, hx, _⟩ := R.arc_between hp hlm ha
    obtain ⟨x', hx', hr'⟩ := R.arc_between hp hlm ha'
    refine ⟨up, l.node, a.frm, a.to, x, hlink, hx, (R.locates hp hlm _ _).1 ⟨e, he, e1, b, e2⟩, (R.locates hp hlm _ _).1 ⟨e', he', e3, b', by rw [e4, g2]⟩, ?_⟩
    rw [a1] at hx'
    rw [hag up l.node hlink _ _ _ _ _ hx hx', ← g3]
    exact hsh _ _ _ hr' a2
  · rintro ⟨up, link, f, t, x, hlink, hx, hloc, hloc', hsx⟩
    obtain ⟨l, hl, hnode, r, es, R, k', h0, res, hpl, hsub, hkept⟩ := link_network h hp hrun hk hlink
    subst hnode
    obtain ⟨⟨rank, hrank⟩, hsrc⟩ := (hroot up l.node hlink).arcs R hp hl
    obtain ⟨a, ha, a1, a2, _⟩ := R.between_arc hp hl hx
    obtain ⟨e, he, e1, b, e2⟩ := (R.locates hp hl _ _).2 hloc
    obtain ⟨e', he', e3, b', e4⟩ := (R.locates hp hl _ _).2 hloc'
    obtain ⟨net, hnet, d, ho, hd, a', ha', f1, f2⟩ := relatedAs_link hpl rank hrank hsrc ha he (e1.trans a1.symm) e2 he' (e3.trans a2.symm) e4
    obtain ⟨c1, c2, c3, _⟩ := (C20_networks hpl).1 net hnet
    obtain ⟨_, d2, d3⟩ := logicalOf_iff.1 (hsub net hnet).2
    obtain rfl := hkk k' (c3.symm.trans d3) (c2.symm.trans d2)
    rw [← kept_relatedAs (parseLink_grow hpl).1 hnet hkept] at ho
    refine ⟨b, b', d, (sd _ _).2 ⟨net, (hsub net hnet).1, (hsub net hnet).2, ho⟩, hd, ?_⟩
    obtain ⟨x', hx', hr'⟩ := R.arc_between hp hl ha'
    rw [f1, a2] at hx'
    have := hsh _ _ _ hr' f2
    rw [hag up l.node hlink _ _ _ _ _ hx' hx] at this
    exact hst _ _ _ this hsx

theorem statesNumber_unique {dflt v v' : Rat} {o : Option String} (h : StatesNumber float dflt o v) (h' : StatesNumber float dflt o v') : v = v' := by
  rcases h with ⟨t, h1, h2, h3⟩ | ⟨h1, rfl⟩ <;> rcases h' with ⟨t', g1, g2, g3⟩ | ⟨g1, rfl⟩
  · rw [h1] at g1; cases g1; rw [h3] at g3; exact Option.some.inj g3
  · rcases g1 with g1 | g1 <;> rw [h1] at g1 <;> cases g1
    exact absurd rfl h2
  · rcases h1 with h1 | h1 <;> rw [g1] at h1 <;> cases h1
    exact absurd rfl g2
  · rfl

theorem means_states {dflt v : Rat} {o : Option String} (h : (numAttr float o).means dflt v) : StatesNumber float dflt o v := by
  unfold NumAttr.means numAttr at h
  cases o with
  | none => rcases h with h | ⟨_, h⟩
            · cases h
            · exact Or.inr ⟨Or.inl rfl, h⟩
  | some t =>
    dsimp only at h
    by_cases ht : t = ""
    · subst ht
      rw [if_pos rfl] at h
      rcases h with h | ⟨_, h⟩
      · cases h
      · exact Or.inr ⟨Or.inr rfl, h⟩
    · rw [if_neg ht] at h
      cases hf : float t with
      | none => rw [hf] at h; simp at h
      | some w =>
        rw [hf] at h
        rcases h with h | ⟨h | h, _⟩
        · cases h; exact Or.inl ⟨t, rfl, ht, hf⟩
        · cases h
        · cases h

/-- C115, weights: if no arcs to the same locator disagree about the weight, a concept with a weight is shown below another one in the calculation network of a role exactly when
an arc in a calculation link of the role says so. -/
theorem C115_weights_partial (h : readNetworks elems facts float str so steps roots = some (.ok s)) (hp : PlainLinks roots) {role : String}
    (hroot : ∀ up link, HasLink roots "calculationLink" role up link → Rooted elems link) (hag : ∀ up link, HasLink roots "calculationLink" role up link → AgreeOn link "weight")
    (q q' : QName) (w : Rat) :
    s.ShowsChild role .calculation q q' (fun n => n.weight = w) ↔ StatesArc elems roots "calculationLink" role q q' (fun x => StatesNumber float 0 (x.attr? "weight") w) :=
  shown_attribute (kk := .calculation) h hp (by simp [unitedTags, LinkKind.nodeKind]) (by intro k; cases k <;> simp [LinkKind.nodeKind, LinkKind.physical]) hroot
    (fun n => n.weight) (fun _ => rfl) (StatesNumber float 0) (fun _ _ _ => statesNumber_unique)
    (by rintro a x n ⟨_, h2, _⟩ hs; have := hs.weight rfl; rw [h2] at this; exact means_states this) hag q q' w

/-- C115, order: likewise for the order in calculation and presentation networks. -/
theorem C115_orders_partial (h : readNetworks elems facts float str so steps roots = some (.ok s)) (hp : PlainLinks roots) {name role : String} {kk : LinkKind}
    (hkk : (name, kk) = ("presentationLink", .presentation) ∨ (name, kk) = ("calculationLink", .calculation))
    (hroot : ∀ up link, HasLink roots name role up link → Rooted elems link) (hag : ∀ up link, HasLink roots name role up link → AgreeOn link "order")
    (q q' : QName) (v : Rat) :
    s.ShowsChild role kk.nodeKind q q' (fun n => n.order = v) ↔ StatesArc elems roots name role q q' (fun x => StatesNumber float 1 (x.attr? "order") v) := by
  refine shown_attribute (kk := kk) h hp ?_ ?_ hroot (fun n => n.order) (fun _ => rfl) (StatesNumber float 1) (fun _ _ _ => statesNumber_unique) ?_ hag q q' v
  · rcases hkk with hkk | hkk <;> cases hkk <;> simp [unitedTags, LinkKind.nodeKind]
  · rcases hkk with hkk | hkk <;> cases hkk <;> intro k <;> cases k <;> simp [LinkKind.nodeKind, LinkKind.physical]
  · rintro a x n ⟨h1, _, _⟩ hs
    have := hs.order (by rcases hkk with hkk | hkk <;> cases hkk <;> simp)
    rw [h1] at this
    exact means_states this

/-- C115, preferred labels: likewise for the preferred label in presentation networks. -/
theorem C115_labels_partial (h : readNetworks elems facts float str so steps roots = some (.ok s)) (hp : PlainLinks roots) {role : String}
    (hroot : ∀ up link, HasLink roots "presentationLink" role up link → Rooted elems link) (hag : ∀ up link, HasLink roots "presentationLink" role up link → AgreeOn link "preferredLabel")
    (q q' : QName) (v : Option String) :
    s.ShowsChild role .presentation q q' (fun n => n.preferredLabel = v) ↔ StatesArc elems roots "presentationLink" role q q' (fun x => StatesLabel (x.attr? "preferredLabel") v) :=
  shown_attribute (kk := .presentation) h hp (by simp [unitedTags, LinkKind.nodeKind]) (by intro k; cases k <;> simp [LinkKind.nodeKind, LinkKind.physical]) hroot
    (fun n => n.preferredLabel) (fun _ => rfl) StatesLabel (fun _ _ _ h h' => by rw [h, h'])
    (by rintro a x n ⟨_, _, h3⟩ hs; have := hs.preferredLabel rfl; rw [h3] at this; exact this) hag q q' v

end Brel
