import Verif.Props.LinkbaseExample
import Verif.Props.Components

/-! C107: physical networks. -/

namespace Brel

variable {elems : ElemStore} {facts : FactStore} {float : String → Option Rat} {str : XNode → String} {so : SetOrder} {steps : Nat} {roots : List XNode} {s : ReadNetworks}

/-- All nodes of the network have the arc role. -/
def OneArcRole (h : Heap) (net : Network) (r : String) : Prop := ∀ i, InNetwork h net.roots i → (h[i]?).map NetNode.arcRole = some r

section link
variable {k : LinkKind} {linkRole : String} {h : Heap} {arcs : List Arc} {ends : List LinkEnd} {res : LinkResult}

theorem arcRoleOf_new {i : Nat} {n : NetNode} (hn : NewNode h res i n) : res.heap.arcRoleOf i = n.arcRole := by
  unfold Heap.arcRoleOf; rw [hn.2]; rfl

/-- In a network of one link all nodes have the arc role of the roots, if the network is physical. -/
theorem link_one_role (hp : parseLink k so linkRole h arcs ends = .ok res) (hk : k.physical = true) {net : Network} (hm : net ∈ res.networks) :
    ∃ r, OneArcRole res.heap net r := by
  obtain ⟨h1, _, h3⟩ := C20_networks hp
  obtain ⟨r, hr⟩ := List.exists_mem_of_ne_nil _ (h1 net hm).2.2.2.1
  refine ⟨res.heap.arcRoleOf r, ?_⟩
  rintro i ⟨r', hr', d, hpath⟩
  have hroot := (h3 hk).1 net hm r hr r' hr'
  have gen : ∀ a b d, Path res.heap.children a b d → (∃ n, NewNode h res a n) → ∃ m, NewNode h res b m ∧ res.heap.arcRoleOf b = res.heap.arcRoleOf a := by
    intro a b d hpath
    induction hpath with
    | refl => rintro ⟨n, hn⟩; exact ⟨n, hn, rfl⟩
    | @step a b c d hb _ ih =>
      rintro ⟨n, hn⟩
      have hb' : b ∈ n.children := by unfold Heap.children at hb; rw [hn.2] at hb; exact hb
      obtain ⟨m, hmn⟩ := (C20_edges hp a n hn).1 b hb'
      obtain ⟨m', h1, h2⟩ := ih ⟨m, hmn⟩
      obtain ⟨x, _, _, _, hx⟩ := (C20_edge_iff hp a b n m hn hmn).1 hb'
      refine ⟨m', h1, h2.trans ?_⟩
      rw [arcRoleOf_new hn, arcRoleOf_new hmn, ← (hx hk).1, (hx hk).2]
  obtain ⟨n, hn⟩ := inside_new hp hm ⟨r', hr', 0, .refl _⟩
  obtain ⟨m, hmn, he⟩ := gen _ _ _ hpath ⟨n, hn⟩
  rw [hmn.2, Option.map_some, ← arcRoleOf_new hmn, he, hroot]

end link

/-- The nodes of a network do not change when other nodes are added. -/
theorem kept_role {h a b : Heap} {ns : List Network} {n : Network} (g : Grow h a ns) (hn : n ∈ ns) (hk : KeptIn a b) (r : String) : OneArcRole b n r ↔ OneArcRole a n r := by
  constructor
  · intro ho i hi
    rw [← hk i (g.inside hn hi).2]
    exact ho i ((kept_inNetwork g hn hk i).2 hi)
  · intro ho i hi
    have hi' := (kept_inNetwork g hn hk i).1 hi
    rw [hk i (g.inside hn hi').2]
    exact ho i hi'

theorem frame_role {h h' : Heap} {n : Network} (hc : ∀ i, InNetwork h n.roots i → h'.children i = h.children i)
    (hf : ∀ i : Nat, (h'[i]?).map (fun n => { n with children := [] }) = (h[i]?).map (fun n => { n with children := [] })) (r : String) : OneArcRole h' n r ↔ OneArcRole h n r := by
  have he : ∀ i : Nat, (h'[i]?).map NetNode.arcRole = (h[i]?).map NetNode.arcRole := by
    intro i
    have := congrArg (Option.map NetNode.arcRole) (hf i)
    rw [Option.map_map, Option.map_map] at this
    exact this
  unfold OneArcRole
  constructor
  · intro ho i hi; rw [← he]; exact ho i ((inNetwork_congr hc i).2 hi)
  · intro ho i hi; rw [he]; exact ho i ((inNetwork_congr hc i).1 hi)

theorem Reading.joinedBy {l : LinkNode} {r : LinkReading} {es : List EndReading} (R : Reading elems facts float str l r es) (hp : PlainLinks roots) (hl : l ∈ linkNodes roots)
    (role x y : String) : (∃ a ∈ r.link.arcs, a.frm = x ∧ a.to = y ∧ a.role = role) ↔ JoinedBy l.node role x y := by
  constructor
  · rintro ⟨a, ha, rfl, rfl, rfl⟩
    obtain ⟨own, x, hx, hxa⟩ := R.arc_of hp hl ha
    obtain ⟨c1, c2, c3, _⟩ := readArc_ok (hp.scope_part hl hx) hxa
    exact ⟨own, x, hx, c1, c2, c3⟩
  · rintro ⟨ownA, z, hx, x1, x2, x3⟩
    obtain ⟨a, ha, hxa⟩ := R.of_arc hp hl hx
    obtain ⟨c1, c2, c3, _⟩ := readArc_ok (hp.scope_part hl hx) hxa
    rw [x1] at c1
    rw [x2] at c2
    rw [x3] at c3
    exact ⟨a, ha, (Option.some.inj c1).symm, (Option.some.inj c2).symm, (Option.some.inj c3).symm⟩

section link
variable {k : LinkKind} {linkRole : String} {h : Heap} {arcs : List Arc} {ends : List LinkEnd} {res : LinkResult}

/-- A relation of a physical network comes from an arc with the arc role of the network. -/
theorem link_related_by (hp : parseLink k so linkRole h arcs ends = .ok res) (hk : k.physical = true) {net : Network} (hm : net ∈ res.networks) {r : String} (hr : OneArcRole res.heap net r)
    {t u : Target} (ho : Related res.heap net.roots (some t) (some u)) :
    ∃ a ∈ arcs, a.role = r ∧ (∃ e ∈ ends, e.label = a.frm ∧ e.target = some t) ∧ ∃ e ∈ ends, e.label = a.to ∧ e.target = some u := by
  obtain ⟨i, c, hi, hc, ht, hu⟩ := ho
  obtain ⟨n, hn⟩ := inside_new hp hm hi
  have hc' : c ∈ n.children := by
    unfold Heap.children at hc
    rw [hn.2] at hc
    exact hc
  obtain ⟨m, hmn⟩ := (C20_edges hp i n hn).1 c hc'
  obtain ⟨a, ha, h1, h2, h3⟩ := (C20_edge_iff hp i c n m hn hmn).1 hc'
  have hrole := hr i hi
  rw [hn.2, Option.map_some, Option.some.injEq] at hrole
  rw [targetOf_new hn] at ht
  rw [targetOf_new hmn] at hu
  cases ht
  cases hu
  obtain ⟨e, he, g1, g2⟩ := new_end hp hn
  obtain ⟨e', he', g3, g4⟩ := new_end hp hmn
  exact ⟨a, ha, (h3 hk).1.trans hrole, ⟨e, he, g1.trans h1.symm, g2⟩, e', he', g3.trans h2.symm, g4⟩

/-- An arc gives a relation in a network whose nodes have its arc role. -/
theorem related_by_link (hp : parseLink k so linkRole h arcs ends = .ok res) (hk : k.physical = true) (rank : String → Nat)
    (hrank : ∀ a ∈ arcs, rank a.frm < rank a.to) (hsrc : ∀ a ∈ arcs, ∃ e ∈ ends, e.label = a.frm ∧ e.target ≠ none) {a : Arc} (ha : a ∈ arcs) {e e' : LinkEnd} (he : e ∈ ends)
    (hel : e.label = a.frm) {t : Target} (ht : e.target = some t) (he' : e' ∈ ends) (hel' : e'.label = a.to) {u : Target} (hu : e'.target = some u) :
    ∃ net ∈ res.networks, OneArcRole res.heap net a.role ∧ Related res.heap net.roots (some t) (some u) := by
  obtain ⟨P⟩ := parseLink_ok hp
  obtain ⟨i, n, hn, h1, h2, h3⟩ := P.exists_node (end_resolved he ht) a.role (fun _ => (mem_rolesAt ..).2 (Or.inl ⟨a, ha, Or.inr hel.symm, rfl⟩))
  obtain ⟨j, m, hm, g1, g2, g3⟩ := P.exists_node (end_resolved he' hu) a.role (fun _ => (mem_rolesAt ..).2 (Or.inl ⟨a, ha, Or.inl hel'.symm, rfl⟩))
  obtain ⟨net, hnet, r', hr', hre⟩ := C67_reachable_partial hp rank hrank hsrc i n hn
  have hch := (C20_edge_iff hp i j n m hn hm).2 ⟨a, ha, by rw [h1, hel], by rw [g1, hel'], fun hph => ⟨(h3 hph).symm, (g3 hph).symm⟩⟩
  obtain ⟨r, hone⟩ := link_one_role hp hk hnet
  have hr := hone i ⟨r', hr', hre⟩
  rw [hn.2, Option.map_some, Option.some.injEq, h3 hk] at hr
  subst hr
  refine ⟨net, hnet, hone, i, j, ⟨r', hr', hre⟩, ?_, by rw [targetOf_new hn, h2], by rw [targetOf_new hm, g2]⟩
  unfold Heap.children
  rw [hn.2]
  exact hch

end link

/-! ## All links -/

theorem physicalOf_iff {n : Network} {role : String} {k : NodeKind} : n.physicalOf role k = true ↔ n.linkRole = role ∧ n.kind = k ∧ n.physical = true := by
  unfold Network.physicalOf
  simp [and_assoc]

/-- The stored physical networks are those of the links. -/
theorem stored_physical {store : NetStore NodeKind Network} {parsed : List Network} (h : ∀ r k, (store.getByType k).filter (Network.physicalOf r k) = parsed.filter (Network.physicalOf r k))
    {k : NodeKind} {n : Network} (hp : n.physical = true) (hk : n.kind = k) : n ∈ store.getByType k ↔ n ∈ parsed := by
  have ht : n.physicalOf n.linkRole k = true := physicalOf_iff.2 ⟨rfl, hk, hp⟩
  have := h n.linkRole k
  constructor
  · intro hn
    have hm : n ∈ (store.getByType k).filter (Network.physicalOf n.linkRole k) := List.mem_filter.2 ⟨hn, ht⟩
    rw [this] at hm
    exact (List.mem_filter.1 hm).1
  · intro hn
    have hm : n ∈ parsed.filter (Network.physicalOf n.linkRole k) := List.mem_filter.2 ⟨hn, ht⟩
    rw [← this] at hm
    exact (List.mem_filter.1 hm).1

/-- The list of physical networks has the stored networks that are physical. -/
theorem mem_physicalNetworks {so : SetOrder} {steps : Nat} {links : List LinkXml} {s : Networks} (h : parseNetworks so steps links = some (.ok s)) (net : Network) :
    net ∈ s.physicalNetworks ↔ net.physical = true ∧ net ∈ s.store.getByType net.kind := by
  obtain ⟨stored, hst⟩ := parseNetworks_store h
  obtain ⟨h1, h2, _⟩ := C53_networks (fun n : Network => n.kind) (·.linkRole) stored
  unfold Networks.physicalNetworks
  rw [hst, List.mem_filter, h1.mem_iff, h2, List.mem_filter]
  simp [and_comm]

/-- C107. In every physical network of a filing all nodes have the same arc role. -/
theorem C107_one_arc_role (h : readNetworks elems facts float str so steps roots = some (.ok s)) (net : Network) (hnet : net ∈ s.networks.physicalNetworks) :
    ∃ arcrole, ∀ i, InNetwork s.networks.heap net.roots i → (s.networks.heap[i]?).map NetNode.arcRole = some arcrole := by
  obtain ⟨hparse, _, _, _⟩ := readNetworks_ok h
  obtain ⟨h1, parsed, hrun, _, hst, hun, hframe, _⟩ := C84_networks hparse
  obtain ⟨hphys, hstored⟩ := (mem_physicalNetworks hparse net).1 hnet
  have hn := (stored_physical hst hphys rfl).1 hstored
  obtain ⟨l, hl, r, hr, k', hk', h0, res, hpl, hnr, hkept⟩ := hrun.networks_of.2.1 net hn
  have hk'' : k'.physical = true := by rw [← ((C20_networks hpl).1 net hnr).2.2.1]; exact hphys
  obtain ⟨r', hone⟩ := link_one_role hpl hk'' hnr
  exact ⟨r', (frame_role (hun net hn hphys).2 hframe r').2 ((kept_role (parseLink_grow hpl).1 hnr hkept r').2 hone)⟩

theorem physical_kind : ∀ p ∈ tagKinds, ∀ k' ∈ p.2, k'.physical = true → k'.nodeKind = .definition → p.1 = "definitionLink" := by decide +kernel

theorem definition_kind : ∃ p ∈ tagKinds, p.1 = "definitionLink" ∧ LinkKind.physicalDefinition ∈ p.2 := by decide +kernel

theorem length_frame {h h' : Heap} (hf : ∀ i : Nat, (h'[i]?).map (fun n => { n with children := [] }) = (h[i]?).map (fun n => { n with children := [] })) : h'.length = h.length := by
  have key : ∀ i, h'[i]? = none ↔ h[i]? = none := fun i => by rw [← Option.map_eq_none_iff (f := fun n : NetNode => { n with children := [] }), hf, Option.map_eq_none_iff]
  have h1 := (key h'.length).1 (List.getElem?_eq_none (Nat.le_refl _))
  have h2 := (key h.length).2 (List.getElem?_eq_none (Nat.le_refl _))
  rw [List.getElem?_eq_none_iff] at h1 h2
  omega

theorem related_frame {h h' : Heap} {n : Network} (hc : ∀ i, InNetwork h n.roots i → h'.children i = h.children i)
    (hf : ∀ i : Nat, (h'[i]?).map (fun n => { n with children := [] }) = (h[i]?).map (fun n => { n with children := [] })) (t u : Option Target) :
    Related h' n.roots t u ↔ Related h n.roots t u := related_congr hc ⟨length_frame hf, hf⟩ t u

/-- C107. No physical definition network shows a relation that no definition link of its role states with its arc role. -/
theorem C107_nothing_else (h : readNetworks elems facts float str so steps roots = some (.ok s)) (hp : PlainLinks roots) (role arcrole : String) (q q' : QName)
    (hshow : s.ShowsRelation role arcrole q q') :
    ∃ up link l m, HasLink roots "definitionLink" role up link ∧ JoinedBy link arcrole l m ∧ Locates elems link l q ∧ Locates elems link m q' := by
  obtain ⟨net, hnet, hkind, hrole, hone, b, b', hrel⟩ := hshow
  obtain ⟨hparse, _, _, _⟩ := readNetworks_ok h
  obtain ⟨h1, parsed, hrun, _, hst, hun, hframe, _⟩ := C84_networks hparse
  obtain ⟨hphys, hstored⟩ := (mem_physicalNetworks hparse net).1 hnet
  have hn := (stored_physical hst hphys rfl).1 hstored
  obtain ⟨lx, hlx, r, hr, k', hk', h0, res, hpl, hnr, hkept⟩ := hrun.networks_of.2.1 net hn
  rw [mem_inOrder] at hlx
  obtain ⟨l, hlm, rfl⟩ := List.mem_map.1 hlx
  obtain ⟨c1, c2, c3, _⟩ := (C20_networks hpl).1 net hnr
  rw [hrole] at c1
  subst c1
  have hrole' : l.node.xlinkAttr "role" = some role := by
    rw [role_eq, linkOf_node, xlink?_eq (hp.scope_link hlm) (by decide +kernel) (by decide +kernel)] at hr
    exact Except.ok.inj hr
  obtain ⟨rr, es, hrd, hlo, _, R⟩ := reading_of h hp hlm hrole'
  obtain ⟨name', hn', ht⟩ := hp.tag_link hlm
  obtain ⟨p, hpt, rfl⟩ := List.mem_map.1 hn'
  rw [linkOf_node, ht, Option.getD_some, linkKinds_names p hpt] at hk'
  have hk'' : k'.physical = true := by rw [← c3]; exact hphys
  have hname := physical_kind p hpt k' hk' hk'' (by rw [← c2]; exact hkind)
  rw [hname] at ht
  obtain ⟨up, hlink, _⟩ := node_hasLink hlm ht hrole'
  have hone' := (kept_role (parseLink_grow hpl).1 hnr hkept arcrole).1 ((frame_role (hun net hn hphys).2 hframe arcrole).1 hone)
  have hrel' : Related h1 net.roots (some (.element q b)) (some (.element q' b')) := (related_frame (hun net hn hphys).2 hframe _ _).1 hrel
  rw [kept_related (parseLink_grow hpl).1 hnr hkept] at hrel'
  rw [hlo] at hpl
  obtain ⟨a, ha, ar, ⟨e, he, e1, e2⟩, e', he', e3, e4⟩ := link_related_by hpl hk'' hnr hone' hrel'
  exact ⟨up, l.node, a.frm, a.to, hlink, (R.joinedBy hp hlm _ _ _).1 ⟨a, ha, rfl, rfl, ar⟩, (R.locates hp hlm _ _).1 ⟨e, he, e1, b, e2⟩, (R.locates hp hlm _ _).1 ⟨e', he', e3, b', e4⟩⟩

/-- C107. If its arcs form no cycle and start at report elements, everything a definition link states is shown by a physical network with the arc role of the arc. -/
theorem C107_everything (h : readNetworks elems facts float str so steps roots = some (.ok s)) (hp : PlainLinks roots) {role : String}
    {up : List XNode} {link : XNode} (hlink : HasLink roots "definitionLink" role up link) (hroot : Rooted elems link) (arcrole l m : String) (q q' : QName)
    (hj : JoinedBy link arcrole l m) (hq : Locates elems link l q) (hq' : Locates elems link m q') : s.ShowsRelation role arcrole q q' := by
  obtain ⟨hparse, _, _, _⟩ := readNetworks_ok h
  obtain ⟨h1, parsed, hrun, _, hst, hun, hframe, _⟩ := C84_networks hparse
  obtain ⟨ln, hl, hnode, _⟩ := hlink.node
  subst hnode
  obtain ⟨r, es, hrd, hlo, hrole, R⟩ := reading_of h hp hl hlink.role
  obtain ⟨p, hpt, hpn, hpk⟩ := definition_kind
  obtain ⟨h0, res, hpl, hsub, hkept⟩ := hrun.networks_of.2.2 _ ((mem_inOrder _ _).2 (List.mem_map_of_mem hl)) role hrole .physicalDefinition
    (by rw [linkOf_node, hlink.tag, Option.getD_some, ← hpn, linkKinds_names p hpt]; exact hpk)
  rw [hlo] at hpl
  obtain ⟨rank, hrank⟩ := hroot.rank
  have hrank' : ∀ a ∈ r.link.arcs, rank a.frm < rank a.to := fun a ha => hrank _ _ ((R.joined hp hl _ _).1 ⟨a, ha, rfl, rfl⟩)
  have hsrc' : ∀ a ∈ r.link.arcs, ∃ e ∈ r.link.ends, e.label = a.frm ∧ e.target ≠ none := by
    intro a ha
    obtain ⟨q, hq⟩ := hroot.source _ _ ((R.joined hp hl _ _).1 ⟨a, ha, rfl, rfl⟩)
    obtain ⟨e, he, e1, b, e2⟩ := (R.locates hp hl _ _).2 hq
    exact ⟨e, he, e1, by rw [e2]; simp⟩
  obtain ⟨a, ha, a1, a2, a3⟩ := (R.joinedBy hp hl _ _ _).2 hj
  obtain ⟨e, he, e1, b, e2⟩ := (R.locates hp hl _ _).2 hq
  obtain ⟨e', he', e3, b', e4⟩ := (R.locates hp hl _ _).2 hq'
  obtain ⟨net, hnet, hone, ho⟩ := related_by_link hpl rfl rank hrank' hsrc' ha he (e1.trans a1.symm) e2 he' (e3.trans a2.symm) e4
  obtain ⟨c1, c2, c3, _⟩ := (C20_networks hpl).1 net hnet
  have hphys : net.physical = true := c3
  have hn := hsub net hnet
  rw [a3] at hone
  rw [← kept_related (parseLink_grow hpl).1 hnet hkept] at ho
  exact ⟨net, (mem_physicalNetworks hparse net).2 ⟨hphys, (stored_physical hst hphys rfl).2 hn⟩, c2, c1,
    (frame_role (hun net hn hphys).2 hframe _).2 ((kept_role (parseLink_grow hpl).1 hnet hkept _).2 hone), b, b', (related_frame (hun net hn hphys).2 hframe _ _).2 ho⟩

/-! ## A definition link -/

namespace PhysicalExample
open LinkbaseExample

/-- A hypercube with a dimension, which has a domain: arcs of two arc roles. -/
def link : XNode := .mk (some (linkTag "definitionLink")) [(xl "type", "extended"), (xl "role", "r")] none ns
  [loc "a" "p_A", loc "b" "p_B", loc "c" "p_C", arc "definitionArc" "a" "b" "hd", arc "definitionArc" "b" "c" "dd"]
def doc : XNode := .mk (some (linkTag "linkbase")) [] none ns [link]

theorem plain : PlainLinks [doc] := plainLinks_of (by decide +kernel)

/-- One physical network for each arc role, and one network which unites them. -/
example : (good [doc]).map (fun s => (s.networks.store.getAll.length, s.networks.physicalNetworks.map (fun n => n.roots.map s.networks.heap.arcRoleOf))) = some (3, [["hd"], ["dd"]]) := by decide +kernel

theorem rooted : Rooted LinkbaseExample.elems link := rooted_of (fun l => if l = "a" then 0 else if l = "b" then 1 else 2) (by decide +kernel) (by
  have : arcPairs link = [(some "a", some "b"), (some "b", some "c")] := by decide +kernel
  rw [this]
  intro a ha
  rcases List.mem_cons.1 ha with rfl | ha
  · exact ⟨_, locates_pres (id := "p_A") (by simp [link, XNode.children]) (by decide +kernel) (e := ⟨.abstract, nm "A", some "p_A", [], 0⟩) (by decide +kernel)⟩
  · rw [List.mem_singleton] at ha
    subst ha
    exact ⟨_, locates_pres (id := "p_B") (by simp [link, XNode.children]) (by decide +kernel) (e := ⟨.concept, nm "B", some "p_B", [], 0⟩) (by decide +kernel)⟩)

/-- What C107 says for the second arc. -/
example {s : ReadNetworks} (h : out [doc] = some (.ok s)) : s.ShowsRelation "r" "dd" (nm "B") (nm "C") :=
  C107_everything h plain (up := [link, doc]) (link := link) ⟨⟨doc, List.mem_singleton.2 rfl, [link], (below_iff ..).2 ⟨_, List.mem_cons_self, .self⟩, rfl⟩, rfl, rfl, rfl⟩ rooted "dd" "b" "c" _ _
    ⟨[arc "definitionArc" "b" "c" "dd"], _, ⟨(below_iff ..).2 ⟨_, by simp [link, XNode.children], .self⟩, by simp [arc, XNode.tag], rfl⟩, rfl, rfl, rfl⟩
    (locates_pres (id := "p_B") (by simp [link, XNode.children]) (by decide +kernel) (e := ⟨.concept, nm "B", some "p_B", [], 0⟩) (by decide +kernel))
    (locates_pres (id := "p_C") (by simp [link, XNode.children]) (by decide +kernel) (e := ⟨.concept, nm "C", some "p_C", [], 0⟩) (by decide +kernel))

end PhysicalExample

end Brel
