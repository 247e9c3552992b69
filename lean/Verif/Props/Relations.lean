import Verif.Props.Linkbase

/-! C101: the networks of a role show the elements and relations that the links of the role state. -/

namespace Brel

variable {elems : ElemStore} {facts : FactStore} {float : String → Option Rat} {str : XNode → String} {so : SetOrder} {steps : Nat} {roots : List XNode} {s : ReadNetworks}

/-! ## One link -/

theorem Reading.locates {l : LinkNode} {r : LinkReading} {es : List EndReading} (R : Reading elems facts float str l r es) (hp : PlainLinks roots) (hl : l ∈ linkNodes roots)
    (lab : String) (q : QName) : (∃ e ∈ r.link.ends, e.label = lab ∧ ∃ b, e.target = some (.element q b)) ↔ Locates elems l.node lab q := by
  constructor
  · rintro ⟨e, he, g1, b, g2⟩
    obtain ⟨t, ht', own', z, j, d, hz, _, hde, hread'⟩ := R.end_of hp hl he
    simp only [List.mem_cons, List.not_mem_nil, or_false] at ht'
    rcases ht' with rfl | rfl
    · obtain ⟨l', role', _, _, _, d2⟩ := readEnd_resource (hp.scope_part hl hz) hz.type hread'
      rw [hde, g2] at d2
      rcases d2 with ⟨_, ⟨_, _, d3, _⟩ | ⟨_, d3, _⟩⟩ | ⟨_, ⟨_, _, _, d3, _⟩ | ⟨_, d3, _⟩⟩ | ⟨_, _, d3, _⟩ | d3
      · cases d3
      · cases d3
      · cases d3
      · cases d3
      · cases d3
      · obtain ⟨hk, root, hr, own'', hb, _⟩ := mem_linkNodes hl
        obtain ⟨name, hn, htag⟩ := hp.resources root hr own'' _ hb hk _ _ hz
        exact absurd htag (d3 name hn)
    · obtain ⟨href, l', f1, f2, f3, _, f4⟩ := readEnd_locator (hp.scope_part hl hz) hz.type hread'
      rw [hde, g2] at f4
      rw [hde, g1] at f3
      subst f3
      rcases f4 with ⟨el, f5, f6, _⟩ | ⟨_, ⟨_, _, f6, _⟩ | ⟨_, f6, _⟩⟩
      · cases f6
        exact ⟨own', z, href, _, el, hz, f2, f1, fragment_refers href, f5, rfl⟩
      · cases f6
      · cases f6
  · rintro ⟨ownL, z, href, i, el, hz, z1, z2, z3, z4, z5⟩
    obtain ⟨j1, d1, hd1, hm1, hr1⟩ := R.of_end hp hl (t := "locator") (by simp) hz
    obtain ⟨href', l', f1, f2, f3, _, f4⟩ := readEnd_locator (hp.scope_part hl hz) hz.type hr1
    rw [z2] at f1
    cases f1
    rw [z1] at f2
    cases f2
    rw [← refers_unique z3, z4] at f4
    refine ⟨d1.link, hm1, f3, decide (el.kind = .concept), ?_⟩
    rcases f4 with ⟨el', g1, g2, _⟩ | ⟨g1, _⟩
    · cases g1; rw [g2, z5]
    · cases g1

theorem Reading.joined {l : LinkNode} {r : LinkReading} {es : List EndReading} (R : Reading elems facts float str l r es) (hp : PlainLinks roots) (hl : l ∈ linkNodes roots)
    (x y : String) : (∃ a ∈ r.link.arcs, a.frm = x ∧ a.to = y) ↔ Joined l.node x y := by
  constructor
  · rintro ⟨a, ha, rfl, rfl⟩
    obtain ⟨own, x, hx, hxa⟩ := R.arc_of hp hl ha
    obtain ⟨c1, c2, c3, _⟩ := readArc_ok (hp.scope_part hl hx) hxa
    exact ⟨own, x, a.role, hx, c1, c2, c3⟩
  · rintro ⟨ownA, z, arole, hx, x1, x2, x3⟩
    obtain ⟨a, ha, hxa⟩ := R.of_arc hp hl hx
    obtain ⟨c1, c2, c3, _⟩ := readArc_ok (hp.scope_part hl hx) hxa
    rw [x1] at c1
    rw [x2] at c2
    exact ⟨a, ha, (Option.some.inj c1).symm, (Option.some.inj c2).symm⟩

section link
variable {k : LinkKind} {linkRole : String} {h : Heap} {arcs : List Arc} {ends : List LinkEnd} {res : LinkResult}

theorem new_end (hp : parseLink k so linkRole h arcs ends = .ok res) {i : Nat} {n : NetNode} (hn : NewNode h res i n) : ∃ e ∈ ends, e.label = n.label ∧ e.target = some n.target := by
  obtain ⟨P⟩ := parseLink_ok hp
  obtain ⟨p, _, hpm, _, h1, h2, _⟩ := P.new_node hn
  have := (P.node_ok p hpm).1
  obtain ⟨e, he, het⟩ := List.mem_filterMap.1 this
  cases ht : e.target with
  | none => rw [ht] at het; cases het
  | some t =>
    rw [ht, Option.map_some, Option.some.injEq, Prod.mk.injEq] at het
    exact ⟨e, he, by rw [h1, het.1], by rw [h2, ← het.2, ht]⟩

theorem targetOf_new {i : Nat} {n : NetNode} (hn : NewNode h res i n) : res.heap.targetOf i = some n.target := by
  unfold Heap.targetOf; rw [hn.2]; rfl

theorem inside_new (hp : parseLink k so linkRole h arcs ends = .ok res) {net : Network} (hm : net ∈ res.networks) {i : Nat} (hi : InNetwork res.heap net.roots i) : ∃ n, NewNode h res i n := by
  obtain ⟨h1, h2⟩ := (parseLink_grow hp).1.inside hm hi
  exact ⟨res.heap[i], h1, List.getElem?_eq_getElem h2⟩

theorem link_occurs (hp : parseLink k so linkRole h arcs ends = .ok res) {net : Network} (hm : net ∈ res.networks) {t : Target} (ho : Occurs res.heap net.roots (some t)) :
    ∃ e ∈ ends, e.target = some t := by
  obtain ⟨i, hi, ht⟩ := ho
  obtain ⟨n, hn⟩ := inside_new hp hm hi
  obtain ⟨e, he, _, h2⟩ := new_end hp hn
  rw [targetOf_new hn] at ht
  cases ht
  exact ⟨e, he, h2⟩

theorem link_related (hp : parseLink k so linkRole h arcs ends = .ok res) {net : Network} (hm : net ∈ res.networks) {t u : Target} (ho : Related res.heap net.roots (some t) (some u)) :
    ∃ a ∈ arcs, (∃ e ∈ ends, e.label = a.frm ∧ e.target = some t) ∧ ∃ e ∈ ends, e.label = a.to ∧ e.target = some u := by
  obtain ⟨i, c, hi, hc, ht, hu⟩ := ho
  obtain ⟨n, hn⟩ := inside_new hp hm hi
  have hc' : c ∈ n.children := by
    unfold Heap.children at hc
    rw [hn.2] at hc
    exact hc
  obtain ⟨m, hmn⟩ := (C20_edges hp i n hn).1 c hc'
  obtain ⟨a, ha, h1, h2, _⟩ := (C20_edge_iff hp i c n m hn hmn).1 hc'
  rw [targetOf_new hn] at ht
  rw [targetOf_new hmn] at hu
  cases ht
  cases hu
  obtain ⟨e, he, g1, g2⟩ := new_end hp hn
  obtain ⟨e', he', g3, g4⟩ := new_end hp hmn
  exact ⟨a, ha, ⟨e, he, g1.trans h1.symm, g2⟩, e', he', g3.trans h2.symm, g4⟩

theorem end_resolved {e : LinkEnd} (he : e ∈ ends) {t : Target} (ht : e.target = some t) : (e.label, t) ∈ resolvedEnds ends :=
  List.mem_filterMap.2 ⟨e, he, by rw [ht]; rfl⟩

theorem occurs_link (hp : parseLink k so linkRole h arcs ends = .ok res) (rank : String → Nat)
    (hrank : ∀ a ∈ arcs, rank a.frm < rank a.to) (hsrc : ∀ a ∈ arcs, ∃ e ∈ ends, e.label = a.frm ∧ e.target ≠ none) {e : LinkEnd} (he : e ∈ ends) {t : Target} (ht : e.target = some t) :
    ∃ net ∈ res.networks, Occurs res.heap net.roots (some t) := by
  obtain ⟨P⟩ := parseLink_ok hp
  have hne : ∃ r, r ∈ rolesAt arcs e.label := by
    unfold rolesAt
    split <;> exact ⟨_, List.mem_cons_self⟩
  obtain ⟨r, hr⟩ := hne
  obtain ⟨i, n, hn, h1, h2, _⟩ := P.exists_node (end_resolved he ht) r (fun _ => hr)
  obtain ⟨net, hnet, r', hr', hre⟩ := C67_reachable_partial hp rank hrank hsrc i n hn
  exact ⟨net, hnet, i, ⟨r', hr', hre⟩, by rw [targetOf_new hn, h2]⟩

theorem related_link (hp : parseLink k so linkRole h arcs ends = .ok res) (rank : String → Nat)
    (hrank : ∀ a ∈ arcs, rank a.frm < rank a.to) (hsrc : ∀ a ∈ arcs, ∃ e ∈ ends, e.label = a.frm ∧ e.target ≠ none) {a : Arc} (ha : a ∈ arcs) {e e' : LinkEnd} (he : e ∈ ends)
    (hel : e.label = a.frm) {t : Target} (ht : e.target = some t) (he' : e' ∈ ends) (hel' : e'.label = a.to) {u : Target} (hu : e'.target = some u) :
    ∃ net ∈ res.networks, Related res.heap net.roots (some t) (some u) := by
  obtain ⟨P⟩ := parseLink_ok hp
  obtain ⟨i, n, hn, h1, h2, h3⟩ := P.exists_node (end_resolved he ht) a.role (fun _ => (mem_rolesAt ..).2 (Or.inl ⟨a, ha, Or.inr hel.symm, rfl⟩))
  obtain ⟨j, m, hm, g1, g2, g3⟩ := P.exists_node (end_resolved he' hu) a.role (fun _ => (mem_rolesAt ..).2 (Or.inl ⟨a, ha, Or.inl hel'.symm, rfl⟩))
  obtain ⟨net, hnet, r', hr', hre⟩ := C67_reachable_partial hp rank hrank hsrc i n hn
  have hch := (C20_edge_iff hp i j n m hn hm).2 ⟨a, ha, by rw [h1, hel], by rw [g1, hel'], fun hph => ⟨(h3 hph).symm, (g3 hph).symm⟩⟩
  refine ⟨net, hnet, i, j, ⟨r', hr', hre⟩, ?_, by rw [targetOf_new hn, h2], by rw [targetOf_new hm, g2]⟩
  unfold Heap.children
  rw [hn.2]
  exact hch

end link

/-! ## All links -/

/-- The nodes of the heap are also in the other one, unchanged. -/
def KeptIn (a b : Heap) : Prop := ∀ i < a.length, b[i]? = a[i]?

theorem KeptIn.le {a b : Heap} (hk : KeptIn a b) : a.length ≤ b.length := by
  rcases Nat.lt_or_ge b.length a.length with hlt | hge
  · have := hk b.length hlt
    rw [List.getElem?_eq_none (Nat.le_refl _), List.getElem?_eq_getElem hlt] at this
    cases this
  · exact hge

theorem KeptIn.refl (a : Heap) : KeptIn a a := fun _ _ => rfl

theorem KeptIn.trans {a b c : Heap} (h1 : KeptIn a b) (h2 : KeptIn b c) : KeptIn a c :=
  fun i hi => (h2 i (Nat.lt_of_lt_of_le hi h1.le)).trans (h1 i hi)

theorem kept_children {a b : Heap} (hk : KeptIn a b) {i : Nat} (hi : i < a.length) : b.children i = a.children i := by
  unfold Heap.children; rw [hk i hi]

theorem kept_target {a b : Heap} (hk : KeptIn a b) {i : Nat} (hi : i < a.length) : b.targetOf i = a.targetOf i := by
  unfold Heap.targetOf; rw [hk i hi]

section
variable {h a b : Heap} {ns : List Network} {n : Network}

theorem kept_inNetwork (g : Grow h a ns) (hn : n ∈ ns) (hk : KeptIn a b) (i : Nat) : InNetwork b n.roots i ↔ InNetwork a n.roots i :=
  inNetwork_congr (fun _ hi => kept_children hk (g.inside hn hi).2) i

theorem kept_occurs (g : Grow h a ns) (hn : n ∈ ns) (hk : KeptIn a b) (t : Option Target) : Occurs b n.roots t ↔ Occurs a n.roots t := by
  constructor
  · rintro ⟨i, hi, ht⟩
    rw [kept_inNetwork g hn hk] at hi
    exact ⟨i, hi, by rw [← kept_target hk (g.inside hn hi).2]; exact ht⟩
  · rintro ⟨i, hi, ht⟩
    exact ⟨i, (kept_inNetwork g hn hk i).2 hi, by rw [kept_target hk (g.inside hn hi).2]; exact ht⟩

theorem kept_related (g : Grow h a ns) (hn : n ∈ ns) (hk : KeptIn a b) (t u : Option Target) : Related b n.roots t u ↔ Related a n.roots t u := by
  constructor
  · rintro ⟨i, c, hi, hc, ht, hu⟩
    rw [kept_inNetwork g hn hk] at hi
    have h1 := g.inside hn hi
    rw [kept_children hk h1.2] at hc
    have h2 := g.closed i h1.1 c hc
    exact ⟨i, c, hi, hc, by rw [← kept_target hk h1.2]; exact ht, by rw [← kept_target hk h2.2]; exact hu⟩
  · rintro ⟨i, c, hi, hc, ht, hu⟩
    have h1 := g.inside hn hi
    have h2 := g.closed i h1.1 c hc
    exact ⟨i, c, (kept_inNetwork g hn hk i).2 hi, by rw [kept_children hk h1.2]; exact hc, by rw [kept_target hk h1.2]; exact ht, by rw [kept_target hk h2.2]; exact hu⟩

end

theorem parseXmlLink_kinds {tag r : String} {h : Heap} {arcs : List Arc} {ends : List LinkEnd} {x : Heap × List Network × List (QName × Nat)}
    (hp : parseXmlLink tag so r h arcs ends = .ok x) :
    KeptIn h x.1 ∧
    (∀ n ∈ x.2.1, ∃ k ∈ linkKinds tag, ∃ h0 res, parseLink k so r h0 arcs ends = .ok res ∧ n ∈ res.networks ∧ KeptIn res.heap x.1) ∧
    (∀ k ∈ linkKinds tag, ∃ h0 res, parseLink k so r h0 arcs ends = .ok res ∧ (∀ n ∈ res.networks, n ∈ x.2.1) ∧ KeptIn res.heap x.1) := by
  unfold parseXmlLink at hp
  have gen : ∀ (ks : List LinkKind) (s : Heap × List Network × List (QName × Nat)),
      ks.foldlM (fun s k => do
        let r ← parseLink k so r s.1 arcs ends
        return (r.heap, s.2.1 ++ r.networks, s.2.2 ++ r.labels)) s = .ok x →
      KeptIn s.1 x.1 ∧ (∀ n ∈ s.2.1, n ∈ x.2.1) ∧
      (∀ n ∈ x.2.1, n ∈ s.2.1 ∨ ∃ k ∈ ks, ∃ h0 res, parseLink k so r h0 arcs ends = .ok res ∧ n ∈ res.networks ∧ KeptIn res.heap x.1) ∧
      (∀ k ∈ ks, ∃ h0 res, parseLink k so r h0 arcs ends = .ok res ∧ (∀ n ∈ res.networks, n ∈ x.2.1) ∧ KeptIn res.heap x.1) := by
    intro ks
    induction ks with
    | nil =>
      intro s hs
      cases hs
      exact ⟨KeptIn.refl _, fun _ h => h, fun _ h => Or.inl h, fun k hk => by cases hk⟩
    | cons k ks ih =>
      intro s hs
      rw [List.foldlM_cons] at hs
      cases hl : parseLink k so r s.1 arcs ends with
      | error e => rw [hl] at hs; cases hs
      | ok res =>
        rw [hl] at hs
        obtain ⟨i1, i2, i3, i4⟩ := ih _ hs
        have hk : KeptIn s.1 res.heap := (C20_nodes hl).2.2
        refine ⟨hk.trans i1, fun n hn => i2 n (List.mem_append.2 (Or.inl hn)), ?_, ?_⟩
        · intro n hn
          rcases i3 n hn with hn | ⟨k', hk', rest⟩
          · rcases List.mem_append.1 hn with hn | hn
            · exact Or.inl hn
            · exact Or.inr ⟨k, List.mem_cons_self, s.1, res, hl, hn, i1⟩
          · exact Or.inr ⟨k', List.mem_cons_of_mem _ hk', rest⟩
        · intro k' hk'
          rcases List.mem_cons.1 hk' with rfl | hk'
          · exact ⟨s.1, res, hl, fun n hn => i2 n (List.mem_append.2 (Or.inr hn)), i1⟩
          · exact i4 k' hk'
  obtain ⟨g1, _, g3, g4⟩ := gen _ _ hp
  exact ⟨g1, fun n hn => (g3 n hn).elim (fun h => by cases h) id, g4⟩

theorem LinkRun.networks_of {h h' : Heap} {ls : List LinkXml} {ns : List Network} {lbs : List (QName × Nat)} (hr : LinkRun so h ls h' ns lbs) :
    KeptIn h h' ∧
    (∀ n ∈ ns, ∃ l ∈ ls, ∃ r, l.role = .ok (some r) ∧ ∃ k ∈ linkKinds (l.node.tag.getD ""), ∃ h0 res, parseLink k so r h0 l.arcs l.ends = .ok res ∧ n ∈ res.networks ∧ KeptIn res.heap h') ∧
    (∀ l ∈ ls, ∀ r, l.role = .ok (some r) → ∀ k ∈ linkKinds (l.node.tag.getD ""), ∃ h0 res, parseLink k so r h0 l.arcs l.ends = .ok res ∧ (∀ n ∈ res.networks, n ∈ ns) ∧ KeptIn res.heap h') := by
  induction hr with
  | nil =>
    refine ⟨KeptIn.refl _, ?_, ?_⟩
    · intro x hx; cases hx
    · intro l hl; cases hl
  | skip h1 _ ih =>
    refine ⟨ih.1, fun x hx => ?_, fun l hl r hr => ?_⟩
    · obtain ⟨l, hl, rest⟩ := ih.2.1 x hx
      exact ⟨l, List.mem_cons_of_mem _ hl, rest⟩
    · rcases List.mem_cons.1 hl with rfl | hl
      · rw [h1] at hr; cases hr
      · exact ih.2.2 l hl r hr
  | @link h l ls r x h' ns lbs h1 h2 _ ih =>
    obtain ⟨g1, g2, g3⟩ := parseXmlLink_kinds h2
    obtain ⟨i1, i2, i3⟩ := ih
    refine ⟨g1.trans i1, fun y hy => ?_, fun l' hl r' hr k hk => ?_⟩
    · rcases List.mem_append.1 hy with hy | hy
      · obtain ⟨k, hk, h0, res, e1, e2, e3⟩ := g2 y hy
        exact ⟨l, List.mem_cons_self, r, h1, k, hk, h0, res, e1, e2, e3.trans i1⟩
      · obtain ⟨l', hl, rest⟩ := i2 y hy
        exact ⟨l', List.mem_cons_of_mem _ hl, rest⟩
    · rcases List.mem_cons.1 hl with rfl | hl
      · rw [h1] at hr
        cases hr
        obtain ⟨h0, res, e1, e2, e3⟩ := g3 k hk
        exact ⟨h0, res, e1, fun n hn => List.mem_append.2 (Or.inl (e2 n hn)), e3.trans i1⟩
      · obtain ⟨h0, res, e1, e2, e3⟩ := i3 l' hl r' hr k hk
        exact ⟨h0, res, e1, fun n hn => List.mem_append.2 (Or.inr (e2 n hn)), e3⟩

/-! ## The networks of a role -/

theorem linkKinds_names : ∀ p ∈ tagKinds, linkKinds (linkTag p.1) = p.2 := by decide +kernel

theorem kind_name : ∀ p ∈ tagKinds, ∀ k' ∈ p.2, k'.physical = false → ∀ p' ∈ unitedTags, p'.2 = k'.nodeKind → p.1 = p'.1 := by decide +kernel

theorem name_kind : ∀ p' ∈ unitedTags, ∃ p ∈ tagKinds, p.1 = p'.1 ∧ ∃ k' ∈ p.2, k'.physical = false ∧ k'.nodeKind = p'.2 := by decide +kernel

theorem Networks.shown {h1 : Heap} {parsed : List Network} {k : NodeKind} {role : String} {n : Networks} (hc : (parsed.filter (Network.logicalOf role k) = [] ∧ (n.store.getByType k).filter (Network.logicalOf role k) = []) ∨
        ∃ net, (n.store.getByType k).filter (Network.logicalOf role k) = [net] ∧ parsed.filter (Network.logicalOf role k) ≠ [] ∧
          Unites h1 (parsed.filter (Network.logicalOf role k)) n.heap net) :
    (∀ t, (∃ net ∈ n.store.getByType k, net.logicalOf role k = true ∧ Occurs n.heap net.roots t) ↔ ∃ m ∈ parsed, m.logicalOf role k = true ∧ Occurs h1 m.roots t) ∧
    (∀ t u, (∃ net ∈ n.store.getByType k, net.logicalOf role k = true ∧ Related n.heap net.roots t u) ↔ ∃ m ∈ parsed, m.logicalOf role k = true ∧ Related h1 m.roots t u) := by
  have hmem : ∀ {l : List Network} {m : Network}, m ∈ l → m.logicalOf role k = true → m ∈ l.filter (Network.logicalOf role k) := fun h1 h2 => List.mem_filter.2 ⟨h1, h2⟩
  rcases hc with ⟨h1, h2⟩ | ⟨net, h2, h3, hu⟩
  · constructor
    · intro t
      constructor
      · rintro ⟨m, g1, g2, _⟩
        have := hmem g1 g2; rw [h2] at this; cases this
      · rintro ⟨m, g1, g2, _⟩
        have := hmem g1 g2; rw [h1] at this; cases this
    · intro t u
      constructor
      · rintro ⟨m, g1, g2, _⟩
        have := hmem g1 g2; rw [h2] at this; cases this
      · rintro ⟨m, g1, g2, _⟩
        have := hmem g1 g2; rw [h1] at this; cases this
  · have hnet : net ∈ n.store.getByType k ∧ net.logicalOf role k = true := by
      have : net ∈ (n.store.getByType k).filter (Network.logicalOf role k) := by rw [h2]; exact List.mem_singleton.2 rfl
      exact List.mem_filter.1 this
    constructor
    · intro t
      constructor
      · rintro ⟨m, g1, g2, g3⟩
        have := hmem g1 g2
        rw [h2, List.mem_singleton] at this
        subst this
        obtain ⟨m', e1, e2⟩ := (hu.objects t).1 g3
        exact ⟨m', (List.mem_filter.1 e1).1, (List.mem_filter.1 e1).2, e2⟩
      · rintro ⟨m, g1, g2, g3⟩
        exact ⟨net, hnet.1, hnet.2, (hu.objects t).2 ⟨m, hmem g1 g2, g3⟩⟩
    · intro t u
      constructor
      · rintro ⟨m, g1, g2, g3⟩
        have := hmem g1 g2
        rw [h2, List.mem_singleton] at this
        subst this
        obtain ⟨m', e1, e2⟩ := (hu.relations t u).1 g3
        exact ⟨m', (List.mem_filter.1 e1).1, (List.mem_filter.1 e1).2, e2⟩
      · rintro ⟨m, g1, g2, g3⟩
        exact ⟨net, hnet.1, hnet.2, (hu.relations t u).2 ⟨m, hmem g1 g2, g3⟩⟩

theorem logicalOf_iff {n : Network} {role : String} {k : NodeKind} : n.logicalOf role k = true ↔ n.linkRole = role ∧ n.kind = k ∧ n.physical = false := by
  unfold Network.logicalOf
  simp [and_assoc]

/-- A network of the role comes from a link of the role with the tag. -/
theorem network_link (h : readNetworks elems facts float str so steps roots = some (.ok s)) (hp : PlainLinks roots) {h1 : Heap} {parsed : List Network}
    (hrun : LinkRun so [] (inOrder ((linkNodes roots).map (linkOf elems facts float str))) h1 parsed s.networks.labels)
    {name role : String} {k : NodeKind} (hk : (name, k) ∈ unitedTags) {n : Network} (hn : n ∈ parsed) (hl : n.logicalOf role k = true) :
    ∃ l ∈ linkNodes roots, ∃ up, HasLink roots name role up l.node ∧ ∃ r es, Reading elems facts float str l r es ∧ ∃ k' h0 res, parseLink k' so role h0 r.link.arcs r.link.ends = .ok res ∧
      n ∈ res.networks ∧ KeptIn res.heap h1 := by
  obtain ⟨lx, hlx, r, hr, k', hk', h0, res, hpl, hnr, hkept⟩ := hrun.networks_of.2.1 n hn
  rw [mem_inOrder] at hlx
  obtain ⟨l, hlm, rfl⟩ := List.mem_map.1 hlx
  obtain ⟨c1, c2, c3, _⟩ := (C20_networks hpl).1 n hnr
  obtain ⟨d1, d2, d3⟩ := logicalOf_iff.1 hl
  rw [d1] at c1
  subst c1
  have hrole' : l.node.xlinkAttr "role" = some role := by
    rw [role_eq, linkOf_node, xlink?_eq (hp.scope_link hlm) (by decide +kernel) (by decide +kernel)] at hr
    exact Except.ok.inj hr
  obtain ⟨rr, es, hrd, hlo, _, R⟩ := reading_of h hp hlm hrole'
  obtain ⟨name', hn', ht⟩ := hp.tag_link hlm
  obtain ⟨p, hpt, rfl⟩ := List.mem_map.1 hn'
  rw [linkOf_node, ht, Option.getD_some, linkKinds_names p hpt] at hk'
  have hname := kind_name p hpt k' hk' (by rw [← c3, d3]) (name, k) hk (by rw [← c2, d2])
  dsimp only at hname
  rw [hname] at ht
  obtain ⟨up, hlink, _⟩ := node_hasLink hlm ht hrole'
  rw [hlo] at hpl
  exact ⟨l, hlm, up, hlink, rr, es, R, k', h0, res, hpl, hnr, hkept⟩

/-- A link of the role with the tag gives networks of the role. -/
theorem link_network (h : readNetworks elems facts float str so steps roots = some (.ok s)) (hp : PlainLinks roots) {h1 : Heap} {parsed : List Network}
    (hrun : LinkRun so [] (inOrder ((linkNodes roots).map (linkOf elems facts float str))) h1 parsed s.networks.labels)
    {name role : String} {k : NodeKind} (hk : (name, k) ∈ unitedTags) {up : List XNode} {link : XNode} (hlink : HasLink roots name role up link) :
    ∃ l ∈ linkNodes roots, l.node = link ∧ ∃ r es, Reading elems facts float str l r es ∧ ∃ k' h0 res, parseLink k' so role h0 r.link.arcs r.link.ends = .ok res ∧
      (∀ n ∈ res.networks, n ∈ parsed ∧ n.logicalOf role k = true) ∧ KeptIn res.heap h1 := by
  obtain ⟨l, hl, hnode, _⟩ := hlink.node
  subst hnode
  obtain ⟨r, es, hrd, hlo, hrole, R⟩ := reading_of h hp hl hlink.role
  obtain ⟨p, hpt, hpn, k', hk', e1, e2⟩ := name_kind (name, k) hk
  dsimp only at hpn e2
  obtain ⟨h0, res, hpl, hsub, hkept⟩ := hrun.networks_of.2.2 _ ((mem_inOrder _ _).2 (List.mem_map_of_mem hl)) role hrole k'
    (by rw [linkOf_node, hlink.tag, Option.getD_some, ← hpn, linkKinds_names p hpt]; exact hk')
  refine ⟨l, hl, rfl, r, es, R, k', h0, res, by rw [← hlo]; exact hpl, ?_, hkept⟩
  intro n hn
  obtain ⟨c1, c2, c3, _⟩ := (C20_networks hpl).1 n hn
  exact ⟨hsub n hn, logicalOf_iff.2 ⟨c1, c2.trans e2, c3.trans e1⟩⟩

/-- C101: no network shows an element or relation that no link of its role and kind states. -/
theorem C101_nothing_else (h : readNetworks elems facts float str so steps roots = some (.ok s)) (hp : PlainLinks roots) {name role : String} {k : NodeKind} (hk : (name, k) ∈ unitedTags) :
    (∀ q, s.Shows role k q → ∃ up link l, HasLink roots name role up link ∧ Locates elems link l q) ∧
    (∀ q q', s.ShowsBelow role k q q' → ∃ up link l m, HasLink roots name role up link ∧ Joined link l m ∧ Locates elems link l q ∧ Locates elems link m q') := by
  obtain ⟨hparse, _, _, _⟩ := readNetworks_ok h
  obtain ⟨h1, parsed, hrun, hlog, _⟩ := C84_networks hparse
  obtain ⟨s1, s2⟩ := Networks.shown (hlog role k)
  constructor
  · rintro q ⟨net, g1, g2, b, g3⟩
    obtain ⟨n, hn, hl, ho⟩ := (s1 _).1 ⟨net, g1, g2, g3⟩
    obtain ⟨l, hlm, up, hlink, r, es, R, k', h0, res, hpl, hnr, hkept⟩ := network_link h hp hrun hk hn hl
    rw [kept_occurs (parseLink_grow hpl).1 hnr hkept] at ho
    obtain ⟨e, he, ht⟩ := link_occurs hpl hnr ho
    exact ⟨up, l.node, e.label, hlink, (R.locates hp hlm _ _).1 ⟨e, he, rfl, b, ht⟩⟩
  · rintro q q' ⟨net, g1, g2, b, b', g3⟩
    obtain ⟨n, hn, hl, ho⟩ := (s2 _ _).1 ⟨net, g1, g2, g3⟩
    obtain ⟨l, hlm, up, hlink, r, es, R, k', h0, res, hpl, hnr, hkept⟩ := network_link h hp hrun hk hn hl
    rw [kept_related (parseLink_grow hpl).1 hnr hkept] at ho
    obtain ⟨a, ha, ⟨e, he, e1, e2⟩, e', he', e3, e4⟩ := link_related hpl hnr ho
    exact ⟨up, l.node, a.frm, a.to, hlink, (R.joined hp hlm _ _).1 ⟨a, ha, rfl, rfl⟩, (R.locates hp hlm _ _).1 ⟨e, he, e1, b, e2⟩, (R.locates hp hlm _ _).1 ⟨e', he', e3, b', e4⟩⟩

/-- C101: for links without cycles whose arcs start at report elements, the network of the role shows every element and relation the link states. -/
theorem C101_everything (h : readNetworks elems facts float str so steps roots = some (.ok s)) (hp : PlainLinks roots) {name role : String} {k : NodeKind} (hk : (name, k) ∈ unitedTags)
    {up : List XNode} {link : XNode} (hlink : HasLink roots name role up link) (hroot : Rooted elems link) :
    (∀ l q, Locates elems link l q → s.Shows role k q) ∧
    (∀ l m q q', Joined link l m → Locates elems link l q → Locates elems link m q' → s.ShowsBelow role k q q') := by
  obtain ⟨hparse, _, _, _⟩ := readNetworks_ok h
  obtain ⟨h1, parsed, hrun, hlog, _⟩ := C84_networks hparse
  obtain ⟨s1, s2⟩ := Networks.shown (hlog role k)
  obtain ⟨l, hl, hnode, r, es, R, k', h0, res, hpl, hsub, hkept⟩ := link_network h hp hrun hk hlink
  subst hnode
  obtain ⟨rank, hrank⟩ := hroot.rank
  have hrank' : ∀ a ∈ r.link.arcs, rank a.frm < rank a.to := fun a ha => hrank _ _ ((R.joined hp hl _ _).1 ⟨a, ha, rfl, rfl⟩)
  have hsrc' : ∀ a ∈ r.link.arcs, ∃ e ∈ r.link.ends, e.label = a.frm ∧ e.target ≠ none := by
    intro a ha
    obtain ⟨q, hq⟩ := hroot.source _ _ ((R.joined hp hl _ _).1 ⟨a, ha, rfl, rfl⟩)
    obtain ⟨e, he, e1, b, e2⟩ := (R.locates hp hl _ _).2 hq
    exact ⟨e, he, e1, by rw [e2]; simp⟩
  constructor
  · intro l' q hloc
    obtain ⟨e, he, e1, b, e2⟩ := (R.locates hp hl _ _).2 hloc
    obtain ⟨net, hnet, ho⟩ := occurs_link hpl rank hrank' hsrc' he e2
    rw [← kept_occurs (parseLink_grow hpl).1 hnet hkept] at ho
    obtain ⟨net', c1, c2, c3⟩ := (s1 _).2 ⟨net, (hsub net hnet).1, (hsub net hnet).2, ho⟩
    exact ⟨net', c1, c2, b, c3⟩
  · intro l' m q q' hj hloc hloc'
    obtain ⟨a, ha, a1, a2⟩ := (R.joined hp hl _ _).2 hj
    obtain ⟨e, he, e1, b, e2⟩ := (R.locates hp hl _ _).2 hloc
    obtain ⟨e', he', e3, b', e4⟩ := (R.locates hp hl _ _).2 hloc'
    obtain ⟨net, hnet, ho⟩ := related_link hpl rank hrank' hsrc' ha he (e1.trans a1.symm) e2 he' (e3.trans a2.symm) e4
    rw [← kept_related (parseLink_grow hpl).1 hnet hkept] at ho
    obtain ⟨net', c1, c2, c3⟩ := (s2 _ _).2 ⟨net, (hsub net hnet).1, (hsub net hnet).2, ho⟩
    exact ⟨net', c1, c2, b, b', c3⟩

/-- C101: a role has at most one network of each class. -/
theorem C101_one_network (h : readNetworks elems facts float str so steps roots = some (.ok s)) (role : String) (k : NodeKind) :
    ((s.networks.store.getByType k).filter (Network.logicalOf role k)).length ≤ 1 := by
  obtain ⟨hparse, _, _, _⟩ := readNetworks_ok h
  obtain ⟨h1, parsed, hrun, hlog, _⟩ := C84_networks hparse
  rcases hlog role k with ⟨_, h2⟩ | ⟨net, h2, _⟩ <;> rw [h2] <;> simp

end Brel
