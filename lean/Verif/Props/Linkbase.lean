import Verif.Lemmas.Linkbase
import Verif.Lemmas.Loader

/-! C100, C101: what the link bases of a filing say is what its report elements and networks show. -/

namespace Brel

variable {elems : ElemStore} {facts : FactStore} {float : String → Option Rat} {str : XNode → String} {so : SetOrder} {steps : Nat} {roots : List XNode} {s : ReadNetworks}

/-! ## From the parts of a link to its arcs and ends -/

theorem PlainLinks.scope_link (hp : PlainLinks roots) {l : LinkNode} (hl : l ∈ linkNodes roots) : XlinkScope l.node := by
  obtain ⟨h1, root, hr, own, hb, _⟩ := mem_linkNodes hl
  obtain ⟨name, _, ht⟩ := hp.tags root hr own _ hb h1
  exact hp.scope root hr own _ hb h1 _ _ .self (by rw [ht]; simp)

theorem PlainLinks.scope_part (hp : PlainLinks roots) {l : LinkNode} (hl : l ∈ linkNodes roots) {t : String} {own : List XNode} {x : XNode} (hx : Part l.node t own x) : XlinkScope x := by
  obtain ⟨h1, root, hr, own', hb, _⟩ := mem_linkNodes hl
  exact hp.scope root hr own' _ hb h1 _ _ hx.below.2 hx.element

theorem PlainLinks.tag_link (hp : PlainLinks roots) {l : LinkNode} (hl : l ∈ linkNodes roots) : ∃ name ∈ tagKinds.map (·.1), l.node.tag = some (linkTag name) := by
  obtain ⟨h1, root, hr, own, hb, _⟩ := mem_linkNodes hl
  exact hp.tags root hr own _ hb h1

theorem isLink_of {x : XNode} {name : String} (ht : x.tag = some (linkTag name)) (he : x.xlinkAttr "type" = some "extended") : isLinkElement x = true := by
  unfold isLinkElement
  rw [ht]
  have h1 : startsWith (linkTag name).toList "{http://www.xbrl.org/2003/linkbase}".toList = true := by
    unfold linkTag
    rw [String.toList_append, startsWith_prefix]
    exact List.prefix_append _ _
  have h2 : x.attr? "{http://www.w3.org/1999/xlink}type" = some "extended" := he
  rw [h2, Option.getD_some, h1]
  rfl

/-- The link of the documents among the links that are read. -/
theorem HasLink.node {name role : String} {up : List XNode} {link : XNode} (h : HasLink roots name role up link) :
    ∃ l ∈ linkNodes roots, l.node = link ∧ l.langs = up.map XNode.lang := by
  obtain ⟨root, hr, own, hb, rfl⟩ := h.placed
  exact exists_linkNode hr hb (isLink_of h.tag h.extended)

theorem node_hasLink {l : LinkNode} (hl : l ∈ linkNodes roots) {name role : String} (ht : l.node.tag = some (linkTag name)) (hrole : l.node.xlinkAttr "role" = some role) :
    ∃ up, HasLink roots name role up l.node ∧ l.langs = up.map XNode.lang := by
  obtain ⟨h1, root, hr, own, hb, hlang⟩ := mem_linkNodes hl
  refine ⟨own ++ [root], ⟨⟨root, hr, own, hb, rfl⟩, ht, ?_, hrole⟩, hlang⟩
  unfold isLinkElement at h1
  rw [Bool.and_eq_true, decide_eq_true_iff] at h1
  exact h1.2

/-- A link of XBRL 2.1 with a role is read: its arcs and ends. -/
structure Reading (elems : ElemStore) (facts : FactStore) (float : String → Option Rat) (str : XNode → String) (l : LinkNode) (r : LinkReading) (es : List EndReading) : Prop where
  arcs : Rel2 (fun x a => readArc float x.2 = .ok a) l.arcs r.link.arcs
  read : readEnds elems facts str l.base l.ends = .ok es
  ends : r.link.ends = es.map (·.link)
  resources : r.resources = es.filterMap (·.resource)

theorem linkKinds_tag {name : String} (h : name ∈ tagKinds.map (·.1)) : linkKinds (linkTag name) ≠ [] := by
  simp only [tagKinds, List.map_cons, List.map_nil, List.mem_cons, List.not_mem_nil, or_false] at h
  rcases h with rfl | rfl | rfl | rfl | rfl | rfl <;> decide +kernel

theorem reading_of (h : readNetworks elems facts float str so steps roots = some (.ok s)) (hp : PlainLinks roots) {l : LinkNode} (hl : l ∈ linkNodes roots) {role : String}
    (hrole : l.node.xlinkAttr "role" = some role) :
    ∃ r es, readLink elems facts float str l = .ok r ∧ linkOf elems facts float str l = r.link ∧ (linkOf elems facts float str l).role = .ok (some role) ∧ Reading elems facts float str l r es := by
  obtain ⟨r, hr⟩ := (readNetworks_ok h).2.1 l hl
  have hx : l.node.xlink? "role" = .ok (some role) := by rw [xlink?_eq (hp.scope_link hl) (by decide +kernel) (by decide +kernel), hrole]
  obtain ⟨name, hn, ht⟩ := hp.tag_link hl
  have hlink : linkOf elems facts float str l = r.link := by unfold linkOf; rw [hr]
  have hrole' : (linkOf elems facts float str l).role = .ok (some role) := by rw [role_eq, linkOf_node, hx]
  rcases (readLink_ok hr).2 with ⟨h1 | h1, _⟩ | ⟨_, _, es, h1, h2, h3, h4, _⟩
  · rw [hx] at h1; cases h1
  · rw [ht] at h1; exact absurd h1 (linkKinds_tag hn)
  · exact ⟨r, es, hr, hlink, hrole', h1, h2, h3, h4⟩

theorem Reading.arc_of {l : LinkNode} {r : LinkReading} {es : List EndReading} (R : Reading elems facts float str l r es) (hp : PlainLinks roots) (hl : l ∈ linkNodes roots)
    {a : Arc} (ha : a ∈ r.link.arcs) : ∃ own x, Part l.node "arc" own x ∧ readArc float x = .ok a := by
  obtain ⟨x, hx, hxa⟩ := R.arcs.mem_right a ha
  obtain ⟨t, ht, own, hpart, _⟩ := (findXlink_parts (hp.scope_link hl) ["arc"] l.langs x).1 hx
  rw [List.mem_singleton] at ht
  subst ht
  exact ⟨own, x.2, hpart, hxa⟩

theorem Reading.of_arc {l : LinkNode} {r : LinkReading} {es : List EndReading} (R : Reading elems facts float str l r es) (hp : PlainLinks roots) (hl : l ∈ linkNodes roots)
    {own : List XNode} {x : XNode} (hx : Part l.node "arc" own x) : ∃ a ∈ r.link.arcs, readArc float x = .ok a :=
  R.arcs.mem_left (own.map XNode.lang ++ l.langs, x) ((findXlink_parts (hp.scope_link hl) ["arc"] l.langs _).2 ⟨"arc", List.mem_singleton.2 rfl, own, hx, rfl⟩)

theorem Reading.end_of {l : LinkNode} {r : LinkReading} {es : List EndReading} (R : Reading elems facts float str l r es) (hp : PlainLinks roots) (hl : l ∈ linkNodes roots)
    {e : LinkEnd} (he : e ∈ r.link.ends) : ∃ t ∈ ["resource", "locator"], ∃ own x j d, Part l.node t own x ∧ es[j]? = some d ∧ d.link = e ∧
      readEnd elems facts str (l.base + j) (own.map XNode.lang ++ l.langs) x = .ok d := by
  rw [R.ends] at he
  obtain ⟨d, hd, rfl⟩ := List.mem_map.1 he
  obtain ⟨j, hj, hdj⟩ := List.mem_iff_getElem.1 hd
  obtain ⟨hlen, hread⟩ := readEnds_ok R.read
  have hx : l.ends[j]? = some (l.ends[j]'(by omega)) := List.getElem?_eq_getElem _
  have hd' : es[j]? = some d := by rw [List.getElem?_eq_getElem hj, hdj]
  obtain ⟨t, ht, own, hpart, hlang⟩ := (findXlink_parts (hp.scope_link hl) ["resource", "locator"] l.langs _).1 (List.getElem_mem (h := by omega) (l := l.ends) (n := j))
  have := hread j _ d hx hd'
  rw [hlang] at this
  exact ⟨t, ht, own, _, j, d, hpart, hd', rfl, this⟩

theorem Reading.of_end {l : LinkNode} {r : LinkReading} {es : List EndReading} (R : Reading elems facts float str l r es) (hp : PlainLinks roots) (hl : l ∈ linkNodes roots)
    {t : String} (ht : t ∈ ["resource", "locator"]) {own : List XNode} {x : XNode} (hx : Part l.node t own x) : ∃ j d, es[j]? = some d ∧ d.link ∈ r.link.ends ∧
      readEnd elems facts str (l.base + j) (own.map XNode.lang ++ l.langs) x = .ok d := by
  obtain ⟨hlen, hread⟩ := readEnds_ok R.read
  have hm : (own.map XNode.lang ++ l.langs, x) ∈ l.ends := (findXlink_parts (hp.scope_link hl) ["resource", "locator"] l.langs _).2 ⟨t, ht, own, hx, rfl⟩
  obtain ⟨j, hj, hx'⟩ := List.mem_iff_getElem.1 hm
  have hj' : j < es.length := by omega
  have hd : es[j]? = some es[j] := List.getElem?_eq_getElem hj'
  have hx2 : l.ends[j]? = some (own.map XNode.lang ++ l.langs, x) := by rw [List.getElem?_eq_getElem hj, hx']
  generalize es[j] = d at hd
  refine ⟨j, d, hd, ?_, ?_⟩
  · rw [R.ends]
    exact List.mem_map_of_mem (List.mem_of_getElem? hd)
  · have := hread j (own.map XNode.lang ++ l.langs, x) d hx2 hd
    dsimp only at this
    exact this

/-! ## C100: the labels of a report element -/

theorem LinkRun.labels_of {h h' : Heap} {ls : List LinkXml} {ns : List Network} {lbs : List (QName × Nat)} (hr : LinkRun so h ls h' ns lbs) :
    (∀ x ∈ lbs, ∃ l ∈ ls, ∃ r h0 y, l.role = .ok (some r) ∧ parseXmlLink (l.node.tag.getD "") so r h0 l.arcs l.ends = .ok y ∧ x ∈ y.2.2) ∧
    (∀ l ∈ ls, ∀ r, l.role = .ok (some r) → ∃ h0 y, parseXmlLink (l.node.tag.getD "") so r h0 l.arcs l.ends = .ok y ∧ ∀ x ∈ y.2.2, x ∈ lbs) := by
  induction hr with
  | nil =>
    constructor
    · intro x hx; cases hx
    · intro l hl; cases hl
  | skip h1 _ ih =>
    refine ⟨fun x hx => ?_, fun l hl r hr => ?_⟩
    · obtain ⟨l, hl, rest⟩ := ih.1 x hx
      exact ⟨l, List.mem_cons_of_mem _ hl, rest⟩
    · rcases List.mem_cons.1 hl with rfl | hl
      · rw [h1] at hr; cases hr
      · exact ih.2 l hl r hr
  | @link h l ls r x h' ns lbs h1 h2 _ ih =>
    refine ⟨fun y hy => ?_, fun l' hl r' hr => ?_⟩
    · rcases List.mem_append.1 hy with hy | hy
      · exact ⟨l, List.mem_cons_self, r, h, x, h1, h2, hy⟩
      · obtain ⟨l', hl, rest⟩ := ih.1 y hy
        exact ⟨l', List.mem_cons_of_mem _ hl, rest⟩
    · rcases List.mem_cons.1 hl with rfl | hl
      · rw [h1] at hr
        cases hr
        exact ⟨h, x, h2, fun y hy => List.mem_append.2 (Or.inl hy)⟩
      · obtain ⟨h0, y, h3, h4⟩ := ih.2 l' hl r' hr
        exact ⟨h0, y, h3, fun z hz => List.mem_append.2 (Or.inr (h4 z hz))⟩

theorem parseLink_labels {k : LinkKind} {linkRole : String} {h : Heap} {arcs : List Arc} {ends : List LinkEnd} {res : LinkResult} (hk : k ≠ .label)
    (hp : parseLink k so linkRole h arcs ends = .ok res) : res.labels = [] := by
  obtain ⟨P⟩ := parseLink_ok hp
  rw [P.lab_eq, List.flatten_eq_nil_iff]
  intro l hl
  obtain ⟨n, _, hn⟩ := ((mapM_ok_iff _ _ _).1 P.lab).mem_right l hl
  unfold updateReportElements at hn
  rw [if_neg hk] at hn
  cases hn
  rfl

/-- Only label links hand labels to elements. -/
theorem parseXmlLink_labels {name : String} (hn : name ∈ tagKinds.map (·.1)) {r : String} {h0 : Heap} {arcs : List Arc} {ends : List LinkEnd} {y : Heap × List Network × List (QName × Nat)}
    (h : parseXmlLink (linkTag name) so r h0 arcs ends = .ok y) :
    if name = "labelLink" then ∃ res, parseLink .label so r h0 arcs ends = .ok res ∧ y.2.2 = res.labels else y.2.2 = [] := by
  have single : ∀ k, (name, [k]) ∈ tagKinds → ∃ res, parseLink k so r h0 arcs ends = .ok res ∧ y.2.2 = res.labels := by
    intro k hk
    rw [(C69_tags name [k] hk).1 k rfl] at h
    cases hr : parseLink k so r h0 arcs ends with
    | error e => rw [hr] at h; cases h
    | ok res => rw [hr] at h; cases h; exact ⟨res, rfl, rfl⟩
  simp only [tagKinds, List.map_cons, List.map_nil, List.mem_cons, List.not_mem_nil, or_false] at hn
  rcases hn with rfl | rfl | rfl | rfl | rfl | rfl
  · rw [if_neg (by decide)]
    obtain ⟨res, h1, h2⟩ := single .presentation (by decide)
    rw [h2, parseLink_labels (by decide) h1]
  · rw [if_neg (by decide)]
    obtain ⟨res, h1, h2⟩ := single .calculation (by decide)
    rw [h2, parseLink_labels (by decide) h1]
  · rw [if_neg (by decide)]
    rw [(C69_tags "definitionLink" _ (by decide)).2 .physicalDefinition .logicalDefinition rfl] at h
    cases h1 : parseLink .physicalDefinition so r h0 arcs ends with
    | error e => rw [h1] at h; cases h
    | ok r1 =>
      rw [h1] at h
      simp only [Except.bind] at h
      cases h2 : parseLink .logicalDefinition so r r1.heap arcs ends with
      | error e => rw [h2] at h; cases h
      | ok r2 =>
        rw [h2] at h
        cases h
        simp [parseLink_labels (by decide) h1, parseLink_labels (by decide) h2]
  · rw [if_pos rfl]
    exact single .label (by decide)
  · rw [if_neg (by decide)]
    obtain ⟨res, h1, h2⟩ := single .reference (by decide)
    rw [h2, parseLink_labels (by decide) h1]
  · rw [if_neg (by decide)]
    obtain ⟨res, h1, h2⟩ := single .footnote (by decide)
    rw [h2, parseLink_labels (by decide) h1]

theorem mem_inOrder (links : List LinkXml) (l : LinkXml) : l ∈ inOrder links ↔ l ∈ links := by
  unfold inOrder
  rw [List.mem_append, List.mem_filter, List.mem_filter]
  constructor
  · rintro (⟨h1, _⟩ | ⟨h1, _⟩) <;> exact h1
  · intro h1
    cases hq : l.standard with
    | true => exact Or.inl ⟨h1, rfl⟩
    | false => exact Or.inr ⟨h1, rfl⟩

theorem mem_labelsOf (h : readNetworks elems facts float str so steps roots = some (.ok s)) (q : QName) (lab : Label) :
    lab ∈ s.labelsOf q ↔ ∃ i, (q, i) ∈ s.networks.labels ∧ (i, Resource.label lab.text lab.label lab.language lab.role) ∈ s.resources := by
  unfold ReadNetworks.labelsOf
  rw [List.mem_filterMap]
  constructor
  · rintro ⟨⟨q', i⟩, hp, hm⟩
    dsimp only at hm
    by_cases hq : q' = q
    · subst hq
      rw [if_pos rfl] at hm
      cases hf : s.resources.find? (fun r => decide (r.1 = i)) with
      | none => rw [hf] at hm; cases hm
      | some p =>
        obtain ⟨j, r⟩ := p
        have hj : j = i := by simpa using List.find?_some hf
        have hmem := List.mem_of_find?_eq_some hf
        subst hj
        rw [hf] at hm
        cases r with
        | label t l lang role => cases hm; exact ⟨j, hp, hmem⟩
        | footnote => cases hm
        | reference => cases hm
    · rw [if_neg hq] at hm; cases hm
  · rintro ⟨i, hp, hm⟩
    refine ⟨(q, i), hp, ?_⟩
    dsimp only
    rw [if_pos rfl]
    cases hf : s.resources.find? (fun r => decide (r.1 = i)) with
    | none => exact absurd (List.find?_eq_none.1 hf _ hm) (by simp)
    | some p =>
      obtain ⟨j, r⟩ := p
      have hj : j = i := by simpa using List.find?_some hf
      subst hj
      have := resources_unique h (List.mem_of_find?_eq_some hf) hm
      subst this
      rfl

/-- C100: a report element has a label exactly if some label link of the documents states it: an arc leads from a locator of the element to an element `label` with this text and role, in
the language in force there. -/
theorem C100_labels (h : readNetworks elems facts float str so steps roots = some (.ok s)) (hp : PlainLinks roots) (hlast : LabelsLast roots) (q : QName) (lab : Label) :
    lab ∈ s.labelsOf q ↔ ∃ up link role, HasLink roots "labelLink" role up link ∧ ∃ l m, Joined link l m ∧ Locates elems link l q ∧ Labelled up link m lab := by
  obtain ⟨hparse, hread, hres, _⟩ := readNetworks_ok h
  obtain ⟨h1, parsed, hrun, _⟩ := C84_networks hparse
  -- arcs of a label link do not lead to elements
  have hto : ∀ {l : LinkNode} {r : LinkReading} {es : List EndReading} {role : String}, l ∈ linkNodes roots → l.node.tag = some (linkTag "labelLink") → l.node.xlinkAttr "role" = some role →
      Reading elems facts float str l r es → ∀ a ∈ r.link.arcs, ∀ e ∈ r.link.ends, e.label = a.to → ∀ q b, e.target ≠ some (.element q b) := by
    intro l r es role hl ht hrole R a ha e he hea q' b htar
    obtain ⟨up, hlink, _⟩ := node_hasLink hl ht hrole
    obtain ⟨own, x, hx, hxa⟩ := R.arc_of hp hl ha
    obtain ⟨c1, c2, c3, _⟩ := readArc_ok (hp.scope_part hl hx) hxa
    obtain ⟨t, ht', own', y, j, d, hy, hd, hde, hread⟩ := R.end_of hp hl he
    simp only [List.mem_cons, List.not_mem_nil, or_false] at ht'
    rcases ht' with rfl | rfl
    · obtain ⟨l', role', _, _, _, d2⟩ := readEnd_resource (hp.scope_part hl hy) hy.type hread
      rw [hde, htar] at d2
      rcases d2 with ⟨_, ⟨_, _, d3, _⟩ | ⟨_, d3, _⟩⟩ | ⟨_, ⟨_, _, _, d3, _⟩ | ⟨_, d3, _⟩⟩ | ⟨_, _, d3, _⟩ | d3
      · cases d3
      · cases d3
      · cases d3
      · cases d3
      · cases d3
      · obtain ⟨hk, root, hr, own'', hb, _⟩ := mem_linkNodes hl
        obtain ⟨name, hn, htag⟩ := hp.resources root hr own'' _ hb hk _ _ hy
        exact d3 name hn htag
    · obtain ⟨href, l', _, e2, e3, _⟩ := readEnd_locator (hp.scope_part hl hy) hy.type hread
      refine hlast up l.node role hlink a.frm a.to ⟨own, x, a.role, hx, c1, c2, c3⟩ own' y hy ?_
      rw [e2, ← e3, hde, hea]
  rw [mem_labelsOf h]
  constructor
  · rintro ⟨i, hlab, hmem⟩
    obtain ⟨lx, hlx, role, h0, y, hrole, hxml, hin⟩ := hrun.labels_of.1 (q, i) hlab
    rw [mem_inOrder] at hlx
    obtain ⟨l, hl, rfl⟩ := List.mem_map.1 hlx
    have hrole' : l.node.xlinkAttr "role" = some role := by
      rw [role_eq, linkOf_node, xlink?_eq (hp.scope_link hl) (by decide +kernel) (by decide +kernel)] at hrole
      exact Except.ok.inj hrole
    obtain ⟨r, es, hrd, hlo, _, R⟩ := reading_of h hp hl hrole'
    obtain ⟨name, hn, ht⟩ := hp.tag_link hl
    rw [linkOf_node, ht, Option.getD_some] at hxml
    have hcase := parseXmlLink_labels hn hxml
    by_cases hname : name = "labelLink"
    · subst hname
      rw [if_pos rfl] at hcase
      obtain ⟨res, hpl, hy⟩ := hcase
      rw [hlo] at hpl
      rw [hy] at hin
      obtain ⟨a, ha, ⟨e1, he1, g1, b, g2⟩, ⟨e2, he2, g3, g4⟩⟩ := (C65_labels hpl (hto hl ht hrole' R) q i).1 hin
      obtain ⟨up, hlink, hlangs⟩ := node_hasLink hl ht hrole'
      obtain ⟨own, x, hx, hxa⟩ := R.arc_of hp hl ha
      obtain ⟨c1, c2, c3, _⟩ := readArc_ok (hp.scope_part hl hx) hxa
      refine ⟨up, l.node, role, hlink, a.frm, a.to, ⟨own, x, a.role, hx, c1, c2, c3⟩, ?_, ?_⟩
      · obtain ⟨t, ht', own', z, j, d, hz, _, hde, hread'⟩ := R.end_of hp hl he1
        simp only [List.mem_cons, List.not_mem_nil, or_false] at ht'
        rcases ht' with rfl | rfl
        · obtain ⟨l', role', _, _, _, d2⟩ := readEnd_resource (hp.scope_part hl hz) hz.type hread'
          rw [hde, g2] at d2
          rcases d2 with ⟨_, ⟨_, _, d3, _⟩ | ⟨_, d3, _⟩⟩ | ⟨_, ⟨_, _, _, d3, _⟩ | ⟨_, d3, _⟩⟩ | ⟨_, _, d3, _⟩ | d3
          · cases d3
          · cases d3
          · cases d3
          · cases d3
          · cases d3
          · obtain ⟨hk, root, hr, own'', hb, _⟩ := mem_linkNodes hl
            obtain ⟨name, hn, htag⟩ := hp.resources root hr own'' _ hb hk _ _ hz
            exact absurd htag (d3 name hn)
        · obtain ⟨href, l', f1, f2, f3, _, f4⟩ := readEnd_locator (hp.scope_part hl hz) hz.type hread'
          rw [hde, g2] at f4
          rw [hde, g1] at f3
          subst f3
          rcases f4 with ⟨el, f5, f6, _⟩ | ⟨_, ⟨_, _, f6, _⟩ | ⟨_, f6, _⟩⟩
          · cases f6
            exact ⟨own', z, href, _, el, hz, f2, f1, fragment_refers href, f5, rfl⟩
          · cases f6
          · cases f6
      · obtain ⟨t, ht', own', z, j, d, hz, hdj, hde, hread'⟩ := R.end_of hp hl he2
        simp only [List.mem_cons, List.not_mem_nil, or_false] at ht'
        rcases ht' with rfl | rfl
        · obtain ⟨l', role', k1, k2, k3, d2⟩ := readEnd_resource (hp.scope_part hl hz) hz.type hread'
          rw [hde, g4] at d2
          rcases d2 with ⟨k4, ⟨lang, k5, d3, k6, _⟩ | ⟨_, d3, _⟩⟩ | ⟨_, ⟨_, _, _, d3, _⟩ | ⟨_, d3, _⟩⟩ | ⟨_, _, d3, _⟩ | d3
          · cases d3
            rw [hde, g3] at k3
            subst k3
            have : (l.base + j, Resource.label (z.text.getD "") a.to lang role') ∈ s.resources :=
              (hres _).2 ⟨l, hl, r, hrd, by rw [R.resources]; exact List.mem_filterMap.2 ⟨d, List.mem_of_getElem? hdj, k6⟩⟩
            have heq := resources_unique h this hmem
            simp only [Resource.label.injEq] at heq
            obtain ⟨q1, q2, q3, q4⟩ := heq
            refine ⟨own', z, hz, k4, k1, q2.symm, by rw [← q4]; exact k2, ?_, q1.symm⟩
            rw [nearestLang_eq, List.map_append, ← hlangs, k5, q3]
          · cases d3
          · cases d3
          · cases d3
          · cases d3
          · obtain ⟨hk, root, hr, own'', hb, _⟩ := mem_linkNodes hl
            obtain ⟨name, hn, htag⟩ := hp.resources root hr own'' _ hb hk _ _ hz
            exact absurd htag (d3 name hn)
        · obtain ⟨href, l', _, _, _, _, f4⟩ := readEnd_locator (hp.scope_part hl hz) hz.type hread'
          rw [hde, g4] at f4
          rcases f4 with ⟨el, _, f6, _⟩ | ⟨_, ⟨_, _, f6, _⟩ | ⟨_, f6, _⟩⟩ <;> cases f6
    · rw [if_neg hname] at hcase
      rw [hcase] at hin
      cases hin
  · rintro ⟨up, link, role, hlink, l1, m1, ⟨ownA, x, arole, hx, x1, x2, x3⟩, ⟨ownL, z, href, i, el, hz, z1, z2, z3, z4, z5⟩, ⟨ownR, w, hw, w1, w2, w3, w4, w5, w6⟩⟩
    obtain ⟨l, hl, hnode, hlangs⟩ := hlink.node
    subst hnode
    obtain ⟨r, es, hrd, hlo, hrole, R⟩ := reading_of h hp hl hlink.role
    obtain ⟨a, ha, hxa⟩ := R.of_arc hp hl hx
    obtain ⟨c1, c2, c3, _⟩ := readArc_ok (hp.scope_part hl hx) hxa
    rw [x1] at c1
    rw [x2] at c2
    obtain ⟨j1, d1, hd1, hm1, hr1⟩ := R.of_end hp hl (t := "locator") (by simp) hz
    obtain ⟨href', l', f1, f2, f3, _, f4⟩ := readEnd_locator (hp.scope_part hl hz) hz.type hr1
    rw [z2] at f1
    cases f1
    rw [z1] at f2
    cases f2
    rw [← refers_unique z3, z4] at f4
    have f5 : d1.link.target = some (.element el.name (decide (el.kind = .concept))) := by
      rcases f4 with ⟨el', g1, g2, _⟩ | ⟨g1, _⟩
      · cases g1; exact g2
      · cases g1
    obtain ⟨j2, d2, hd2, hm2, hr2⟩ := R.of_end hp hl (t := "resource") (by simp) hw
    obtain ⟨l'', role', k1, k2, k3, k4⟩ := readEnd_resource (hp.scope_part hl hw) hw.type hr2
    rw [w2] at k1
    cases k1
    rw [w4] at k2
    cases k2
    rw [nearestLang_eq, List.map_append, ← hlangs] at w5
    have k5 : d2.link.target = some (.labelResource (l.base + j2)) ∧ d2.resource = some (l.base + j2, .label lab.text lab.label lab.language lab.role) := by
      have n1 : linkTag "label" ≠ linkTag "footnote" := by decide
      have n2 : linkTag "label" ≠ linkTag "reference" := by decide
      rcases k4 with ⟨_, ⟨lang, g1, g2, g3, _⟩ | ⟨g1, _⟩⟩ | ⟨g1, _⟩ | ⟨g1, _⟩ | g1
      · rw [w5] at g1
        cases g1
        refine ⟨g2, ?_⟩
        rw [g3, w6, w3]
      · rw [w5] at g1; cases g1
      · rw [w1] at g1; exact absurd (Option.some.inj g1) n1
      · rw [w1] at g1; exact absurd (Option.some.inj g1) n2
      · exact absurd w1 (g1 "label" (by simp))
    obtain ⟨h0, y, hxml, hsub⟩ := hrun.labels_of.2 (linkOf elems facts float str l) ((mem_inOrder _ _).2 (List.mem_map_of_mem hl)) role hrole
    rw [linkOf_node, hlink.tag, Option.getD_some] at hxml
    have hcase := parseXmlLink_labels (by decide) hxml
    rw [if_pos rfl] at hcase
    obtain ⟨res, hpl, hy⟩ := hcase
    rw [hlo] at hpl
    refine ⟨l.base + j2, ?_, ?_⟩
    · apply hsub
      rw [hy]
      refine (C65_labels hpl (hto hl hlink.tag hlink.role R) q _).2 ⟨a, ha, ⟨d1.link, hm1, ?_, decide (el.kind = .concept), ?_⟩, ⟨d2.link, hm2, ?_, k5.1⟩⟩
      · rw [f3]; exact Option.some.inj c1
      · rw [f5, z5]
      · rw [k3]; exact Option.some.inj c2
    · exact (hres _).2 ⟨l, hl, r, hrd, by rw [R.resources]; exact List.mem_filterMap.2 ⟨d2, List.mem_of_getElem? hd2, k5.2⟩⟩

end Brel
