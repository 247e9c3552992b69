import Verif.Lemmas.Link
import Verif.Lemmas.Repos

namespace Brel
open Heap

variable {k : LinkKind} {so : SetOrder} {linkRole : String} {h : Heap} {arcs : List Arc} {ends : List LinkEnd} {res : LinkResult}

/-! ## C20: a parsed link has exactly the arcs and roots of the XML link -/

/-- C20, nodes: presentation, calculation and logical definition networks have one node per locator or resource with an object, in
document order; the others have one node per such link end and arc role at it. Nodes of other links are not touched. -/
theorem C20_nodes (hp : parseLink k so linkRole h arcs ends = .ok res) :
    (k.physical = false → (res.heap.drop h.length).map (fun n => (n.label, n.target)) =
      ends.filterMap (fun e => e.target.map (fun t => (e.label, t)))) ∧
    (k.physical = true → ((res.heap.drop h.length).map (fun n => (n.label, n.target, n.arcRole))).Perm
      ((ends.filterMap (fun e => e.target.map (fun t => (e.label, t)))).flatMap (fun e => (rolesAt arcs e.1).map (fun r => (e.1, e.2, r))))) ∧
    (∀ i < h.length, res.heap[i]? = h[i]?) := by
  obtain ⟨P⟩ := parseLink_ok hp
  refine ⟨?_, ?_, ?_⟩
  · intro hphys
    have h1 : (res.heap.drop h.length).map (fun n => (n.label, n.target)) = ((res.heap.drop h.length).map frame).map (fun n => (n.label, n.target)) := by
      rw [List.map_map]; rfl
    rw [h1, P.frames, List.map_map]
    show _ = resolvedEnds ends
    have := P.ends_ok
    generalize resolvedEnds ends = es at this
    generalize P.made = made at this
    induction this with
    | nil => rfl
    | @cons e m es ms h1 _ ih =>
      obtain ⟨a1, a2, _⟩ := endNodes_ok h1
      have hm := a2 hphys
      match m, hm with
      | [p], _ =>
        obtain ⟨b1, b2, _⟩ := a1 p (by simp)
        rw [List.flatten_cons, List.map_append, ih]
        simp [frame, b1, b2]
  · intro hphys
    have h1 : (res.heap.drop h.length).map (fun n => (n.label, n.target, n.arcRole)) =
        ((res.heap.drop h.length).map frame).map (fun n => (n.label, n.target, n.arcRole)) := by
      rw [List.map_map]; rfl
    rw [h1, P.frames, List.map_map]
    show List.Perm _ ((resolvedEnds ends).flatMap _)
    have := P.ends_ok
    generalize resolvedEnds ends = es at this
    generalize P.made = made at this
    induction this with
    | nil => exact .nil
    | @cons e m es ms h1 _ ih =>
      obtain ⟨a1, _, a3⟩ := endNodes_ok h1
      rw [List.flatten_cons, List.map_append, List.flatMap_cons]
      refine List.Perm.append ?_ ih
      have : m.map ((fun n : NetNode => (n.label, n.target, n.arcRole)) ∘ fun p => frame p.1) = (m.map (fun p => p.1.arcRole)).map (fun r => (e.1, e.2, r)) := by
        rw [List.map_map]
        apply List.map_congr_left
        intro p hp
        obtain ⟨b1, b2, _⟩ := a1 p hp
        simp [frame, b1, b2]
      rw [this]
      exact ((a3 hphys).trans (rolesAt_kept arcs e.1)).map _
  · intro i hi
    have hb := edgeOps_bound k P.h0 h.length (so.edges ((firstByKey Arc.key arcs).map Arc.key))
    have := runAdds_untouched i _ _ _ (fun o ho he => by have := (hb o ho).1.1; omega) P.run
    rw [this, List.getElem?_append_left hi]

/-- C20, edges: a node's children are nodes of the same link, and a node occurs among them as often as there are different arcs that
join the two. -/
theorem C20_edges (hp : parseLink k so linkRole h arcs ends = .ok res) (i : Nat) (n : NetNode) (hn : NewNode h res i n) :
    (∀ c ∈ n.children, ∃ m, NewNode h res c m) ∧
    ∀ j m, NewNode h res j m → n.children.count j = (firstByKey Arc.key arcs).countP (fun a => decide (Joins k a n m)) := by
  obtain ⟨P⟩ := parseLink_ok hp
  have hperm := P.children_perm hn
  have hiff : ∀ e : String × String × String, i ∈ lookupNodes k P.h0 h.length e.1 e.2.2 ↔ n.label = e.1 ∧ (k.physical = true → n.arcRole = e.2.2) := by
    intro e
    rw [P.mem_lookup]
    constructor
    · rintro ⟨n', hn', h1, h2⟩
      have : n' = n := Option.some.inj (hn'.2.symm.trans hn.2)
      subst this
      exact ⟨h1, h2⟩
    · rintro ⟨h1, h2⟩
      exact ⟨n, hn, h1, h2⟩
  constructor
  · intro c hc
    have := hperm.mem_iff.1 hc
    unfold Parts.added at this
    obtain ⟨e, _, h2⟩ := List.mem_flatMap.1 this
    split at h2
    · obtain ⟨m, hm, _⟩ := (P.mem_lookup _ _ _).1 h2
      exact ⟨m, hm⟩
    · cases h2
  · intro j m hm
    rw [hperm.count_eq]
    unfold Parts.added
    rw [count_flatMap_nodup]
    · rw [(so.edges_perm _).countP_eq, List.countP_map]
      apply List.countP_congr
      intro a _
      simp only [Function.comp_apply, decide_eq_true_eq]
      have hj : ∀ e : String × String × String, j ∈ lookupNodes k P.h0 h.length e.2.1 e.2.2 ↔ m.label = e.2.1 ∧ (k.physical = true → m.arcRole = e.2.2) := by
        intro e
        rw [P.mem_lookup]
        constructor
        · rintro ⟨n', hn', h1, h2⟩
          have : n' = m := Option.some.inj (hn'.2.symm.trans hm.2)
          subst this
          exact ⟨h1, h2⟩
        · rintro ⟨h1, h2⟩
          exact ⟨m, hm, h1, h2⟩
      unfold Joins
      constructor
      · intro hmem
        split at hmem
        · rename_i hi
          obtain ⟨a1, a2⟩ := (hiff a.key).1 hi
          obtain ⟨b1, b2⟩ := (hj a.key).1 hmem
          exact ⟨a1.symm, b1.symm, fun hph => ⟨(a2 hph).symm, (b2 hph).symm⟩⟩
        · cases hmem
      · rintro ⟨c1, c2, c3⟩
        rw [if_pos ((hiff a.key).2 ⟨c1.symm, fun hph => (c3 hph).1.symm⟩)]
        exact (hj a.key).2 ⟨c2.symm, fun hph => (c3 hph).2.symm⟩
    · intro e
      split
      · exact lookupNodes_nodup ..
      · exact List.nodup_nil

/-- C20, edges: `m` is a child of `n` exactly when some arc joins them. -/
theorem C20_edge_iff (hp : parseLink k so linkRole h arcs ends = .ok res) (i j : Nat) (n m : NetNode) (hn : NewNode h res i n) (hm : NewNode h res j m) :
    j ∈ n.children ↔ ∃ a ∈ arcs, Joins k a n m := by
  rw [← List.count_pos_iff, (C20_edges hp i n hn).2 j m hm, List.countP_pos_iff]
  simp only [decide_eq_true_eq]
  exact exists_kept arcs (fun key => key.1 = n.label ∧ key.2.1 = m.label ∧ (k.physical = true → key.2.2 = n.arcRole ∧ key.2.2 = m.arcRole))

/-- C20, order: the children of a node are sorted by order (label nodes have no order). -/
theorem C20_children_sorted (hp : parseLink k so linkRole h arcs ends = .ok res) (hk : k ≠ .label) (i : Nat) (n : NetNode) (hn : NewNode h res i n) :
    n.children.Pairwise (fun a b => res.heap.orderOf a ≤ res.heap.orderOf b) := by
  obtain ⟨P⟩ := parseLink_ok hp
  exact ((P.children_spec hn).1 hk).sorted

/-- C20, roots: a node is a root of one of the networks exactly when no arc leads to it (for networks of one arc role: no arc of this
role). -/
theorem C20_roots (hp : parseLink k so linkRole h arcs ends = .ok res) (i : Nat) :
    (∃ net ∈ res.networks, i ∈ net.roots) ↔ ∃ n, NewNode h res i n ∧ NoIncoming k arcs n := by
  obtain ⟨P⟩ := parseLink_ok hp
  rw [P.nets', roots_makeNetworks, P.mem_rootList]

/-- C20, networks: presentation, calculation and logical definition links give at most one network; the others give one network per
arc role of the roots. No network is empty or lists a root twice. -/
theorem C20_networks (hp : parseLink k so linkRole h arcs ends = .ok res) :
    (∀ net ∈ res.networks, net.linkRole = linkRole ∧ net.kind = k.nodeKind ∧ net.physical = k.physical ∧ net.roots ≠ [] ∧ net.roots.Nodup) ∧
    (k.physical = false → res.networks.length ≤ 1) ∧
    (k.physical = true → (∀ net ∈ res.networks, ∀ i ∈ net.roots, ∀ j ∈ net.roots, res.heap.arcRoleOf i = res.heap.arcRoleOf j) ∧
      res.networks.Pairwise (fun a b => ∀ i ∈ a.roots, ∀ j ∈ b.roots, res.heap.arcRoleOf i ≠ res.heap.arcRoleOf j)) := by
  obtain ⟨P⟩ := parseLink_ok hp
  rw [P.nets']
  refine ⟨?_, ?_, ?_⟩
  · intro net hm
    obtain ⟨h1, h2, h3, h4, h5, h6⟩ := mem_makeNetworks hm
    refine ⟨h1, h2, h3, h4, ?_⟩
    cases hphys : k.physical with
    | false => rw [h5 hphys]; exact P.rootList_nodup
    | true =>
      obtain ⟨r, hr⟩ := h6 hphys
      rw [hr]
      exact P.rootList_nodup.filter _
  · intro hphys
    unfold makeNetworks
    rw [hphys]
    split <;> simp
  · intro hphys
    refine ⟨?_, makeNetworks_roles k so linkRole res.heap P.rootList hphys⟩
    intro net hm i hi j hj
    obtain ⟨_, _, _, _, _, h6⟩ := mem_makeNetworks hm
    obtain ⟨r, hr⟩ := h6 hphys
    rw [hr] at hi hj
    exact (of_decide_eq_true (List.mem_filter.1 hi).2).trans (of_decide_eq_true (List.mem_filter.1 hj).2).symm

/-- C20, duplicates: reported are exactly the arcs with an earlier arc between the same ends with the same role, and the link ends
without an object. -/
theorem C20_reported (hp : parseLink k so linkRole h arcs ends = .ok res) :
    res.duplicates = repeated Arc.key arcs ∧ res.unresolved = (ends.filter (fun e => e.target.isNone)).map (·.label) := by
  obtain ⟨P⟩ := parseLink_ok hp
  exact ⟨P.dups, P.unres⟩

theorem mapM_succeeds {α β : Type} (f : α → Except PyErr β) (l : List α) (hall : ∀ a ∈ l, ∃ b, f a = .ok b) : ∃ r, l.mapM f = .ok r := by
  induction l with
  | nil => exact ⟨[], rfl⟩
  | cons a l ih =>
    obtain ⟨b, hb⟩ := hall a List.mem_cons_self
    obtain ⟨r, hr⟩ := ih (fun x hx => hall x (List.mem_cons_of_mem _ hx))
    refine ⟨b :: r, ?_⟩
    rw [List.mapM_cons, hb, hr]
    rfl

/-- The passes over arcs and link ends succeed if the attributes can be read and the objects are of the right type. -/
theorem parts_exist (harc : ∀ a ∈ arcs, (∃ w, k.arcWeight a = .ok w) ∧ ∃ o, k.arcOrder a = .ok o)
    (hty : ∀ e ∈ ends, ∀ t, e.target = some t → k.refuses t = none) : ∃ res, Nonempty (Parts k so linkRole h arcs ends res) ∧
      ∀ ls, res.networks.mapM (updateReportElements k res.heap) = .ok ls → parseLink k so linkRole h arcs ends = .ok { res with labels := ls.flatten } := by
  have hcreate : ∀ (l : String) (t : Target) (x : Option Arc), k.refuses t = none → (∀ a, x = some a → a ∈ arcs ∧ (a.frm = l ∨ a.to = l)) →
      ∃ n, createNode k l x t = .ok n := by
    intro l t x hr hx
    have : ∃ n, nodeData k l x t = .ok n := by
      unfold nodeData
      cases x with
      | none => exact ⟨_, rfl⟩
      | some a =>
        obtain ⟨ha, hor⟩ := hx a rfl
        dsimp only
        by_cases hf : a.frm = l
        · rw [if_pos hf]; exact ⟨_, rfl⟩
        · rw [if_neg hf, if_pos (hor.resolve_left hf)]
          obtain ⟨⟨w, hw⟩, ⟨o, ho⟩⟩ := harc a ha
          rw [hw, ho]
          exact ⟨_, rfl⟩
    obtain ⟨n, hn⟩ := this
    exact ⟨n, createNode_data.2 ⟨hn, hr⟩⟩
  have hends : ∀ e ∈ resolvedEnds ends, ∃ r, endNodes k so (firstByKey Arc.key arcs) e.1 e.2 = .ok r := by
    intro e he
    obtain ⟨x, hx, hxe⟩ := List.mem_filterMap.1 he
    have hr : k.refuses e.2 = none := by
      cases ht : x.target with
      | none => rw [ht] at hxe; cases hxe
      | some t => rw [ht] at hxe; cases hxe; exact hty x hx t ht
    unfold endNodes
    dsimp only
    split
    · obtain ⟨n, hn⟩ := hcreate e.1 e.2 none hr (by simp)
      rw [hn]; exact ⟨_, rfl⟩
    · split
      · apply mapM_succeeds
        intro r _
        obtain ⟨n, hn⟩ := hcreate e.1 e.2 (((incident (firstByKey Arc.key arcs) e.1).filter (fun a => a.to = e.1) ++
          (incident (firstByKey Arc.key arcs) e.1).filter (fun a => !decide (a.to = e.1))).find? (fun a => a.role = r)) hr (by
            intro a ha
            have hm := List.mem_of_find?_eq_some ha
            have : a ∈ incident (firstByKey Arc.key arcs) e.1 := by
              rcases List.mem_append.1 hm with h' | h' <;> exact (List.mem_filter.1 h').1
            obtain ⟨h1, h2⟩ := (mem_incident _ _ _).1 this
            exact ⟨mem_of_firstByKey h1, h2⟩)
        rw [hn]; exact ⟨_, rfl⟩
      · obtain ⟨n, hn⟩ := hcreate e.1 e.2 ((arcsTo (firstByKey Arc.key arcs) e.1).head?.or (arcsFrom (firstByKey Arc.key arcs) e.1).head?) hr (by
            intro a ha
            have : a ∈ incident (firstByKey Arc.key arcs) e.1 := by
              rcases Option.or_eq_some_iff.1 ha with h' | ⟨_, h'⟩
              · exact (List.mem_filter.1 (List.mem_of_head? h')).1
              · exact (List.mem_filter.1 (List.mem_of_head? h')).1
            obtain ⟨h1, h2⟩ := (mem_incident _ _ _).1 this
            exact ⟨mem_of_firstByKey h1, h2⟩)
        rw [hn]; exact ⟨_, rfl⟩
  obtain ⟨made, hmade⟩ := mapM_succeeds _ _ hends
  have hkinds : ∀ p ∈ made.flatten, p.1.kind = k.nodeKind := by
    intro p hp
    obtain ⟨r, hr, hpr⟩ := List.mem_flatten.1 hp
    obtain ⟨e, _, hok⟩ := ((mapM_ok_iff _ _ _).1 hmade).mem_right r hr
    exact ((endNodes_ok hok).1 p hpr).2.2.1
  have hb := edgeOps_bound k (h ++ made.flatten.map (·.1)) h.length (so.edges ((firstByKey Arc.key arcs).map Arc.key))
  have hkind : ∀ i, h.length ≤ i → i < (h ++ made.flatten.map (·.1)).length → ((h ++ made.flatten.map (·.1))[i]?).map (·.kind) = some k.nodeKind := by
    intro i h1 h2
    rw [List.getElem?_append_right h1, List.getElem?_map]
    have : i - h.length < made.flatten.length := by
      rw [List.length_append, List.length_map] at h2
      omega
    rw [List.getElem?_eq_getElem this]
    simp only [Option.map_some, Option.some.injEq]
    exact hkinds _ (List.getElem_mem this)
  obtain ⟨h', hrun⟩ := (runAdds_ok (h ++ made.flatten.map (·.1)) (edgeOps k (h ++ made.flatten.map (·.1)) h.length (so.edges ((firstByKey Arc.key arcs).map Arc.key)))
    (h ++ made.flatten.map (·.1)) (SameFrame.refl _) (fun o ho => ⟨(hb o ho).1.2, (hb o ho).2.2⟩)).2 (by
      intro o ho
      right
      rw [hkind _ (hb o ho).1.1 (hb o ho).1.2, hkind _ (hb o ho).2.1 (hb o ho).2.2])
  refine ⟨⟨h', makeNetworks k so linkRole h' (so.nodes ((List.range (h ++ made.flatten.map (·.1)).length).filter
    (fun i => decide (h.length ≤ i) && ((made.flatten[i - h.length]?.map (·.2)).getD false)))), repeated Arc.key arcs, (ends.filter (fun e => e.target.isNone)).map (·.label), []⟩, ⟨⟨made, (mapM_ok_iff _ _ _).1 hmade, hrun, rfl, rfl, rfl⟩⟩, ?_⟩
  intro ls hls
  unfold parseLink
  rw [scanArcs_spec]
  dsimp only
  rw [hmade]
  simp only [bind, Except.bind]
  rw [hrun]
  dsimp only
  dsimp only at hls
  rw [hls]
  rfl

/-- C20: reading the link succeeds if the order and weight attributes are numbers or missing and all objects have the type the kind of
link asks for (labels: see C65). -/
theorem C20_succeeds (hk : k ≠ .label) (hnum : ∀ a ∈ arcs, a.order ≠ .empty ∧ a.order ≠ .invalid ∧ a.weight ≠ .empty ∧ a.weight ≠ .invalid)
    (hty : ∀ e ∈ ends, ∀ t, e.target = some t → k.refuses t = none) : ∃ res, parseLink k so linkRole h arcs ends = .ok res := by
  have harc : ∀ a ∈ arcs, (∃ w, k.arcWeight a = .ok w) ∧ ∃ o, k.arcOrder a = .ok o := by
    intro a ha
    obtain ⟨h1, h2, h3, h4⟩ := hnum a ha
    have hs : ∀ (x : NumAttr) d, x ≠ .empty → x ≠ .invalid → (∃ q, x.strict d = .ok q) ∧ ∃ q, x.lenient d = .ok q := by
      intro x d hx1 hx2
      cases x with
      | absent => exact ⟨⟨_, rfl⟩, ⟨_, rfl⟩⟩
      | empty => exact absurd rfl hx1
      | invalid => exact absurd rfl hx2
      | num q => exact ⟨⟨_, rfl⟩, ⟨_, rfl⟩⟩
    constructor
    · cases k <;> first | exact ⟨_, rfl⟩ | exact (hs _ _ h3 h4).2
    · cases k with
      | presentation => exact (hs _ _ h1 h2).1
      | calculation => exact (hs _ _ h1 h2).1
      | physicalDefinition => exact (hs _ _ h1 h2).2
      | logicalDefinition =>
        obtain ⟨q, hq⟩ := (hs a.order 0 h1 h2).2
        exact ⟨pyRound q, by unfold LinkKind.arcOrder; rw [hq]; rfl⟩
      | label => exact ⟨_, rfl⟩
      | reference => exact (hs _ _ h1 h2).2
      | footnote => exact (hs _ _ h1 h2).2
  obtain ⟨res, _, hres⟩ := parts_exist (so := so) (linkRole := linkRole) (h := h) harc hty
  obtain ⟨ls, hls⟩ := mapM_succeeds (updateReportElements k res.heap) res.networks (fun net _ => by
    unfold updateReportElements
    rw [if_neg hk]
    exact ⟨_, rfl⟩)
  exact ⟨_, hres ls hls⟩

/-! ## Examples -/

namespace LinkExample

/-- A presentation link: `a` over `b` (order 2) and `c` (order 1), the first arc is repeated, `d` has no object. -/
def exArcs : List Arc :=
  [{ frm := "a", to := "b", role := "pc", order := .num 2 }, { frm := "a", to := "c", role := "pc", order := .num 1, preferredLabel := some "total" },
   { frm := "a", to := "b", role := "pc" }, { frm := "b", to := "d", role := "pc" }]
def exEnds : List LinkEnd :=
  [⟨"a", some (.element ⟨"u", "p", "A"⟩ true)⟩, ⟨"b", some (.element ⟨"u", "p", "B"⟩ true)⟩, ⟨"c", some (.element ⟨"u", "p", "C"⟩ true)⟩, ⟨"d", none⟩]
def result : LinkResult :=
  { heap := [{ kind := .presentation, target := .element ⟨"u", "p", "A"⟩ true, arcRole := "pc", order := 1, label := "a", children := [2, 1] },
      { kind := .presentation, target := .element ⟨"u", "p", "B"⟩ true, arcRole := "pc", order := 2, label := "b", preferredLabel := some standardLabelRole },
      { kind := .presentation, target := .element ⟨"u", "p", "C"⟩ true, arcRole := "pc", order := 1, label := "c", preferredLabel := some "total" }]
    networks := [{ roots := [0], linkRole := "r", kind := .presentation, physical := false }]
    duplicates := [{ frm := "a", to := "b", role := "pc" }], unresolved := ["d"], labels := [] }

/-- The example meets the hypothesis of the theorems of C20. -/
theorem parses : parseLink .presentation .insertion "r" [] exArcs exEnds = .ok result := by decide +kernel

example : NewNode [] result 0 result.heap[0] ∧ 1 ∈ result.heap[0].children := ⟨⟨by decide, rfl⟩, by decide⟩
example : ∃ a ∈ exArcs, Joins .presentation a result.heap[0] result.heap[1] := by decide +kernel
example : ∃ res, parseLink .reference .reversed "r" result.heap exArcs exEnds = .ok res :=
  C20_succeeds (by decide) (by decide) (by decide)

end LinkExample

/-! ## C60: a child shows the order, weight and preferred label of the arc to it -/

/-- C60 fails: in a calculation link `A = C`, `B = -C` with one locator for `C`, the child of `B` has weight 1. -/
theorem C60_child_shows_its_arc_false :
    ∃ (arcs : List Arc) (ends : List LinkEnd) (res : LinkResult) (i j : Nat) (n m : NetNode) (a : Arc),
      parseLink .calculation .insertion "r" [] arcs ends = .ok res ∧ NewNode [] res i n ∧ NewNode [] res j m ∧ j ∈ n.children ∧ a ∈ arcs ∧
      (∀ b ∈ arcs, Joins .calculation b n m ↔ b = a) ∧ a.weight = .num (-1) ∧ m.weight = 1 :=
  ⟨[{ frm := "a", to := "c", role := "s", weight := .num 1 }, { frm := "b", to := "c", role := "s", weight := .num (-1) }],
   [⟨"a", some (.element ⟨"u", "p", "A"⟩ true)⟩, ⟨"b", some (.element ⟨"u", "p", "B"⟩ true)⟩, ⟨"c", some (.element ⟨"u", "p", "C"⟩ true)⟩],
   { heap := [{ kind := .calculation, target := .element ⟨"u", "p", "A"⟩ true, arcRole := "s", order := 1, label := "a", children := [2] },
      { kind := .calculation, target := .element ⟨"u", "p", "B"⟩ true, arcRole := "s", order := 1, label := "b", children := [2] },
      { kind := .calculation, target := .element ⟨"u", "p", "C"⟩ true, arcRole := "s", order := 1, weight := 1, label := "c" }]
     networks := [{ roots := [0, 1], linkRole := "r", kind := .calculation, physical := false }], duplicates := [], unresolved := [], labels := [] },
   1, 2, _, _, { frm := "b", to := "c", role := "s", weight := .num (-1) }, by decide +kernel, ⟨by decide, rfl⟩, ⟨by decide, rfl⟩, by decide +kernel⟩

/-- C60, what holds in general: a node shows the first arc of the document that leads to it. -/
theorem C60_first_arc_partial (hp : parseLink k so linkRole h arcs ends = .ok res) (i : Nat) (n : NetNode) (hn : NewNode h res i n) (a : Arc)
    (ha : arcs.find? (fun a => decide (LeadsTo k a n)) = some a) (hself : a.frm ≠ a.to) : ShowsArc k a n := by
  obtain ⟨P⟩ := parseLink_ok hp
  exact showsArc_of (P.node_arc hn a ha hself)

/-- C60, the part that holds: a child all of whose arcs come from the same node shows the (first) arc that joins the two. -/
theorem C60_single_parent_partial (hp : parseLink k so linkRole h arcs ends = .ok res) (i j : Nat) (n m : NetNode) (hn : NewNode h res i n)
    (hm : NewNode h res j m) (hc : j ∈ n.children) (hself : n.label ≠ m.label) (hone : ∀ a ∈ arcs, LeadsTo k a m → Joins k a n m) :
    ∃ a, arcs.find? (fun a => decide (Joins k a n m)) = some a ∧ ShowsArc k a m := by
  obtain ⟨b, hb, hjb⟩ := (C20_edge_iff hp i j n m hn hm).1 hc
  have heq : arcs.find? (fun a => decide (Joins k a n m)) = arcs.find? (fun a => decide (LeadsTo k a m)) := by
    clear hp hc hb
    induction arcs with
    | nil => rfl
    | cons x xs ih =>
      rw [List.find?_cons, List.find?_cons, ih (fun a ha => hone a (List.mem_cons_of_mem _ ha))]
      have : decide (Joins k x n m) = decide (LeadsTo k x m) :=
        decide_eq_decide.2 ⟨fun h' => ⟨h'.2.1, fun hph => (h'.2.2 hph).2⟩, hone x List.mem_cons_self⟩
      rw [this]
  have hsome : ∃ a, arcs.find? (fun a => decide (Joins k a n m)) = some a := by
    rw [← Option.isSome_iff_exists, List.find?_isSome]
    exact ⟨b, hb, decide_eq_true hjb⟩
  obtain ⟨a, ha⟩ := hsome
  have hj : Joins k a n m := of_decide_eq_true (List.find?_some (p := fun a => decide (Joins k a n m)) ha)
  exact ⟨a, ha, C60_first_arc_partial hp j m hm a (heq ▸ ha) (by rw [hj.1, hj.2.1]; exact hself)⟩

example : ∀ a ∈ LinkExample.exArcs, LeadsTo .presentation a LinkExample.result.heap[2] → Joins .presentation a LinkExample.result.heap[0] LinkExample.result.heap[2] := by
  decide +kernel

/-! ## C61: reading a link twice gives the same order of children -/

/-- C61 fails: children with the same order come in the order of iteration over a set. -/
theorem C61_children_order_determined_false :
    ∃ (arcs : List Arc) (ends : List LinkEnd) (so so' : SetOrder) (res res' : LinkResult),
      parseLink .presentation so "r" [] arcs ends = .ok res ∧ parseLink .presentation so' "r" [] arcs ends = .ok res' ∧
      res.heap.children 0 = [1, 2] ∧ res'.heap.children 0 = [2, 1] :=
  ⟨[{ frm := "a", to := "b", role := "pc" }, { frm := "a", to := "c", role := "pc" }],
   [⟨"a", some (.element ⟨"u", "p", "A"⟩ true)⟩, ⟨"b", some (.element ⟨"u", "p", "B"⟩ true)⟩, ⟨"c", some (.element ⟨"u", "p", "C"⟩ true)⟩],
   .insertion, .reversed,
   { heap := [{ kind := .presentation, target := .element ⟨"u", "p", "A"⟩ true, arcRole := "pc", order := 1, label := "a", children := [1, 2] },
      { kind := .presentation, target := .element ⟨"u", "p", "B"⟩ true, arcRole := "pc", order := 1, label := "b", preferredLabel := some standardLabelRole },
      { kind := .presentation, target := .element ⟨"u", "p", "C"⟩ true, arcRole := "pc", order := 1, label := "c", preferredLabel := some standardLabelRole }]
     networks := [{ roots := [0], linkRole := "r", kind := .presentation, physical := false }], duplicates := [], unresolved := [], labels := [] },
   { heap := [{ kind := .presentation, target := .element ⟨"u", "p", "A"⟩ true, arcRole := "pc", order := 1, label := "a", children := [2, 1] },
      { kind := .presentation, target := .element ⟨"u", "p", "B"⟩ true, arcRole := "pc", order := 1, label := "b", preferredLabel := some standardLabelRole },
      { kind := .presentation, target := .element ⟨"u", "p", "C"⟩ true, arcRole := "pc", order := 1, label := "c", preferredLabel := some standardLabelRole }]
     networks := [{ roots := [0], linkRole := "r", kind := .presentation, physical := false }], duplicates := [], unresolved := [], labels := [] },
   by decide +kernel, by decide +kernel, by decide, by decide⟩

/-- Two sorted lists with the same entries of different order are equal. -/
theorem sorted_perm_eq {f : Nat → Rat} : ∀ {l m : List Nat}, l.Perm m → l.Pairwise (fun a b => f a ≤ f b) → m.Pairwise (fun a b => f a ≤ f b) →
    (∀ a ∈ l, ∀ b ∈ l, f a = f b → a = b) → l = m
  | [], m, hp, _, _, _ => (List.nil_perm.1 hp).symm
  | a :: l, [], hp, _, _, _ => absurd (List.perm_nil.1 hp) (by simp)
  | a :: l, b :: m, hp, hl, hm, hinj => by
    have hab : a = b := by
      have ha : a ∈ b :: m := hp.mem_iff.1 List.mem_cons_self
      have hb : b ∈ a :: l := hp.mem_iff.2 List.mem_cons_self
      apply hinj a List.mem_cons_self b hb
      apply Rat.le_antisymm
      · rcases List.mem_cons.1 hb with rfl | hb
        · exact Rat.le_refl
        · exact (List.pairwise_cons.1 hl).1 b hb
      · rcases List.mem_cons.1 ha with rfl | ha
        · exact Rat.le_refl
        · exact (List.pairwise_cons.1 hm).1 a ha
    subst hab
    rw [sorted_perm_eq ((List.perm_cons a).1 hp) (List.pairwise_cons.1 hl).2 (List.pairwise_cons.1 hm).2
      (fun x hx y hy => hinj x (List.mem_cons_of_mem _ hx) y (List.mem_cons_of_mem _ hy))]

/-- C61, the part that holds: two readings of a presentation, calculation or logical definition link give the same nodes, with the same
children up to order, and in the same order if the orders of the children differ. Missing: children with equal orders. -/
theorem C61_same_children_partial {so' : SetOrder} {res' : LinkResult} (hp : parseLink k so linkRole h arcs ends = .ok res)
    (hp' : parseLink k so' linkRole h arcs ends = .ok res') (hk : k.physical = false) (i : Nat) :
    (res'.heap[i]?).map (fun n => { n with children := [] }) = (res.heap[i]?).map (fun n => { n with children := [] }) ∧
    (res'.heap.children i).Perm (res.heap.children i) ∧
    ((∀ a ∈ res.heap.children i, ∀ b ∈ res.heap.children i, res.heap.orderOf a = res.heap.orderOf b → a = b) →
      h.length ≤ i → res'.heap.children i = res.heap.children i) := by
  obtain ⟨P⟩ := parseLink_ok hp
  obtain ⟨P'⟩ := parseLink_ok hp'
  have hmade : P'.made = P.made := by
    have h1 := P.ends_ok
    have h2 := P'.ends_ok
    have heq : ∀ (l : String) (t : Target), endNodes k so' (firstByKey Arc.key arcs) l t = endNodes k so (firstByKey Arc.key arcs) l t := by
      intro l t
      unfold endNodes
      simp only [hk]
      rfl
    generalize resolvedEnds ends = es at h1 h2
    generalize P.made = m1 at h1
    generalize P'.made = m2 at h2
    induction h1 generalizing m2 with
    | nil => cases h2; rfl
    | cons hh _ ih =>
      cases h2 with
      | cons hh' ht' =>
        rw [heq, hh] at hh'
        cases hh'
        rw [ih _ ht']
  have h0eq : P'.h0 = P.h0 := by unfold Parts.h0; rw [hmade]
  have hframe : (res'.heap[i]?).map Brel.frame = (res.heap[i]?).map Brel.frame := by
    rw [P'.frame.2 i, P.frame.2 i, h0eq]
  have horder : res'.heap.orderOf = res.heap.orderOf := by rw [← P.order_eq, ← P'.order_eq, h0eq]
  have hperm : (res'.heap.children i).Perm (res.heap.children i) := by
    by_cases hi : i < h.length
    · unfold Heap.children
      rw [(C20_nodes hp).2.2 i hi, (C20_nodes hp').2.2 i hi]
    · by_cases hlt : i < P.h0.length
      · obtain ⟨n, hn⟩ := P.new_of_lt (Nat.le_of_not_lt hi) hlt
        obtain ⟨n', hn'⟩ := P'.new_of_lt (Nat.le_of_not_lt hi) (h0eq ▸ hlt)
        have e1 : res.heap.children i = n.children := by unfold Heap.children; rw [hn.2]; rfl
        have e2 : res'.heap.children i = n'.children := by unfold Heap.children; rw [hn'.2]; rfl
        rw [e1, e2]
        refine (P'.children_perm hn').trans (List.Perm.trans ?_ (P.children_perm hn).symm)
        unfold Parts.added
        rw [h0eq]
        exact ((so'.edges_perm _).trans (so.edges_perm _).symm).flatMap_right _
      · have e1 : res.heap[i]? = none := List.getElem?_eq_none (by rw [P.frame.1]; omega)
        have e2 : res'.heap[i]? = none := List.getElem?_eq_none (by rw [P'.frame.1, h0eq]; omega)
        unfold Heap.children
        rw [e1, e2]
  refine ⟨hframe, hperm, ?_⟩
  intro hinj hi
  have hkl : k ≠ .label := by rintro rfl; cases hk
  by_cases hlt : i < P.h0.length
  · obtain ⟨n, hn⟩ := P.new_of_lt hi hlt
    obtain ⟨n', hn'⟩ := P'.new_of_lt hi (h0eq ▸ hlt)
    have e1 : res.heap.children i = n.children := by unfold Heap.children; rw [hn.2]; rfl
    have e2 : res'.heap.children i = n'.children := by unfold Heap.children; rw [hn'.2]; rfl
    rw [e1] at hperm hinj ⊢
    rw [e2] at hperm ⊢
    have hs := C20_children_sorted hp hkl i n hn
    have hs' := C20_children_sorted hp' hkl i n' hn'
    rw [horder] at hs'
    exact (sorted_perm_eq hperm.symm hs hs' hinj).symm
  · have e2 : res'.heap.children i = [] := by
      unfold Heap.children
      rw [List.getElem?_eq_none (by rw [P'.frame.1, h0eq]; omega)]
      rfl
    rw [e2] at hperm ⊢
    exact List.nil_perm.1 hperm |>.symm

example : ∀ a ∈ LinkExample.result.heap.children 0, ∀ b ∈ LinkExample.result.heap.children 0,
    LinkExample.result.heap.orderOf a = LinkExample.result.heap.orderOf b → a = b := by decide +kernel

/-! ## C62: prohibited arcs make no relation -/

/-- C62 fails: an arc with `use="prohibited"` that follows the arc it prohibits leaves the relation in place, and alone it makes one. -/
theorem C62_prohibited_arcs_excluded_false :
    ∃ (arcs : List Arc) (ends : List LinkEnd) (res : LinkResult), (∀ a ∈ arcs, a.prohibited) ∧
      parseLink .presentation .insertion "r" [] arcs ends = .ok res ∧ res.heap.children 0 = [1] :=
  ⟨[{ frm := "a", to := "b", role := "pc", use := some "prohibited" }],
   [⟨"a", some (.element ⟨"u", "p", "A"⟩ true)⟩, ⟨"b", some (.element ⟨"u", "p", "B"⟩ true)⟩],
   { heap := [{ kind := .presentation, target := .element ⟨"u", "p", "A"⟩ true, arcRole := "pc", order := 1, label := "a", children := [1] },
      { kind := .presentation, target := .element ⟨"u", "p", "B"⟩ true, arcRole := "pc", order := 1, label := "b", preferredLabel := some standardLabelRole }]
     networks := [{ roots := [0], linkRole := "r", kind := .presentation, physical := false }], duplicates := [], unresolved := [], labels := [] },
   by unfold Arc.prohibited; decide, by decide +kernel, by decide⟩

/-- C62: no link is read differently when its `use` attributes change. -/
theorem C62_use_ignored (use : Arc → Option String) :
    (parseLink k so linkRole h (arcs.map (fun a => { a with use := use a })) ends).map (fun r => (r.heap, r.networks, r.unresolved, r.labels)) =
      (parseLink k so linkRole h arcs ends).map (fun r => (r.heap, r.networks, r.unresolved, r.labels)) :=
  parseLink_map (fun a => { a with use := use a }) (fun _ => ⟨rfl, rfl, rfl, rfl, rfl, rfl⟩) k so linkRole h arcs ends

/-! ## C66: the same concept twice under a parent, with different preferred labels -/

/-- C66 fails: with one locator for the concept the second arc counts as duplicate. -/
theorem C66_both_occurrences_shown_false :
    ∃ (arcs : List Arc) (ends : List LinkEnd) (res : LinkResult), parseLink .presentation .insertion "r" [] arcs ends = .ok res ∧
      arcs.map (fun a => (a.frm, a.to, a.preferredLabel)) = [("a", "b", some "start"), ("a", "b", some "end")] ∧
      (res.heap.children 0).map (fun c => (res.heap[c]?).bind NetNode.preferredLabel) = [some "start"] :=
  ⟨[{ frm := "a", to := "b", role := "pc", order := .num 1, preferredLabel := some "start" }, { frm := "a", to := "b", role := "pc", order := .num 2, preferredLabel := some "end" }],
   [⟨"a", some (.element ⟨"u", "p", "A"⟩ true)⟩, ⟨"b", some (.element ⟨"u", "p", "B"⟩ true)⟩],
   { heap := [{ kind := .presentation, target := .element ⟨"u", "p", "A"⟩ true, arcRole := "pc", order := 1, label := "a", children := [1] },
      { kind := .presentation, target := .element ⟨"u", "p", "B"⟩ true, arcRole := "pc", order := 1, label := "b", preferredLabel := some "start" }]
     networks := [{ roots := [0], linkRole := "r", kind := .presentation, physical := false }]
     duplicates := [{ frm := "a", to := "b", role := "pc", order := .num 2, preferredLabel := some "end" }], unresolved := [], labels := [] },
   by decide +kernel, by decide, by decide⟩

/-- C66, the part that holds: arcs to different locators give different children, each with its own preferred label, if no other arc
leads to these locators. Missing: a shared locator. -/
theorem C66_separate_locators_partial (hp : parseLink .presentation so linkRole h arcs ends = .ok res) (a b : Arc) (ha : a ∈ arcs) (hb : b ∈ arcs)
    (hab : a.to ≠ b.to) (hfrm : a.frm = b.frm) (hself : a.frm ≠ a.to ∧ b.frm ≠ b.to) (ta tb : Target)
    (hea : ⟨a.to, some ta⟩ ∈ ends) (heb : ⟨b.to, some tb⟩ ∈ ends)
    (honly : ∀ x ∈ arcs, (x.to = a.to → x = a) ∧ (x.to = b.to → x = b)) (i : Nat) (n : NetNode) (hn : NewNode h res i n) (hl : n.label = a.frm) :
    ∃ c d nc nd, NewNode h res c nc ∧ NewNode h res d nd ∧ c ∈ n.children ∧ d ∈ n.children ∧ c ≠ d ∧
      nc.target = ta ∧ nd.target = tb ∧
      nc.preferredLabel = some (a.preferredLabel.getD "http://www.xbrl.org/2003/role/label") ∧
      nd.preferredLabel = some (b.preferredLabel.getD "http://www.xbrl.org/2003/role/label") := by
  obtain ⟨P⟩ := parseLink_ok hp
  have key : ∀ (x : Arc) (t : Target), x ∈ arcs → ⟨x.to, some t⟩ ∈ ends → n.label = x.frm → x.frm ≠ x.to → (∀ y ∈ arcs, y.to = x.to → y = x) →
      ∃ c nc, NewNode h res c nc ∧ c ∈ n.children ∧ nc.label = x.to ∧ nc.target = t ∧
        nc.preferredLabel = some (x.preferredLabel.getD "http://www.xbrl.org/2003/role/label") := by
    intro x t hx he hnl hs hone
    obtain ⟨c, nc, hc, hcl, hct, _⟩ := P.exists_node (l := x.to) (t := t) (List.mem_filterMap.2 ⟨_, he, rfl⟩) "" (by simp [LinkKind.physical])
    have hjoin : Joins .presentation x n nc := ⟨hnl.symm, hcl.symm, by simp [LinkKind.physical]⟩
    have hch := (C20_edge_iff hp i c n nc hn hc).2 ⟨x, hx, hjoin⟩
    obtain ⟨y, hy, hshow⟩ := C60_single_parent_partial hp i c n nc hn hc hch (by rw [hnl, hcl]; exact hs) (by
      intro z hz hlead
      rw [hone z hz (hlead.1.trans hcl)]
      exact hjoin)
    have hyx : y = x := by
      apply hone y (List.mem_of_find?_eq_some hy)
      exact (of_decide_eq_true (List.find?_some (p := fun a => decide (Joins .presentation a n nc)) hy)).2.1.trans hcl
    subst hyx
    exact ⟨c, nc, hc, hch, hcl, hct, hshow.preferredLabel rfl⟩
  obtain ⟨c, nc, h1, h2, h3, h4, h5⟩ := key a ta ha hea hl hself.1 (fun y hy => (honly y hy).1)
  obtain ⟨d, nd, g1, g2, g3, g4, g5⟩ := key b tb hb heb (hl.trans hfrm) hself.2 (fun y hy => (honly y hy).2)
  refine ⟨c, d, nc, nd, h1, g1, h2, g2, ?_, h4, g4, h5, g5⟩
  rintro rfl
  have : nc = nd := Option.some.inj (h1.2.symm.trans g1.2)
  exact hab (h3.symm.trans ((congrArg NetNode.label this).trans g3))

example : ∃ res, parseLink .presentation .insertion "r" []
    [{ frm := "a", to := "b", role := "pc", preferredLabel := some "start" }, { frm := "a", to := "b2", role := "pc", preferredLabel := some "end" }]
    [⟨"a", some (.element ⟨"u", "p", "A"⟩ true)⟩, ⟨"b", some (.element ⟨"u", "p", "B"⟩ true)⟩, ⟨"b2", some (.element ⟨"u", "p", "B"⟩ true)⟩] = .ok res :=
  C20_succeeds (by decide) (by decide) (by decide)

/-! ## C67: every object of a link appears in one of its networks -/

/-- C67 fails: the objects on a cycle appear in no network. -/
theorem C67_every_end_in_a_network_false :
    ∃ (arcs : List Arc) (ends : List LinkEnd) (res : LinkResult), parseLink .presentation .insertion "r" [] arcs ends = .ok res ∧
      (ends.length = 2 ∧ ∀ e ∈ ends, e.target.isSome) ∧ res.networks = [] :=
  ⟨[{ frm := "a", to := "b", role := "pc" }, { frm := "b", to := "a", role := "pc" }],
   [⟨"a", some (.element ⟨"u", "p", "A"⟩ true)⟩, ⟨"b", some (.element ⟨"u", "p", "B"⟩ true)⟩],
   { heap := [{ kind := .presentation, target := .element ⟨"u", "p", "A"⟩ true, arcRole := "pc", order := 1, label := "a", children := [1], preferredLabel := some standardLabelRole },
      { kind := .presentation, target := .element ⟨"u", "p", "B"⟩ true, arcRole := "pc", order := 1, label := "b", children := [0], preferredLabel := some standardLabelRole }]
     networks := [], duplicates := [], unresolved := [], labels := [] },
   by decide +kernel, by decide, rfl⟩

/-- C67 fails also without cycle: an object below a locator that cannot be resolved appears in no network. -/
theorem C67_below_unresolved_false :
    ∃ (arcs : List Arc) (ends : List LinkEnd) (res : LinkResult), parseLink .presentation .insertion "r" [] arcs ends = .ok res ∧
      (∃ e ∈ ends, e.target.isSome) ∧ res.networks = [] :=
  ⟨[{ frm := "a", to := "b", role := "pc" }],
   [⟨"a", none⟩, ⟨"b", some (.element ⟨"u", "p", "B"⟩ true)⟩],
   { heap := [{ kind := .presentation, target := .element ⟨"u", "p", "B"⟩ true, arcRole := "pc", order := 1, label := "b", preferredLabel := some standardLabelRole }]
     networks := [], duplicates := [], unresolved := ["a"], labels := [] },
   by decide +kernel, by decide, rfl⟩

/-- C67, the part that holds: without cycles (the arcs go up a rank) and if the origins of all arcs have objects, every node can be
reached from a root of one of the networks. -/
theorem C67_reachable_partial (hp : parseLink k so linkRole h arcs ends = .ok res) (rank : String → Nat)
    (hrank : ∀ a ∈ arcs, rank a.frm < rank a.to) (hsrc : ∀ a ∈ arcs, ∃ e ∈ ends, e.label = a.frm ∧ e.target ≠ none)
    (i : Nat) (n : NetNode) (hn : NewNode h res i n) : ∃ net ∈ res.networks, ∃ r ∈ net.roots, Reachable res.heap.children r i := by
  obtain ⟨P⟩ := parseLink_ok hp
  suffices H : ∀ (d : Nat) i n, NewNode h res i n → rank n.label < d → ∃ r m, NewNode h res r m ∧ NoIncoming k arcs m ∧ Reachable res.heap.children r i by
    obtain ⟨r, m, h1, h2, h3⟩ := H _ i n hn (Nat.lt_succ_self _)
    obtain ⟨net, hnet, hr⟩ := (C20_roots hp r).2 ⟨m, h1, h2⟩
    exact ⟨net, hnet, r, hr, h3⟩
  intro d
  induction d with
  | zero => intro i n _ hd; omega
  | succ d ih =>
    intro i n hn hd
    by_cases hno : NoIncoming k arcs n
    · exact ⟨i, n, hn, hno, 0, .refl _⟩
    · unfold NoIncoming at hno
      have ⟨a, ha, hto, hrole⟩ : ∃ a ∈ arcs, a.to = n.label ∧ (k.physical = true → a.role = n.arcRole) := by
        refine Classical.byContradiction (fun hc => hno ?_)
        intro a ha hto hr
        exact hc ⟨a, ha, hto, hr⟩
      obtain ⟨e, he, hel, het⟩ := hsrc a ha
      obtain ⟨t, ht⟩ := Option.ne_none_iff_exists'.1 het
      have hmem : (a.frm, t) ∈ resolvedEnds ends := List.mem_filterMap.2 ⟨e, he, by rw [ht, hel]; rfl⟩
      obtain ⟨j, m, hm, hml, _, hmr⟩ := P.exists_node hmem a.role (fun _ => (mem_rolesAt ..).2 (Or.inl ⟨a, ha, Or.inr rfl, rfl⟩))
      have hjoin : Joins k a m n := ⟨hml.symm, hto, fun hph => ⟨(hmr hph).symm, hrole hph⟩⟩
      have hch := (C20_edge_iff hp j i m n hm hn).2 ⟨a, ha, hjoin⟩
      have := hrank a ha
      obtain ⟨r, m', h1, h2, q, h3⟩ := ih j m hm (by rw [hml]; rw [hto] at this; omega)
      refine ⟨r, m', h1, h2, q + 1, h3.snoc ?_⟩
      unfold Heap.children
      rw [hm.2]
      exact hch

example : ∃ rank : String → Nat, ∀ a ∈ LinkExample.exArcs, rank a.frm < rank a.to :=
  ⟨fun s => if s = "a" then 0 else if s = "b" ∨ s = "c" then 1 else 2, by decide⟩
example : ∀ a ∈ LinkExample.exArcs, ∃ e ∈ LinkExample.exEnds, e.label = a.frm ∧ e.target ≠ none := by decide

/-! ## C63: a locator stands for the element of the document it names -/

/-- C63 fails: if two documents have an element with the same id, a locator for the one can stand for the other. -/
theorem C63_locator_respects_document_false :
    ∃ (es : List (String × ReportElement)) (doc frag : String) (e : ReportElement), (doc, e) ∈ es ∧ e.id = some frag ∧
      (∀ x ∈ es, x.1 = doc → x = (doc, e)) ∧
      ∃ e', e' ≠ e ∧ resolveLocator (ElemStore.run (es.map (·.2))) (FactStore.run []) (doc ++ "#" ++ frag) = .ok (some (.inl e')) :=
  ⟨[("a.xsd", ⟨.concept, ⟨"u", "p", "A"⟩, some "x", [], 0⟩), ("b.xsd", ⟨.concept, ⟨"u", "p", "B"⟩, some "x", [], 0⟩)], "a.xsd", "x",
   ⟨.concept, ⟨"u", "p", "A"⟩, some "x", [], 0⟩, by decide, rfl, by decide, ⟨.concept, ⟨"u", "p", "B"⟩, some "x", [], 0⟩, by decide, by decide +kernel⟩

theorem fragment_append (doc frag : List Char) (hf : '#' ∉ frag) : fragment (doc ++ '#' :: frag) = frag := by
  unfold fragment
  rw [List.reverse_append, List.reverse_cons, List.append_assoc, List.takeWhile_append_of_pos]
  · simp
  · intro c hc
    simp only [ne_eq, decide_eq_true_eq]
    rintro rfl
    exact hf (List.mem_reverse.1 hc)

/-- C63, what holds in general: a locator stands for the last report element read with that id, otherwise for the last fact with that id,
whatever document it names. -/
theorem C63_resolves_fragment_partial (es : List ReportElement) (fs : List Fact) (doc frag : String) (hf : '#' ∉ frag.toList) :
    resolveLocator (ElemStore.run es) (FactStore.run fs) (doc ++ "#" ++ frag) =
      .ok (((latest (·.id) es (some frag)).map Sum.inl).or ((latest (·.id) fs (some frag)).map Sum.inr)) := by
  have hfrag : String.ofList (fragment (doc ++ "#" ++ frag).toList) = frag := by
    have : (doc ++ "#" ++ frag).toList = doc.toList ++ '#' :: frag.toList := by
      rw [String.toList_append, String.toList_append, List.append_assoc]
      rfl
    rw [this, fragment_append _ _ hf, String.ofList_toList]
  unfold resolveLocator
  dsimp only
  rw [hfrag]
  have he : (ElemStore.run es).hasId frag = (latest (·.id) es (some frag)).isSome := by
    unfold ElemStore.hasId
    rw [Dict.has_eq, ElemStore.run_get?_id]
  have hfa : (FactStore.run fs).hasId frag = (latest (·.id) fs (some frag)).isSome := by
    unfold FactStore.hasId
    rw [Dict.has_eq, FactStore.run_get?]
  have hff : ∀ f, latest (·.id) fs (some frag) = some f → (FactStore.run fs).getById frag = .ok f := by
    intro f hl
    unfold FactStore.getById Dict.get
    rw [FactStore.run_get?, hl]
  rw [he, hfa, ElemStore.getById_eq, ElemStore.run_get?_id]
  cases latest (fun e : ReportElement => e.id) es (some frag) with
  | some e => rfl
  | none =>
    cases h2 : latest (fun f : Fact => f.id) fs (some frag) with
    | some f => simp [hff f h2, Except.map]
    | none => rfl

/-- C63, the part that holds: if ids are unique over all documents, a locator stands for the element with the id in the document. -/
theorem C63_unique_ids_partial (es : List (String × ReportElement)) (fs : List Fact) (doc frag : String) (e : ReportElement) (hf : '#' ∉ frag.toList)
    (he : (doc, e) ∈ es) (hid : e.id = some frag) (huniq : ∀ x ∈ es, x.2.id = some frag → x.2 = e) :
    resolveLocator (ElemStore.run (es.map (·.2))) (FactStore.run fs) (doc ++ "#" ++ frag) = .ok (some (.inl e)) := by
  rw [C63_resolves_fragment_partial _ _ _ _ hf]
  have : latest (·.id) (es.map (·.2)) (some frag) = some e := by
    cases h : latest (fun e : ReportElement => e.id) (es.map (·.2)) (some frag) with
    | none => exact absurd hid ((latest_none _ _ _).1 h e (List.mem_map.2 ⟨_, he, rfl⟩))
    | some e' =>
      obtain ⟨h1, h2⟩ := latest_some _ _ _ _ h
      obtain ⟨x, hx, rfl⟩ := List.mem_map.1 h1
      rw [huniq x hx h2]
  rw [this]
  rfl

example : ∃ (es : List (String × ReportElement)) (e : ReportElement), ("a.xsd", e) ∈ es ∧ e.id = some "x" ∧ es.length = 2 ∧
    ∀ x ∈ es, x.2.id = some "x" → x.2 = e :=
  ⟨[("a.xsd", ⟨.concept, ⟨"u", "p", "A"⟩, some "x", [], 0⟩), ("b.xsd", ⟨.concept, ⟨"u", "p", "B"⟩, some "y", [], 0⟩)],
    ⟨.concept, ⟨"u", "p", "A"⟩, some "x", [], 0⟩, by decide, rfl, rfl, by decide⟩

/-! ## C65: the labels of a label link reach the elements they are linked to -/

theorem rootLabels_ok {h : Heap} {r : Nat} {ls : List (QName × Nat)} (hl : rootLabels h r = .ok ls) :
    ∃ q b, (h[r]?).map NetNode.target = some (.element q b) ∧ ∀ x, x ∈ ls ↔ x.1 = q ∧ ∃ c ∈ h.children r, (h[c]?).map NetNode.target = some (.labelResource x.2) := by
  unfold rootLabels at hl
  split at hl
  · rename_i q b hq
    refine ⟨q, b, hq, ?_⟩
    have hrel := (mapM_ok_iff _ _ _).1 hl
    clear hl
    generalize h.children r = cs at hrel ⊢
    intro x
    induction hrel with
    | nil => simp
    | @cons c y cs ys h1 _ ih =>
      split at h1
      · rename_i i hi
        cases h1
        rw [List.mem_cons, ih]
        constructor
        · rintro (rfl | ⟨e, c', hc', ht⟩)
          · exact ⟨rfl, c, List.mem_cons_self, hi⟩
          · exact ⟨e, c', List.mem_cons_of_mem _ hc', ht⟩
        · rintro ⟨e, c', hc', ht⟩
          rcases List.mem_cons.1 hc' with rfl | hc'
          · rw [hi] at ht
            cases ht
            left
            cases x
            simp_all
          · exact Or.inr ⟨e, c', hc', ht⟩
      · cases h1
  · cases hl

/-- C65: in a label link whose arcs do not lead to elements, an element gets a label exactly when an arc links the two. -/
theorem C65_labels (hp : parseLink .label so linkRole h arcs ends = .ok res)
    (hto : ∀ a ∈ arcs, ∀ e ∈ ends, e.label = a.to → ∀ q b, e.target ≠ some (.element q b)) (q : QName) (l : Nat) :
    (q, l) ∈ res.labels ↔ ∃ a ∈ arcs, (∃ e ∈ ends, e.label = a.frm ∧ ∃ b, e.target = some (.element q b)) ∧
      (∃ e ∈ ends, e.label = a.to ∧ e.target = some (.labelResource l)) := by
  obtain ⟨P⟩ := parseLink_ok hp
  have hlab : (q, l) ∈ res.labels ↔ ∃ net ∈ res.networks, ∃ r ∈ net.roots, ∃ ls, rootLabels res.heap r = .ok ls ∧ (q, l) ∈ ls := by
    rw [P.lab_eq, List.mem_flatten]
    have hrel := (mapM_ok_iff _ _ _).1 P.lab
    generalize P.labels = lss at hrel
    generalize res.networks = nets at hrel
    have hstep : ∀ (net : Network) (ls : List (QName × Nat)), updateReportElements .label res.heap net = .ok ls →
        ((q, l) ∈ ls ↔ ∃ r ∈ net.roots, ∃ ls, rootLabels res.heap r = .ok ls ∧ (q, l) ∈ ls) := by
      intro net ls hu
      unfold updateReportElements at hu
      rw [if_pos rfl] at hu
      cases hm : net.roots.mapM (rootLabels res.heap) with
      | error e => rw [hm] at hu; cases hu
      | ok lss' =>
        rw [hm] at hu
        cases hu
        rw [List.mem_flatten]
        have hrel' := (mapM_ok_iff _ _ _).1 hm
        clear hm
        generalize net.roots = rs at hrel'
        induction hrel' with
        | nil => simp
        | @cons r ls' rs lss'' h1 _ ih =>
          simp only [List.mem_cons, exists_eq_or_imp, ih]
          rw [h1]
          simp
    induction hrel with
    | nil => simp
    | @cons net ls nets lss h1 _ ih =>
      simp only [List.mem_cons, exists_eq_or_imp, ih, hstep net ls h1]
  have hmemEnds : ∀ {l t}, (l, t) ∈ resolvedEnds ends ↔ ∃ e ∈ ends, e.label = l ∧ e.target = some t := by
    intro l t
    unfold resolvedEnds
    rw [List.mem_filterMap]
    constructor
    · rintro ⟨e, he, hm⟩
      cases ht : e.target with
      | none => rw [ht] at hm; cases hm
      | some t' => rw [ht] at hm; cases hm; exact ⟨e, he, rfl, ht⟩
    · rintro ⟨e, he, rfl, ht⟩
      exact ⟨e, he, by rw [ht]; rfl⟩
  have hnodeEnd : ∀ {i n}, NewNode h res i n → ∃ e ∈ ends, e.label = n.label ∧ e.target = some n.target := by
    intro i n hn
    obtain ⟨p, _, hpm, _, h1, h2, _⟩ := P.new_node hn
    have := (P.node_ok p hpm).1
    rw [← h1, ← h2] at this
    exact hmemEnds.1 this
  rw [hlab]
  constructor
  · rintro ⟨net, hnet, r, hr, ls, hls, hmem⟩
    obtain ⟨n, hn, _⟩ := (C20_roots hp r).1 ⟨net, hnet, hr⟩
    obtain ⟨q', b, hq', hiff⟩ := rootLabels_ok hls
    obtain ⟨hqq, c, hc, htc⟩ := (hiff (q, l)).1 hmem
    dsimp only at hqq htc
    subst hqq
    rw [hn.2] at hq'
    have htn : n.target = .element q b := Option.some.inj hq'
    have hcn : c ∈ n.children := by
      unfold Heap.children at hc
      rw [hn.2] at hc
      exact hc
    obtain ⟨m, hm⟩ := (C20_edges hp r n hn).1 c hcn
    rw [hm.2] at htc
    have htm : m.target = .labelResource l := Option.some.inj htc
    obtain ⟨a, ha, hj⟩ := (C20_edge_iff hp r c n m hn hm).1 hcn
    obtain ⟨e1, he1, hl1, ht1⟩ := hnodeEnd hn
    obtain ⟨e2, he2, hl2, ht2⟩ := hnodeEnd hm
    exact ⟨a, ha, ⟨e1, he1, hl1.trans hj.1.symm, b, ht1.trans (by rw [htn])⟩, ⟨e2, he2, hl2.trans hj.2.1.symm, ht2.trans (by rw [htm])⟩⟩
  · rintro ⟨a, ha, ⟨e1, he1, hl1, b, ht1⟩, ⟨e2, he2, hl2, ht2⟩⟩
    obtain ⟨i, n, hn, hnl, hnt, hnr⟩ := P.exists_node (hmemEnds.2 ⟨e1, he1, hl1, ht1⟩) a.role (fun _ => (mem_rolesAt ..).2 (Or.inl ⟨a, ha, Or.inr rfl, rfl⟩))
    obtain ⟨j, m, hm, hml, hmt, hmr⟩ := P.exists_node (hmemEnds.2 ⟨e2, he2, hl2, ht2⟩) a.role (fun _ => (mem_rolesAt ..).2 (Or.inl ⟨a, ha, Or.inl rfl, rfl⟩))
    have hjoin : Joins .label a n m := ⟨hnl.symm, hml.symm, fun hph => ⟨(hnr hph).symm, (hmr hph).symm⟩⟩
    have hch := (C20_edge_iff hp i j n m hn hm).2 ⟨a, ha, hjoin⟩
    have hroot : NoIncoming .label arcs n := by
      intro x hx hxt _
      exact hto x hx e1 he1 (hl1.trans (hnl.symm.trans hxt.symm)) q b ht1
    obtain ⟨net, hnet, hr⟩ := (C20_roots hp i).2 ⟨n, hn, hroot⟩
    have hok : ∃ ls, rootLabels res.heap i = .ok ls := by
      have hrel := (mapM_ok_iff _ _ _).1 P.lab
      have hu : ∃ ls, updateReportElements .label res.heap net = .ok ls := by
        generalize P.labels = lss at hrel
        generalize res.networks = nets at hrel hnet
        induction hrel with
        | nil => cases hnet
        | cons h1 _ ih =>
          rcases List.mem_cons.1 hnet with rfl | hnet
          · exact ⟨_, h1⟩
          · exact ih hnet
      obtain ⟨ls, hu⟩ := hu
      unfold updateReportElements at hu
      rw [if_pos rfl] at hu
      cases hmm : net.roots.mapM (rootLabels res.heap) with
      | error e => rw [hmm] at hu; cases hu
      | ok lss' =>
        have hrel' := (mapM_ok_iff _ _ _).1 hmm
        clear hmm hu
        generalize net.roots = rs at hrel' hr
        induction hrel' with
        | nil => cases hr
        | cons h1 _ ih =>
          rcases List.mem_cons.1 hr with rfl | hr
          · exact ⟨_, h1⟩
          · exact ih hr
    obtain ⟨ls, hls⟩ := hok
    refine ⟨net, hnet, i, hr, ls, hls, ?_⟩
    obtain ⟨q', b', hq', hiff⟩ := rootLabels_ok hls
    rw [hn.2] at hq'
    have : n.target = .element q' b' := Option.some.inj hq'
    rw [hnt] at this
    cases this
    refine (hiff (q, l)).2 ⟨rfl, j, ?_, ?_⟩
    · unfold Heap.children
      rw [hn.2]
      exact hch
    · rw [hm.2]
      exact congrArg some hmt

/-- C65: a label that no arc leads to makes reading the whole link fail. -/
theorem C65_label_without_arc_fails (e : LinkEnd) (he : e ∈ ends) (i : Nat) (ht : e.target = some (.labelResource i))
    (hno : ∀ a ∈ arcs, a.to ≠ e.label) : ∀ res, parseLink .label so linkRole h arcs ends ≠ .ok res := by
  intro res hp
  obtain ⟨P⟩ := parseLink_ok hp
  have hr : ∃ r, r ∈ rolesAt arcs e.label := by
    unfold rolesAt
    split
    · exact ⟨_, List.mem_cons_self⟩
    · exact ⟨_, List.mem_cons_self⟩
  obtain ⟨r, hr⟩ := hr
  obtain ⟨j, n, hn, hnl, hnt, _⟩ := P.exists_node (l := e.label) (t := .labelResource i) (List.mem_filterMap.2 ⟨e, he, by rw [ht]; rfl⟩) r (fun _ => hr)
  obtain ⟨net, hnet, hroot⟩ := (C20_roots hp j).2 ⟨n, hn, fun a ha hto _ => hno a ha (hto.trans hnl)⟩
  have hrel := (mapM_ok_iff _ _ _).1 P.lab
  have hu : ∃ ls, updateReportElements .label res.heap net = .ok ls := by
    generalize P.labels = lss at hrel
    generalize res.networks = nets at hrel hnet
    induction hrel with
    | nil => cases hnet
    | cons h1 _ ih =>
      rcases List.mem_cons.1 hnet with rfl | hnet
      · exact ⟨_, h1⟩
      · exact ih hnet
  obtain ⟨ls, hu⟩ := hu
  unfold updateReportElements at hu
  rw [if_pos rfl] at hu
  cases hmm : net.roots.mapM (rootLabels res.heap) with
  | error e => rw [hmm] at hu; cases hu
  | ok lss' =>
    have hrel' := (mapM_ok_iff _ _ _).1 hmm
    clear hmm hu
    have hok : ∃ ls, rootLabels res.heap j = .ok ls := by
      generalize net.roots = rs at hrel' hroot
      induction hrel' with
      | nil => cases hroot
      | cons h1 _ ih =>
        rcases List.mem_cons.1 hroot with rfl | hroot
        · exact ⟨_, h1⟩
        · exact ih hroot
    obtain ⟨ls, hls⟩ := hok
    obtain ⟨q, b, hq, _⟩ := rootLabels_ok hls
    rw [hn.2] at hq
    have : n.target = .element q b := Option.some.inj hq
    rw [hnt] at this
    cases this

namespace LinkExample

/-- A label link with two labels for one element meets the hypotheses of C65. -/
def labelArcs : List Arc := [{ frm := "a", to := "la", role := "cl" }, { frm := "a", to := "lb", role := "cl" }]
def labelEnds : List LinkEnd := [⟨"a", some (.element ⟨"u", "p", "A"⟩ true)⟩, ⟨"la", some (.labelResource 7)⟩, ⟨"lb", some (.labelResource 8)⟩]

example : (parseLink .label .insertion "r" [] labelArcs labelEnds).map (·.labels) = .ok [(⟨"u", "p", "A"⟩, 7), (⟨"u", "p", "A"⟩, 8)] := by
  decide +kernel
example : ∀ a ∈ labelArcs, ∀ e ∈ labelEnds, e.label = a.to → ∀ q b, e.target ≠ some (.element q b) := by
  simp [labelArcs, labelEnds]

end LinkExample

end Brel
