import Verif.Lemmas.Footnotes
import Verif.Props.InlineContent
import Verif.Props.Repos

/-! C35, C36, C76–C79: footnotes and relationships of inline documents. -/

namespace Brel
open Spec

/-! ## C35: one network per pair of roles -/

theorem dict_eq_map {κ β : Type} [DecidableEq κ] (d : Dict κ (List β)) (nd : d.keys.Nodup) : d = d.keys.map (fun k => (k, (d.get? k).getD [])) := by
  induction d with
  | nil => rfl
  | cons x d ih =>
    obtain ⟨k, v⟩ := x
    have nd' := List.nodup_cons.1 (show (k :: Dict.keys d).Nodup from nd)
    show (k, v) :: d = (k, ((Dict.get? ((k, v) :: d) k).getD [])) :: (Dict.keys d).map (fun k' => (k', (Dict.get? ((k, v) :: d) k').getD []))
    rw [Dict.get?_cons, if_pos rfl]
    congr 1
    refine (ih nd'.2).trans (List.map_congr_left ?_)
    intro k' hk'
    rw [Dict.get?_cons, if_neg (by rintro rfl; exact nd'.1 hk')]

theorem groupRels_eq (arcs : List Rel) : groupRels arcs = (rolePairs arcs).map (fun k => (k, withRoles arcs k)) := by
  have e : groupRels arcs = arcs.foldl (NetStore.upsert (fun a : Rel => (a.linkRole, a.arcRole))) [] := rfl
  have hk : Dict.keys (groupRels arcs) = rolePairs arcs := by
    rw [e, NetStore.run_keys]; exact foldl_appendNew_nil _
  have nd : (Dict.keys (groupRels arcs)).Nodup := by rw [hk]; exact firstOccurrences_nodup _
  rw [dict_eq_map _ nd, hk]
  apply List.map_congr_left
  intro k _
  have := (C53_networks (fun a : Rel => (a.linkRole, a.arcRole)) (fun a => a.linkRole) arcs).2.1 k
  rw [← e] at this
  unfold NetStore.getByType at this
  rw [this]
  unfold withRoles
  congr 2
  funext a
  obtain ⟨k1, k2⟩ := k
  simp

theorem rel2_get {α β : Type} {R : α → β → Prop} {l : List α} {m : List β} (h : Rel2 R l m) : l.length = m.length ∧ ∀ (j : Nat) (a : α) (b : β), l[j]? = some a → m[j]? = some b → R a b := by
  induction h with
  | nil => simp
  | cons h1 _ ih =>
    refine ⟨by simp [ih.1], ?_⟩
    intro j a b ha hb
    cases j with
    | zero => simp at ha hb; subst ha; subst hb; exact h1
    | succ j => simp at ha hb; exact ih.2 j a b ha hb

/-- C35, the part that holds: there is one network per pair of link role and arc role, in order of first occurrence, and it is built from the relationships with these roles. -/
theorem C35_groups_partial {so : SetOrder} {footnotes : Dict String Footnote} {facts : FactStore} {rs : List Rel} {nets : List FootNetwork}
    (h : buildFootNetworks so footnotes facts rs = .ok nets) :
    (rolePairs rs).length = nets.length ∧ ∀ (j : Nat) (k : String × String) (net : FootNetwork), (rolePairs rs)[j]? = some k → nets[j]? = some net →
      ∃ l, buildFootNetwork so footnotes facts l (withRoles rs k) = .ok net := by
  unfold buildFootNetworks at h
  rw [groupRels_eq, List.mapM_map, mapM_ok_iff] at h
  obtain ⟨h1, h2⟩ := rel2_get h
  exact ⟨h1, fun j k net hk hn => ⟨_, h2 j k net hk hn⟩⟩

/-- C35 fails: the link role of every network is the arc role of its relationships. -/
theorem C35_arcrole {so : SetOrder} {footnotes : Dict String Footnote} {facts : FactStore} {rs : List Rel} {nets : List FootNetwork}
    (h : buildFootNetworks so footnotes facts rs = .ok nets) : nets.map (·.linkRole) = (rolePairs rs).map (·.2) := by
  unfold buildFootNetworks at h
  rw [groupRels_eq, List.mapM_map, mapM_ok_iff] at h
  generalize rolePairs rs = ks at h
  induction h with
  | nil => rfl
  | @cons k net _ _ h1 _ ih =>
    rw [List.map_cons, List.map_cons, ih]
    congr 1
    simp only [Function.comp_apply, buildFootNetwork, bind, Except.bind] at h1
    split at h1
    · cases h1
    · split at h1
      · cases h1
      · cases h1; rfl

/-- A footnote for the examples. -/
def sampleFootnote : Dict String Footnote := [("fn", ⟨chars! "<ix:footnote>Unaudited.</ix:footnote>", "fn", "en", defaultFootnoteRole, none⟩)]
/-- Two facts for the examples. -/
def sampleFacts : FactStore := FactStore.run [⟨some "f1", ⟨"c", [], []⟩, "5"⟩, ⟨some "f2", ⟨"c", [], []⟩, "7"⟩]

/-- C35 fails: a network of a relationship in the link role `http://x/notes` has another link role. -/
theorem C35_linkrole_false : ∃ net, buildFootNetworks .insertion sampleFootnote sampleFacts [⟨["f1", "f2"], ["fn"], defaultArcRole, "http://x/notes", 1⟩] = .ok [net] ∧
    net.linkRole ≠ "http://x/notes" := ⟨_, by rfl, by decide +kernel⟩

/-! ## C36: attributes of relationships -/

/-- C36 fails: without an order, or with an unreadable one, an exception is raised whatever the other attributes are. -/
theorem C36_order_false (validUri : String → Bool) (r : RelElem) (h : r.order = .absent ∨ r.order = .empty ∨ r.order = .invalid) :
    parseRelAttrs validUri r = .error .unboundLocalError := by
  unfold parseRelAttrs
  rcases h with h | h | h <;> simp [h]

/-- C36 fails for whole documents: one relationship without a readable order, and none of the networks is built. -/
theorem C36_document_false {validUri : String → Bool} {so : SetOrder} {footnotes : Dict String Footnote} {facts : FactStore} {rs : List RelElem} {r : RelElem} (hr : r ∈ rs)
    (h : r.order = .absent ∨ r.order = .empty ∨ r.order = .invalid) : ∃ e, parseRels validUri so footnotes facts rs = .error e := by
  cases hm : rs.mapM (parseRel validUri so footnotes facts) with
  | error e => exact ⟨e, by simp [parseRels, hm, bind, Except.bind]⟩
  | ok ps =>
    exfalso
    rw [mapM_ok_iff] at hm
    obtain ⟨h1, h2⟩ := rel2_get hm
    obtain ⟨j, hj, e⟩ := List.getElem_of_mem hr
    have := h2 j r (ps[j]'(h1 ▸ hj)) (by simp [List.getElem?_eq_getElem hj, e]) (by simp [h1 ▸ hj])
    unfold parseRel at this
    rw [C36_order_false validUri r h] at this
    cases this

theorem roleOr_none {validUri : String → Bool} {d e : String} {a : Option String} (h : a = none ∨ a = some "") : roleOr validUri d e a = (d, []) := by
  rcases h with rfl | rfl <;> simp [roleOr, truthy]

theorem roleOr_valid {validUri : String → Bool} {d e : String} {a : Option String} {x : String} (h : a = some x) (hne : x ≠ "") (hv : validUri x = true) : roleOr validUri d e a = (x, []) := by
  subst h; simp [roleOr, truthy, hne, hv]

theorem roleOr_invalid {validUri : String → Bool} {d e : String} {a : Option String} {x : String} (h : a = some x) (hne : x ≠ "") (hv : validUri x = false) : roleOr validUri d e a = (d, [e]) := by
  subst h; simp [roleOr, truthy, hne, hv]

theorem roleOr_err {validUri : String → Bool} {d e : String} {a : Option String} {y : String} (h : y ∈ (roleOr validUri d e a).2) : y = e := by
  unfold roleOr at h
  split at h
  · simp at h
  · split at h
    · simp at h
    · simpa using h

/-- C36, the part that holds: with a numeric order, missing and empty roles get their defaults, invalid ones are reported and get their defaults, and others are kept. Order 0 becomes 1. -/
theorem C36_defaults_partial (validUri : String → Bool) (r : RelElem) {q : Rat} (h : r.order = .num q) :
    ∃ arc link errs, parseRelAttrs validUri r = .ok ((arc, link, if q = 0 then 1 else q), errs) ∧
      ((r.arcRole = none ∨ r.arcRole = some "") → arc = defaultArcRole ∧ "IXBRL_RELATIONSHIP_INVALID_ARCROLE" ∉ errs) ∧
      (∀ x, r.arcRole = some x → x ≠ "" → (validUri x = true → arc = x ∧ "IXBRL_RELATIONSHIP_INVALID_ARCROLE" ∉ errs) ∧
        (validUri x = false → arc = defaultArcRole ∧ "IXBRL_RELATIONSHIP_INVALID_ARCROLE" ∈ errs)) ∧
      ((r.linkRole = none ∨ r.linkRole = some "") → link = defaultLinkRole ∧ "IXBRL_RELATIONSHIP_INVALID_LINKROLE" ∉ errs) ∧
      (∀ x, r.linkRole = some x → x ≠ "" → (validUri x = true → link = x ∧ "IXBRL_RELATIONSHIP_INVALID_LINKROLE" ∉ errs) ∧
        (validUri x = false → link = defaultLinkRole ∧ "IXBRL_RELATIONSHIP_INVALID_LINKROLE" ∈ errs)) := by
  refine ⟨(roleOr validUri defaultArcRole "IXBRL_RELATIONSHIP_INVALID_ARCROLE" r.arcRole).1, (roleOr validUri defaultLinkRole "IXBRL_RELATIONSHIP_INVALID_LINKROLE" r.linkRole).1, _,
    by unfold parseRelAttrs; rw [h], ?_, ?_, ?_, ?_⟩
  all_goals simp only [List.mem_append, not_or]
  · intro hn
    rw [roleOr_none hn]
    exact ⟨rfl, by simp, fun h => absurd (roleOr_err h) (by decide)⟩
  · intro x hx hne
    refine ⟨fun hv => ?_, fun hv => ?_⟩
    · rw [roleOr_valid hx hne hv]
      exact ⟨rfl, by simp, fun h => absurd (roleOr_err h) (by decide)⟩
    · rw [roleOr_invalid hx hne hv]
      exact ⟨rfl, by simp⟩
  · intro hn
    rw [roleOr_none hn]
    exact ⟨rfl, fun h => absurd (roleOr_err h) (by decide), by simp⟩
  · intro x hx hne
    refine ⟨fun hv => ?_, fun hv => ?_⟩
    · rw [roleOr_valid hx hne hv]
      exact ⟨rfl, fun h => absurd (roleOr_err h) (by decide), by simp⟩
    · rw [roleOr_invalid hx hne hv]
      exact ⟨rfl, by simp⟩

example : parseRelAttrs (fun u => u ≠ "%") { fromRefs := ["f1"], toRefs := ["fn"], linkRole := some "%", order := .num 2 } =
    .ok ((defaultArcRole, defaultLinkRole, 2), ["IXBRL_RELATIONSHIP_INVALID_LINKROLE"]) := by decide +kernel

/-! ## C76: what a network shows -/

theorem build_cases {so : SetOrder} {footnotes : Dict String Footnote} {facts : FactStore} {l : String} {rs : List Rel} {net : FootNetwork}
    (h : buildFootNetwork so footnotes facts l rs = .ok net) :
    ∃ m, (rs.flatMap (arcJobs footnotes facts (rootIds so rs))).foldlM addJob [] = .ok m ∧ (∀ i ∈ rootIds so rs, Dict.has m i = true) ∧
      (rs.flatMap relPairs).foldlM footAddChild m = .ok net.nodes ∧ net.roots = rootIds so rs ∧ net.linkRole = l := by
  simp only [buildFootNetwork, createFootNodes, bind, Except.bind] at h
  cases h1 : rs.foldlM (arcStep footnotes facts (rootIds so rs)) [] with
  | error e => rw [h1] at h; cases h
  | ok m =>
    rw [h1] at h
    simp only at h
    by_cases h2 : (rootIds so rs).all (fun i => Dict.has m i) = true
    · rw [if_pos h2] at h
      simp only at h
      cases h3 : connectFootNodes m rs with
      | error e => rw [h3] at h; cases h
      | ok m' =>
        rw [h3] at h
        cases h
        rw [arcs_jobs] at h1
        exact ⟨m, h1, fun i hi => List.all_eq_true.1 h2 i hi, h3, rfl, rfl⟩
    · rw [if_neg h2] at h; cases h

/-- C76, whenever a network is built: below each id are the ids its relationships lead to, and nothing else; the roots are the ids no relationship leads to; every node stands for the footnote or fact with its id; children are in ascending order. -/
theorem C76_structure {so : SetOrder} {footnotes : Dict String Footnote} {facts : FactStore} {l : String} {rs : List Rel} {net : FootNetwork}
    (h : buildFootNetwork so footnotes facts l rs = .ok net) (hnd : ∀ r ∈ rs, r.froms.Nodup) :
    (∀ i, (net.childrenOf i).Perm (leadsTo rs i)) ∧
    (net.roots.Nodup ∧ ∀ i, i ∈ net.roots ↔ mentioned rs i ∧ ¬ isEnd rs i) ∧
    (∀ i n, net.nodes.get? i = some n → mentioned rs i ∧ (n.target = .footnote i ∧ footnotes.has i = true ∨ n.target = .fact i ∧ facts.hasId i = true)) ∧
    (∀ i, (net.childrenOf i).Pairwise (fun a b => footOrderLe net.nodes a b = true)) := by
  obtain ⟨m, h1, _, h3, h4, _⟩ := build_cases h
  obtain ⟨g1, g2⟩ := jobs_ok _ _ _ h1
  obtain ⟨c1, c2, c3, c4⟩ := connect_ok _ _ _ h3
  have hget : ∀ i, m.get? i = firstNode (rs.flatMap (arcJobs footnotes facts (rootIds so rs))) i := by intro i; rw [g1]; simp
  have hnode : ∀ i n, m.get? i = some n → n.children = [] ∧ mentioned rs i ∧ (n.target = .footnote i ∧ footnotes.has i = true ∨ n.target = .fact i ∧ facts.hasId i = true) := by
    intro i n hn
    rw [hget] at hn
    obtain ⟨a, ha, hj | hj⟩ := mem_arcJobs.1 (firstNode_some hn)
    · obtain ⟨i', hi', e⟩ := hj
      simp only [fromJob, Prod.mk.injEq] at e
      obtain ⟨rfl, e⟩ := e
      split at e
      · cases hg : facts.getById i with
        | error _ => rw [hg] at e; cases e
        | ok f =>
          rw [hg] at e
          simp only [Except.map, Except.ok.injEq, Option.some.injEq] at e
          subst e
          refine ⟨rfl, ⟨a, ha, .inl hi'⟩, .inr ⟨rfl, ?_⟩⟩
          unfold FactStore.getById Dict.get at hg
          unfold FactStore.hasId
          rw [Dict.has_eq]
          cases hgg : facts.byId.get? i with
          | none => rw [hgg] at hg; cases hg
          | some _ => rfl
      · cases e
    · obtain ⟨i', hi', e⟩ := hj
      simp only [toJob, Prod.mk.injEq] at e
      obtain ⟨rfl, e⟩ := e
      unfold toTarget at e
      by_cases hf : footnotes.has i = true
      · rw [if_pos hf] at e
        simp only [Except.map, Option.map_some, Except.ok.injEq, Option.some.injEq] at e
        subst e
        exact ⟨rfl, ⟨a, ha, .inr hi'⟩, .inl ⟨rfl, hf⟩⟩
      · rw [if_neg hf] at e
        cases hg : facts.getById i with
        | error _ => rw [hg] at e; cases e
        | ok f =>
          rw [hg] at e
          simp only [bind, Except.bind] at e
          cases hb : f.toBool with
          | error _ => rw [hb] at e; cases e
          | ok b =>
            rw [hb] at e
            cases b with
            | false => cases e
            | true =>
              simp only [Except.map, if_true, Option.map_some, Except.ok.injEq, Option.some.injEq] at e
              subst e
              refine ⟨rfl, ⟨a, ha, .inr hi'⟩, .inr ⟨rfl, ?_⟩⟩
              unfold FactStore.getById Dict.get at hg
              unfold FactStore.hasId
              rw [Dict.has_eq]
              cases hgg : facts.byId.get? i with
              | none => rw [hgg] at hg; cases hg
              | some _ => rfl
  have hle := footOrderLe_congr c1
  have hch : ∀ i, (net.childrenOf i).Perm (leadsTo rs i) ∧ (net.childrenOf i).Pairwise (fun a b => footOrderLe m a b = true) := by
    intro i
    unfold FootNetwork.childrenOf
    rw [← pairs_filter hnd]
    cases hm : m.get? i with
    | none =>
      rw [c2 i hm]
      have : (rs.flatMap relPairs).filter (fun p => p.1 = i) = [] := by
        rw [List.filter_eq_nil_iff]
        intro p hp he
        have := (c4 p hp).1
        simp only [decide_eq_true_eq] at he
        rw [he, hm] at this
        cases this
      simp [this]
    | some n =>
      obtain ⟨cs, e1, e2, e3⟩ := c3 i n hm
      have hc := (hnode i n hm).1
      rw [hc] at e2 e3
      rw [e1]
      exact ⟨by simpa using e2, e3 List.Pairwise.nil⟩
  refine ⟨fun i => (hch i).1, ⟨h4 ▸ nodup_rootIds so rs, fun i => by rw [h4]; exact mem_rootIds⟩, ?_, fun i => by rw [hle]; exact (hch i).2⟩
  intro i n hn
  cases hm : m.get? i with
  | none => rw [c2 i hm] at hn; cases hn
  | some n' =>
    obtain ⟨cs, e1, -, -⟩ := c3 i n' hm
    rw [e1] at hn
    cases hn
    exact (hnode i n' hm).2

theorem getById_of_hasId {facts : FactStore} {i : String} (h : facts.hasId i = true) : ∃ f, facts.getById i = .ok f := by
  unfold FactStore.hasId at h
  rw [Dict.has_eq] at h
  obtain ⟨f, hf⟩ := Option.isSome_iff_exists.1 h
  exact ⟨f, by unfold FactStore.getById Dict.get; rw [hf]⟩

/-- C76, the part that holds: relationships from facts to footnotes give a network. -/
theorem C76_footnotes_partial (so : SetOrder) {footnotes : Dict String Footnote} {facts : FactStore} (l : String) {rs : List Rel}
    (hf : ∀ r ∈ rs, ∀ i ∈ r.froms, facts.hasId i = true) (ht : ∀ r ∈ rs, ∀ i ∈ r.tos, footnotes.has i = true) :
    ∃ net, buildFootNetwork so footnotes facts l rs = .ok net := by
  have hjobs : ∀ j ∈ rs.flatMap (arcJobs footnotes facts (rootIds so rs)), ∃ o, j.2 = .ok o := by
    intro j hj
    obtain ⟨a, ha, ⟨i, hi, rfl⟩ | ⟨i, hi, rfl⟩⟩ := mem_arcJobs.1 hj
    · unfold fromJob
      obtain ⟨f, hf'⟩ := getById_of_hasId (hf a ha i hi)
      by_cases hr : i ∈ rootIds so rs
      · simp only [hr, if_true, hf']; exact ⟨_, rfl⟩
      · simp only [hr, if_false]; exact ⟨_, rfl⟩
    · unfold toJob toTarget
      simp only [ht a ha i hi, if_true]
      exact ⟨_, rfl⟩
  obtain ⟨m, hm⟩ := jobs_succeed _ [] hjobs
  obtain ⟨g1, -⟩ := jobs_ok _ _ _ hm
  have hget : ∀ i, m.get? i = firstNode (rs.flatMap (arcJobs footnotes facts (rootIds so rs))) i := by intro i; rw [g1]; simp
  have hend : ∀ i, isEnd rs i → (m.get? i).isSome := by
    rintro i ⟨a, ha, hi⟩
    have : (i, Except.ok (some ⟨.footnote i, a.arcRole, a.linkRole, a.order, []⟩)) ∈ rs.flatMap (arcJobs footnotes facts (rootIds so rs)) := by
      refine mem_arcJobs.2 ⟨a, ha, .inr ⟨i, hi, ?_⟩⟩
      unfold toJob toTarget
      simp only [ht a ha i hi, if_true]
      rfl
    obtain ⟨n, hn⟩ := firstNode_of_mem this
    rw [hget, hn]; rfl
  have hfrom : ∀ i, (∃ r ∈ rs, i ∈ r.froms) → (m.get? i).isSome := by
    rintro i ⟨a, ha, hi⟩
    by_cases he : isEnd rs i
    · exact hend i he
    · obtain ⟨f, hf'⟩ := getById_of_hasId (hf a ha i hi)
      have : (i, Except.ok (some ⟨.fact i, a.arcRole, a.linkRole, 1, []⟩)) ∈ rs.flatMap (arcJobs footnotes facts (rootIds so rs)) := by
        refine mem_arcJobs.2 ⟨a, ha, .inl ⟨i, hi, ?_⟩⟩
        unfold fromJob
        simp only [mem_rootIds.2 ⟨⟨a, ha, .inl hi⟩, he⟩, if_true, hf']
        rfl
      obtain ⟨n, hn⟩ := firstNode_of_mem this
      rw [hget, hn]; rfl
  obtain ⟨m', hm'⟩ := connect_succeeds (rs.flatMap relPairs) m (by
    intro p hp
    obtain ⟨a, ha, hp⟩ := List.mem_flatMap.1 hp
    obtain ⟨p1, p2⟩ := mem_relPairs.1 hp
    exact ⟨hfrom _ ⟨a, ha, p1⟩, hend _ ⟨a, ha, p2⟩⟩)
  have hroots : (rootIds so rs).all (fun i => Dict.has m i) = true := by
    rw [List.all_eq_true]
    intro i hi
    rw [Dict.has_eq]
    obtain ⟨⟨a, ha, h | h⟩, he⟩ := mem_rootIds.1 hi
    · exact hfrom i ⟨a, ha, h⟩
    · exact absurd ⟨a, ha, h⟩ he
  refine ⟨⟨rootIds so rs, l, m'⟩, ?_⟩
  rw [← arcs_jobs] at hm
  simp only [buildFootNetwork, createFootNodes, bind, Except.bind, hm, hroots, if_true, connectFootNodes, hm']

/-- The hypotheses of the two theorems for two relationships that share a footnote, and the network they give. -/
example : ∃ net, buildFootNetwork .insertion sampleFootnote sampleFacts "role" [⟨["f1"], ["fn"], "a", "l", 1⟩, ⟨["f2"], ["fn"], "a", "l", 2⟩] = .ok net ∧
    net.roots = ["f1", "f2"] ∧ net.childrenOf "f1" = ["fn"] ∧ net.childrenOf "f2" = ["fn"] := ⟨_, by rfl, by decide +kernel, by decide +kernel, by decide +kernel⟩

/-- C76 fails: whenever a relationship leads to a fact whose value is not a truth value, no network is built. -/
theorem C76_fact_false {so : SetOrder} {footnotes : Dict String Footnote} {facts : FactStore} {l : String} {rs : List Rel} {i : String} {f : Fact}
    (hend : isEnd rs i) (hfn : footnotes.has i = false) (hf : facts.getById i = .ok f) (hv : f.toBool = .error .valueError) :
    ∃ e, buildFootNetwork so footnotes facts l rs = .error e := by
  cases h : buildFootNetwork so footnotes facts l rs with
  | error e => exact ⟨e, rfl⟩
  | ok net =>
    exfalso
    obtain ⟨m, h1, -, -, -, -⟩ := build_cases h
    obtain ⟨g1, g2⟩ := jobs_ok _ _ _ h1
    obtain ⟨a, ha, hi⟩ := hend
    have hbad : ∀ x o, toTarget footnotes facts x = .ok o → x ≠ i := by
      rintro x o hx rfl
      unfold toTarget at hx
      simp [hfn, hf, hv, bind, Except.bind] at hx
    have hnone : m.get? i = none := by
      rw [g1]
      simp only [Dict.get?_nil, Option.none_or]
      cases hn : firstNode (rs.flatMap (arcJobs footnotes facts (rootIds so rs))) i with
      | none => rfl
      | some n =>
        exfalso
        obtain ⟨b, hb, ⟨x, hx, e⟩ | ⟨x, hx, e⟩⟩ := mem_arcJobs.1 (firstNode_some hn)
        · simp only [fromJob, Prod.mk.injEq] at e
          obtain ⟨rfl, e⟩ := e
          have : i ∉ rootIds so rs := fun hr => (mem_rootIds.1 hr).2 ⟨a, ha, hi⟩
          rw [if_neg this] at e
          cases e
        · simp only [toJob, Prod.mk.injEq] at e
          obtain ⟨rfl, e⟩ := e
          cases ht : toTarget footnotes facts i with
          | error _ => rw [ht] at e; cases e
          | ok o => exact hbad i o ht rfl
    have := g2 (toJob footnotes facts a i) (mem_arcJobs.2 ⟨a, ha, .inr ⟨i, hi, rfl⟩⟩) hnone
    unfold toJob at this
    cases ht : toTarget footnotes facts i with
    | error _ => simp only [ht] at this; cases this
    | ok o => exact hbad i o ht rfl

example : buildFootNetwork .insertion [] sampleFacts "role" [⟨["f1"], ["f2"], "a", "l", 1⟩] = .error .valueError := by decide +kernel

/-! ## C77: relationships to unknown ids -/

/-- C77 fails: an id that is neither a fact nor a footnote is reported, but then no network is built and an exception is raised. -/
theorem C77_unknown_false {so : SetOrder} {footnotes : Dict String Footnote} {facts : FactStore} {l : String} {rs : List Rel} {i : String}
    (hend : isEnd rs i) (hfn : ¬ endKnown footnotes facts i) : ∃ e, buildFootNetwork so footnotes facts l rs = .error e := by
  unfold endKnown at hfn
  rw [not_or] at hfn
  obtain ⟨h1', h2'⟩ := hfn
  have hg : facts.getById i = .error .keyError := by
    unfold FactStore.hasId at h2'
    rw [Dict.has_eq] at h2'
    unfold FactStore.getById Dict.get
    cases hx : facts.byId.get? i with
    | none => rfl
    | some _ => rw [hx] at h2'; simp at h2'
  cases h : buildFootNetwork so footnotes facts l rs with
  | error e => exact ⟨e, rfl⟩
  | ok net =>
    exfalso
    obtain ⟨m, h1, -, -, -, -⟩ := build_cases h
    obtain ⟨g1, g2⟩ := jobs_ok _ _ _ h1
    obtain ⟨a, ha, hi⟩ := hend
    have hbad : ∀ o, toTarget footnotes facts i ≠ .ok o := by
      intro o hx
      unfold toTarget at hx
      rw [if_neg h1', hg] at hx
      cases hx
    have hnone : m.get? i = none := by
      rw [g1]
      simp only [Dict.get?_nil, Option.none_or]
      cases hn : firstNode (rs.flatMap (arcJobs footnotes facts (rootIds so rs))) i with
      | none => rfl
      | some n =>
        exfalso
        obtain ⟨b, hb, ⟨x, hx, e⟩ | ⟨x, hx, e⟩⟩ := mem_arcJobs.1 (firstNode_some hn)
        · simp only [fromJob, Prod.mk.injEq] at e
          obtain ⟨rfl, e⟩ := e
          have : i ∉ rootIds so rs := fun hr => (mem_rootIds.1 hr).2 ⟨a, ha, hi⟩
          rw [if_neg this] at e
          cases e
        · simp only [toJob, Prod.mk.injEq] at e
          obtain ⟨rfl, e⟩ := e
          cases ht : toTarget footnotes facts i with
          | error _ => rw [ht] at e; cases e
          | ok o => exact hbad o ht
    have := g2 (toJob footnotes facts a i) (mem_arcJobs.2 ⟨a, ha, .inr ⟨i, hi, rfl⟩⟩) hnone
    unfold toJob at this
    cases ht : toTarget footnotes facts i with
    | error _ => simp only [ht] at this; cases this
    | ok o => exact hbad o ht

/-- C77: the errors of a relationship are exact: each of them is reported exactly when its condition holds. -/
theorem C77_reported (footnotes : Dict String Footnote) (facts : FactStore) (froms tos : List String) :
    ("IXBRL_RELATIONSHIP_REPEATED_ID" ∈ validateRefs footnotes facts froms tos ↔ ∃ i ∈ froms, i ∈ tos) ∧
    ("IXBRL_RELATIONSHIP_INVALID_FACT_ID_IN_FROMREFS" ∈ validateRefs footnotes facts froms tos ↔ ∃ i ∈ froms, facts.hasId i = false) ∧
    ("IXBRL_RELATIONSHIP_INVALID_FACT_OR_FOOTNOTE_ID_IN_TOREFS" ∈ validateRefs footnotes facts froms tos ↔ ∃ i ∈ tos, ¬ endKnown footnotes facts i) ∧
    ("IXBRL_RELATIONSHIP_MIXED_FACT_AND_FOOTNOTES_IN_TOREFS" ∈ validateRefs footnotes facts froms tos ↔ (∃ i ∈ tos, footnotes.has i = true) ∧ ∃ i ∈ tos, footnotes.has i = false) := by
  have hopt : ∀ i, (facts.getByIdOptional i).isNone = !facts.hasId i := by
    intro i
    unfold FactStore.getByIdOptional FactStore.getById Dict.get FactStore.hasId
    rw [Dict.has_eq]
    cases facts.byId.get? i <;> rfl
  have mem_if : ∀ (c : Bool) (e x : String), x ∈ (if c = true then [e] else []) ↔ c = true ∧ x = e := by
    intro c e x; cases c <;> simp
  unfold validateRefs
  simp only [hopt, endKnown, List.mem_append, mem_if]
  refine ⟨?_, ?_, ?_, ?_⟩ <;> simp [and_comm]

/-! ## C78: footnotes -/

/-- C78, the part that holds: a footnote with an id is kept with its id, its title, the language that applies to it (English if there is none, with an error) and its role (the default one if missing or, with an error, invalid). -/
theorem C78_data (validUri : String → Bool) (f : FootnoteElem) (chain : List Elem) (taken : List String) {i : String} (hi : f.id = some i) (hne : i ≠ "") :
    ∃ n errs, parseFootnote validUri f chain taken = .ok (some n, errs, appendNew taken i) ∧ n.id = i ∧ n.title = f.title ∧
      ("IXBRL_DUPLICATE_ELEMENT_ID" ∈ errs ↔ i ∈ taken) ∧
      (∀ l, elemLang f.langs = some l → l ≠ "" → n.lang = l ∧ "IXBRL_FOOTNOTE_WITHOUT_LANGUAGE" ∉ errs) ∧
      (elemLang f.langs = none → n.lang = "en" ∧ "IXBRL_FOOTNOTE_WITHOUT_LANGUAGE" ∈ errs) ∧
      (f.role = none → n.role = defaultFootnoteRole ∧ "IXBRL_INVALID_FOOTNOTE_ROLE" ∉ errs) ∧
      (∀ r, f.role = some r → if validUri r then n.role = r ∧ "IXBRL_INVALID_FOOTNOTE_ROLE" ∉ errs else n.role = defaultFootnoteRole ∧ "IXBRL_INVALID_FOOTNOTE_ROLE" ∈ errs) := by
  obtain ⟨content, hc⟩ := relevantContent_ok f.elem chain
  have ht : truthy f.id = some i := by simp [hi, truthy, hne]
  unfold parseFootnote
  simp only [ht, hc, bind, Except.bind]
  refine ⟨_, _, rfl, rfl, rfl, ?_, ?_, ?_, ?_, ?_⟩
  · cases f.role with
    | none => cases truthy (elemLang f.langs) <;> by_cases h : i ∈ taken <;> simp [h]
    | some r => cases truthy (elemLang f.langs) <;> by_cases h : i ∈ taken <;> cases hv : validUri r <;> simp [h, hv]
  · intro l hl hne
    have : truthy (some l) = some l := by simp [truthy, hne]
    cases f.role with
    | none => by_cases h : i ∈ taken <;> simp [hl, this, h]
    | some r => by_cases h : i ∈ taken <;> cases hv : validUri r <;> simp [hl, this, h, hv]
  · intro hl
    simp [hl, truthy]
  · intro hr
    cases truthy (elemLang f.langs) <;> by_cases h : i ∈ taken <;> simp [h, hr]
  · intro r hr
    cases truthy (elemLang f.langs) <;> by_cases h : i ∈ taken <;> cases hv : validUri r <;> simp [h, hr, hv]

/-- C78: an element without an id gives no footnote and is reported. -/
theorem C78_no_id (validUri : String → Bool) (f : FootnoteElem) (chain : List Elem) (taken : List String) (hi : f.id = none ∨ f.id = some "") :
    parseFootnote validUri f chain taken = .ok (none, ["IXBRL_FOOTNOTE_WITHOUT_ID"], taken) := by
  unfold parseFootnote
  rcases hi with hi | hi <;> simp [hi, truthy]

/-- C78 fails: the content of a footnote contains the footnote element itself and the text that follows it in the document. -/
theorem C78_content_false : ∃ (f : FootnoteElem) (n : Footnote), parseFootnote (fun _ => true) f [] [] = .ok (some n, [], ["fn"]) ∧
    visibleText f.elem = chars! "Unaudited." ∧ n.content = chars! "<ix:footnote id=\"fn\">Unaudited.</ix:footnote> Page 4" :=
  ⟨⟨.mk "ix:footnote" [("id", "fn")] (some (chars! "Unaudited.")) (some (chars! " Page 4")) [], some "fn", none, [none, some "en"], none⟩, _, by rfl, by decide +kernel, by decide +kernel⟩

/-! ## C79: the order of footnotes -/

/-- C79 fails: the order of a footnote below a fact is that of the first relationship that mentions the footnote, which may be one of another fact. -/
theorem C79_order_false : let fns : Dict String Footnote := sampleFootnote ++ [("gn", ⟨[], "gn", "en", defaultFootnoteRole, none⟩)]
    ∃ net, buildFootNetwork .insertion fns sampleFacts "role" [⟨["f1"], ["fn"], "a", "l", 3⟩, ⟨["f2"], ["fn"], "a", "l", 1⟩, ⟨["f2"], ["gn"], "a", "l", 2⟩] = .ok net ∧
      net.childrenOf "f2" = ["gn", "fn"] := ⟨_, by rfl, by decide +kernel⟩

end Brel
