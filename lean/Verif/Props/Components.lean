import Verif.Spec.Components
import Verif.Props.Networks

/-! C42: the components of a filing. -/

namespace Brel

/-- The networks of a role and a class in a repository. -/
theorem getByLinkrole_kind (hs : List Network) (r : String) (k : NodeKind) :
    (NetStore.getByLinkrole (·.linkRole) (hs.foldl (NetStore.upsert (·.kind)) ([] : NetStore NodeKind Network)) r).filter (fun n => n.kind = k) = ofRole hs r k := by
  generalize hst : hs.foldl (NetStore.upsert (·.kind)) ([] : NetStore NodeKind Network) = st
  have hk : Dict.keys st = firstOccurrences (hs.map (·.kind)) := by
    rw [← hst, NetStore.run_keys]; exact foldl_appendNew_nil _
  have nd : (Dict.keys st).Nodup := by rw [hk]; exact firstOccurrences_nodup _
  have ht : ∀ t, NetStore.getByType st t = hs.filter (fun n => n.kind = t) := by rw [← hst]; exact (C53_networks (fun n : Network => n.kind) (·.linkRole) hs).2.1
  have hent : ∀ t l, (t, l) ∈ st → l = hs.filter (fun n => n.kind = t) := by
    intro t l hm
    rw [← ht t, NetStore.getByType, Dict.get?_of_mem _ nd hm]
    rfl
  have key : ∀ (l : List (NodeKind × List Network)), (∀ e ∈ l, e.2 = hs.filter (fun n => n.kind = e.1)) → (l.map (·.1)).Nodup →
      (l.flatMap (fun e => e.2.filter (fun n => n.linkRole = r))).filter (fun n => n.kind = k) = if k ∈ l.map (·.1) then ofRole hs r k else [] := by
    intro l
    induction l with
    | nil => intros; rfl
    | cons e l ih =>
      intro h1 h2
      rw [List.map_cons, List.nodup_cons] at h2
      rw [List.flatMap_cons, List.filter_append, ih (fun e' he' => h1 e' (List.mem_cons_of_mem _ he')) h2.2, h1 e List.mem_cons_self, List.filter_filter, List.filter_filter]
      by_cases hek : e.1 = k
      · rw [if_neg (by rw [← hek]; exact h2.1), List.append_nil, if_pos (by simp [hek])]
        unfold ofRole
        apply List.filter_congr
        intro n _
        rw [hek]
        cases decide (n.kind = k) <;> cases decide (n.linkRole = r) <;> rfl
      · have : (hs.filter (fun n => decide (n.kind = k) && decide (n.linkRole = r) && decide (n.kind = e.1))) = [] := by
          rw [List.filter_eq_nil_iff]
          intro n _ hn
          simp only [Bool.and_eq_true, decide_eq_true_iff] at hn
          exact hek (hn.2.symm.trans hn.1.1)
        rw [this, List.nil_append, List.map_cons]
        have hm : (k ∈ e.1 :: l.map (·.1)) ↔ k ∈ l.map (·.1) := by
          rw [List.mem_cons]
          exact ⟨fun hh => hh.elim (fun x => absurd x.symm hek) id, Or.inr⟩
        by_cases hkl : k ∈ l.map (·.1)
        · rw [if_pos hkl, if_pos (hm.2 hkl)]
        · rw [if_neg hkl, if_neg (fun x => hkl (hm.1 x))]
  have := key st (fun e he => hent e.1 e.2 he) nd
  unfold NetStore.getByLinkrole
  rw [this]
  by_cases hks : k ∈ st.map (·.1)
  · rw [if_pos hks]
  · rw [if_neg hks]
    symm
    unfold ofRole
    rw [List.filter_eq_nil_iff]
    intro n hn hnk
    simp only [Bool.and_eq_true, decide_eq_true_iff] at hnk
    apply hks
    show k ∈ Dict.keys st
    rw [hk]
    exact (mem_firstOccurrences _ _).2 (List.mem_map.2 ⟨n, hn, hnk.2⟩)

theorem any_kind (l : List Network) (k : NodeKind) : l.any (fun n => n.kind = k) = decide (l.filter (fun n => n.kind = k) ≠ []) := by
  rw [Bool.eq_iff_iff]
  simp [List.filter_eq_nil_iff]

theorem contains_text (l : List XNode) (s : String) : (l.map (·.text)).contains (some s) = decide (s ∈ l.filterMap (·.text)) := by
  rw [Bool.eq_iff_iff]
  simp

theorem filter_three {α β : Type} (p : α → Bool) (f : α → β) (a b c : α) :
    ([a, b, c].filter p).map f = (if p a = true then [f a] else []) ++ (if p b = true then [f b] else []) ++ (if p c = true then [f c] else []) := by
  simp only [List.filter_cons, List.filter_nil]
  cases p a <;> cases p b <;> cases p c <;> rfl

theorem congrArg₂' {α : Type} {a b c d : List α} (h : a = b) (h' : c = d) : a ++ c = b ++ d := by rw [h, h']

theorem if_flip {α : Type} (a b : Prop) [Decidable a] [Decidable b] (l : List α) :
    (if ((!decide a) && decide b) = true then l else []) = if (decide b && decide (¬ a)) = true then l else [] := by
  by_cases a <;> by_cases b <;> simp_all

/-- C42: the component of a declared role takes the first network of each class of its role, and exactly the undeclared links and the superfluous networks are reported. -/
theorem C42_component (stored : List Network) (uid : Nat) (x : XNode) (r : String) (hx : x.plainRole r) :
    ∃ c, parseComponent (stored.foldl (NetStore.upsert (·.kind)) []) uid x = .ok (c, roleReports stored x r) ∧ c.uid = uid ∧ IsComponentOf stored x r c := by
  obtain ⟨h1, h2⟩ := hx
  have hp : candidates stored r .presentation = ofRole stored r .presentation := by
    unfold candidates
    rw [List.filter_eq_self]
    intro n hn
    have := (List.mem_filter.1 hn).2
    simp only [Bool.and_eq_true, decide_eq_true_iff] at this
    simp [this.2]
  have hc : candidates stored r .calculation = ofRole stored r .calculation := by
    unfold candidates
    rw [List.filter_eq_self]
    intro n hn
    have := (List.mem_filter.1 hn).2
    simp only [Bool.and_eq_true, decide_eq_true_iff] at this
    simp [this.2]
  have hd : candidates stored r .definition =
      (NetStore.getByLinkrole (·.linkRole) (stored.foldl (NetStore.upsert (·.kind)) ([] : NetStore NodeKind Network)) r).filter (fun n => decide (n.kind = .definition) && !n.physical) := by
    unfold candidates
    rw [← getByLinkrole_kind, List.filter_filter]
    apply List.filter_congr
    intro n _
    cases decide (n.kind = .definition) <;> cases n.physical <;> rfl
  have hpre : "{" ++ "http://www.xbrl.org/2003/linkbase" ++ "}" = "{http://www.xbrl.org/2003/linkbase}" := by decide +kernel
  unfold parseComponent
  rw [show x.attr "roleURI" = .ok r by unfold XNode.attr; unfold XNode.attr? at h1; rw [h1]]
  simp only [bind, Except.bind, findLinkElement, findLinkElements, h2, hpre, pure, Except.pure, any_kind, contains_text, getByLinkrole_kind, ← hd]
  rw [← hp, ← hc]
  refine ⟨⟨uid, r, (((linkChildren x "definition").head?.bind (·.text)).getD ""), _, _, _⟩, ?_, rfl, rfl, rfl, rfl, rfl, rfl⟩
  refine congrArg Except.ok (Prod.ext ?_ ?_)
  · unfold linkChildren
    rw [List.head?_filter]
    dsimp only
    cases x.children.find? (fun c => decide (c.tag = some ("{http://www.xbrl.org/2003/linkbase}" ++ "definition"))) <;> rfl
  · unfold roleReports componentClasses
    rw [filter_three, filter_three]
    simp only [List.append_assoc]
    rw [hp, hc]
    refine congrArg₂' ?_ (congrArg₂' ?_ (congrArg₂' ?_ (congrArg₂' ?_ (congrArg₂' ?_ ?_))))
    · exact if_flip _ _ _
    · exact if_flip _ _ _
    · exact if_flip _ _ _
    · simp
    · simp
    · simp

/-- C42: a role without `roleURI` raises `ValueError`, one in whose scope the prefix `link` is not bound raises `SyntaxError`; nothing else goes wrong. -/
theorem C42_refused (nets : NetStore NodeKind Network) (uid : Nat) (x : XNode) :
    (parseComponent nets uid x = .error .valueError ↔ x.attr? "roleURI" = none) ∧
    (parseComponent nets uid x = .error .syntaxError ↔ x.attr? "roleURI" ≠ none ∧ x.ns.get? (some "link") = none) ∧
    ((∃ res, parseComponent nets uid x = .ok res) ↔ x.attr? "roleURI" ≠ none ∧ x.ns.get? (some "link") ≠ none) := by
  unfold parseComponent XNode.attr findLinkElement
  change (_ ↔ x.attrs.get? "roleURI" = none) ∧ (_ ↔ x.attrs.get? "roleURI" ≠ none ∧ _) ∧ (_ ↔ x.attrs.get? "roleURI" ≠ none ∧ _)
  cases x.attrs.get? "roleURI" <;> cases x.ns.get? (some "link") <;> simp [bind, Except.bind, pure, Except.pure]

theorem componentUpsert_new {ν : Type} (l : List (ComponentOf ν)) (c : ComponentOf ν) (h : ∀ d ∈ l, d.uid < c.uid) : componentUpsert l c = l ++ [c] := by
  unfold componentUpsert
  rw [if_neg]
  simp only [List.any_eq_true, decide_eq_true_iff, not_exists, not_and]
  intro d hd
  exact Nat.ne_of_lt (h d hd)

/-- C42: there is one component for each role declaration of all documents, in order. -/
theorem C42_all (stored : List Network) (roots : List XNode) (hp : ∀ x ∈ roots.flatMap declaredRoles, ∃ r, x.plainRole r) :
    ∃ cs, parseComponents (stored.foldl (NetStore.upsert (·.kind)) []) roots =
        .ok (cs, (roots.flatMap declaredRoles).flatMap (fun x => roleReports stored x ((x.attr? "roleURI").getD ""))) ∧
      Rel2 (fun x c => IsComponentOf stored x ((x.attr? "roleURI").getD "") c) (roots.flatMap declaredRoles) cs := by
  unfold parseComponents
  have hroles : roleTypes = declaredRoles := by funext root; rfl
  rw [hroles]
  generalize roots.flatMap declaredRoles = xs at hp
  have main : ∀ (xs : List XNode) (cs0 : List (ComponentOf Network)) (es : List ComponentReport), (∀ x ∈ xs, ∃ r, x.plainRole r) → (∀ d ∈ cs0, d.uid < cs0.length) →
      ∃ cs, xs.foldlM (componentStep (stored.foldl (NetStore.upsert (·.kind)) [])) (cs0, es) =
          .ok (cs0 ++ cs, es ++ xs.flatMap (fun x => roleReports stored x ((x.attr? "roleURI").getD ""))) ∧
        Rel2 (fun x c => IsComponentOf stored x ((x.attr? "roleURI").getD "") c) xs cs := by
    intro xs
    induction xs with
    | nil => intro cs0 es _ _; exact ⟨[], by simp [pure, Except.pure], .nil⟩
    | cons x xs ih =>
      intro cs0 es hx hu
      obtain ⟨r, hr⟩ := hx x List.mem_cons_self
      obtain ⟨c, h1, h2, h3⟩ := C42_component stored cs0.length x r hr
      obtain ⟨cs, h4, h5⟩ := ih (cs0 ++ [c]) (es ++ roleReports stored x r) (fun y hy => hx y (List.mem_cons_of_mem _ hy)) (by
        intro d hd
        rw [List.length_append]
        rcases List.mem_append.1 hd with hd | hd
        · exact Nat.lt_succ_of_lt (hu d hd)
        · rw [List.mem_singleton.1 hd, h2]; exact Nat.lt_succ_self _)
      have hg : (x.attr? "roleURI").getD "" = r := by rw [hr.1]; rfl
      refine ⟨c :: cs, ?_, .cons (by rw [hg]; exact h3) h5⟩
      rw [List.foldlM_cons]
      have hstep : componentStep (stored.foldl (NetStore.upsert (·.kind)) []) (cs0, es) x = .ok (cs0 ++ [c], es ++ roleReports stored x r) := by
        unfold componentStep
        dsimp only
        rw [h1]
        show Except.ok (componentUpsert cs0 c, es ++ roleReports stored x r) = _
        rw [componentUpsert_new _ _ (fun d hd => by rw [h2]; exact hu d hd)]
      rw [hstep]
      show xs.foldlM _ (cs0 ++ [c], es ++ roleReports stored x r) = _
      rw [h4, List.flatMap_cons, hg]
      simp
  obtain ⟨cs, h1, h2⟩ := main xs [] [] hp (by simp)
  exact ⟨cs, by simpa using h1, h2⟩

/-! ## The components of a filing -/

theorem LinkRun.logical {so : SetOrder} {h h' : Heap} {ls : List LinkXml} {ns : List Network} {lbs : List (QName × Nat)} (hr : LinkRun so h ls h' ns lbs) :
    ∀ n ∈ ns, n.kind = .presentation ∨ n.kind = .calculation → n.physical = false := by
  have hmk : ∀ k so r h roots, ∀ n ∈ makeNetworks k so r h roots, n.kind = k.nodeKind ∧ n.physical = k.physical := by
    intro k so r h roots n hn
    unfold makeNetworks at hn
    split at hn
    · cases hn
    · split at hn
      · rename_i hk
        obtain ⟨_, _, rfl⟩ := List.mem_map.1 hn
        exact ⟨rfl, hk.symm⟩
      · rename_i hk
        rw [List.mem_singleton.1 hn]
        exact ⟨rfl, by simpa using (Bool.eq_false_iff.2 hk).symm⟩
  have hone : ∀ k so r h arcs ends res, parseLink k so r h arcs ends = .ok res → ∀ n ∈ res.networks, n.kind = .presentation ∨ n.kind = .calculation → n.physical = false := by
    intro k so r h arcs ends res hres n hn hk
    have : ∃ h2 roots, res.networks = makeNetworks k so r h2 roots := by
      obtain ⟨P⟩ := parseLink_ok hres
      exact ⟨_, _, P.nets⟩
    obtain ⟨h2, roots, e⟩ := this
    rw [e] at hn
    obtain ⟨e1, e2⟩ := hmk k so r h2 roots n hn
    rw [e1] at hk
    rw [e2]
    cases k <;> first | rfl | (rcases hk with hk | hk <;> cases hk)
  have hall : ∀ tag so r h arcs ends x, parseXmlLink tag so r h arcs ends = .ok x → ∀ n ∈ x.2.1, n.kind = .presentation ∨ n.kind = .calculation → n.physical = false := by
    intro tag so r h arcs ends x
    unfold parseXmlLink
    have : ∀ (ks : List LinkKind) (s x : Heap × List Network × List (QName × Nat)),
        (∀ n ∈ s.2.1, n.kind = .presentation ∨ n.kind = .calculation → n.physical = false) →
        ks.foldlM (fun s k => do
          let r ← parseLink k so r s.1 arcs ends
          return (r.heap, s.2.1 ++ r.networks, s.2.2 ++ r.labels)) s = (.ok x : Except PyErr _) →
        ∀ n ∈ x.2.1, n.kind = .presentation ∨ n.kind = .calculation → n.physical = false := by
      intro ks
      induction ks with
      | nil => intro s x hs hx; cases hx; exact hs
      | cons k ks ih =>
        intro s x hs hx
        rw [List.foldlM_cons] at hx
        cases hres : parseLink k so r s.1 arcs ends with
        | error e => rw [hres] at hx; cases hx
        | ok res =>
          rw [hres] at hx
          refine ih _ x ?_ hx
          intro n hn
          rcases List.mem_append.1 hn with hn | hn
          · exact hs n hn
          · exact hone _ _ _ _ _ _ _ hres n hn
    exact this _ _ _ (by simp)
  induction hr with
  | nil => intro n hn; cases hn
  | skip _ _ ih => exact ih
  | link _ hx _ ih =>
    intro n hn
    rcases List.mem_append.1 hn with hn | hn
    · exact hall _ _ _ _ _ _ _ hx n hn
    · exact ih n hn

theorem parseNetworks_store {so : SetOrder} {steps : Nat} {links : List LinkXml} {s : Networks} (h : parseNetworks so steps links = some (.ok s)) :
    ∃ stored : List Network, s.store = stored.foldl (NetStore.upsert (·.kind)) [] := by
  unfold parseNetworks at h
  cases hs : sortLinks links with
  | error e => rw [hs] at h; cases h
  | ok sorted =>
    rw [hs] at h
    dsimp only at h
    cases hp : sorted.foldlM (LinkPass.step so) {} with
    | error e => rw [hp] at h; cases h
    | ok p =>
      rw [hp] at h
      dsimp only at h
      cases hc : combineRoles so steps p.heap p.byRole with
      | none => rw [hc] at h; cases h
      | some y =>
        rw [hc] at h
        cases y with
        | error e => cases h
        | ok y => cases h; exact ⟨y.2, rfl⟩

/-- The networks of a filing by role and class: those that can belong to a component are the combined ones, and there are some of a role and a class exactly if a link yields one. -/
theorem filing_store {so : SetOrder} {steps : Nat} {links : List LinkXml} {s : Networks} (h : parseNetworks so steps links = some (.ok s)) :
    ∃ h1 parsed stored, s.store = stored.foldl (NetStore.upsert (·.kind)) [] ∧ LinkRun so [] (inOrder links) h1 parsed s.labels ∧
      (∀ r k, (parsed.filter (Network.logicalOf r k) = [] ∧ (s.store.getByType k).filter (Network.logicalOf r k) = []) ∨
        ∃ net, (s.store.getByType k).filter (Network.logicalOf r k) = [net] ∧ parsed.filter (Network.logicalOf r k) ≠ [] ∧
          Unites h1 (parsed.filter (Network.logicalOf r k)) s.heap net) ∧
      (∀ r, ∀ k ∈ [NodeKind.presentation, .calculation, .definition], candidates stored r k = (s.store.getByType k).filter (Network.logicalOf r k)) ∧
      ∀ r k, ofRole stored r k ≠ [] ↔ ∃ n ∈ parsed, n.linkRole = r ∧ n.kind = k := by
  obtain ⟨stored, hst⟩ := parseNetworks_store h
  obtain ⟨h1, parsed, g1, g2, g3, _⟩ := C84_networks h
  suffices hr : ∀ r, (∀ k ∈ [NodeKind.presentation, .calculation, .definition], candidates stored r k = (s.store.getByType k).filter (Network.logicalOf r k)) ∧
      ∀ k, ofRole stored r k ≠ [] ↔ ∃ n ∈ parsed, n.linkRole = r ∧ n.kind = k from
    ⟨h1, parsed, stored, hst, g1, g2, fun r => (hr r).1, fun r => (hr r).2⟩
  intro r
  have htype : ∀ k, NetStore.getByType s.store k = stored.filter (fun n => n.kind = k) := by
    rw [hst]; exact (C53_networks (fun n : Network => n.kind) (·.linkRole) stored).2.1
  have hsplit : ∀ k, ofRole stored r k = [] ↔ (s.store.getByType k).filter (Network.logicalOf r k) = [] ∧ (s.store.getByType k).filter (Network.physicalOf r k) = [] := by
    intro k
    rw [htype]
    unfold ofRole
    simp only [List.filter_eq_nil_iff, List.mem_filter, Network.logicalOf, Network.physicalOf, Bool.and_eq_true, decide_eq_true_iff, Bool.not_eq_true', not_and]
    constructor
    · intro hh
      exact ⟨fun n hn hr => absurd hr.2 (hh n hn.1 hr.1), fun n hn hr => absurd hr.2 (hh n hn.1 hr.1)⟩
    · rintro ⟨ha, hb⟩ n hn hr hk
      have h1 := ha n ⟨hn, hk⟩ ⟨hr, hk⟩
      have h2 := hb n ⟨hn, hk⟩ ⟨hr, hk⟩
      cases n.physical <;> simp_all
  have hcand : ∀ k ∈ [NodeKind.presentation, .calculation, .definition], candidates stored r k = (s.store.getByType k).filter (Network.logicalOf r k) := by
    intro k hk
    have hlog : k ≠ .definition → ∀ n ∈ stored, n.linkRole = r → n.kind = k → n.physical = false := by
      intro hne n hn hr' hk'
      have hpar : parsed.filter (Network.physicalOf r k) = [] := by
        rw [List.filter_eq_nil_iff]
        intro m hm hp
        simp only [Network.physicalOf, Bool.and_eq_true, decide_eq_true_iff] at hp
        have := g1.logical m hm (by
          rw [hp.1.2]
          simp only [List.mem_cons, List.not_mem_nil, or_false] at hk
          rcases hk with rfl | rfl | rfl
          · exact Or.inl rfl
          · exact Or.inr rfl
          · exact absurd rfl hne)
        rw [this] at hp
        exact absurd hp.2 (by simp)
      have := g3 r k
      rw [hpar, List.filter_eq_nil_iff] at this
      have := this n (by rw [htype]; exact List.mem_filter.2 ⟨hn, by simpa using hk'⟩)
      cases hph : n.physical with
      | false => rfl
      | true => simp [Network.physicalOf, hr', hk', hph] at this
    rw [htype]
    unfold candidates ofRole
    rw [List.filter_filter, List.filter_filter]
    apply List.filter_congr
    intro n hn
    rw [Bool.eq_iff_iff]
    simp only [Network.logicalOf, Bool.and_eq_true, decide_eq_true_iff, Bool.not_eq_true', Bool.and_eq_false_iff, decide_eq_false_iff_not]
    constructor
    · rintro ⟨h1, h2, h3⟩
      refine ⟨⟨⟨h2, h3⟩, ?_⟩, h3⟩
      by_cases hd : k = .definition
      · rcases h1 with h1 | h1
        · exact absurd (h3.trans hd) h1
        · exact h1
      · exact hlog hd n hn h2 h3
    · rintro ⟨⟨⟨h1, h2⟩, h3⟩, _⟩
      exact ⟨Or.inr h3, h1, h2⟩
  have hex : ∀ k, ofRole stored r k ≠ [] ↔ ∃ n ∈ parsed, n.linkRole = r ∧ n.kind = k := by
    intro k
    rw [Ne, hsplit k, g3 r k]
    constructor
    · intro hh
      have : parsed.filter (Network.logicalOf r k) ≠ [] ∨ parsed.filter (Network.physicalOf r k) ≠ [] := by
        by_cases hp : parsed.filter (Network.physicalOf r k) = []
        · left
          intro hl
          rcases g2 r k with ⟨_, hb⟩ | ⟨net, _, hb, _⟩
          · exact hh ⟨hb, hp⟩
          · exact hb hl
        · exact Or.inr hp
      rcases this with hh | hh
      · obtain ⟨n, hn⟩ := List.exists_mem_of_ne_nil _ hh
        obtain ⟨hn, hq⟩ := List.mem_filter.1 hn
        simp only [Network.logicalOf, Bool.and_eq_true, decide_eq_true_iff] at hq
        exact ⟨n, hn, hq.1.1, hq.1.2⟩
      · obtain ⟨n, hn⟩ := List.exists_mem_of_ne_nil _ hh
        obtain ⟨hn, hq⟩ := List.mem_filter.1 hn
        simp only [Network.physicalOf, Bool.and_eq_true, decide_eq_true_iff] at hq
        exact ⟨n, hn, hq.1.1, hq.1.2⟩
    · rintro ⟨n, hn, hr', hk⟩ ⟨hl, hp⟩
      cases hph : n.physical with
      | true =>
        rw [List.filter_eq_nil_iff] at hp
        exact hp n hn (by simp [Network.physicalOf, hr', hk, hph])
      | false =>
        rcases g2 r k with ⟨ha, _⟩ | ⟨net, hb, _⟩
        · rw [List.filter_eq_nil_iff] at ha
          exact ha n hn (by simp [Network.logicalOf, hr', hk, hph])
        · rw [hl] at hb; cases hb
  exact ⟨hcand, hex⟩

/-- C42, for the networks of a filing: a component has a network of a class if and only if some link of its role yields one; this network unites what the links yield, and no component has
a second one. -/
theorem C42_filing {so : SetOrder} {steps : Nat} {links : List LinkXml} {s : Networks} (h : parseNetworks so steps links = some (.ok s)) (uid : Nat) (x : XNode) (r : String) (hx : x.plainRole r) :
    ∃ h1 parsed c errs, LinkRun so [] (inOrder links) h1 parsed s.labels ∧ parseComponent s.store uid x = .ok (c, errs) ∧
      (∀ k ∈ [NodeKind.presentation, .calculation, .definition], (c.ofKind k = none ↔ parsed.filter (Network.logicalOf r k) = []) ∧
        ∀ net, c.ofKind k = some net → Unites h1 (parsed.filter (Network.logicalOf r k)) s.heap net) ∧
      ∀ e, e ∈ errs ↔ ∃ cl ∈ componentClasses, e = (cl.2.2.1, r) ∧ cl.2.1 ∉ declaredOn x ∧ ∃ n ∈ parsed, n.linkRole = r ∧ n.kind = cl.1 := by
  obtain ⟨h1, parsed, stored, hst, g1, g2, hcand, hex⟩ := filing_store h
  replace hcand := hcand r
  replace hex := hex r
  obtain ⟨c, k1, _, k2⟩ := C42_component stored uid x r hx
  have hone : ∀ k ∈ [NodeKind.presentation, .calculation, .definition], (candidates stored r k = [] ∧ parsed.filter (Network.logicalOf r k) = []) ∨
      ∃ net, candidates stored r k = [net] ∧ parsed.filter (Network.logicalOf r k) ≠ [] ∧ Unites h1 (parsed.filter (Network.logicalOf r k)) s.heap net := by
    intro k hk
    rw [hcand k hk]
    rcases g2 r k with ⟨ha, hb⟩ | ⟨net, ha, hb, hc⟩
    · exact Or.inl ⟨hb, ha⟩
    · exact Or.inr ⟨net, ha, hb, hc⟩
  have hof : ∀ k ∈ [NodeKind.presentation, .calculation, .definition], c.ofKind k = (candidates stored r k).head? := by
    intro k hk
    simp only [List.mem_cons, List.not_mem_nil, or_false] at hk
    rcases hk with rfl | rfl | rfl
    · exact k2.presentation
    · exact k2.calculation
    · exact k2.definition
  have hcls : ∀ cl ∈ componentClasses, cl.1 ∈ [NodeKind.presentation, .calculation, .definition] := by decide
  refine ⟨h1, parsed, c, _, g1, by rw [hst]; exact k1, ?_, ?_⟩
  · intro k hk
    rw [hof k hk]
    rcases hone k hk with ⟨ha, hb⟩ | ⟨net, ha, hb, hc⟩
    · rw [ha]
      exact ⟨⟨fun _ => hb, fun _ => rfl⟩, fun net hn => (by cases hn)⟩
    · rw [ha]
      exact ⟨⟨fun hh => (by cases hh), fun hh => absurd hh hb⟩, fun net' hn => (by cases hn; exact hc)⟩
  · intro e
    have hempty : (componentClasses.filter (fun c => decide (1 < (candidates stored r c.1).length))) = [] := by
      rw [List.filter_eq_nil_iff]
      intro cl hcl
      rcases hone cl.1 (hcls cl hcl) with ⟨ha, _⟩ | ⟨net, ha, _⟩ <;> simp [ha]
    unfold roleReports
    rw [hempty, List.map_nil, List.append_nil]
    simp only [List.mem_map, List.mem_filter, Bool.and_eq_true, decide_eq_true_iff]
    constructor
    · rintro ⟨cl, ⟨hcl, ha, hb⟩, rfl⟩
      exact ⟨cl, hcl, rfl, hb, (hex cl.1).1 ha⟩
    · rintro ⟨cl, hcl, rfl, hb, ha⟩
      exact ⟨cl, ⟨hcl, (hex cl.1).2 ha, hb⟩, rfl⟩

/-! ## What fails -/

namespace ComponentsExample

def lb : String := "http://www.xbrl.org/2003/linkbase"
def role (pfx : List (Option String × String)) (used : List String) : XNode :=
  .mk (some "{http://www.xbrl.org/2003/linkbase}roleType") [("roleURI", "r")] none pfx
    (.mk (some "{http://www.xbrl.org/2003/linkbase}definition") [] (some "Balance sheet") pfx [] ::
      used.map (fun u => .mk (some "{http://www.xbrl.org/2003/linkbase}usedOn") [] (some u) pfx []))
def schema (x : XNode) : XNode := .mk (some "{http://www.w3.org/2001/XMLSchema}schema") [] none [] [.mk none [] none [] [], .mk (some "annotation") [] none [] [x]]
def nets : List Network :=
  [⟨[0], "r", .presentation, false⟩, ⟨[1], "r", .definition, true⟩, ⟨[2], "q", .presentation, false⟩, ⟨[3], "r", .definition, false⟩, ⟨[4], "r", .presentation, false⟩]

example : (role [(some "link", lb)] ["link:presentationLink"]).plainRole "r" := ⟨by decide, by decide⟩
example : (roleTypes (schema (role [(some "link", lb)] []))).length = 1 := by decide +kernel
example : roleReports nets (role [(some "link", lb)] ["link:presentationLink"]) "r" =
    [("DEFINITION_NETWORK_IN_COMPONENT_WITHOUT_USEDON_ELEMENT", "r"), ("MULTIPLE_PRESENTATION_NETWORKS_IN_COMPONENT", "r")] := by decide +kernel
example : (candidates nets "r" .definition).head? = some ⟨[3], "r", .definition, false⟩ := by decide

end ComponentsExample

/-- C42 fails: a role that declares its links with another prefix for the name space of linkbases is reported as not declaring them. -/
theorem C42_prefix_false : ∃ (stored : List Network) (x : XNode) (c : ComponentOf Network), x.plainRole "r" ∧ x.ns.get? (some "l") = x.ns.get? (some "link") ∧ declaredOn x = ["l:presentationLink"] ∧
    parseComponent (stored.foldl (NetStore.upsert (·.kind)) []) 0 x = .ok (c, [("PRESENTATION_NETWORK_IN_COMPONENT_WITHOUT_USEDON_ELEMENT", "r")]) :=
  ⟨[⟨[0], "r", .presentation, false⟩], ComponentsExample.role [(some "link", ComponentsExample.lb), (some "l", ComponentsExample.lb)] ["l:presentationLink"],
    ⟨0, "r", "Balance sheet", some ⟨[0], "r", .presentation, false⟩, none, none⟩, ⟨by decide, by decide⟩, by decide, by decide +kernel, by decide +kernel⟩

/-- C42 fails: a document that binds another prefix to the name space of linkbases has roles, but reading the components raises `SyntaxError`. -/
theorem C42_unbound_false : ∃ root : XNode, (declaredRoles root).length = 1 ∧ ∀ nets, parseComponents nets [root] = .error .syntaxError :=
  ⟨ComponentsExample.schema (ComponentsExample.role [(some "l", ComponentsExample.lb)] ["l:presentationLink"]), by decide +kernel, fun nets => by
    have h1 : ([ComponentsExample.schema (ComponentsExample.role [(some "l", ComponentsExample.lb)] ["l:presentationLink"])].flatMap roleTypes) =
        [ComponentsExample.role [(some "l", ComponentsExample.lb)] ["l:presentationLink"]] := by rfl
    unfold parseComponents
    rw [h1, List.foldlM_cons]
    unfold componentStep
    rw [((C42_refused nets _ _).2.1).2 ⟨by decide, by decide⟩]
    rfl⟩

end Brel
