import Verif.Props.Networks
import Verif.Props.LinkKinds
import Verif.Props.Relations

/-! Reading valid links never fails. -/

namespace Brel

variable {k : LinkKind} {so : SetOrder} {linkRole : String} {h : Heap} {arcs : List Arc} {ends : List LinkEnd} {res : LinkResult}

theorem Parts.end_of (P : Parts k so linkRole h arcs ends res) {i : Nat} {n : NetNode} (hn : NewNode h res i n) : ∃ e ∈ ends, e.label = n.label ∧ e.target = some n.target := by
  obtain ⟨p, _, hpm, _, h1, h2, _⟩ := P.new_node hn
  have := (P.node_ok p hpm).1
  rw [← h1, ← h2] at this
  unfold resolvedEnds at this
  obtain ⟨e, he, hm⟩ := List.mem_filterMap.1 this
  cases ht : e.target with
  | none => rw [ht] at hm; cases hm
  | some t' =>
    rw [ht, Option.map_some, Option.some.injEq, Prod.mk.injEq] at hm
    exact ⟨e, he, hm.1, ht.trans (by rw [hm.2])⟩

theorem Parts.child (P : Parts k so linkRole h arcs ends res) {i c : Nat} {n : NetNode} (hn : NewNode h res i n) (hc : c ∈ n.children) :
    ∃ m, NewNode h res c m ∧ ∃ a ∈ arcs, a.frm = n.label ∧ a.to = m.label := by
  have := (P.children_perm hn).mem_iff.1 hc
  unfold Parts.added at this
  obtain ⟨e, he, h2⟩ := List.mem_flatMap.1 this
  split at h2
  · rename_i hi
    obtain ⟨m, hm, hl, _⟩ := (P.mem_lookup _ _ _).1 h2
    obtain ⟨n', hn', hl', _⟩ := (P.mem_lookup _ _ _).1 hi
    have : n' = n := Option.some.inj (hn'.2.symm.trans hn.2)
    subst this
    obtain ⟨a, ha, rfl⟩ := List.mem_map.1 ((so.edges_perm _).mem_iff.1 he)
    exact ⟨m, hm, a, mem_of_firstByKey ha, hl'.symm, hl.symm⟩
  · cases h2

theorem Parts.role_at (P : Parts k so linkRole h arcs ends res) {i : Nat} {n : NetNode} (hn : NewNode h res i n) (hk : k.physical = true) : n.arcRole ∈ rolesAt arcs n.label := by
  obtain ⟨p, _, hpm, _, h1, _, _, h2, _⟩ := P.new_node hn
  obtain ⟨r, hr, hpr⟩ := List.mem_flatten.1 hpm
  obtain ⟨e, he, hok⟩ := P.ends_ok.mem_right r hr
  obtain ⟨a1, _, a3⟩ := endNodes_ok hok
  rw [h1, h2, (a1 p hpr).1]
  exact ((a3 hk).trans (rolesAt_kept arcs e.1)).mem_iff.1 (List.mem_map.2 ⟨p, hpr, rfl⟩)

/-- C65: a label link can be read if its labels are the targets and only the targets of arcs and the ends have the right types. -/
theorem C65_succeeds (hty : ∀ e ∈ ends, ∀ t, e.target = some t → Admissible .label t)
    (hfrm : ∀ a ∈ arcs, ∀ e ∈ ends, e.label = a.frm → ∀ i, e.target ≠ some (.labelResource i))
    (hto : ∀ a ∈ arcs, ∀ e ∈ ends, e.label = a.to → ∀ q b, e.target ≠ some (.element q b))
    (harc : ∀ e ∈ ends, ∀ i, e.target = some (.labelResource i) → ∃ a ∈ arcs, a.to = e.label) : ∃ res, parseLink .label so linkRole h arcs ends = .ok res := by
  obtain ⟨res, ⟨P⟩, hres⟩ := parts_exist (k := .label) (so := so) (linkRole := linkRole) (h := h) (arcs := arcs) (ends := ends) (fun a _ => ⟨⟨_, rfl⟩, ⟨_, rfl⟩⟩)
    (fun e he t ht => (refuses_iff ..).2 (hty e he t ht))
  have hkind : ∀ {i n}, NewNode h res i n → (∃ q b, n.target = .element q b) ∨ ∃ j, n.target = .labelResource j := by
    intro i n hn
    obtain ⟨e, he, _, ht⟩ := P.end_of hn
    exact hty e he _ ht
  obtain ⟨ls, hls⟩ := mapM_succeeds (updateReportElements .label res.heap) res.networks (fun net hnet => by
    unfold updateReportElements
    rw [if_pos rfl]
    obtain ⟨l, hl⟩ := mapM_succeeds (rootLabels res.heap) net.roots (fun r hr => by
      have : ∃ net ∈ res.networks, r ∈ net.roots := ⟨net, hnet, hr⟩
      rw [P.nets', roots_makeNetworks, P.mem_rootList] at this
      obtain ⟨n, hn, hno⟩ := this
      unfold rootLabels
      rw [hn.2]
      obtain ⟨e, he, hel, het⟩ := P.end_of hn
      rcases hkind hn with ⟨q, b, hq⟩ | ⟨j, hj⟩
      · rw [Option.map_some, hq]
        dsimp only
        apply mapM_succeeds
        intro c hc
        have hcn : c ∈ n.children := by
          unfold Heap.children at hc
          rw [hn.2] at hc
          exact hc
        obtain ⟨m, hm, a, ha, _, ha2⟩ := P.child hn hcn
        rw [hm.2, Option.map_some]
        obtain ⟨e', he', hel', het'⟩ := P.end_of hm
        rcases hkind hm with ⟨q', b', hq'⟩ | ⟨j', hj'⟩
        · exact absurd (het'.trans (by rw [hq'])) (hto a ha e' he' (hel'.trans ha2.symm) q' b')
        · rw [hj']; exact ⟨_, rfl⟩
      · rw [hj] at het
        obtain ⟨a, ha, ha2⟩ := harc e he j het
        rcases (mem_rolesAt ..).1 (P.role_at hn rfl) with ⟨a', ha', hor, hrole⟩ | ⟨hnone, _⟩
        · rcases hor with h' | h'
          · exact absurd (fun _ => hrole) (hno a' ha' h')
          · exact absurd het (hfrm a' ha' e he (hel.trans h'.symm) j)
        · exact absurd (Or.inl (ha2.trans hel)) (hnone a ha))
    rw [hl]
    exact ⟨_, rfl⟩)
  exact ⟨_, hres ls hls⟩

/-! ### Links one after the other -/

/-- What is needed to unite networks: no cycles, and networks consist of nodes of their class. -/
structure Calm (h : Heap) (ns : List Network) : Prop where
  ranked : ∃ rank, RankedBy h rank
  kinds : ∀ n ∈ ns, ∀ i, InNetwork h n.roots i → (h[i]?).map (·.kind) = some n.kind

theorem parseLink_calm {ns : List Network} (hp : parseLink k so linkRole h arcs ends = .ok res) (g : Grow [] h ns) (hc : Calm h ns)
    (hr : ∃ rank : String → Nat, ∀ a ∈ arcs, rank a.frm < rank a.to) : Calm res.heap (ns ++ res.networks) := by
  obtain ⟨P⟩ := parseLink_ok hp
  obtain ⟨g', _⟩ := parseLink_grow hp
  obtain ⟨rank0, hrank0⟩ := hc.ranked
  obtain ⟨rank, hrank⟩ := hr
  constructor
  · refine ⟨fun i => if i < h.length then rank0 i else rank (((res.heap[i]?).map (·.label)).getD ""), ?_⟩
    intro i c hic
    show (if i < h.length then _ else _) < (if c < h.length then _ else _)
    by_cases hi : i < h.length
    · rw [g'.children_old hi] at hic
      have hcl := (g.closed i (Nat.zero_le _) c hic).2
      rw [if_pos hi, if_pos hcl]
      exact hrank0 i c hic
    · have hle := Nat.le_of_not_lt hi
      have hcl := (g'.closed i hle c hic).1
      rw [if_neg hi, if_neg (Nat.not_lt.2 hcl)]
      cases hn : res.heap[i]? with
      | none => unfold Heap.children at hic; rw [hn] at hic; cases hic
      | some n =>
        unfold Heap.children at hic
        rw [hn] at hic
        obtain ⟨m, hm, a, ha, h1, h2⟩ := P.child ⟨hle, hn⟩ hic
        rw [hm.2, Option.map_some, Option.map_some, Option.getD_some, Option.getD_some, ← h1, ← h2]
        exact hrank a ha
  · intro n hn i hi
    rcases List.mem_append.1 hn with hn | hn
    · have hi' := (g.same_nodes g' hn i).1 hi
      have hlt := (g.inside hn hi').2
      rw [g'.old i hlt]
      exact hc.kinds n hn i hi'
    · obtain ⟨hle, hlt⟩ := g'.inside hn hi
      obtain ⟨m, hm⟩ := P.new_of_lt hle (by rw [← P.frame.1]; exact hlt)
      obtain ⟨p, _, hpm, _, _, _, hk, _⟩ := P.new_node hm
      rw [hm.2, Option.map_some, hk, (P.node_ok p hpm).2.1, ((C20_networks hp).1 n hn).2.1]

theorem parseXmlLink_calm {tag : String} {x} {ns : List Network} (hp : parseXmlLink tag so linkRole h arcs ends = .ok x) (g : Grow [] h ns) (hc : Calm h ns)
    (hr : ∃ rank : String → Nat, ∀ a ∈ arcs, rank a.frm < rank a.to) : Calm x.1 (ns ++ x.2.1) := by
  unfold parseXmlLink at hp
  have gen : ∀ (ks : List LinkKind) (s : Heap × List Network × List (QName × Nat)), Grow [] s.1 (ns ++ s.2.1) → Calm s.1 (ns ++ s.2.1) →
      ks.foldlM (fun s k => do
        let r ← parseLink k so linkRole s.1 arcs ends
        return (r.heap, s.2.1 ++ r.networks, s.2.2 ++ r.labels)) s = Except.ok x → Calm x.1 (ns ++ x.2.1) := by
    intro ks
    induction ks with
    | nil => intro s _ hs hf; cases hf; exact hs
    | cons k ks ih =>
      intro s hg hs hf
      rw [List.foldlM_cons] at hf
      cases hpl : parseLink k so linkRole s.1 arcs ends with
      | error e => rw [hpl] at hf; cases hf
      | ok r =>
        rw [hpl] at hf
        refine ih (r.heap, s.2.1 ++ r.networks, s.2.2 ++ r.labels) ?_ ?_ hf
        · dsimp only; rw [← List.append_assoc]; exact hg.trans (parseLink_grow hpl).1
        · dsimp only; rw [← List.append_assoc]; exact parseLink_calm hpl hg hs hr
  exact gen _ (h, [], []) (by simpa using g) (by simpa using hc) hp

theorem LinkRun.calm {h' : Heap} {ls : List LinkXml} {ns0 ns : List Network} {lbs : List (QName × Nat)} (hr : LinkRun so h ls h' ns lbs) (g : Grow [] h ns0) (hc : Calm h ns0)
    (hrank : ∀ l ∈ ls, ∃ rank : String → Nat, ∀ a ∈ l.arcs, rank a.frm < rank a.to) : Calm h' (ns0 ++ ns) := by
  induction hr generalizing ns0 with
  | nil => simpa using hc
  | skip _ _ ih => exact ih g hc (fun l hl => hrank l (List.mem_cons_of_mem _ hl))
  | @link h l ls r x h' ns lbs _ hp _ ih =>
    rw [← List.append_assoc]
    exact ih (g.trans (parseXmlLink_grow hp).1) (parseXmlLink_calm hp g hc (hrank _ List.mem_cons_self)) (fun l hl => hrank l (List.mem_cons_of_mem _ hl))

theorem firstPass_succeeds {ls : List LinkXml} (hok : ∀ l ∈ ls, ∀ r, l.role = .ok (some r) → ∀ h, ∃ x, parseXmlLink (l.node.tag.getD "") so r h l.arcs l.ends = .ok x)
    (hrole : ∀ l ∈ ls, ∃ o, l.role = .ok o) (s : LinkPass) : ∃ p, ls.foldlM (LinkPass.step so) s = .ok p := by
  induction ls generalizing s with
  | nil => exact ⟨s, rfl⟩
  | cons l ls ih =>
    have hstep : ∃ s', LinkPass.step so s l = .ok s' := by
      unfold LinkPass.step
      obtain ⟨o, ho⟩ := hrole l List.mem_cons_self
      rw [ho]
      cases o with
      | none => exact ⟨_, rfl⟩
      | some r =>
        obtain ⟨x, hx⟩ := hok l List.mem_cons_self r ho s.heap
        simp only [bind, Except.bind]
        rw [hx]
        exact ⟨_, rfl⟩
    obtain ⟨s', hs'⟩ := hstep
    rw [List.foldlM_cons, hs']
    exact ih (fun l hl => hok l (List.mem_cons_of_mem _ hl)) (fun l hl => hrole l (List.mem_cons_of_mem _ hl)) s'

/-! ### Uniting the networks -/

theorem combineNetworks_mono {steps j : Nat} {nets : List Network} {x} (hm : combineNetworks so steps h nets = some x) : combineNetworks so (steps + j) h nets = some x := by
  unfold combineNetworks at hm ⊢
  cases hrev : nets.reverse with
  | nil => rw [hrev] at hm; exact hm
  | cons last rest =>
    rw [hrev] at hm
    dsimp only at hm ⊢
    cases hma : mergeAll so steps (h, last.roots) rest with
    | none => rw [hma] at hm; cases hm
    | some y =>
      rw [hma] at hm
      rw [mergeAll_mono rest _ _ hma]
      exact hm

theorem combineGroups_mono {steps j : Nat} : ∀ (gs : List (List Network)) (h : Heap) {x}, combineGroups so steps h gs = some x → combineGroups so (steps + j) h gs = some x := by
  intro gs
  induction gs with
  | nil => intro h x hm; exact hm
  | cons g gs ih =>
    intro h x hm
    unfold combineGroups at hm ⊢
    cases hc : combineNetworks so steps h g with
    | none => rw [hc] at hm; cases hm
    | some y =>
      rw [hc] at hm
      rw [combineNetworks_mono hc]
      cases y with
      | error e => exact hm
      | ok y =>
        dsimp only at hm ⊢
        cases hg : combineGroups so steps y.1 gs with
        | none => rw [hg] at hm; cases hm
        | some z => rw [hg] at hm; rw [ih y.1 hg]; exact hm

theorem combineRoles_mono {steps j : Nat} : ∀ (rs : List (String × List Network)) (h : Heap) {x}, combineRoles so steps h rs = some x → combineRoles so (steps + j) h rs = some x := by
  intro rs
  induction rs with
  | nil => intro h x hm; exact hm
  | cons r rs ih =>
    intro h x hm
    obtain ⟨role, nets⟩ := r
    unfold combineRoles at hm ⊢
    cases hc : combineGroups so steps h (byClass nets) with
    | none => rw [hc] at hm; cases hm
    | some y =>
      rw [hc] at hm
      rw [combineGroups_mono _ _ hc]
      cases y with
      | error e => exact hm
      | ok y =>
        dsimp only at hm ⊢
        cases hg : combineRoles so steps y.1 rs with
        | none => rw [hg] at hm; cases hm
        | some z => rw [hg] at hm; rw [ih y.1 hg]; exact hm

theorem combineGroups_succeeds {h0 : Heap} : ∀ (gs : List (List Network)) (done : List Network) (h : Heap), Untouched h0 h done → (∃ rank, RankedBy h rank) →
    (∀ g ∈ gs, ∀ n ∈ g, ∀ d ∈ done, Apart h0 n d) → gs.Pairwise (fun g g' => ∀ a ∈ g, ∀ b ∈ g', Apart h0 a b) →
    (∀ g ∈ gs, g ≠ [] ∧ (∀ n ∈ g, ∀ r ∈ n.roots, r < h0.length) ∧ (∃ k, ∀ n ∈ g, ∀ i, InNetwork h0 n.roots i → (h0[i]?).map (·.kind) = some k) ∧ g.Pairwise (Apart h0)) →
    ∃ steps h' ns, (∀ j, combineGroups so (steps + j) h gs = some (.ok (h', ns))) ∧ ∃ rank, RankedBy h' rank := by
  intro gs
  induction gs with
  | nil => intro done h _ hr _ _ _; exact ⟨0, h, [], fun _ => rfl, hr⟩
  | cons g gs ih =>
    intro done h hu hr hd hp hg
    rw [List.pairwise_cons] at hp
    obtain ⟨rank, hrank⟩ := hr
    obtain ⟨g1, g2, ⟨k, g3⟩, g4⟩ := hg g List.mem_cons_self
    have hch : ∀ n ∈ g, ∀ i, InNetwork h0 n.roots i → h.children i = h0.children i := fun n hn i hin => hu.outside i (fun d hdm hid => hd g List.mem_cons_self n hn d hdm i hin hid)
    have hin : ∀ n ∈ g, ∀ i, InNetwork h n.roots i ↔ InNetwork h0 n.roots i := fun n hn i => inNetwork_congr (hch n hn) i
    obtain ⟨st, h1, net, hc, hr1⟩ := combine_ready (so := so) (h := h) (nets := g) k rank hu.closed hrank g1 (fun n hn r hr => by rw [hu.same.1]; exact g2 n hn r hr)
      (fun n hn i hi => (hu.same.kind i).trans (g3 n hn i ((hin n hn i).1 hi)))
      (List.Pairwise.imp_of_mem (fun {a b} ha hb hab i hi => hab i ((hin a ha i).1 hi.1) ((hin b hb i).1 hi.2)) g4)
    obtain ⟨s1, _, _, _⟩ := combine_step hu (hd g List.mem_cons_self) hc
    obtain ⟨st', h2, ns, hcs, hr2⟩ := ih (done ++ g) h1 s1 hr1 (by
      intro g' hg' n hn d hdm
      rcases List.mem_append.1 hdm with hdm | hdm
      · exact hd g' (List.mem_cons_of_mem _ hg') n hn d hdm
      · exact (hp.1 g' hg' d hdm n hn).symm) hp.2 (fun g' hg' => hg g' (List.mem_cons_of_mem _ hg'))
    refine ⟨st + st', h2, net :: ns, fun j => ?_, hr2⟩
    unfold combineGroups
    rw [Nat.add_assoc, combineNetworks_mono hc]
    dsimp only
    have := hcs (st + j)
    rw [show st + (st' + j) = st' + (st + j) by omega, this]
    rfl

theorem combineRoles_succeeds {h0 : Heap} : ∀ (rs : List (String × List Network)) (done : List Network) (h : Heap), Untouched h0 h done → (∃ rank, RankedBy h rank) →
    (∀ g ∈ rs.flatMap (fun r => byClass r.2), ∀ n ∈ g, ∀ d ∈ done, Apart h0 n d) → (rs.flatMap (fun r => byClass r.2)).Pairwise (fun g g' => ∀ a ∈ g, ∀ b ∈ g', Apart h0 a b) →
    (∀ g ∈ rs.flatMap (fun r => byClass r.2), g ≠ [] ∧ (∀ n ∈ g, ∀ r ∈ n.roots, r < h0.length) ∧ (∃ k, ∀ n ∈ g, ∀ i, InNetwork h0 n.roots i → (h0[i]?).map (·.kind) = some k) ∧ g.Pairwise (Apart h0)) →
    ∃ steps h' ns, (∀ j, combineRoles so (steps + j) h rs = some (.ok (h', ns))) ∧ ∃ rank, RankedBy h' rank := by
  intro rs
  induction rs with
  | nil => intro done h _ hr _ _ _; exact ⟨0, h, [], fun _ => rfl, hr⟩
  | cons r rs ih =>
    intro done h hu hr hd hp hg
    obtain ⟨role, nets⟩ := r
    rw [List.flatMap_cons] at hd hp hg
    rw [List.pairwise_append] at hp
    obtain ⟨st, h1, comb, hc, hr1⟩ := combineGroups_succeeds (so := so) (byClass nets) done h hu hr (fun g hg => hd g (List.mem_append_left _ hg)) hp.1 (fun g hg' => hg g (List.mem_append_left _ hg'))
    have hc0 := hc 0
    obtain ⟨s1, _, _, _⟩ := combineGroups_spec (byClass nets) done h h1 comb hu (fun g hg => hd g (List.mem_append_left _ hg)) hp.1 hc0
    obtain ⟨st', h2, ns, hcs, hr2⟩ := ih (done ++ (byClass nets).flatten) h1 s1 hr1 (by
      intro g' hg' n hn d hdm
      rcases List.mem_append.1 hdm with hdm | hdm
      · exact hd g' (List.mem_append_right _ hg') n hn d hdm
      · obtain ⟨g, hgm, hdg⟩ := List.mem_flatten.1 hdm
        exact (hp.2.2 g hgm g' hg' d hdg n hn).symm) hp.2.1 (fun g' hg' => hg g' (List.mem_append_right _ hg'))
    refine ⟨st + st', h2, nets.filter (·.physical) ++ comb ++ ns, fun j => ?_, hr2⟩
    unfold combineRoles
    rw [Nat.add_assoc, hc]
    dsimp only
    rw [show st + (st' + j) = st' + (st + j) by omega, hcs]
    rfl

/-- The networks of valid links can be united. -/
theorem networks_succeed {links : List LinkXml} (hrole : ∀ l ∈ links, ∃ o, l.role = .ok o)
    (hok : ∀ l ∈ links, ∀ r, l.role = .ok (some r) → ∀ h, ∃ x, parseXmlLink (l.node.tag.getD "") so r h l.arcs l.ends = .ok x)
    (hrank : ∀ l ∈ links, ∃ rank : String → Nat, ∀ a ∈ l.arcs, rank a.frm < rank a.to) :
    ∃ steps s, (∀ j, parseNetworks so (steps + j) links = some (.ok s)) ∧ ∃ rank, RankedBy s.heap rank := by
  have hsort : ∃ sorted, sortLinks links = .ok sorted := by
    unfold sortLinks
    obtain ⟨ks, hks⟩ := mapM_succeeds LinkXml.role links hrole
    rw [hks]
    exact ⟨_, rfl⟩
  obtain ⟨sorted, hs⟩ := hsort
  have hmem : ∀ l ∈ inOrder links, l ∈ links := by
    intro l hl
    unfold inOrder at hl
    rcases List.mem_append.1 hl with hl | hl <;> exact (List.mem_filter.1 hl).1
  obtain ⟨p, hp⟩ := firstPass_succeeds (so := so) (ls := inOrder links) (fun l hl => hok l (hmem l hl)) (fun l hl => hrole l (hmem l hl)) {}
  obtain ⟨parsed, lbs, hrun, hlb, hby, hnd, herr⟩ := firstPass _ _ _ hp
  have hgrow := hrun.grow
  have hcalm := hrun.calm (ns0 := []) (Grow.nil []) ⟨⟨fun _ => 0, fun i c hc => by cases hc⟩, fun n hn => by cases hn⟩ (fun l hl => hrank l (hmem l hl))
  rw [List.nil_append] at hcalm
  have hfin : ∃ steps h' ns, (∀ j, combineRoles so (steps + j) p.heap p.byRole = some (.ok (h', ns))) ∧ ∃ rank, RankedBy h' rank := by
    have hnd' : (p.byRole.map (·.1)).Nodup := hnd List.nodup_nil
    have hnets : ∀ r nets, (r, nets) ∈ p.byRole → nets = parsed.filter (fun n => n.linkRole = r) := by
      intro r nets hm
      have := hby r
      rw [Dict.get?_of_mem _ (hnd List.nodup_nil) hm] at this
      simpa [Dict.get?] using this
    have hclosed : p.heap.Closed := fun i c hc => (hgrow.closed i (Nat.zero_le _) c hc).2
    have hap : ∀ a ∈ parsed, ∀ b ∈ parsed, a ≠ b → (a.physical = false ∨ b.physical = false) → Apart p.heap a b := by
      have hall : ∀ {l : List Network}, l.Pairwise (fun a b => (a.physical = true ∧ b.physical = true) ∨ Apart p.heap a b) →
          ∀ a ∈ l, ∀ b ∈ l, a ≠ b → (a.physical = false ∨ b.physical = false) → Apart p.heap a b := by
        intro l hl
        induction hl with
        | nil => intro a ha; cases ha
        | @cons x l hx _ ih =>
          intro a ha b hb hne hph
          rcases List.mem_cons.1 ha with rfl | ha' <;> rcases List.mem_cons.1 hb with rfl | hb'
          · exact absurd rfl hne
          · rcases hx b hb' with ⟨h1, h2⟩ | h1
            · rcases hph with hph | hph <;> simp_all
            · exact h1
          · rcases hx a ha' with ⟨h1, h2⟩ | h1
            · rcases hph with hph | hph <;> simp_all
            · exact h1.symm
          · exact ih a ha' b hb' hne hph
      exact hall hgrow.apart
    have hgroup : ∀ r nets g, (r, nets) ∈ p.byRole → g ∈ byClass nets → ∃ k, g = parsed.filter (Network.logicalOf r k) ∧ g ≠ [] := by
      intro r nets g hm hg
      rw [byClass_eq] at hg
      obtain ⟨k, hk, rfl⟩ := List.mem_map.1 hg
      refine ⟨k, ?_, ?_⟩
      · rw [hnets r nets hm, List.filter_filter, List.filter_filter]
        apply List.filter_congr
        intro n _
        unfold Network.logicalOf
        cases decide (n.linkRole = r) <;> cases decide (n.kind = k) <;> cases n.physical <;> rfl
      · obtain ⟨n, hn, hnk⟩ := List.mem_map.1 ((mem_firstOccurrences _ _).1 hk)
        exact List.ne_nil_of_mem (List.mem_filter.2 ⟨hn, by simpa using hnk⟩)
    have hpw : (p.byRole.flatMap (fun r => byClass r.2)).Pairwise (fun g g' => ∀ a ∈ g, ∀ b ∈ g', Apart p.heap a b) := by
      have hdiff : ∀ r k r' k', (r ≠ r' ∨ k ≠ k') → ∀ a ∈ parsed.filter (Network.logicalOf r k), ∀ b ∈ parsed.filter (Network.logicalOf r' k'), Apart p.heap a b := by
        intro r k r' k' hne a ha b hb
        obtain ⟨ha1, ha2⟩ := List.mem_filter.1 ha
        obtain ⟨hb1, hb2⟩ := List.mem_filter.1 hb
        simp only [Network.logicalOf, Bool.and_eq_true, decide_eq_true_iff, Bool.not_eq_true'] at ha2 hb2
        refine hap a ha1 b hb1 ?_ (Or.inl ha2.2)
        rintro rfl
        rcases hne with hne | hne
        · exact hne (ha2.1.1.symm.trans hb2.1.1)
        · exact hne (ha2.1.2.symm.trans hb2.1.2)
      rw [List.pairwise_flatMap]
      constructor
      · rintro ⟨r, nets⟩ hm
        dsimp only
        rw [byClass_eq, List.pairwise_map]
        refine List.Pairwise.imp_of_mem ?_ (firstOccurrences_nodup _)
        intro k k' hk hk' hne a ha b hb
        have hform : ∀ k, (nets.filter (fun n => !n.physical)).filter (fun n => n.kind = k) = parsed.filter (Network.logicalOf r k) := by
          intro k
          rw [hnets r nets hm, List.filter_filter, List.filter_filter]
          apply List.filter_congr
          intro n _
          unfold Network.logicalOf
          cases decide (n.linkRole = r) <;> cases decide (n.kind = k) <;> cases n.physical <;> rfl
        rw [hform] at ha hb
        exact hdiff r k r k' (Or.inr hne) a ha b hb
      · have : p.byRole.Pairwise (fun a b => a.1 ≠ b.1) := List.pairwise_map.1 hnd'
        refine List.Pairwise.imp_of_mem ?_ this
        rintro ⟨r, nets⟩ ⟨r', nets'⟩ hm hm' hne g hg g' hg' a ha b hb
        obtain ⟨k, rfl, _⟩ := hgroup r nets g hm hg
        obtain ⟨k', rfl, _⟩ := hgroup r' nets' g' hm' hg'
        exact hdiff r k r' k' (Or.inl hne) a ha b hb
    refine combineRoles_succeeds p.byRole [] p.heap ⟨SameFrame.refl _, hclosed, fun _ _ => rfl⟩ hcalm.ranked (by simp) hpw ?_
    intro g hg
    obtain ⟨⟨r, nets⟩, hr, hg'⟩ := List.mem_flatMap.1 hg
    obtain ⟨k, rfl, hne⟩ := hgroup r nets g hr hg'
    refine ⟨hne, ?_, ⟨k, ?_⟩, ?_⟩
    · intro n hn i hi
      exact (hgrow.roots n (List.mem_filter.1 hn).1 i hi).2
    · intro n hn i hi
      obtain ⟨h1, h2⟩ := List.mem_filter.1 hn
      simp only [Network.logicalOf, Bool.and_eq_true, decide_eq_true_iff, Bool.not_eq_true'] at h2
      rw [hcalm.kinds n h1 i hi, h2.1.2]
    · refine List.Pairwise.imp_of_mem ?_ (hgrow.apart.filter _)
      intro a b ha hb hab
      have h1 := (List.mem_filter.1 ha).2
      simp only [Network.logicalOf, Bool.and_eq_true, decide_eq_true_iff, Bool.not_eq_true'] at h1
      rcases hab with ⟨h2, _⟩ | hab
      · rw [h1.2] at h2; cases h2
      · exact hab
  obtain ⟨steps, h', ns, hcr, hrk⟩ := hfin
  refine ⟨steps, { heap := h', store := ns.foldl (NetStore.upsert (·.kind)) [], labels := p.labels, errs := p.errs }, fun j => ?_, hrk⟩
  unfold parseNetworks
  rw [hs, sortLinks_eq hs]
  dsimp only
  rw [hp]
  dsimp only
  rw [hcr]
  rfl

end Brel
