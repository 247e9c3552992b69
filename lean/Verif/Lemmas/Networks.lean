import Verif.Spec.Networks
import Verif.Props.Link
import Verif.Props.Combine
import Verif.Lemmas.Repos

/-! Lemmas for the networks of a filing. -/

namespace Brel

/-! ### Networks that are not touched -/

theorem InNetwork.root {h : Heap} {rs : List Nat} {r : Nat} (hr : r ∈ rs) : InNetwork h rs r := ⟨r, hr, 0, .refl _⟩

theorem path_congr {ch ch' : Nat → List Nat} {P : Nat → Prop} (hP : ∀ i, P i → ∀ c ∈ ch i, P c) (he : ∀ i, P i → ch' i = ch i) {a b n : Nat} (ha : P a) :
    Path ch' a b n ↔ Path ch a b n := by
  constructor
  · intro hp
    induction hp with
    | refl => exact .refl _
    | step hb _ ih =>
      rw [he _ ha] at hb
      exact .step hb (ih (hP _ ha _ hb))
  · intro hp
    induction hp with
    | refl => exact .refl _
    | step hb _ ih => exact .step (by rw [he _ ha]; exact hb) (ih (hP _ ha _ hb))

theorem inNetwork_congr {h h' : Heap} {rs : List Nat} (he : ∀ i, InNetwork h rs i → h'.children i = h.children i) (i : Nat) : InNetwork h' rs i ↔ InNetwork h rs i := by
  have hP : ∀ i, InNetwork h rs i → ∀ c ∈ h.children i, InNetwork h rs c := fun i hi c hc => hi.child hc
  constructor
  · rintro ⟨r, hr, n, hp⟩; exact ⟨r, hr, n, (path_congr hP he (.root hr)).1 hp⟩
  · rintro ⟨r, hr, n, hp⟩; exact ⟨r, hr, n, (path_congr hP he (.root hr)).2 hp⟩

theorem occurs_congr {h h' : Heap} {rs : List Nat} (he : ∀ i, InNetwork h rs i → h'.children i = h.children i) (hs : SameFrame h h') (t : Option Target) :
    Occurs h' rs t ↔ Occurs h rs t := by
  unfold Occurs
  simp only [inNetwork_congr he, hs.target]

theorem related_congr {h h' : Heap} {rs : List Nat} (he : ∀ i, InNetwork h rs i → h'.children i = h.children i) (hs : SameFrame h h') (t u : Option Target) :
    Related h' rs t u ↔ Related h rs t u := by
  unfold Related
  simp only [inNetwork_congr he, hs.target]
  constructor
  · rintro ⟨i, c, h1, h2, h3⟩; exact ⟨i, c, h1, by rw [← he i h1]; exact h2, h3⟩
  · rintro ⟨i, c, h1, h2, h3⟩; exact ⟨i, c, h1, by rw [he i h1]; exact h2, h3⟩

theorem relatedAs_congr {h h' : Heap} {rs : List Nat} (he : ∀ i, InNetwork h rs i → h'.children i = h.children i) (hs : SameFrame h h') (t : Option Target) (d : NetNode) :
    RelatedAs h' rs t d ↔ RelatedAs h rs t d := by
  have hf : ∀ c : Nat, (h'[c]?).map (fun n => { n with children := [] }) = (h[c]?).map (fun n => { n with children := [] }) := hs.2
  unfold RelatedAs
  simp only [inNetwork_congr he, hs.target, hf]
  constructor
  · rintro ⟨i, c, h1, h2, h3⟩; exact ⟨i, c, h1, by rw [← he i h1]; exact h2, h3⟩
  · rintro ⟨i, c, h1, h2, h3⟩; exact ⟨i, c, h1, by rw [he i h1]; exact h2, h3⟩

/-- The networks have no node in common. -/
def Apart (h : Heap) (a b : Network) : Prop := ∀ i, InNetwork h a.roots i → ¬ InNetwork h b.roots i

theorem Apart.symm {h : Heap} {a b : Network} (hab : Apart h a b) : Apart h b a := fun i hb ha => hab i ha hb

/-! ### The first pass -/

/-- Networks `ns` were made from nodes added to `h`. -/
structure Grow (h h' : Heap) (ns : List Network) : Prop where
  len : h.length ≤ h'.length
  old : ∀ i < h.length, h'[i]? = h[i]?
  closed : ∀ i, h.length ≤ i → ∀ c ∈ h'.children i, h.length ≤ c ∧ c < h'.length
  roots : ∀ n ∈ ns, ∀ r ∈ n.roots, h.length ≤ r ∧ r < h'.length
  apart : ns.Pairwise (fun a b => (a.physical = true ∧ b.physical = true) ∨ Apart h' a b)

namespace Grow
variable {h h1 h2 : Heap} {n1 n2 : List Network}

theorem nil (h : Heap) : Grow h h [] :=
  ⟨Nat.le_refl _, fun _ _ => rfl, fun i hi c hc => (by rw [Heap.children, List.getElem?_eq_none hi] at hc; cases hc), by simp, List.Pairwise.nil⟩

theorem inside (g : Grow h h1 n1) {n : Network} (hn : n ∈ n1) {i : Nat} (hi : InNetwork h1 n.roots i) : h.length ≤ i ∧ i < h1.length := by
  obtain ⟨r, hr, m, hp⟩ := hi
  have h0 := g.roots n hn r hr
  clear hr
  induction hp with
  | refl => exact h0
  | step hb _ ih => exact ih (g.closed _ h0.1 _ hb)

theorem children_old (g : Grow h h1 n1) {i : Nat} (hi : i < h.length) : h1.children i = h.children i := by
  unfold Heap.children; rw [g.old i hi]

theorem same_nodes (g : Grow h h1 n1) (g' : Grow h1 h2 n2) {n : Network} (hn : n ∈ n1) (i : Nat) : InNetwork h2 n.roots i ↔ InNetwork h1 n.roots i :=
  inNetwork_congr (fun _ hi => g'.children_old (g.inside hn hi).2) i

theorem trans (g : Grow h h1 n1) (g' : Grow h1 h2 n2) : Grow h h2 (n1 ++ n2) := by
  refine ⟨Nat.le_trans g.len g'.len, ?_, ?_, ?_, ?_⟩
  · intro i hi
    rw [g'.old i (Nat.lt_of_lt_of_le hi g.len), g.old i hi]
  · intro i hi c hc
    by_cases h1i : i < h1.length
    · rw [g'.children_old h1i] at hc
      have := g.closed i hi c hc
      exact ⟨this.1, Nat.lt_of_lt_of_le this.2 g'.len⟩
    · have := g'.closed i (Nat.le_of_not_lt h1i) c hc
      exact ⟨Nat.le_trans g.len this.1, this.2⟩
  · intro n hn r hr
    rcases List.mem_append.1 hn with hn | hn
    · have := g.roots n hn r hr
      exact ⟨this.1, Nat.lt_of_lt_of_le this.2 g'.len⟩
    · have := g'.roots n hn r hr
      exact ⟨Nat.le_trans g.len this.1, this.2⟩
  · rw [List.pairwise_append]
    refine ⟨?_, g'.apart, ?_⟩
    · refine List.Pairwise.imp_of_mem ?_ g.apart
      intro a b ha hb hab
      rcases hab with hab | hab
      · exact Or.inl hab
      · exact Or.inr (fun i h3 h4 => hab i ((g.same_nodes g' ha i).1 h3) ((g.same_nodes g' hb i).1 h4))
    · intro a ha b hb
      refine Or.inr (fun i h3 h4 => ?_)
      have := (g.inside ha ((g.same_nodes g' ha i).1 h3)).2
      have := (g'.inside hb h4).1
      omega

end Grow

theorem parseLink_grow {k : LinkKind} {so : SetOrder} {r : String} {h : Heap} {arcs : List Arc} {ends : List LinkEnd} {res : LinkResult}
    (hp : parseLink k so r h arcs ends = .ok res) : Grow h res.heap res.networks ∧ ∀ n ∈ res.networks, n.linkRole = r := by
  have hold := (C20_nodes hp).2.2
  have hnets := C20_networks hp
  have hlen : h.length ≤ res.heap.length := by
    obtain ⟨P⟩ := parseLink_ok hp
    rw [P.frame.1]
    unfold Parts.h0
    rw [List.length_append]
    exact Nat.le_add_right _ _
  refine ⟨⟨hlen, hold, ?_, ?_, ?_⟩, fun n hn => (hnets.1 n hn).1⟩
  · intro i hi c hc
    unfold Heap.children at hc
    cases hn : res.heap[i]? with
    | none => rw [hn] at hc; cases hc
    | some n =>
      rw [hn] at hc
      obtain ⟨m, hm⟩ := (C20_edges hp i n ⟨hi, hn⟩).1 c hc
      exact ⟨hm.1, (List.getElem?_eq_some_iff.1 hm.2).1⟩
  · intro n hn r hr
    obtain ⟨m, hm, _⟩ := (C20_roots hp r).1 ⟨n, hn, hr⟩
    exact ⟨hm.1, (List.getElem?_eq_some_iff.1 hm.2).1⟩
  · cases hk : k.physical with
    | true =>
      have : ∀ n ∈ res.networks, n.physical = true := fun n hn => (hnets.1 n hn).2.2.1.trans hk
      exact List.Pairwise.imp_of_mem (fun {a b} ha hb _ => Or.inl ⟨this a ha, this b hb⟩) (List.pairwise_of_forall (R := fun _ _ => True) (fun _ _ => trivial))
    | false =>
      have := hnets.2.1 hk
      match hns : res.networks with
      | [] => exact List.Pairwise.nil
      | [n] => exact List.pairwise_singleton _ _
      | _ :: _ :: _ => rw [hns] at this; simp at this

theorem parseXmlLink_grow {tag : String} {so : SetOrder} {r : String} {h : Heap} {arcs : List Arc} {ends : List LinkEnd} {x}
    (hp : parseXmlLink tag so r h arcs ends = .ok x) : Grow h x.1 x.2.1 ∧ ∀ n ∈ x.2.1, n.linkRole = r := by
  unfold parseXmlLink at hp
  have gen : ∀ (ks : List LinkKind) (s : Heap × List Network × List (QName × Nat)), Grow h s.1 s.2.1 → (∀ n ∈ s.2.1, n.linkRole = r) →
      ks.foldlM (fun s k => do
        let r ← parseLink k so r s.1 arcs ends
        return (r.heap, s.2.1 ++ r.networks, s.2.2 ++ r.labels)) s = .ok x → Grow h x.1 x.2.1 ∧ ∀ n ∈ x.2.1, n.linkRole = r := by
    intro ks
    induction ks with
    | nil => intro s h1 h2 hs; cases hs; exact ⟨h1, h2⟩
    | cons k ks ih =>
      intro s h1 h2 hs
      rw [List.foldlM_cons] at hs
      cases hl : parseLink k so r s.1 arcs ends with
      | error e => rw [hl] at hs; cases hs
      | ok res =>
        rw [hl] at hs
        obtain ⟨h3, h4⟩ := parseLink_grow hl
        refine ih _ (h1.trans h3) ?_ hs
        intro n hn
        rcases List.mem_append.1 hn with hn | hn
        · exact h2 n hn
        · exact h4 n hn
  exact gen _ _ (Grow.nil h) (by simp) hp

theorem LinkRun.grow {so : SetOrder} {h h' : Heap} {ls : List LinkXml} {ns : List Network} {lbs : List (QName × Nat)} (hr : LinkRun so h ls h' ns lbs) : Grow h h' ns := by
  induction hr with
  | nil => exact Grow.nil _
  | skip _ _ ih => exact ih
  | link _ hp _ ih => exact (parseXmlLink_grow hp).1.trans ih

theorem linkKinds_nil (tag : String) : linkKinds tag = [] ↔
    ["presentationLink", "calculationLink", "definitionLink", "labelLink", "referenceLink", "footnoteLink"].any (fun n => isInfix n.toList tag.toList) = false := by
  unfold linkKinds
  simp only [List.any_cons, List.any_nil, Bool.or_false]
  repeat' split
  all_goals simp_all

/-- What the first pass does. -/
theorem firstPass {so : SetOrder} : ∀ (ls : List LinkXml) (s p : LinkPass), ls.foldlM (LinkPass.step so) s = .ok p →
    ∃ ns lbs, LinkRun so s.heap ls p.heap ns lbs ∧ p.labels = s.labels ++ lbs ∧ (∀ r, (p.byRole.get? r).getD [] = (s.byRole.get? r).getD [] ++ ns.filter (fun n => n.linkRole = r)) ∧
      (s.byRole.keys.Nodup → p.byRole.keys.Nodup) ∧ p.errs = s.errs ++ ls.filterMap LinkXml.report := by
  intro ls
  induction ls with
  | nil => intro s p h; cases h; exact ⟨[], [], .nil, by simp, fun r => by simp, id, by simp⟩
  | cons l ls ih =>
    intro s p h
    rw [List.foldlM_cons] at h
    cases h1 : LinkPass.step so s l with
    | error e => rw [h1] at h; cases h
    | ok s1 =>
      rw [h1] at h
      obtain ⟨ns, lbs, g1, g0, g2, g3, g4⟩ := ih s1 p h
      unfold LinkPass.step at h1
      cases hro : l.role with
      | error e => rw [hro] at h1; cases h1
      | ok o =>
        rw [hro] at h1
        cases o with
        | none =>
          cases h1
          refine ⟨ns, lbs, .skip hro g1, g0, g2, g3, ?_⟩
          rw [g4, List.filterMap_cons]
          unfold LinkXml.report
          rw [hro]
          simp
        | some r =>
          simp only [bind, Except.bind] at h1
          cases hx : parseXmlLink (l.node.tag.getD "") so r s.heap l.arcs l.ends with
          | error e => rw [hx] at h1; cases h1
          | ok x =>
            rw [hx] at h1
            cases h1
            refine ⟨x.2.1 ++ ns, x.2.2 ++ lbs, .link hro hx g1, by rw [g0, List.append_assoc], ?_, ?_, ?_⟩
            · intro r'
              rw [g2 r', List.filter_append]
              have hrole := (parseXmlLink_grow hx).2
              dsimp only
              rw [Dict.get?_set]
              by_cases hrr : r = r'
              · subst hrr
                rw [if_pos rfl, List.filter_eq_self (l := x.2.1) |>.2 (fun n hn => by simpa using hrole n hn), Option.getD_some, List.append_assoc]
              · rw [if_neg hrr, List.filter_eq_nil_iff (l := x.2.1) |>.2 (fun n hn => by simpa [hrole n hn] using hrr), List.nil_append]
            · intro hk
              exact g3 (Dict.keys_set_nodup hk _ _)
            · rw [g4, List.filterMap_cons]
              unfold LinkXml.report
              rw [hro]
              dsimp only
              by_cases hkn : linkKinds (l.node.tag.getD "") = []
              · rw [if_pos hkn, (linkKinds_nil _).1 hkn]
                simp
              · rw [if_neg hkn, if_pos ((Bool.eq_false_or_eq_true _).resolve_right (fun hh => hkn ((linkKinds_nil _).2 hh)))]

/-! ### The second pass -/

/-- Combining changed only nodes of the networks `done`. -/
structure Untouched (h0 h : Heap) (done : List Network) : Prop where
  same : SameFrame h0 h
  closed : h.Closed
  outside : ∀ i, (∀ n ∈ done, ¬ InNetwork h0 n.roots i) → h.children i = h0.children i

/-- `net` is the combination of the group. -/
structure CombinedFrom (h0 h : Heap) (g : List Network) (net : Network) : Prop where
  nodes : ∀ i, InNetwork h net.roots i → ∃ n ∈ g, InNetwork h0 n.roots i
  unites : Unites h0 g h net
  data : ∃ last ∈ g, net.linkRole = last.linkRole ∧ net.kind = last.kind ∧ net.physical = last.physical

theorem CombinedFrom.later {h0 h h' : Heap} {g : List Network} {net : Network} (hc : CombinedFrom h0 h g net) (hs : SameFrame h h')
    (he : ∀ i, (∃ n ∈ g, InNetwork h0 n.roots i) → h'.children i = h.children i) : CombinedFrom h0 h' g net := by
  have hch : ∀ i, InNetwork h net.roots i → h'.children i = h.children i := fun i hi => he i (hc.nodes i hi)
  refine ⟨fun i hi => hc.nodes i ((inNetwork_congr hch i).1 hi), ⟨?_, ?_, ?_, ?_⟩, hc.data⟩
  · intro t; rw [occurs_congr hch hs]; exact hc.unites.objects t
  · intro t u; rw [related_congr hch hs]; exact hc.unites.relations t u
  · intro t d; rw [relatedAs_congr hch hs]; exact hc.unites.data t d
  · intro n hg
    obtain ⟨h1, h2⟩ := hc.unites.alone n hg
    exact ⟨h1, fun i hi => by rw [he i ⟨n, by rw [hg]; exact List.mem_singleton.2 rfl, hi⟩, h2 i hi]⟩

theorem Rel2.imp {α β : Type} {R S : α → β → Prop} {l : List α} {m : List β} (h : Rel2 R l m) (hi : ∀ a ∈ l, ∀ b, R a b → S a b) : Rel2 S l m := by
  induction h with
  | nil => exact .nil
  | cons hab _ ih => exact .cons (hi _ List.mem_cons_self _ hab) (ih (fun a ha => hi a (List.mem_cons_of_mem _ ha)))

theorem combine_step {so : SetOrder} {steps : Nat} {h0 h h' : Heap} {done g : List Network} {net : Network} (hu : Untouched h0 h done)
    (hd : ∀ n ∈ g, ∀ d ∈ done, Apart h0 n d) (hr : combineNetworks so steps h g = some (.ok (h', net))) :
    Untouched h0 h' (done ++ g) ∧ CombinedFrom h0 h' g net ∧ SameFrame h h' ∧ ∀ i, (∀ n ∈ g, ¬ InNetwork h0 n.roots i) → h'.children i = h.children i := by
  have hi := combine_inv hu.closed hr
  have hch : ∀ n ∈ g, ∀ i, InNetwork h0 n.roots i → h.children i = h0.children i := fun n hn i hin => hu.outside i (fun d hdm hid => hd n hn d hdm i hin hid)
  have hin : ∀ n ∈ g, ∀ i, InNetwork h n.roots i ↔ InNetwork h0 n.roots i := fun n hn i => inNetwork_congr (hch n hn) i
  have hall : ∀ i, InNetwork h (g.flatMap (·.roots)) i ↔ ∃ n ∈ g, InNetwork h0 n.roots i := by
    intro i
    constructor
    · rintro ⟨r, hr, hp⟩
      obtain ⟨n, hn, hrn⟩ := List.mem_flatMap.1 hr
      exact ⟨n, hn, (hin n hn i).1 ⟨r, hrn, hp⟩⟩
    · rintro ⟨n, hn, hni⟩
      obtain ⟨r, hrn, hp⟩ := (hin n hn i).2 hni
      exact ⟨r, List.mem_flatMap.2 ⟨n, hn, hrn⟩, hp⟩
  have hout : ∀ i, (∀ n ∈ g, ¬ InNetwork h0 n.roots i) → h'.children i = h.children i := by
    intro i hni
    refine hi.outside i (fun hh => ?_)
    obtain ⟨n, hn, hni'⟩ := (hall i).1 hh
    exact hni n hn hni'
  refine ⟨⟨hu.same.trans hi.same, hi.closed, ?_⟩, ⟨?_, ⟨?_, ?_, ?_, ?_⟩, ?_⟩, hi.same, hout⟩
  · intro i hni
    rw [hout i (fun n hn => hni n (List.mem_append_right _ hn)), hu.outside i (fun n hn => hni n (List.mem_append_left _ hn))]
  · intro i hni
    exact (hall i).1 (hi.backward hni)
  · intro t
    rw [C21_objects hu.closed hr]
    constructor
    · rintro ⟨n, hn, ho⟩; exact ⟨n, hn, (occurs_congr (hch n hn) hu.same t).1 ho⟩
    · rintro ⟨n, hn, ho⟩; exact ⟨n, hn, (occurs_congr (hch n hn) hu.same t).2 ho⟩
  · intro t u
    rw [C21_relations hu.closed hr]
    constructor
    · rintro ⟨n, hn, ho⟩; exact ⟨n, hn, (related_congr (hch n hn) hu.same t u).1 ho⟩
    · rintro ⟨n, hn, ho⟩; exact ⟨n, hn, (related_congr (hch n hn) hu.same t u).2 ho⟩
  · intro t d
    rw [C21_children hu.closed hr]
    constructor
    · rintro ⟨n, hn, ho⟩; exact ⟨n, hn, (relatedAs_congr (hch n hn) hu.same t d).1 ho⟩
    · rintro ⟨n, hn, ho⟩; exact ⟨n, hn, (relatedAs_congr (hch n hn) hu.same t d).2 ho⟩
  · intro n hg
    subst hg
    rw [(C21_none_and_one (net := n)).2] at hr
    cases hr
    exact ⟨rfl, hch _ (List.mem_singleton.2 rfl)⟩
  · obtain ⟨last, h1, h2⟩ := (C21_node_data hu.closed hr).2
    exact ⟨last, List.mem_of_getLast? h1, h2⟩

theorem combineGroups_spec {so : SetOrder} {steps : Nat} {h0 : Heap} : ∀ (gs : List (List Network)) (done : List Network) (h h' : Heap) (ns : List Network), Untouched h0 h done →
    (∀ g ∈ gs, ∀ n ∈ g, ∀ d ∈ done, Apart h0 n d) → gs.Pairwise (fun g g' => ∀ a ∈ g, ∀ b ∈ g', Apart h0 a b) → combineGroups so steps h gs = some (.ok (h', ns)) →
    Untouched h0 h' (done ++ gs.flatten) ∧ Rel2 (CombinedFrom h0 h') gs ns ∧ SameFrame h h' ∧
      ∀ i, (∀ n ∈ gs.flatten, ¬ InNetwork h0 n.roots i) → h'.children i = h.children i := by
  intro gs
  induction gs with
  | nil =>
    intro done h h' ns hu _ _ hr
    cases hr
    exact ⟨by simpa using hu, .nil, SameFrame.refl _, fun _ _ => rfl⟩
  | cons g gs ih =>
    intro done h h' ns hu hd hp hr
    unfold combineGroups at hr
    cases hc : combineNetworks so steps h g with
    | none => rw [hc] at hr; cases hr
    | some x =>
      cases x with
      | error e => rw [hc] at hr; cases hr
      | ok y =>
        obtain ⟨h1, net⟩ := y
        rw [hc] at hr
        dsimp only at hr
        cases hg : combineGroups so steps h1 gs with
        | none => rw [hg] at hr; cases hr
        | some x =>
          cases x with
          | error e => rw [hg] at hr; cases hr
          | ok y =>
            obtain ⟨h2, ns2⟩ := y
            rw [hg] at hr
            cases hr
            rw [List.pairwise_cons] at hp
            obtain ⟨s1, s2, s3, s4⟩ := combine_step hu (hd g List.mem_cons_self) hc
            obtain ⟨t1, t2, t3, t4⟩ := ih (done ++ g) h1 h2 ns2 s1 (by
              intro g' hg' n hn d hdm
              rcases List.mem_append.1 hdm with hdm | hdm
              · exact hd g' (List.mem_cons_of_mem _ hg') n hn d hdm
              · exact (hp.1 g' hg' d hdm n hn).symm) hp.2 hg
            refine ⟨by rw [List.flatten_cons, ← List.append_assoc]; exact t1, .cons (s2.later t3 ?_) t2, s3.trans t3, ?_⟩
            · rintro i ⟨n, hn, hni⟩
              refine t4 i (fun m hm hmi => ?_)
              obtain ⟨g', hg', hmg⟩ := List.mem_flatten.1 hm
              exact hp.1 g' hg' n hn m hmg i hni hmi
            · intro i hni
              rw [t4 i (fun n hn => hni n (List.mem_append_right _ hn)), s4 i (fun n hn => hni n (List.mem_append_left _ hn))]

/-- The second pass: what is stored for the roles. -/
theorem combineRoles_spec {so : SetOrder} {steps : Nat} {h0 : Heap} : ∀ (rs : List (String × List Network)) (done : List Network) (h h' : Heap) (stored : List Network), Untouched h0 h done →
    (∀ g ∈ rs.flatMap (fun r => byClass r.2), ∀ n ∈ g, ∀ d ∈ done, Apart h0 n d) → (rs.flatMap (fun r => byClass r.2)).Pairwise (fun g g' => ∀ a ∈ g, ∀ b ∈ g', Apart h0 a b) →
    combineRoles so steps h rs = some (.ok (h', stored)) →
    Untouched h0 h' (done ++ (rs.flatMap (fun r => byClass r.2)).flatten) ∧ SameFrame h h' ∧
      (∀ i, (∀ n ∈ (rs.flatMap (fun r => byClass r.2)).flatten, ¬ InNetwork h0 n.roots i) → h'.children i = h.children i) ∧
      ∃ cs, Rel2 (fun r c => Rel2 (CombinedFrom h0 h') (byClass r.2) c) rs cs ∧ stored = (rs.zip cs).flatMap (fun p => p.1.2.filter (·.physical) ++ p.2) := by
  intro rs
  induction rs with
  | nil =>
    intro done h h' stored hu _ _ hr
    cases hr
    exact ⟨by simpa using hu, SameFrame.refl _, fun _ _ => rfl, [], .nil, rfl⟩
  | cons r rs ih =>
    intro done h h' stored hu hd hp hr
    obtain ⟨role, nets⟩ := r
    unfold combineRoles at hr
    cases hc : combineGroups so steps h (byClass nets) with
    | none => rw [hc] at hr; cases hr
    | some x =>
      cases x with
      | error e => rw [hc] at hr; cases hr
      | ok y =>
        obtain ⟨h1, comb⟩ := y
        rw [hc] at hr
        dsimp only at hr
        cases hg : combineRoles so steps h1 rs with
        | none => rw [hg] at hr; cases hr
        | some x =>
          cases x with
          | error e => rw [hg] at hr; cases hr
          | ok y =>
            obtain ⟨h2, st2⟩ := y
            rw [hg] at hr
            cases hr
            rw [List.flatMap_cons, List.pairwise_append] at hp
            rw [List.flatMap_cons] at hd
            obtain ⟨s1, s2, s3, s4⟩ := combineGroups_spec (byClass nets) done h h1 comb hu (fun g hg => hd g (List.mem_append_left _ hg)) hp.1 hc
            obtain ⟨t1, t2, t3, cs, t4, t5⟩ := ih (done ++ (byClass nets).flatten) h1 h2 st2 s1 (by
              intro g' hg' n hn d hdm
              rcases List.mem_append.1 hdm with hdm | hdm
              · exact hd g' (List.mem_append_right _ hg') n hn d hdm
              · obtain ⟨g, hgm, hdg⟩ := List.mem_flatten.1 hdm
                exact (hp.2.2 g hgm g' hg' d hdg n hn).symm) hp.2.1 hg
            refine ⟨?_, s3.trans t2, ?_, comb :: cs, .cons (s2.imp ?_) t4, ?_⟩
            · rw [List.flatMap_cons, List.flatten_append, ← List.append_assoc]; exact t1
            · intro i hni
              rw [List.flatMap_cons, List.flatten_append] at hni
              rw [t3 i (fun n hn => hni n (List.mem_append_right _ hn)), s4 i (fun n hn => hni n (List.mem_append_left _ hn))]
            · intro g hg' net hnet
              refine hnet.later t2 ?_
              rintro i ⟨n, hn, hni⟩
              refine t3 i (fun m hm hmi => ?_)
              obtain ⟨g', hg'', hmg⟩ := List.mem_flatten.1 hm
              exact hp.2.2 g hg' g' hg'' n hn m hmg i hni hmi
            · rw [t5]; rfl

/-! ### The groups of a role -/

theorem byClass_eq (nets : List Network) :
    byClass nets = (firstOccurrences ((nets.filter (fun n => !n.physical)).map (·.kind))).map (fun k => (nets.filter (fun n => !n.physical)).filter (fun n => n.kind = k)) := by
  unfold byClass
  have hk : Dict.keys ((nets.filter (fun n => !n.physical)).foldl (NetStore.upsert (·.kind)) ([] : NetStore NodeKind Network)) =
      firstOccurrences ((nets.filter (fun n => !n.physical)).map (·.kind)) := by
    rw [NetStore.run_keys]; exact foldl_appendNew_nil _
  have nd : (Dict.keys ((nets.filter (fun n => !n.physical)).foldl (NetStore.upsert (·.kind)) ([] : NetStore NodeKind Network))).Nodup := by rw [hk]; exact firstOccurrences_nodup _
  rw [← hk]
  unfold Dict.values Dict.keys
  rw [List.map_map]
  apply List.map_congr_left
  intro e he
  have := NetStore.run_getByType (fun n : Network => n.kind) (nets.filter (fun n => !n.physical)) [] e.1
  unfold NetStore.getByType at this
  rw [Dict.get?_of_mem _ nd he] at this
  simpa [Dict.get?] using this

end Brel
