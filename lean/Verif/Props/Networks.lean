import Verif.Lemmas.Networks
import Verif.Props.Repos

/-! C84: the networks of a filing. -/

namespace Brel

/-! ## The order of links -/

theorem sortBy_bool {α : Type} (p : α → Bool) (l : List α) : sortBy (fun a b => p a || !p b) l = l.filter p ++ l.filter (fun a => !p a) := by
  have hins : ∀ (x : α) (as bs : List α), (∀ a ∈ as, p a = true) → (∀ b ∈ bs, p b = false) →
      insertBy (fun a b => p a || !p b) x (as ++ bs) = if p x then x :: as ++ bs else as ++ x :: bs := by
    intro x as bs ha hb
    induction as with
    | nil =>
      cases bs with
      | nil => cases p x <;> rfl
      | cons b bs =>
        rw [List.nil_append, insertBy, hb b List.mem_cons_self]
        cases p x <;> rfl
    | cons a as ih =>
      rw [List.cons_append, insertBy, ha a List.mem_cons_self, ih (fun y hy => ha y (List.mem_cons_of_mem _ hy))]
      cases p x <;> rfl
  induction l with
  | nil => rfl
  | cons x xs ih =>
    rw [sortBy, ih, hins x _ _ (fun a ha => (List.mem_filter.1 ha).2) (fun b hb => by simpa using (List.mem_filter.1 hb).2), List.filter_cons, List.filter_cons]
    cases p x <;> rfl

theorem zip_filter {α β : Type} (p : α → Bool) (q : β → Bool) : ∀ {l : List α} {m : List β}, Rel2 (fun b a => p a = q b) m l →
    ((l.zip m).filter (fun x => p x.1)).map (·.2) = m.filter q := by
  intro l m h
  induction h with
  | nil => rfl
  | cons hab _ ih =>
    rw [List.zip_cons_cons, List.filter_cons, List.filter_cons, hab]
    split
    · rw [List.map_cons, ih]
    · exact ih

theorem sort_pairs {α β : Type} (p : α → Bool) (q : β → Bool) {l : List α} {m : List β} (h : Rel2 (fun b a => p a = q b) m l) :
    (sortBy (fun a b : α × β => p a.1 || !p b.1) (l.zip m)).map (·.2) = m.filter q ++ m.filter (fun b => !q b) := by
  have h' : Rel2 (fun b a => (!p a) = !q b) m l := h.imp (fun _ _ _ h => by rw [h])
  rw [sortBy_bool (fun a : α × β => p a.1), List.map_append]
  rw [zip_filter p q h, zip_filter (fun a => !p a) (fun b => !q b) h']

/-- The sort key of a role. -/
def stdKey (o : Option String) : Bool := isStandardRole (o.getD "")

theorem sortLinks_eq {links sorted : List LinkXml} (h : sortLinks links = .ok sorted) : sorted = inOrder links := by
  unfold sortLinks at h
  cases hk : links.mapM LinkXml.role with
  | error e => rw [hk] at h; cases h
  | ok keys =>
    rw [hk] at h
    cases h
    have hr := (mapM_ok_iff _ _ _).1 hk
    have hstd : Rel2 (fun b a => stdKey a = LinkXml.standard b) links keys := by
      refine hr.imp ?_
      intro l _ o ho
      unfold LinkXml.standard
      rw [ho]
      cases o with
      | none => decide
      | some r => simp [stdKey, isStandardRole, standardLinkRoles]
    exact sort_pairs stdKey LinkXml.standard hstd

/-! ## The stored networks -/

theorem filter_roles {α : Type} {rs : List (String × List Network)} {cs : List (List Network)} (R : String × List Network → List Network → Prop) (hR : Rel2 R rs cs)
    (hl : ∀ p c, R p c → (∀ n ∈ p.2, n.linkRole = p.1) ∧ ∀ n ∈ c, n.linkRole = p.1) (hn : (rs.map (·.1)).Nodup) (r : String) (q : Network → Bool) (x : α) :
    (∃ nets c, (r, nets) ∈ rs ∧ R (r, nets) c ∧
      ((rs.zip cs).flatMap (fun p => p.1.2.filter (·.physical) ++ p.2)).filter (fun n => decide (n.linkRole = r) && q n) = (nets.filter (·.physical)).filter q ++ c.filter q) ∨
    (r ∉ rs.map (·.1) ∧ ((rs.zip cs).flatMap (fun p => p.1.2.filter (·.physical) ++ p.2)).filter (fun n => decide (n.linkRole = r) && q n) = []) := by
  have hgone : ∀ (l : List Network) (r' : String), (∀ n ∈ l, n.linkRole = r') → r' ≠ r → l.filter (fun n => decide (n.linkRole = r) && q n) = [] := by
    intro l r' hl' hne
    rw [List.filter_eq_nil_iff]
    intro n hn
    simp [hl' n hn, hne]
  have hstay : ∀ (l : List Network), (∀ n ∈ l, n.linkRole = r) → l.filter (fun n => decide (n.linkRole = r) && q n) = l.filter q := by
    intro l hl'
    apply List.filter_congr
    intro n hn
    simp [hl' n hn]
  induction hR with
  | nil => exact Or.inr ⟨by simp, rfl⟩
  | @cons a b rs cs hab hrest ih =>
    obtain ⟨r', nets⟩ := a
    rw [List.map_cons, List.nodup_cons] at hn
    have hd := hl _ _ hab
    have hphys : ∀ n ∈ nets.filter (·.physical), n.linkRole = r' := fun n hn => hd.1 n (List.mem_filter.1 hn).1
    rw [List.zip_cons_cons, List.flatMap_cons, List.filter_append, List.filter_append]
    by_cases hrr : r' = r
    · subst hrr
      rcases ih hn.2 with ⟨nets', c, h1, _⟩ | ⟨_, h2⟩
      · exact absurd (List.mem_map_of_mem (f := Prod.fst) h1) hn.1
      · refine Or.inl ⟨nets, b, List.mem_cons_self, hab, ?_⟩
        rw [h2, List.append_nil, hstay _ hphys, hstay _ hd.2]
    · rw [hgone _ r' hphys hrr, hgone _ r' hd.2 hrr, List.nil_append, List.nil_append]
      rcases ih hn.2 with ⟨nets', c, h1, h2, h3⟩ | ⟨h1, h2⟩
      · exact Or.inl ⟨nets', c, List.mem_cons_of_mem _ h1, h2, h3⟩
      · exact Or.inr ⟨by rw [List.map_cons, List.mem_cons]; exact fun hh => hh.elim (fun e => hrr e.symm) h1, h2⟩

theorem filter_kinds {ks : List NodeKind} (hn : ks.Nodup) {F : NodeKind → List Network} {cs : List Network} {R : List Network → Network → Prop} (hR : Rel2 R (ks.map F) cs)
    (hk : ∀ k ∈ ks, ∀ c, R (F k) c → c.kind = k ∧ c.physical = false) (k : NodeKind) :
    (∃ c, k ∈ ks ∧ R (F k) c ∧ cs.filter (fun n => decide (n.kind = k) && !n.physical) = [c]) ∨ (k ∉ ks ∧ cs.filter (fun n => decide (n.kind = k) && !n.physical) = []) := by
  induction ks generalizing cs with
  | nil => cases hR; exact Or.inr ⟨by simp, rfl⟩
  | cons k' ks ih =>
    rw [List.map_cons] at hR
    cases hR with
    | cons hab hrest =>
      rw [List.nodup_cons] at hn
      rename_i c cs'
      obtain ⟨h1, h2⟩ := hk k' List.mem_cons_self _ hab
      rw [List.filter_cons]
      by_cases hkk : k' = k
      · subst hkk
        rw [if_pos (by simp [h1, h2])]
        rcases ih hn.2 hrest (fun k hk' => hk k (List.mem_cons_of_mem _ hk')) with ⟨_, h3, _⟩ | ⟨_, h3⟩
        · exact absurd h3 hn.1
        · exact Or.inl ⟨_, List.mem_cons_self, hab, by rw [h3]⟩
      · rw [if_neg (by simp [h1, hkk])]
        rcases ih hn.2 hrest (fun k hk' => hk k (List.mem_cons_of_mem _ hk')) with ⟨c', h3, h4⟩ | ⟨h3, h4⟩
        · exact Or.inl ⟨c', List.mem_cons_of_mem _ h3, h4⟩
        · exact Or.inr ⟨by rw [List.mem_cons]; exact fun hh => hh.elim (fun e => hkk e.symm) h3, h4⟩

/-- C84: the links are read in order, those with a standard role first. For every role and class: if the links of the role yield no combinable network of the class, none is
stored; otherwise exactly one is, and it has the objects and relations of those networks; if there is just one, it is kept unchanged. Networks of one arc role are stored as the links yield them, in order and
unchanged. Links without a role and links of an unknown type are reported. -/
theorem C84_networks {so : SetOrder} {steps : Nat} {links : List LinkXml} {s : Networks} (h : parseNetworks so steps links = some (.ok s)) :
    ∃ h1 parsed, LinkRun so [] (inOrder links) h1 parsed s.labels ∧
      (∀ r k, (parsed.filter (Network.logicalOf r k) = [] ∧ (s.store.getByType k).filter (Network.logicalOf r k) = []) ∨
        ∃ net, (s.store.getByType k).filter (Network.logicalOf r k) = [net] ∧ parsed.filter (Network.logicalOf r k) ≠ [] ∧
          Unites h1 (parsed.filter (Network.logicalOf r k)) s.heap net) ∧
      (∀ r k, (s.store.getByType k).filter (Network.physicalOf r k) = parsed.filter (Network.physicalOf r k)) ∧
      (∀ n ∈ parsed, n.physical = true → Unites h1 [n] s.heap n ∧ ∀ i, InNetwork h1 n.roots i → s.heap.children i = h1.children i) ∧
      (∀ i : Nat, (s.heap[i]?).map (fun n => { n with children := [] }) = (h1[i]?).map (fun n => { n with children := [] })) ∧
      s.errs = (inOrder links).filterMap LinkXml.report := by
  unfold parseNetworks at h
  cases hs : sortLinks links with
  | error e => rw [hs] at h; cases h
  | ok sorted =>
    rw [hs] at h
    dsimp only at h
    rw [sortLinks_eq hs] at h
    cases hp : (inOrder links).foldlM (LinkPass.step so) {} with
    | error e => rw [hp] at h; cases h
    | ok p =>
      rw [hp] at h
      dsimp only at h
      obtain ⟨parsed, lbs, hrun, hlb, hby, hnd, herr⟩ := firstPass _ _ _ hp
      cases hc : combineRoles so steps p.heap p.byRole with
      | none => rw [hc] at h; cases h
      | some x =>
        cases x with
        | error e => rw [hc] at h; cases h
        | ok y =>
          obtain ⟨h2, stored⟩ := y
          rw [hc] at h
          cases h
          dsimp only
          have hgrow := hrun.grow
          have hnd' : (p.byRole.map (·.1)).Nodup := hnd List.nodup_nil
          have hnets : ∀ r nets, (r, nets) ∈ p.byRole → nets = parsed.filter (fun n => n.linkRole = r) := by
            intro r nets hm
            have := hby r
            rw [Dict.get?_of_mem _ (hnd List.nodup_nil) hm] at this
            simpa [Dict.get?] using this
          have hclosed : p.heap.Closed := fun i c hc => (hgrow.closed i (Nat.zero_le _) c hc).2
          have hap : ∀ a ∈ parsed, ∀ b ∈ parsed, a ≠ b → (a.physical = false ∨ b.physical = false) → Apart p.heap a b := by
            have hall : ∀ {l : List Network}, l.Pairwise (fun a b => (a.physical = true ∧ b.physical = true) ∨ Apart p.heap a b) →
                ∀ a ∈ l, ∀ b ∈ l, a ≠ b → (a.physical = false ∨ b.physical = false) → Apart p.heap a b := by
              intro l hl
              induction hl with
              | nil => intro a ha; cases ha
              | @cons x l hx _ ih =>
                intro a ha b hb hne hph
                rcases List.mem_cons.1 ha with rfl | ha' <;> rcases List.mem_cons.1 hb with rfl | hb'
                · exact absurd rfl hne
                · rcases hx b hb' with ⟨h1, h2⟩ | h1
                  · rcases hph with hph | hph <;> simp_all
                  · exact h1
                · rcases hx a ha' with ⟨h1, h2⟩ | h1
                  · rcases hph with hph | hph <;> simp_all
                  · exact h1.symm
                · exact ih a ha' b hb' hne hph
            exact hall hgrow.apart
          have hgroup : ∀ r nets g, (r, nets) ∈ p.byRole → g ∈ byClass nets → ∃ k, g = parsed.filter (Network.logicalOf r k) ∧ g ≠ [] := by
            intro r nets g hm hg
            rw [byClass_eq] at hg
            obtain ⟨k, hk, rfl⟩ := List.mem_map.1 hg
            refine ⟨k, ?_, ?_⟩
            · rw [hnets r nets hm, List.filter_filter, List.filter_filter]
              apply List.filter_congr
              intro n _
              unfold Network.logicalOf
              cases decide (n.linkRole = r) <;> cases decide (n.kind = k) <;> cases n.physical <;> rfl
            · obtain ⟨n, hn, hnk⟩ := List.mem_map.1 ((mem_firstOccurrences _ _).1 hk)
              exact List.ne_nil_of_mem (List.mem_filter.2 ⟨hn, by simpa using hnk⟩)
          have hpw : (p.byRole.flatMap (fun r => byClass r.2)).Pairwise (fun g g' => ∀ a ∈ g, ∀ b ∈ g', Apart p.heap a b) := by
            have hdiff : ∀ r k r' k', (r ≠ r' ∨ k ≠ k') → ∀ a ∈ parsed.filter (Network.logicalOf r k), ∀ b ∈ parsed.filter (Network.logicalOf r' k'), Apart p.heap a b := by
              intro r k r' k' hne a ha b hb
              obtain ⟨ha1, ha2⟩ := List.mem_filter.1 ha
              obtain ⟨hb1, hb2⟩ := List.mem_filter.1 hb
              simp only [Network.logicalOf, Bool.and_eq_true, decide_eq_true_iff, Bool.not_eq_true'] at ha2 hb2
              refine hap a ha1 b hb1 ?_ (Or.inl ha2.2)
              rintro rfl
              rcases hne with hne | hne
              · exact hne (ha2.1.1.symm.trans hb2.1.1)
              · exact hne (ha2.1.2.symm.trans hb2.1.2)
            rw [List.pairwise_flatMap]
            constructor
            · rintro ⟨r, nets⟩ hm
              dsimp only
              rw [byClass_eq, List.pairwise_map]
              refine List.Pairwise.imp_of_mem ?_ (firstOccurrences_nodup _)
              intro k k' hk hk' hne a ha b hb
              have hform : ∀ k, (nets.filter (fun n => !n.physical)).filter (fun n => n.kind = k) = parsed.filter (Network.logicalOf r k) := by
                intro k
                rw [hnets r nets hm, List.filter_filter, List.filter_filter]
                apply List.filter_congr
                intro n _
                unfold Network.logicalOf
                cases decide (n.linkRole = r) <;> cases decide (n.kind = k) <;> cases n.physical <;> rfl
              rw [hform] at ha hb
              exact hdiff r k r k' (Or.inr hne) a ha b hb
            · have : p.byRole.Pairwise (fun a b => a.1 ≠ b.1) := List.pairwise_map.1 hnd'
              refine List.Pairwise.imp_of_mem ?_ this
              rintro ⟨r, nets⟩ ⟨r', nets'⟩ hm hm' hne g hg g' hg' a ha b hb
              obtain ⟨k, rfl, _⟩ := hgroup r nets g hm hg
              obtain ⟨k', rfl, _⟩ := hgroup r' nets' g' hm' hg'
              exact hdiff r k r' k' (Or.inl hne) a ha b hb
          obtain ⟨t1, t2, t3, cs, t4, t5⟩ := combineRoles_spec p.byRole [] p.heap h2 stored ⟨SameFrame.refl _, hclosed, fun _ _ => rfl⟩ (by simp) hpw hc
          have hdata : ∀ r nets g net, (r, nets) ∈ p.byRole → g ∈ byClass nets → CombinedFrom p.heap h2 g net →
              ∃ k, g = parsed.filter (Network.logicalOf r k) ∧ net.linkRole = r ∧ net.kind = k ∧ net.physical = false := by
            intro r nets g net hm hg hcf
            obtain ⟨k, rfl, _⟩ := hgroup r nets g hm hg
            obtain ⟨last, hl, d1, d2, d3⟩ := hcf.data
            have := (List.mem_filter.1 hl).2
            simp only [Network.logicalOf, Bool.and_eq_true, decide_eq_true_iff, Bool.not_eq_true'] at this
            exact ⟨k, rfl, d1.trans this.1.1, d2.trans this.1.2, d3.trans this.2⟩
          have hR : Rel2 (fun (r : String × List Network) c => r ∈ p.byRole ∧ Rel2 (CombinedFrom p.heap h2) (byClass r.2) c) p.byRole cs := t4.imp (fun r hr c hc => ⟨hr, hc⟩)
          have hlr : ∀ (q : String × List Network) (c : List Network), (q ∈ p.byRole ∧ Rel2 (CombinedFrom p.heap h2) (byClass q.2) c) → (∀ n ∈ q.2, n.linkRole = q.1) ∧ ∀ n ∈ c, n.linkRole = q.1 := by
            rintro ⟨r, nets⟩ c ⟨hm, hc⟩
            constructor
            · intro n hn
              dsimp only at hn
              rw [hnets r nets hm] at hn
              simpa using (List.mem_filter.1 hn).2
            · intro n hn
              obtain ⟨g, hg, hcf⟩ := hc.mem_right n hn
              obtain ⟨_, _, h3, _⟩ := hdata r nets g n hm hg hcf
              exact h3
          have hcphys : ∀ r nets c, (r, nets) ∈ p.byRole → Rel2 (CombinedFrom p.heap h2) (byClass nets) c → ∀ n ∈ c, n.physical = false := by
            intro r nets c hm hc n hn
            obtain ⟨g, hg, hcf⟩ := hc.mem_right n hn
            obtain ⟨_, _, _, _, h3⟩ := hdata r nets g n hm hg hcf
            exact h3
          have htype : ∀ k, NetStore.getByType (stored.foldl (NetStore.upsert (·.kind)) []) k = stored.filter (fun n => n.kind = k) := (C53_networks (fun n : Network => n.kind) (·.linkRole) stored).2.1
          have hparsed_none : ∀ r, r ∉ p.byRole.map (·.1) → parsed.filter (fun n => n.linkRole = r) = [] := by
            intro r hr
            have := hby r
            rw [(Dict.get?_eq_none_iff (d := p.byRole) (k := r)).2 hr] at this
            simpa [Dict.get?] using this.symm
          refine ⟨p.heap, parsed, (by rw [hlb]; exact hrun), ?_, ?_, ?_, t2.2, by rw [herr]; rfl⟩
          · intro r k
            have hf : (NetStore.getByType (stored.foldl (NetStore.upsert (·.kind)) []) k).filter (Network.logicalOf r k) =
                stored.filter (fun n => decide (n.linkRole = r) && (decide (n.kind = k) && !n.physical)) := by
              rw [htype, List.filter_filter]
              apply List.filter_congr
              intro n _
              unfold Network.logicalOf
              cases decide (n.linkRole = r) <;> cases decide (n.kind = k) <;> cases n.physical <;> rfl
            rw [hf, t5]
            rcases filter_roles _ hR hlr hnd' r (fun n => decide (n.kind = k) && !n.physical) () with ⟨nets, c, h1, ⟨_, h2'⟩, h3⟩ | ⟨h1, h3⟩
            · rw [h3]
              have hph : (nets.filter (·.physical)).filter (fun n => decide (n.kind = k) && !n.physical) = [] := by
                rw [List.filter_eq_nil_iff]
                intro n hn
                simp [(List.mem_filter.1 hn).2]
              rw [hph, List.nil_append]
              have hform : ∀ k, (nets.filter (fun n => !n.physical)).filter (fun n => n.kind = k) = parsed.filter (Network.logicalOf r k) := by
                intro k
                rw [hnets r nets h1, List.filter_filter, List.filter_filter]
                apply List.filter_congr
                intro n _
                unfold Network.logicalOf
                cases decide (n.linkRole = r) <;> cases decide (n.kind = k) <;> cases n.physical <;> rfl
              rw [byClass_eq] at h2'
              rcases filter_kinds (firstOccurrences_nodup _) h2' (by
                intro k' hk' c' hc'
                obtain ⟨last, hl, _, d2, d3⟩ := hc'.data
                obtain ⟨hl1, hl2⟩ := List.mem_filter.1 hl
                exact ⟨d2.trans (by simpa using hl2), d3.trans (by simpa using (List.mem_filter.1 hl1).2)⟩) k with ⟨net, hk, hcf, he⟩ | ⟨hk, he⟩
              · rw [hform k] at hcf
                refine Or.inr ⟨net, he, ?_, hcf.unites⟩
                obtain ⟨last, hl, _⟩ := hcf.data
                exact List.ne_nil_of_mem hl
              · refine Or.inl ⟨?_, he⟩
                rw [← hform k, List.filter_eq_nil_iff]
                intro n hn hnk
                exact hk ((mem_firstOccurrences _ _).2 (List.mem_map.2 ⟨n, hn, by simpa using hnk⟩))
            · refine Or.inl ⟨?_, h3⟩
              have := hparsed_none r h1
              rw [List.filter_eq_nil_iff] at this ⊢
              intro n hn hl
              simp only [Network.logicalOf, Bool.and_eq_true] at hl
              exact this n hn hl.1.1
          · intro r k
            have hf : (NetStore.getByType (stored.foldl (NetStore.upsert (·.kind)) []) k).filter (Network.physicalOf r k) =
                stored.filter (fun n => decide (n.linkRole = r) && (decide (n.kind = k) && n.physical)) := by
              rw [htype, List.filter_filter]
              apply List.filter_congr
              intro n _
              unfold Network.physicalOf
              cases decide (n.linkRole = r) <;> cases decide (n.kind = k) <;> cases n.physical <;> rfl
            rw [hf, t5]
            rcases filter_roles _ hR hlr hnd' r (fun n => decide (n.kind = k) && n.physical) () with ⟨nets, c, h1, ⟨_, h2'⟩, h3⟩ | ⟨h1, h3⟩
            · rw [h3]
              have hph : c.filter (fun n => decide (n.kind = k) && n.physical) = [] := by
                rw [List.filter_eq_nil_iff]
                intro n hn
                simp [hcphys r nets c h1 h2' n hn]
              rw [hph, List.append_nil, hnets r nets h1, List.filter_filter, List.filter_filter]
              apply List.filter_congr
              intro n _
              unfold Network.physicalOf
              cases decide (n.linkRole = r) <;> cases decide (n.kind = k) <;> cases n.physical <;> rfl
            · rw [h3]
              have := hparsed_none r h1
              symm
              rw [List.filter_eq_nil_iff] at this ⊢
              intro n hn hl
              simp only [Network.physicalOf, Bool.and_eq_true] at hl
              exact this n hn hl.1.1
          · intro n hn hphys
            have hch : ∀ i, InNetwork p.heap n.roots i → h2.children i = p.heap.children i := by
              intro i hi
              refine t3 i (fun m hm hmi => ?_)
              obtain ⟨g, hg, hmg⟩ := List.mem_flatten.1 hm
              obtain ⟨⟨r, nets⟩, hr, hg'⟩ := List.mem_flatMap.1 hg
              obtain ⟨k, rfl, _⟩ := hgroup r nets g hr hg'
              obtain ⟨hm1, hm2⟩ := List.mem_filter.1 hmg
              simp only [Network.logicalOf, Bool.and_eq_true, Bool.not_eq_true'] at hm2
              exact hap n hn m hm1 (by rintro rfl; rw [hphys] at hm2; exact absurd hm2.2 (by simp)) (Or.inr hm2.2) i hi hmi
            refine ⟨⟨fun t => ?_, fun t u => ?_, fun t d => ?_, fun m hm => ?_⟩, hch⟩
            · rw [occurs_congr hch t2]; simp
            · rw [related_congr hch t2]; simp
            · rw [relatedAs_congr hch t2]; simp
            · cases hm; exact ⟨rfl, hch⟩

namespace NetworksExample

def xl : String := "http://www.w3.org/1999/xlink"
def link (tag : String) (role : Option String) (arcs : List Arc) (ends : List LinkEnd) : LinkXml :=
  ⟨.mk (some tag) ((role.map (fun r => [("{http://www.w3.org/1999/xlink}role", r)])).getD []) none [(some "xlink", xl)] [], arcs, ends⟩
def el (n : String) : Target := .element ⟨"u", "p", n⟩ true

/-- Two presentation links and a definition link of a role, a standard label link, a link without a role. -/
def links : List LinkXml :=
  [link "presentationLink" (some "r") [{ frm := "a", to := "b", role := "pc" }] [⟨"a", some (el "A")⟩, ⟨"b", some (el "B")⟩],
   link "presentationLink" (some "r") [{ frm := "a", to := "c", role := "pc" }] [⟨"a", some (el "A")⟩, ⟨"c", some (el "C")⟩],
   link "definitionLink" (some "r") [{ frm := "a", to := "b", role := "dm" }] [⟨"a", some (el "A")⟩, ⟨"b", some (el "B")⟩],
   link "presentationLink" none [] [],
   link "labelLink" (some "http://www.xbrl.org/2003/role/link") [{ frm := "a", to := "l", role := "cl" }] [⟨"a", some (el "A")⟩, ⟨"l", some (.labelResource 0)⟩],
   link "fooLink" (some "r") [] []]

def out : Option Networks :=
  match parseNetworks .insertion 100 links with
  | some (.ok s) => some s
  | _ => none

example : out.map (fun s => s.store.getAll.map (fun n => (n.kind, n.linkRole, n.physical, n.roots.length))) = some
    [(.label, "http://www.xbrl.org/2003/role/link", true, 1), (.definition, "r", true, 1), (.definition, "r", false, 1), (.presentation, "r", false, 1)] := by decide +kernel
example : out.map (·.labels) = some [(⟨"u", "p", "A"⟩, 0)] := by decide +kernel
example : out.map (·.errs) = some ["MISSING_LINK_ROLE", "UNSUPPORTED_LINK_TYPE"] := by decide +kernel

end NetworksExample

end Brel
