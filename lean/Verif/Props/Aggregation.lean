import Verif.Spec.Aggregation
import Verif.Props.CalcNetwork

/-! C120: the aggregation check of a calculation network of an opened filing, in terms of the documents. -/

namespace Brel

variable {elems : ElemStore} {facts : FactStore} {float : String → Option Rat} {str : XNode → String} {so : SetOrder} {steps : Nat} {roots : List XNode} {s : ReadNetworks}

/-! ## Lists -/

theorem range_filter_map {α β : Type} (p : α → Bool) (f : α → β) : ∀ (h : List α) (base : Nat),
    ((List.range h.length).filter (fun i => decide (base ≤ i) && ((h[i]?).map p).getD false)).map (fun i => (h[i]?).map f) = ((h.drop base).filter p).map (fun a => some (f a)) := by
  intro h
  induction h with
  | nil => intro base; simp
  | cons x h ih =>
    intro base
    rw [List.length_cons, List.range_succ_eq_map, List.filter_cons, List.filter_map]
    have hshift : ∀ b : Nat, (((List.range h.length).filter ((fun i => decide (b ≤ i) && (((x :: h)[i]?).map p).getD false) ∘ Nat.succ)).map Nat.succ).map (fun i => ((x :: h)[i]?).map f) =
        ((List.range h.length).filter (fun i => decide (b ≤ i + 1) && ((h[i]?).map p).getD false)).map (fun i => (h[i]?).map f) := by
      intro b
      rw [List.map_map]
      rfl
    cases base with
    | zero =>
      rw [List.drop_zero, List.filter_cons]
      have h0 := ih 0
      rw [List.drop_zero] at h0
      have hs := hshift 0
      simp only [Nat.zero_le, decide_true, Bool.true_and] at hs h0 ⊢
      simp only [List.getElem?_cons_zero, Option.map_some, Option.getD_some]
      by_cases hpx : p x = true
      · rw [if_pos hpx, if_pos hpx, List.map_cons, List.map_cons, hs, h0]
        rfl
      · rw [if_neg hpx, if_neg hpx, hs, h0]
    | succ b =>
      have hz : decide (b + 1 ≤ 0) = false := decide_eq_false (by omega)
      rw [hz, Bool.false_and, if_neg (by simp), hshift, List.drop_succ_cons, ← ih b]
      simp only [Nat.add_le_add_iff_right]

theorem Rel2.perm {α β : Type} {R : α → β → Prop} {l l' : List α} (hp : l.Perm l') : ∀ {m : List β}, Rel2 R l m → ∃ m', m.Perm m' ∧ Rel2 R l' m' := by
  induction hp with
  | nil => intro m h; exact ⟨m, .refl _, h⟩
  | cons x _ ih =>
    intro m h
    cases h with
    | cons h1 h2 =>
      obtain ⟨m', g1, g2⟩ := ih h2
      exact ⟨_, g1.cons _, .cons h1 g2⟩
  | swap x y l =>
    intro m h
    cases h with
    | cons h1 h2 =>
      cases h2 with
      | cons h2 h3 => exact ⟨_, .swap _ _ _, .cons h2 (.cons h1 h3)⟩
  | trans _ _ ih1 ih2 =>
    intro m h
    obtain ⟨m1, g1, g2⟩ := ih1 h
    obtain ⟨m2, g3, g4⟩ := ih2 g2
    exact ⟨m2, g1.trans g3, g4⟩

theorem Rel2.map_left {α β γ : Type} {R : γ → β → Prop} (f : α → γ) {l : List α} {m : List β} : Rel2 R (l.map f) m ↔ Rel2 (fun a b => R (f a) b) l m := by
  induction l generalizing m with
  | nil =>
    constructor
    · intro h; cases h; exact .nil
    · intro h; cases h; exact .nil
  | cons a l ih =>
    rw [List.map_cons]
    constructor
    · intro h
      cases h with
      | cons h1 h2 => exact .cons h1 (ih.1 h2)
    · intro h
      cases h with
      | cons h1 h2 => exact .cons h1 (ih.2 h2)

theorem Rel2.filter_flatMap {α β γ : Type} {R : α → β → Prop} {l : List α} {m : List β} (h : Rel2 R l m) (p : α → Bool) (p' : β → Bool) (f : α → List γ) (f' : β → List γ)
    (hp : ∀ a ∈ l, ∀ b, R a b → p a = p' b) (hf : ∀ a ∈ l, ∀ b, R a b → f a = f' b) : (l.filter p).flatMap f = (m.filter p').flatMap f' := by
  induction h with
  | nil => rfl
  | @cons a b l m h1 _ ih =>
    rw [List.filter_cons, List.filter_cons, hp a List.mem_cons_self b h1]
    have := ih (fun a ha => hp a (List.mem_cons_of_mem _ ha)) (fun a ha => hf a (List.mem_cons_of_mem _ ha))
    split
    · rw [List.flatMap_cons, List.flatMap_cons, hf a List.mem_cons_self b h1, this]
    · exact this

/-! ## Sums -/

/-- The number that a summand contributes. -/
def Contributes (float : String → Option Rat) (facts : List Fact) (f : Fact) (p : QName × Rat) (x : Rat) : Prop :=
  ∃ g v, UniqueMatch facts f { name := p.1 } g ∧ float g.value = some v ∧ x = v * p.2

theorem uniqueMatch_name {facts : List Fact} {f : Fact} {c d : Concept} (hn : c.name = d.name) {g : Fact} : UniqueMatch facts f c g ↔ UniqueMatch facts f d g := by
  unfold UniqueMatch Matches
  rw [hn]

theorem weightedSum_iff {facts : List Fact} {f : Fact} {chs : List (CalcTree Rat)} : ∀ {acc s : Rat}, WeightedSum (ratOps float) facts f acc chs s ↔
    ∃ xs, Rel2 (Contributes float facts f) (chs.map (fun t => (t.concept.name, t.weight))) xs ∧ s = acc + xs.sum := by
  induction chs with
  | nil =>
    intro acc s
    constructor
    · intro h; cases h; exact ⟨[], .nil, by rw [List.sum_nil, Rat.add_zero]⟩
    · rintro ⟨xs, h1, h2⟩
      cases h1
      rw [List.sum_nil, Rat.add_zero] at h2
      rw [h2]
      exact .nil _
  | cons t chs ih =>
    intro acc s
    constructor
    · intro h
      cases h with
      | cons h1 h2 h3 =>
        obtain ⟨xs, g1, g2⟩ := ih.1 h3
        refine ⟨_, .cons ⟨_, _, (uniqueMatch_name rfl).1 h1, h2, rfl⟩ g1, ?_⟩
        rw [g2, List.sum_cons]
        exact Rat.add_assoc _ _ _
    · rintro ⟨xs, h1, h2⟩
      rw [List.map_cons] at h1
      cases h1 with
      | cons h1 h3 =>
        obtain ⟨g, v, g1, g2, g3⟩ := h1
        refine .cons ((uniqueMatch_name rfl).1 g1) g2 (ih.2 ⟨_, h3, ?_⟩)
        rw [h2, List.sum_cons, g3]
        exact (Rat.add_assoc _ _ _).symm

theorem sum_perm {xs ys : List Rat} (h : xs.Perm ys) : xs.sum = ys.sum := by
  induction h with
  | nil => rfl
  | cons x _ ih => rw [List.sum_cons, List.sum_cons, ih]
  | swap x y l => rw [List.sum_cons, List.sum_cons, List.sum_cons, List.sum_cons, ← Rat.add_assoc, ← Rat.add_assoc, Rat.add_comm x y]
  | trans _ _ ih1 ih2 => rw [ih1, ih2]

/-- The report element a locator refers to. -/
def locatorName (elems : ElemStore) (x : XNode) : Option QName :=
  (x.xlinkAttr "href").bind (fun href => (elems.byId.get? (String.ofList (fragment href.toList))).map (·.name))

theorem locatorFor_iff {x : XNode} {q : QName} : LocatorFor elems x q ↔ locatorName elems x = some q := by
  unfold locatorName
  constructor
  · rintro ⟨href, i, e, h1, h2, h3, h4⟩
    rw [h1, Option.bind_some, ← refers_unique h2, h3, Option.map_some, h4]
  · intro h
    obtain ⟨href, h1, h2⟩ := Option.bind_eq_some_iff.1 h
    obtain ⟨e, h3, h4⟩ := Option.map_eq_some_iff.1 h2
    exact ⟨href, _, e, h1, fragment_refers href, h3, h4⟩

/-- The weight an arc states. -/
def arcWeightOf (float : String → Option Rat) (x : XNode) : Option Rat :=
  match x.attr? "weight" with
  | none => some 0
  | some t => if t = "" then some 0 else float t

theorem states_weight {x : XNode} {w : Rat} : StatesNumber float 0 (x.attr? "weight") w ↔ arcWeightOf float x = some w := by
  unfold arcWeightOf
  cases h : x.attr? "weight" with
  | none => simp [StatesNumber, eq_comm]
  | some t =>
    by_cases ht : t = ""
    · simp [StatesNumber, ht, eq_comm]
    · simp [StatesNumber, ht]

/-- The summands as names and weights. -/
def summandData (elems : ElemStore) (float : String → Option Rat) (p : XNode × XNode) : Option (QName × Rat) :=
  (locatorName elems p.2).map (fun q => (q, (arcWeightOf float p.1).getD 0))

theorem addsUp_iff {facts : List Fact} {f : Fact} {l : List (XNode × XNode)} (hw : ∀ p ∈ l, ∃ w, arcWeightOf float p.1 = some w) : ∀ {v : Rat}, AddsUp elems float facts f l v ↔
    ∃ xs, Rel2 (Contributes float facts f) (l.filterMap (summandData elems float)) xs ∧ v = xs.sum := by
  induction l with
  | nil =>
    intro v
    constructor
    · intro h; cases h; exact ⟨[], .nil, rfl⟩
    · rintro ⟨xs, h1, h2⟩; cases h1; rw [h2]; exact .nil
  | cons p l ih =>
    intro v
    obtain ⟨x, y⟩ := p
    obtain ⟨w, hw0⟩ := hw _ List.mem_cons_self
    have ih := fun {v} => @ih (fun p hp => hw p (List.mem_cons_of_mem _ hp)) v
    rw [List.filterMap_cons]
    cases hn : locatorName elems y with
    | none =>
      rw [show summandData elems float (x, y) = none from by unfold summandData; rw [hn]; rfl]
      dsimp only
      rw [← ih]
      constructor
      · intro h
        cases h with
        | skip _ h2 => exact h2
        | add h1 => rw [locatorFor_iff, hn] at h1; cases h1
      · exact fun h => .skip (fun q hq => by rw [locatorFor_iff, hn] at hq; cases hq) h
    | some q =>
      rw [show summandData elems float (x, y) = some (q, w) from by unfold summandData; rw [hn, hw0]; rfl]
      dsimp only
      constructor
      · intro h
        cases h with
        | skip h1 _ => exact absurd (locatorFor_iff.2 hn) (h1 q)
        | add h1 h2 h3 h4 h5 =>
          rw [locatorFor_iff, hn] at h1
          cases h1
          rw [states_weight, hw0] at h4
          cases h4
          obtain ⟨xs, g1, g2⟩ := ih.1 h5
          exact ⟨_, .cons ⟨_, _, h2, h3, rfl⟩ g1, by rw [List.sum_cons, g2]⟩
      · rintro ⟨xs, h1, h2⟩
        cases h1 with
        | cons h1 h3 =>
          obtain ⟨g, v', g1, g2, g3⟩ := h1
          rw [h2, List.sum_cons, g3]
          exact .add (locatorFor_iff.2 hn) g1 g2 (states_weight.2 hw0) (ih.2 ⟨_, h3, rfl⟩)

/-! ## The children in the network of a link -/

theorem firstByKey_self {α κ : Type} [DecidableEq κ] (key : α → κ) : ∀ l : List α, (l.map key).Nodup → firstByKey key l = l
  | [], _ => rfl
  | a :: l, h => by
    rw [List.map_cons, List.nodup_cons] at h
    rw [firstByKey, firstByKey_self key l h.2, List.filter_eq_self.2]
    intro b hb
    exact decide_eq_true (fun he => h.1 (List.mem_map.2 ⟨b, hb, he⟩))

theorem flatMap_if {α β : Type} (p : α → Prop) [DecidablePred p] (f : α → List β) (l : List α) : l.flatMap (fun a => if p a then f a else []) = (l.filter (fun a => decide (p a))).flatMap f := by
  induction l with
  | nil => rfl
  | cons a l ih =>
    rw [List.flatMap_cons, ih, List.filter_cons]
    by_cases h : p a
    · rw [if_pos h, if_pos (decide_eq_true h), List.flatMap_cons]
    · rw [if_neg h, if_neg (by simpa using h), List.nil_append]

section link
variable {k : LinkKind} {linkRole : String} {h : Heap} {arcs : List Arc} {ends : List LinkEnd} {res : LinkResult}

/-- What a node stands for: its label and its object. -/
def NetNode.place (n : NetNode) : String × Target := (n.label, n.target)

theorem lookup_data (hp : parseLink k so linkRole h arcs ends = .ok res) (P : Parts k so linkRole h arcs ends res) (hk : k.physical = false) (l role : String) :
    (lookupNodes k P.h0 h.length l role).map (fun i => (res.heap[i]?).map NetNode.place) = ((resolvedEnds ends).filter (fun e => decide (e.1 = l))).map some := by
  have h1 : lookupNodes k P.h0 h.length l role = (List.range res.heap.length).filter (fun i => decide (h.length ≤ i) && ((res.heap[i]?).map (fun n => decide (n.label = l))).getD false) := by
    unfold lookupNodes
    rw [P.frame.1]
    apply List.filter_congr
    intro i hi
    have hi' : i < P.h0.length := List.mem_range.1 hi
    congr 1
    by_cases hle : h.length ≤ i
    · obtain ⟨n, hn⟩ := P.new_of_lt hle hi'
      obtain ⟨p, _, _, g1, g2, _⟩ := P.new_node hn
      rw [g1, hn.2]
      simp [hk, g2]
    · have hlt : i < h.length := by omega
      have g1 : P.h0[i]? = h[i]? := List.getElem?_append_left hlt
      rw [g1, (C20_nodes hp).2.2 i hlt, List.getElem?_eq_getElem hlt]
      simp [hk]
  have h2 := (C20_nodes hp).1 hk
  rw [h1, range_filter_map, show resolvedEnds ends = _ from h2.symm, List.filter_map, List.map_map]
  rfl

/-- The children of a node are the ends that the arcs which leave its label lead to. -/
theorem link_children (hp : parseLink k so linkRole h arcs ends = .ok res) (hk : k.physical = false) (hnd : (arcs.map Arc.key).Nodup) {i : Nat} {n : NetNode} (hn : NewNode h res i n) :
    (n.children.map (fun c => (res.heap[c]?).map NetNode.place)).Perm
      ((arcs.filter (fun a => decide (a.frm = n.label))).flatMap (fun a => ((resolvedEnds ends).filter (fun e => decide (e.1 = a.to))).map some)) := by
  obtain ⟨P⟩ := parseLink_ok hp
  have P := P.toParts
  have hiff : ∀ e : String × String × String, (i ∈ lookupNodes k P.h0 h.length e.1 e.2.2) = (e.1 = n.label) := by
    intro e
    rw [P.mem_lookup]
    refine propext ⟨?_, fun he => ⟨n, hn, he.symm, by rw [hk]; intro hf; cases hf⟩⟩
    rintro ⟨m, hm, h1, _⟩
    have := hm.2
    rw [hn.2] at this
    cases this
    exact h1.symm
  refine ((P.children_perm hn).map _).trans ?_
  unfold Parts.added
  simp only [hiff]
  rw [flatMap_if, firstByKey_self _ _ hnd, List.map_flatMap]
  simp only [lookup_data hp P hk]
  refine ((((so.edges_perm _).filter _).flatMap_right _)).trans ?_
  rw [List.filter_map, List.flatMap_map]
  exact .refl _

end link

/-! ## One link, one network -/

/-- The number of calculation networks of the role that a link may give. -/
def netsOfLink (role : String) (l : LinkXml) : Nat :=
  match l.role with
  | .ok (some r) => if r = role then (linkKinds (l.node.tag.getD "")).count .calculation else 0
  | _ => 0

theorem parseLink_count {k : LinkKind} {r role : String} {h : Heap} {arcs : List Arc} {ends : List LinkEnd} {res : LinkResult} (hp : parseLink k so r h arcs ends = .ok res) :
    (res.networks.filter (Network.logicalOf role .calculation)).length ≤ if r = role then [k].count .calculation else 0 := by
  obtain ⟨h1, h2, _⟩ := C20_networks hp
  by_cases hc : r = role ∧ k = .calculation
  · obtain ⟨rfl, rfl⟩ := hc
    rw [if_pos rfl]
    exact Nat.le_trans (List.length_filter_le _ _) (h2 rfl)
  · have : res.networks.filter (Network.logicalOf role .calculation) = [] := by
      rw [List.filter_eq_nil_iff]
      intro n hn hl
      obtain ⟨g1, g2, _⟩ := h1 n hn
      obtain ⟨d1, d2, _⟩ := logicalOf_iff.1 hl
      refine hc ⟨g1.symm.trans d1, ?_⟩
      rw [d2] at g2
      cases k <;> simp [LinkKind.nodeKind] at g2 ⊢
    rw [this]
    exact Nat.zero_le _

theorem parseXmlLink_count {tag r role : String} {h : Heap} {arcs : List Arc} {ends : List LinkEnd} {x : Heap × List Network × List (QName × Nat)} (hx : parseXmlLink tag so r h arcs ends = .ok x) :
    (x.2.1.filter (Network.logicalOf role .calculation)).length ≤ if r = role then (linkKinds tag).count .calculation else 0 := by
  have key : ∀ (ks : List LinkKind) (s x : Heap × List Network × List (QName × Nat)), ks.foldlM (fun s k => do
      let r ← parseLink k so r s.1 arcs ends
      return (r.heap, s.2.1 ++ r.networks, s.2.2 ++ r.labels)) s = (.ok x : Except PyErr _) →
      (x.2.1.filter (Network.logicalOf role .calculation)).length ≤ (s.2.1.filter (Network.logicalOf role .calculation)).length + if r = role then ks.count .calculation else 0 := by
    intro ks
    induction ks with
    | nil => intro s x hx; cases hx; exact Nat.le_add_right _ _
    | cons k ks ih =>
      intro s x hx
      rw [List.foldlM_cons] at hx
      cases hr : parseLink k so r s.1 arcs ends with
      | error e => rw [hr] at hx; cases hx
      | ok res =>
        rw [hr] at hx
        have h1 := ih _ _ hx
        have h2 := parseLink_count (role := role) hr
        dsimp only at h1
        rw [List.filter_append, List.length_append] at h1
        have h3 : (k :: ks).count LinkKind.calculation = [k].count .calculation + ks.count .calculation := by
          rw [← List.count_append]; rfl
        split at h2 <;> rename_i hrole
        · rw [if_pos hrole] at h1 ⊢
          omega
        · rw [if_neg hrole] at h1 ⊢
          omega
  have := key _ _ _ hx
  simpa using this

theorem LinkRun.count {h h' : Heap} {ls : List LinkXml} {ns : List Network} {lbs : List (QName × Nat)} (hr : LinkRun so h ls h' ns lbs) (role : String) :
    (ns.filter (Network.logicalOf role .calculation)).length ≤ (ls.map (netsOfLink role)).sum := by
  induction hr with
  | nil => exact Nat.le_refl _
  | skip _ _ ih => rw [List.map_cons, List.sum_cons]; omega
  | @link h l ls r x h' ns lbs h1 h2 _ ih =>
    rw [List.map_cons, List.sum_cons, List.filter_append, List.length_append]
    have := parseXmlLink_count (role := role) h2
    have h3 : netsOfLink role l = if r = role then (linkKinds (l.node.tag.getD "")).count .calculation else 0 := by unfold netsOfLink; rw [h1]
    rw [h3]
    omega

theorem sum_indicator {α : Type} (q : α → Bool) (l : List α) : (l.map (fun x => if q x = true then 1 else 0)).sum = (l.filter q).length := by
  induction l with
  | nil => rfl
  | cons a l ih =>
    rw [List.map_cons, List.sum_cons, ih, List.filter_cons]
    cases q a
    · simp
    · simp [Nat.add_comm]

theorem calculation_tag : ∀ p ∈ tagKinds, p.2.count .calculation = if p.1 = "calculationLink" then 1 else 0 := by decide +kernel

theorem linkTag_iff {a b : String} : linkTag a = linkTag b ↔ a = b := by
  constructor
  · intro h
    have := congrArg String.toList h
    unfold linkTag at this
    rw [String.toList_append, String.toList_append] at this
    exact String.toList_inj.1 (List.append_cancel_left this)
  · rintro rfl; rfl

theorem linksOfRole_eq (roots : List XNode) (name role : String) :
    linksOfRole roots name role = ((linkElements roots).filter (fun p => decide (p.2.tag = some (linkTag name)) && decide (p.2.xlinkAttr "role" = some role))).map (·.2) := by
  unfold linksOfRole linkElements
  rw [List.filter_flatMap, List.map_flatMap]
  congr 1
  funext r
  rw [← scoped_nodes [r.lang] r, List.filter_map, List.filter_filter]
  congr 1
  apply List.filter_congr
  rintro ⟨u, x⟩ _
  simp only [Function.comp]
  by_cases ht : x.tag = some (linkTag name)
  · by_cases he : x.xlinkAttr "type" = some "extended"
    · rw [isLink_of ht he, decide_eq_true ht, decide_eq_true he]
      simp
    · have : isLinkElement x = false := by
        unfold isLinkElement
        rw [show decide (x.attr? "{http://www.w3.org/1999/xlink}type" = some "extended") = false from decide_eq_false he, Bool.and_false]
      rw [this, decide_eq_false he]
      simp
  · rw [decide_eq_false ht]
    simp

theorem links_count (hp : PlainLinks roots) (role : String) :
    ((inOrder ((linkNodes roots).map (linkOf elems facts float str))).map (netsOfLink role)).sum = (linksOfRole roots "calculationLink" role).length := by
  have hperm : (inOrder ((linkNodes roots).map (linkOf elems facts float str))).Perm ((linkNodes roots).map (linkOf elems facts float str)) := List.filter_append_perm _ _
  rw [(hperm.map _).sum_nat, List.map_map, linksOfRole_eq, List.length_map]
  rw [← sum_indicator]
  conv => rhs; rw [← numberLinks_map (linkElements roots) 0]
  rw [List.map_map]
  congr 1
  apply List.map_congr_left
  intro l hl
  simp only [Function.comp]
  unfold netsOfLink
  rw [role_eq, linkOf_node, xlink?_eq (hp.scope_link hl) (by decide +kernel) (by decide +kernel)]
  obtain ⟨name, hn, ht⟩ := hp.tag_link hl
  obtain ⟨p, hpt, rfl⟩ := List.mem_map.1 hn
  rw [ht, Option.getD_some, linkKinds_names p hpt, calculation_tag p hpt]
  cases hr : l.node.xlinkAttr "role" with
  | none => simp
  | some r =>
    simp only [Option.some.injEq]
    by_cases h1 : r = role <;> by_cases h2 : p.1 = "calculationLink" <;> simp [h1, h2, linkTag_iff]

theorem HasLink.mem_linksOfRole {name role : String} {up : List XNode} {link : XNode} (h : HasLink roots name role up link) : link ∈ linksOfRole roots name role := by
  obtain ⟨root, hr, own, hb, _⟩ := h.placed
  refine List.mem_flatMap.2 ⟨root, hr, List.mem_filter.2 ⟨?_, ?_⟩⟩
  · rw [← scoped_nodes [] root]
    exact List.mem_map.2 ⟨(own.map XNode.lang ++ [], link), (scoped_iff ..).2 ⟨own, hb, rfl⟩, rfl⟩
  · rw [decide_eq_true h.tag, decide_eq_true h.extended, decide_eq_true h.role]; rfl

/-- The network of a role with one link is the one of the link. -/
theorem only_network (h : readNetworks elems facts float str so steps roots = some (.ok s)) (hp : PlainLinks roots) {role : String} {link : XNode}
    (hone : linksOfRole roots "calculationLink" role = [link]) {net : Network} (hn : net ∈ s.networks.store.getByType .calculation) (hl : net.logicalOf role .calculation = true) :
    ∃ l ∈ linkNodes roots, l.node = link ∧ ∃ up, HasLink roots "calculationLink" role up link ∧ ∃ r es, Reading elems facts float str l r es ∧
      ∃ h0 res, parseLink .calculation so role h0 r.link.arcs r.link.ends = .ok res ∧ res.networks = [net] ∧ (∀ i, InNetwork s.networks.heap net.roots i ↔ InNetwork res.heap net.roots i) ∧
        ∀ i n, NewNode h0 res i n → InNetwork res.heap net.roots i → s.networks.heap[i]? = some n := by
  obtain ⟨hparse, _, _, _⟩ := readNetworks_ok h
  obtain ⟨h1, parsed, hrun, hlog, _, _, hframe, _⟩ := C84_networks hparse
  rcases hlog role .calculation with ⟨_, h2⟩ | ⟨net', h2, h3, hu⟩
  · have := List.mem_filter.2 ⟨hn, hl⟩
    rw [h2] at this
    cases this
  have hnn : net = net' := by
    have := List.mem_filter.2 ⟨hn, hl⟩
    rw [h2] at this
    exact List.mem_singleton.1 this
  subst hnn
  have hcount := hrun.count role
  rw [links_count hp role, hone] at hcount
  have hpar : ∃ n, parsed.filter (Network.logicalOf role .calculation) = [n] := by
    match hf : parsed.filter (Network.logicalOf role .calculation), h3, hcount with
    | [n], _, _ => exact ⟨n, rfl⟩
    | a :: b :: l, _, hc => simp at hc
  obtain ⟨n, hpar⟩ := hpar
  obtain ⟨rfl, hch⟩ := hu.alone n hpar
  have hmem : net ∈ parsed := by
    have : net ∈ parsed.filter (Network.logicalOf role .calculation) := by rw [hpar]; exact List.mem_singleton.2 rfl
    exact (List.mem_filter.1 this).1
  obtain ⟨l, hlm, up, hlink, r, es, R, k', h0, res, hpl, hnr, hkept⟩ := network_link h hp hrun (name := "calculationLink") (by simp [unitedTags]) hmem hl
  have hlk : l.node = link := by
    have := hlink.mem_linksOfRole
    rw [hone] at this
    exact List.mem_singleton.1 this
  rw [hlk] at hlink
  obtain ⟨_, c2, _⟩ := (C20_networks hpl).1 net hnr
  obtain ⟨_, d2, _⟩ := logicalOf_iff.1 hl
  rw [d2] at c2
  have hk : k' = .calculation := by cases k' <;> simp [LinkKind.nodeKind] at c2 ⊢
  subst hk
  have hnets : res.networks = [net] := by
    have := (C20_networks hpl).2.1 rfl
    match hf : res.networks, this, hnr with
    | [n], _, hm => rw [List.mem_singleton.1 hm]
    | a :: b :: l, hc, _ => simp at hc
  have hg := (parseLink_grow hpl).1
  have hin : ∀ i, InNetwork s.networks.heap net.roots i ↔ InNetwork res.heap net.roots i := fun i => (inNetwork_congr hch i).trans (kept_inNetwork hg hnr hkept i)
  refine ⟨l, hlm, hlk, up, hlink, r, es, R, h0, res, hpl, hnets, hin, ?_⟩
  intro i n hnew hi
  have hlt := (List.getElem?_eq_some_iff.1 hnew.2).1
  have hb := hframe i
  rw [hkept i hlt, hnew.2, Option.map_some] at hb
  obtain ⟨n', hn', he⟩ := Option.map_eq_some_iff.1 hb
  have hc : n'.children = n.children := by
    rw [← children_of hn', ← children_of hnew.2, hch i ((kept_inNetwork hg hnr hkept i).2 hi), kept_children hkept hlt]
  rw [hn']
  cases n
  cases n'
  simp only at hc
  subst hc
  simp only [NetNode.mk.injEq] at he ⊢
  simp [he]

/-! ## The children in terms of the link -/

theorem rel2_of_getElem {α β : Type} {R : α → β → Prop} : ∀ {l : List α} {m : List β}, l.length = m.length → (∀ (j : Nat) a b, l[j]? = some a → m[j]? = some b → R a b) → Rel2 R l m
  | [], [], _, _ => .nil
  | a :: l, b :: m, hl, h => .cons (h 0 a b rfl rfl) (rel2_of_getElem (by simpa using hl) (fun j x y hx hy => h (j + 1) x y hx hy))

theorem Rel2.filterMap_eq {α β γ : Type} {R : α → β → Prop} {l : List α} {m : List β} (h : Rel2 R l m) (f : α → Option γ) (g : β → Option γ) (hfg : ∀ a b, R a b → f a = g b) :
    l.filterMap f = m.filterMap g := by
  induction h with
  | nil => rfl
  | cons h1 _ ih => rw [List.filterMap_cons, List.filterMap_cons, hfg _ _ h1, ih]

theorem linkParts_mem {link : XNode} {t : String} {x : XNode} (h : x ∈ linkParts link t) : ∃ own, Part link t own x := by
  obtain ⟨h1, h2⟩ := List.mem_filter.1 h
  rw [Bool.and_eq_true, decide_eq_true_iff, decide_eq_true_iff] at h2
  rw [← scoped_nodes [] link] at h1
  obtain ⟨p, hp, rfl⟩ := List.mem_map.1 h1
  obtain ⟨own, hb, _⟩ := (scoped_iff ..).1 hp
  exact ⟨own, hb, h2.1, h2.2⟩

theorem arcs_parts {l : LinkNode} (hp : PlainLinks roots) (hl : l ∈ linkNodes roots) : linkParts l.node "arc" = l.arcs.map (·.2) := by
  unfold linkParts LinkNode.arcs findXlink
  rw [hp.scope_link hl, ← scoped_nodes l.langs l.node, List.filter_map]
  dsimp only
  congr 1
  apply List.filter_congr
  intro x _
  simp only [Function.comp, List.any_cons, List.any_nil, Bool.or_false]
  congr 1
  cases x.2.tag <;> simp

theorem ends_parts {l : LinkNode} (hp : PlainLinks roots) (hl : l ∈ linkNodes roots) (hres : ∀ own x, ¬ Part l.node "resource" own x) : linkParts l.node "locator" = l.ends.map (·.2) := by
  unfold linkParts LinkNode.ends findXlink
  rw [hp.scope_link hl, ← scoped_nodes l.langs l.node, List.filter_map]
  dsimp only
  congr 1
  apply List.filter_congr
  intro x hx
  obtain ⟨own, hb, _⟩ := (scoped_iff ..).1 hx
  simp only [Function.comp, List.any_cons, List.any_nil, Bool.or_false]
  cases ht : x.2.tag with
  | none => simp
  | some t =>
    have hne : x.2.tag ≠ none := by rw [ht]; simp
    have : decide (x.2.xlinkAttr "type" = some "resource") = false := decide_eq_false (fun h => hres own x.2 ⟨hb, hne, h⟩)
    rw [show decide (x.2.attr? ("{" ++ "http://www.w3.org/1999/xlink" ++ "}type") = some "resource") = false from this]
    rw [Bool.false_or]
    rfl

/-- What an end of a calculation link is read as. -/
theorem Reading.locators {l : LinkNode} {r : LinkReading} {es : List EndReading} (R : Reading elems facts float str l r es) (hp : PlainLinks roots) (hl : l ∈ linkNodes roots)
    (hv : ValidLink elems facts float "calculationLink" l.node) :
    Rel2 (fun y e => y.xlinkAttr "label" = some e.label ∧ e.target = (locatorName elems y).map (fun q => .element q true)) (linkParts l.node "locator") r.link.ends := by
  have hres : ∀ own x, ¬ Part l.node "resource" own x := by
    intro own x hx
    obtain ⟨_, _, t, ht, _⟩ := hv.resources own x hx
    simp [resourceTags] at ht
  rw [ends_parts hp hl hres, Rel2.map_left, R.ends]
  obtain ⟨hlen, hread⟩ := readEnds_ok R.read
  refine rel2_of_getElem (by rw [List.length_map, hlen]) ?_
  intro j x e hx he
  rw [List.getElem?_map] at he
  obtain ⟨d, hd, rfl⟩ := Option.map_eq_some_iff.1 he
  obtain ⟨t, ht, own, hpart, _⟩ := (findXlink_parts (hp.scope_link hl) ["resource", "locator"] l.langs x).1 (List.mem_of_getElem? hx)
  simp only [List.mem_cons, List.not_mem_nil, or_false] at ht
  rcases ht with rfl | rfl
  · exact absurd hpart (hres own x.2)
  obtain ⟨href, lab, h1, h2, h3, _, h4⟩ := readEnd_locator (hp.scope_part hl hpart) hpart.type (hread j x d hx hd)
  refine ⟨by rw [h2, h3], ?_⟩
  obtain ⟨_, href', i, g1, g2, g3, g4⟩ := hv.locators own x.2 hpart
  rw [h1] at g1
  cases g1
  rw [refers_unique g2] at g3 g4
  unfold locatorName
  rw [h1, Option.bind_some]
  rcases h4 with ⟨el, f1, f2, _⟩ | ⟨f1, ⟨f, f2, _⟩ | ⟨f2, f3, _⟩⟩
  · rw [f1, f2, g3 el f1 rfl]; rfl
  · have := g4 f f1 f2
    simp at this
  · rw [f1, f3]; rfl

theorem Reading.arcs_rel {l : LinkNode} {r : LinkReading} {es : List EndReading} (R : Reading elems facts float str l r es) (hp : PlainLinks roots) (hl : l ∈ linkNodes roots) :
    Rel2 (fun x a => x.xlinkAttr "from" = some a.frm ∧ x.xlinkAttr "to" = some a.to) (linkParts l.node "arc") r.link.arcs := by
  rw [arcs_parts hp hl, Rel2.map_left]
  refine R.arcs.imp ?_
  intro x hx a ha
  obtain ⟨t, ht, own, hpart, _⟩ := (findXlink_parts (hp.scope_link hl) ["arc"] l.langs x).1 hx
  rw [List.mem_singleton] at ht
  subst ht
  obtain ⟨a1, a2, _⟩ := readArc_ok (hp.scope_part hl hpart) ha
  exact ⟨a1, a2⟩

/-- The weight that the arcs to a label state. -/
def weightTo (float : String → Option Rat) (link : XNode) (m : String) : Rat :=
  (((linkParts link "arc").find? (fun x => decide (x.xlinkAttr "to" = some m))).bind (arcWeightOf float)).getD 0

theorem arc_between_part {link : XNode} {name : String} (hv : ValidLink elems facts float name link) {x : XNode} (hx : x ∈ linkParts link "arc") {m : String} (ht : x.xlinkAttr "to" = some m) :
    (∃ l, ArcBetween link l m x) ∧ ∃ w, arcWeightOf float x = some w := by
  obtain ⟨own, hpart⟩ := linkParts_mem hx
  obtain ⟨⟨l, h1⟩, _, ⟨role, h3⟩, _, h5⟩ := hv.arcs own x hpart
  refine ⟨⟨l, own, role, hpart, h1, ht, h3⟩, ?_⟩
  unfold arcWeightOf
  cases ha : x.attr? "weight" with
  | none => exact ⟨_, rfl⟩
  | some t =>
    obtain ⟨g1, q, g2⟩ := h5 t ha
    exact ⟨q, by simp only [if_neg g1, g2]⟩

theorem weightTo_eq {link : XNode} {name : String} (hv : ValidLink elems facts float name link) (hag : AgreeOn link "weight") {x : XNode} (hx : x ∈ linkParts link "arc") {m : String}
    (ht : x.xlinkAttr "to" = some m) : arcWeightOf float x = some (weightTo float link m) := by
  obtain ⟨⟨l, hb⟩, w, hw⟩ := arc_between_part hv hx ht
  have hs : ∃ x', (linkParts link "arc").find? (fun x => decide (x.xlinkAttr "to" = some m)) = some x' := by
    rw [← Option.isSome_iff_exists, List.find?_isSome]
    exact ⟨x, hx, decide_eq_true ht⟩
  obtain ⟨x', hx'⟩ := hs
  have ht' : x'.xlinkAttr "to" = some m := of_decide_eq_true (List.find?_some (p := fun x : XNode => decide (x.xlinkAttr "to" = some m)) hx')
  obtain ⟨⟨l', hb'⟩, w', hw'⟩ := arc_between_part hv (List.mem_of_find?_eq_some hx') ht'
  unfold weightTo
  rw [hx', Option.bind_some, hw', Option.getD_some, ← hw']
  unfold arcWeightOf
  rw [hag l l' m x x' hb hb']

/-- What a node of a calculation link contributes, given the weight for its label. -/
def placeData (w : String → Rat) (o : Option (String × Target)) : Option (QName × Rat) :=
  o.bind (fun p => match p.2 with
    | .element q _ => some (q, w p.1)
    | _ => none)

theorem summands_data {l : LinkNode} {r : LinkReading} {es : List EndReading} (R : Reading elems facts float str l r es) (hp : PlainLinks roots) (hl : l ∈ linkNodes roots)
    (hv : ValidLink elems facts float "calculationLink" l.node) (hag : AgreeOn l.node "weight") (lab : String) :
    ((r.link.arcs.filter (fun a => decide (a.frm = lab))).flatMap (fun a => ((resolvedEnds r.link.ends).filter (fun e => decide (e.1 = a.to))).map some)).filterMap (placeData (weightTo float l.node)) =
      (summands l.node lab).filterMap (summandData elems float) := by
  unfold summands
  rw [List.filterMap_flatMap, List.filterMap_flatMap]
  symm
  refine (R.arcs_rel hp hl).filter_flatMap _ _ _ _ ?_ ?_
  · rintro x _ a ⟨h1, _⟩
    rw [h1]
    simp
  · rintro x hx a ⟨_, h2⟩
    have hw := weightTo_eq hv hag hx h2
    rw [List.filterMap_map, List.filterMap_map, List.filterMap_filter, List.filterMap_filter]
    unfold resolvedEnds
    rw [List.filterMap_filterMap]
    refine (R.locators hp hl hv).filterMap_eq _ _ ?_
    rintro y e ⟨g1, g2⟩
    rw [g1, h2, g2]
    simp only [Function.comp, summandData, hw, Option.getD_some]
    cases locatorName elems y with
    | none => simp
    | some q =>
      by_cases he : e.label = a.to
      · simp [he, placeData]
      · simp [he]

theorem part_linkParts {link : XNode} {t : String} {own : List XNode} {x : XNode} (h : Part link t own x) : x ∈ linkParts link t := by
  refine List.mem_filter.2 ⟨?_, by rw [decide_eq_true h.element, decide_eq_true h.type]; rfl⟩
  rw [← scoped_nodes [] link]
  exact List.mem_map.2 ⟨(own.map XNode.lang ++ [], x), (scoped_iff ..).2 ⟨own, h.below, rfl⟩, rfl⟩

/-- The name and the weight of a node with a report element. -/
def numberData (n : NetNode) : Option (QName × Rat) :=
  match n.target with
  | .element q _ => some (q, n.weight)
  | _ => none

/-- The children of a node have the names and weights of the summands for its label. -/
theorem children_data {l : LinkNode} {r : LinkReading} {es : List EndReading} (R : Reading elems facts float str l r es) (hp : PlainLinks roots) (hl : l ∈ linkNodes roots)
    (hv : ValidLink elems facts float "calculationLink" l.node) (hag : AgreeOn l.node "weight") (hnd : (arcKeys l.node).Nodup) {role : String} {h0 : Heap} {res : LinkResult}
    (hpl : parseLink .calculation so role h0 r.link.arcs r.link.ends = .ok res) {i : Nat} {n : NetNode} (hn : NewNode h0 res i n) :
    (n.children.filterMap (fun c => (res.heap[c]?).bind numberData)).Perm ((summands l.node n.label).filterMap (summandData elems float)) := by
  have hnd' : (r.link.arcs.map Arc.key).Nodup := by
    rw [R.keys hp hl] at hnd
    have : r.link.arcs.map (fun a => (some a.frm, some a.to, some a.role)) = (r.link.arcs.map Arc.key).map (fun k => (some k.1, some k.2.1, some k.2.2)) := by
      rw [List.map_map]; rfl
    rw [this] at hnd
    exact (List.pairwise_map.1 hnd).imp (fun h e => h (by rw [e]))
  obtain ⟨rank, hrank⟩ := hv.acyclic
  have hrank' : ∀ a ∈ r.link.arcs, rank a.frm < rank a.to := fun a ha => hrank _ _ ((R.joined hp hl _ _).1 ⟨a, ha, rfl, rfl⟩)
  have hperm := (link_children hpl rfl hnd' hn).filterMap (placeData (weightTo float l.node))
  rw [summands_data R hp hl hv hag, List.filterMap_map] at hperm
  refine List.Perm.trans (List.Perm.of_eq ?_) hperm
  apply filterMap_congr'
  intro c hc
  obtain ⟨m, hm⟩ := (C20_edges hpl i n hn).1 c hc
  obtain ⟨a, ha, _, h2, _⟩ := (C20_edge_iff hpl i c n m hn hm).1 hc
  obtain ⟨b, hb, hb1, hb2⟩ := shows_some_arc hpl rank hrank' hm ha ⟨h2, by intro hf; cases hf⟩
  obtain ⟨own, x, hx, hxa⟩ := R.arc_of hp hl hb
  obtain ⟨_, x2, _, _, x5, _⟩ := readArc_ok (hp.scope_part hl hx) hxa
  have hw := hb2.weight rfl
  rw [x5] at hw
  have hw' := states_weight.1 (means_states hw)
  rw [hb1] at x2
  rw [weightTo_eq hv hag (part_linkParts hx) x2] at hw'
  have hw2 := Option.some.inj hw'
  simp only [Function.comp, hm.2, Option.map_some, Option.bind_some, NetNode.place, placeData, numberData, hw2]

theorem sums_totals {fs : List Fact} {t : CalcTree Rat} {link : XNode} {lab : String} {q : QName} (hq : t.concept.name = q)
    (hd : (t.children.map (fun u => (u.concept.name, u.weight))).Perm ((summands link lab).filterMap (summandData elems float)))
    (hw : ∀ p ∈ summands link lab, ∃ w, arcWeightOf float p.1 = some w) : SumsHold (ratOps float) fs t ↔ TotalsHold elems float fs link lab q := by
  have hne : t.children ≠ [] ↔ ∃ p ∈ summands link lab, ∃ q', LocatorFor elems p.2 q' := by
    have h1 : t.children ≠ [] ↔ ∃ d, d ∈ (summands link lab).filterMap (summandData elems float) := by
      refine Iff.trans ⟨fun h => List.exists_mem_of_ne_nil _ h, fun ⟨u, hu⟩ => List.ne_nil_of_mem hu⟩ ?_
      constructor
      · rintro ⟨u, hu⟩
        exact ⟨_, hd.mem_iff.1 (List.mem_map.2 ⟨u, hu, rfl⟩)⟩
      · rintro ⟨d, hdm⟩
        obtain ⟨u, hu, _⟩ := List.mem_map.1 (hd.mem_iff.2 hdm)
        exact ⟨u, hu⟩
    rw [h1]
    constructor
    · rintro ⟨d, hdm⟩
      obtain ⟨p, hp, hpd⟩ := List.mem_filterMap.1 hdm
      obtain ⟨q', hq', _⟩ := Option.map_eq_some_iff.1 hpd
      exact ⟨p, hp, q', locatorFor_iff.2 hq'⟩
    · rintro ⟨p, hp, q', hq'⟩
      exact ⟨_, List.mem_filterMap.2 ⟨p, hp, by unfold summandData; rw [locatorFor_iff.1 hq']; rfl⟩⟩
  have hs : ∀ f v, (∃ x, WeightedSum (ratOps float) fs f 0 t.children x ∧ decide (v = x) = true) ↔ AddsUp elems float fs f (summands link lab) v := by
    intro f v
    rw [addsUp_iff hw]
    constructor
    · rintro ⟨x, h1, h2⟩
      obtain ⟨xs, g1, g2⟩ := weightedSum_iff.1 h1
      obtain ⟨ys, g3, g4⟩ := g1.perm hd
      rw [Rat.zero_add] at g2
      exact ⟨ys, g4, by rw [of_decide_eq_true h2, g2, sum_perm g3]⟩
    · rintro ⟨ys, h1, h2⟩
      obtain ⟨xs, g3, g4⟩ := h1.perm hd.symm
      exact ⟨v, weightedSum_iff.2 ⟨xs, g4, by rw [Rat.zero_add, h2, sum_perm g3]⟩, decide_eq_true rfl⟩
  unfold SumsHold TotalsHold
  rw [hne, hq]
  constructor
  · intro h h1 f hf h2
    obtain ⟨v, x, g1, g2, g3⟩ := h h1 f hf h2
    exact ⟨v, g1, (hs f v).1 ⟨x, g2, g3⟩⟩
  · intro h h1 f hf h2
    obtain ⟨v, g1, g2⟩ := h h1 f hf h2
    obtain ⟨x, g3, g4⟩ := (hs f v).2 g2
    exact ⟨v, x, g1, g3, g4⟩

theorem named_name {docs : List SchemaDoc} (q : QName) :
    ((((counting (schemaDeclarations docs)).find? (fun d => decide (d.name = q))).bind (fun d => (createElement d.x d.name).1.bind (·.concept))).getD { name := q }).name = q := by
  cases hf : (counting (schemaDeclarations docs)).find? (fun d => decide (d.name = q)) with
  | none => rfl
  | some d =>
    have hd : d.name = q := of_decide_eq_true (List.find?_some (p := fun d : Declaration => decide (d.name = q)) hf)
    rw [Option.bind_some]
    cases he : (createElement d.x d.name).1 with
    | none => rfl
    | some e =>
      rw [Option.bind_some]
      have := ((C85_created d.x d.name).1 e he).2.2.2
      split at this
      · obtain ⟨c, h1, h2⟩ := this
        rw [h1, Option.getD_some, h2.name, hd]
      · rw [this]; rfl

theorem Met.located {fs : List Fact} {link : XNode} {l : String} {q : QName} (h : Met elems fs link l q) : Locates elems link l q := by
  cases h with
  | top h1 _ => exact h1
  | under _ _ _ h4 => exact h4

/-- The aggregation check for the networks that were read from valid link bases, with the concepts that the schemas declare. -/
theorem totals_of_links {docs : List SchemaDoc} (hlk : ValidLinkbases (taxonomyStore docs) facts float (docs.map (·.root)))
    (hr : readNetworks (taxonomyStore docs) facts float str so steps (docs.map (·.root)) = some (.ok s)) {con : QName → Concept}
    (hcon : ∀ q, con q = (((counting (schemaDeclarations docs)).find? (fun d => decide (d.name = q))).bind (fun d => (createElement d.x d.name).1.bind (·.concept))).getD { name := q })
    {role : String} {link : XNode} (hone : linksOfRole (docs.map (·.root)) "calculationLink" role = [link])
    (hag : AgreeOn link "weight") {fs : List Fact} (hall : ∀ f ∈ fs, ∃ k, f.HasConcept k)
    {net : Network} (hn : net ∈ s.networks.store.getByType .calculation) (hl : net.logicalOf role .calculation = true) :
    ∃ depth ts, (∀ j, net.roots.mapM (s.networks.heap.calcTree con (depth + j)) = some ts) ∧
      (isAggregationConsistent (ratOps float) fs ts = .ok true ↔ ∀ l q, Met (taxonomyStore docs) fs link l q → TotalsHold (taxonomyStore docs) float fs link l q) := by
  obtain ⟨rank, hrank⟩ := C102_no_cycles hlk.plain hlk.valid hr
  obtain ⟨depth, ts, hts⟩ := forest_exists (concept := con) hrank (fun i hi => by
    obtain ⟨q, hq⟩ := calculation_concepts hr hlk.plain hn hl hi
    exact ⟨q, true, hq⟩)
  refine ⟨depth, ts, hts, ?_⟩
  rw [C17_aggregation_exact _ fs hall]
  have htr : Rel2 (TreeOf con s.networks.heap) net.roots ts := (mapM_option_iff.1 (hts 0)).imp (fun _ _ _ hc => ⟨_, hc⟩)
  obtain ⟨l, hlm, hnode, up, hlink, r, es, R, h0, res, hpl, hnets, hin, hsame⟩ := only_network hr hlk.plain hone hn hl
  subst hnode
  have hvl := hlk.valid _ role up l.node hlink
  have hroot : Rooted (taxonomyStore docs) l.node := ⟨hvl.acyclic, hlk.sources ("calculationLink", .calculation) (by simp [unitedTags]) role up l.node hlink⟩
  obtain ⟨⟨rank', hrank'⟩, hsrc⟩ := hroot.arcs R hlk.plain hlm
  have hname : ∀ q, (con q).name = q := fun q => by rw [hcon]; exact named_name q
  have hnr : net ∈ res.networks := by rw [hnets]; exact List.mem_singleton.2 rfl
  have hinside : ∀ i n, NewNode h0 res i n → InNetwork res.heap net.roots i := by
    intro i n hnew
    obtain ⟨net', h1, rt, h2, h3⟩ := C67_reachable_partial hpl rank' hrank' hsrc i n hnew
    rw [hnets, List.mem_singleton] at h1
    subst h1
    exact ⟨rt, h2, h3⟩
  have hheap : ∀ i n, NewNode h0 res i n → s.networks.heap[i]? = some n := fun i n hnew => hsame i n hnew (hinside i n hnew)
  have hloc : ∀ i n, NewNode h0 res i n → ∃ q, n.target = .element q true ∧ Locates (taxonomyStore docs) l.node n.label q := by
    intro i n hnew
    obtain ⟨e, he, e1, e2⟩ := new_end hpl hnew
    obtain ⟨q, hq⟩ : Admissible .calculation n.target := C69_objects hpl e he _ e2
    rw [hq] at e2
    exact ⟨q, hq, (R.locates hlk.plain hlm _ _).1 ⟨e, he, e1, true, e2⟩⟩
  -- the tree of a node and its sums
  have hsum : ∀ i n q t, NewNode h0 res i n → n.target = .element q true → TreeOf con s.networks.heap i t →
      t.concept.name = q ∧ Rel2 (TreeOf con s.networks.heap) n.children t.children ∧
      (SumsHold (ratOps float) fs t ↔ TotalsHold (taxonomyStore docs) float fs l.node n.label q) := by
    intro i n q t hnew hq ht
    obtain ⟨n', q', b', g1, g2, g3, _, g5⟩ := ht.data
    rw [hheap i n hnew] at g1
    cases g1
    rw [hq] at g2
    cases g2
    have hqn : t.concept.name = q := by rw [g3, hname]
    refine ⟨hqn, g5, sums_totals hqn ?_ ?_⟩
    · refine List.Perm.trans (List.Perm.of_eq ?_) (children_data R hlk.plain hlm hvl hag (hlk.once _ _ _ _ hlink) hpl hnew)
      rw [← List.filterMap_eq_map]
      symm
      have g6 : Rel2 (fun c u => (∃ m, NewNode h0 res c m) ∧ TreeOf con s.networks.heap c u) n.children t.children :=
        g5.imp (fun c hc u hu => ⟨(C20_edges hpl i n hnew).1 c hc, hu⟩)
      refine g6.filterMap_eq _ _ ?_
      rintro c u ⟨⟨m, hm⟩, hu⟩
      obtain ⟨m', q', b', f1, f2, f3, f4, _⟩ := hu.data
      rw [hheap c m hm] at f1
      cases f1
      rw [hm.2, Option.bind_some]
      unfold numberData
      rw [f2]
      simp only [Function.comp, f3, f4, hname]
    · rintro ⟨x, y⟩ hxy
      obtain ⟨x', hx', hy⟩ := List.mem_flatMap.1 hxy
      obtain ⟨y', _, hxy'⟩ := List.mem_map.1 hy
      cases hxy'
      have hx := (List.mem_filter.1 hx').1
      obtain ⟨own, hpart⟩ := linkParts_mem hx
      obtain ⟨_, ⟨m, hm⟩, _⟩ := hvl.arcs own x hpart
      exact (arc_between_part hvl hx hm).2
  have hrep : ∀ (t : CalcTree Rat) q, t.concept.name = q → (Reported fs t ↔ ∃ f ∈ fs, ∃ k, f.HasConcept k ∧ k.name = q) := by
    rintro t q rfl
    exact Iff.rfl
  have hmet : ∀ t, ReachedThroughReported fs ts t → ∃ i n q, NewNode h0 res i n ∧ n.target = .element q true ∧ TreeOf con s.networks.heap i t ∧
      Met (taxonomyStore docs) fs l.node n.label q := by
    intro t ht
    induction ht with
    | @root t hm =>
      obtain ⟨i, hi, hit⟩ := htr.mem_right _ hm
      obtain ⟨n, hnew, hno⟩ := (C20_roots hpl i).1 ⟨net, hnr, hi⟩
      obtain ⟨q, hq, hq2⟩ := hloc i n hnew
      refine ⟨i, n, q, hnew, hq, hit, .top hq2 ?_⟩
      intro l' hj
      obtain ⟨a, ha, _, a2⟩ := (R.joined hlk.plain hlm _ _).2 hj
      exact hno a ha a2 (by intro hf; cases hf)
    | @child t u _ h2 h3 ih =>
      obtain ⟨i, n, q, hnew, hq, hit, hmt⟩ := ih
      obtain ⟨g1, g2, _⟩ := hsum i n q t hnew hq hit
      obtain ⟨c, hc, hcu⟩ := g2.mem_right _ h3
      obtain ⟨m, hm⟩ := (C20_edges hpl i n hnew).1 c hc
      obtain ⟨a, ha, a1, a2, _⟩ := (C20_edge_iff hpl i c n m hnew hm).1 hc
      obtain ⟨q', hq', hl'⟩ := hloc c m hm
      exact ⟨c, m, q', hm, hq', hcu, .under hmt ((hrep t q g1).1 h2) ((R.joined hlk.plain hlm _ _).1 ⟨a, ha, a1, a2⟩) hl'⟩
  have hreach : ∀ lab q, Met (taxonomyStore docs) fs l.node lab q → ∀ i n, NewNode h0 res i n → n.label = lab → n.target = .element q true →
      ∃ t, ReachedThroughReported fs ts t ∧ TreeOf con s.networks.heap i t := by
    intro lab q hm
    induction hm with
    | @top lab q h1 h2 =>
      intro i n hnew hlab _
      have hno : NoIncoming .calculation r.link.arcs n := by
        intro a ha hto _
        exact h2 a.frm ((R.joined hlk.plain hlm _ _).1 ⟨a, ha, rfl, hto.trans hlab⟩)
      obtain ⟨net', hn', hi⟩ := (C20_roots hpl i).2 ⟨n, hnew, hno⟩
      rw [hnets, List.mem_singleton] at hn'
      subst hn'
      obtain ⟨t, ht, hit⟩ := htr.mem_left _ hi
      exact ⟨t, .root ht, hit⟩
    | @under lab q lab' q' h1 h2 h3 h4 ih =>
      intro c m hm hlab hq'
      obtain ⟨e, he, e1, b, e2⟩ := (R.locates hlk.plain hlm _ _).2 h1.located
      obtain ⟨P⟩ := parseLink_ok hpl
      obtain ⟨i, n, hnew, n1, n2, _⟩ := P.exists_node (end_resolved he e2) "" (by intro hf; cases hf)
      obtain ⟨q0, hq0, _⟩ := hloc i n hnew
      rw [n2] at hq0
      cases hq0
      obtain ⟨t, ht, hit⟩ := ih i n hnew (n1.trans e1) n2
      obtain ⟨g1, g2, _⟩ := hsum i n q t hnew n2 hit
      obtain ⟨a, ha, a1, a2⟩ := (R.joined hlk.plain hlm _ _).2 h3
      have hc := (C20_edge_iff hpl i c n m hnew hm).2 ⟨a, ha, by rw [a1, n1, e1], by rw [a2, hlab], by intro hf; cases hf⟩
      obtain ⟨u, hu, hcu⟩ := g2.mem_left _ hc
      exact ⟨u, .child ht ((hrep t q g1).2 h2) hu, hcu⟩
  constructor
  · intro h lab q hm
    obtain ⟨e, he, e1, b, e2⟩ := (R.locates hlk.plain hlm _ _).2 hm.located
    obtain ⟨P⟩ := parseLink_ok hpl
    obtain ⟨i, n, hnew, n1, n2, _⟩ := P.exists_node (end_resolved he e2) "" (by intro hf; cases hf)
    obtain ⟨q0, hq0, _⟩ := hloc i n hnew
    rw [n2] at hq0
    cases hq0
    obtain ⟨t, ht, hit⟩ := hreach lab q hm i n hnew (n1.trans e1) n2
    have := (hsum i n q t hnew n2 hit).2.2.1 (h t ht)
    rw [n1, e1] at this
    exact this
  · intro h t ht
    obtain ⟨i, n, q, hnew, hq, hit, hmt⟩ := hmet t ht
    exact (hsum i n q t hnew hq hit).2.2.2 (h _ _ hmt)

/-- C120: the aggregation check of the calculation network of a role that has one calculation link ends, and its result says whether the facts of every total that is met from the top
are the weighted sums the link states, if arcs of the link that lead to the same locator agree on the weight. -/
theorem C120_aggregation_partial {dateOf : String → Option Date} {docs : List SchemaDoc} (hv : ValidFiling dateOf float docs) {o : OpenedFiling}
    (ho : openXml dateOf float str so steps docs = some (.ok o)) {role : String} {link : XNode} (hone : linksOfRole (docs.map (·.root)) "calculationLink" role = [link])
    (hag : AgreeOn link "weight") {fs : List Fact} (hall : ∀ f ∈ fs, ∃ k, f.HasConcept k)
    {net : Network} (hn : net ∈ o.networks.networks.store.getByType .calculation) (hl : net.logicalOf role .calculation = true) :
    ∃ depth, ∀ j, ∃ r, o.isAggregationConsistent float (depth + j) fs net = some r ∧
      (r = .ok true ↔ ∀ l q, Met (taxonomyStore docs) fs link l q → TotalsHold (taxonomyStore docs) float fs link l q) := by
  obtain ⟨hr, hcon⟩ := opened_reading hv ho
  obtain ⟨depth, ts, hts, hb⟩ := totals_of_links hv.links hr hcon hone hag hall hn hl
  refine ⟨depth, fun j => ⟨Brel.isAggregationConsistent (ratOps float) fs ts, ?_, hb⟩⟩
  unfold OpenedFiling.isAggregationConsistent OpenedFiling.calcForest
  rw [hts j]; rfl

open Spec in
theorem stated_concept {dateOf : String → Option Date} {docs : List SchemaDoc} : ∀ f ∈ statedFacts dateOf docs, ∃ k, f.HasConcept k := by
  intro f hf
  obtain ⟨p, _, hp⟩ := List.mem_filterMap.1 hf
  obtain ⟨_, _, ⟨c, _, hc⟩, _⟩ := C41_fact hp
  refine ⟨c, by unfold Fact.getConcept; rw [hc]; rfl, ?_⟩
  unfold factOf at hp
  cases h1 : conceptOf (taxonomyConcept docs) (taxonomyStore docs) p.2 with
  | none => rw [h1] at hp; cases hp
  | some c =>
    rw [h1] at hp
    cases h2 : unitsOf p.1 p.2 with
    | none => rw [h2] at hp; cases hp
    | some us =>
      rw [h2] at hp
      cases h3 : contextOf p.1 p.2 with
      | none => rw [h3] at hp; cases hp
      | some cx =>
        rw [h3] at hp
        cases hp
        exact (C01_has_iff_lookup _ _ _).2 ⟨_, List.mem_cons_self, rfl⟩

theorem opened_facts {dateOf : String → Option Date} {docs : List SchemaDoc} (hv : ValidFiling dateOf float docs) {o : OpenedFiling} (ho : openXml dateOf float str so steps docs = some (.ok o)) :
    o.facts.facts.getAll = statedFacts dateOf docs := by
  obtain ⟨h1, h2, _⟩ := openXml_parts ho
  obtain ⟨hst, hco⟩ := taxonomy_of h1 hv.schemas.plain
  obtain ⟨fs, fst, hf1, _, hf3, _, hf5⟩ := C96_accepted_partial (dateOf := dateOf) hv.instances.texts hv.instances.units hv.instances.concepts hv.instances.facts
  rw [hst, hco, hf1] at h2
  rw [← Except.ok.inj h2, hf5 hv.instances.identified hv.instances.distinct]
  exact (filterMap_of_map hf3).symm

/-- C120 for the facts of the filing itself: the check decides whether the totals that the calculation link states hold for the facts that the instance documents state. -/
theorem C120_own_facts_partial {dateOf : String → Option Date} {docs : List SchemaDoc} (hv : ValidFiling dateOf float docs) {o : OpenedFiling}
    (ho : openXml dateOf float str so steps docs = some (.ok o)) {role : String} {link : XNode} (hone : linksOfRole (docs.map (·.root)) "calculationLink" role = [link])
    (hag : AgreeOn link "weight") {net : Network} (hn : net ∈ o.networks.networks.store.getByType .calculation) (hl : net.logicalOf role .calculation = true) :
    ∃ depth, ∀ j, ∃ r, o.isAggregationConsistent float (depth + j) o.facts.facts.getAll net = some r ∧
      (r = .ok true ↔ ∀ l q, Met (taxonomyStore docs) (statedFacts dateOf docs) link l q → TotalsHold (taxonomyStore docs) float (statedFacts dateOf docs) link l q) := by
  rw [opened_facts hv ho]
  exact C120_aggregation_partial hv ho hone hag stated_concept hn hl

end Brel
