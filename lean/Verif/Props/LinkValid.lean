import Verif.Props.LinkSuccess
import Verif.Spec.LinkValid

/-! C102: valid link bases can be read, and the reports on links are exact. -/

namespace Brel

variable {elems : ElemStore} {facts : FactStore} {float : String → Option Rat} {str : XNode → String} {so : SetOrder} {steps : Nat} {roots : List XNode} {s : ReadNetworks}

theorem linkTag_inj {a b : String} (h : linkTag a = linkTag b) : a = b := by
  unfold linkTag at h
  have := congrArg String.toList h
  rw [String.toList_append, String.toList_append] at this
  exact String.toList_injective (List.append_cancel_left this)

/-! ## Reading the elements of a valid link -/

theorem readArc_succeeds {x : XNode} (hs : XlinkScope x) (h1 : ∃ l, x.xlinkAttr "from" = some l) (h2 : ∃ l, x.xlinkAttr "to" = some l) (h3 : ∃ l, x.xlinkAttr "arcrole" = some l) :
    ∃ a, readArc float x = .ok a := by
  obtain ⟨l, h1⟩ := h1
  obtain ⟨m, h2⟩ := h2
  obtain ⟨r, h3⟩ := h3
  unfold readArc
  rw [(xlink_lit hs).2 h1, (xlink_lit hs).2 h2, (xlink_lit hs).2 h3]
  exact ⟨_, rfl⟩

theorem numAttr_ok {x : XNode} {n : String} (h : NumberAttr float x n) : numAttr float (x.attr? n) ≠ .empty ∧ numAttr float (x.attr? n) ≠ .invalid := by
  unfold numAttr
  cases hx : x.attr? n with
  | none => simp
  | some t =>
    obtain ⟨h1, q, h2⟩ := h t hx
    simp [h1, h2]

theorem readEnd_locator_succeeds {uid : Nat} {langs : List (Option String)} {x : XNode} (hs : XlinkScope x) (ht : x.xlinkAttr "type" = some "locator")
    (h1 : ∃ l, x.xlinkAttr "label" = some l) (h2 : ∃ l, x.xlinkAttr "href" = some l) : ∃ e, readEnd elems facts str uid langs x = .ok e := by
  obtain ⟨l, h1⟩ := h1
  obtain ⟨href, h2⟩ := h2
  unfold readEnd
  rw [(xlink_lit hs).2 ht, (xlink_lit hs).2 h1, (xlink_lit hs).2 h2]
  simp only [bind, Except.bind, if_true]
  unfold resolveLocator
  simp only [ElemStore.hasId, FactStore.hasId, Dict.has_eq, ElemStore.getById_eq, FactStore.getById, Dict.get]
  cases h3 : elems.byId.get? (String.ofList (fragment href.toList)) with
  | some el => exact ⟨_, rfl⟩
  | none =>
    cases h4 : facts.byId.get? (String.ofList (fragment href.toList)) with
    | some f => exact ⟨_, rfl⟩
    | none => exact ⟨_, rfl⟩

theorem readEnd_resource_succeeds {uid : Nat} {langs : List (Option String)} {x : XNode} (hs : XlinkScope x) (ht : x.xlinkAttr "type" = some "resource")
    (h1 : ∃ l, x.xlinkAttr "label" = some l) (h2 : ∃ r, x.xlinkAttr "role" = some r)
    (h3 : ∃ t ∈ ["label", "reference", "footnote"], x.tag = some (linkTag t) ∧ (t = "reference" → ∀ c ∈ x.children, c.tag ≠ none)) : ∃ e, readEnd elems facts str uid langs x = .ok e := by
  obtain ⟨l, h1⟩ := h1
  obtain ⟨r, h2⟩ := h2
  obtain ⟨t, hmem, htag, hch⟩ := h3
  have hno : (!isInfix "label".toList (linkTag t).toList && !isInfix "footnote".toList (linkTag t).toList && isInfix "reference".toList (linkTag t).toList &&
      x.children.any (fun c => c.tag.isNone)) = false := by
    simp only [List.mem_cons, List.not_mem_nil, or_false] at hmem
    rcases hmem with rfl | rfl | rfl
    · have : isInfix "label".toList (linkTag "label").toList = true := by decide +kernel
      rw [this]; rfl
    · have : (x.children.any fun c => c.tag.isNone) = false := by
        rw [List.any_eq_false]
        intro c hc
        have := hch rfl c hc
        simpa [Option.isNone_iff_eq_none] using this
      rw [this, Bool.and_false]
    · have : isInfix "footnote".toList (linkTag "footnote").toList = true := by decide +kernel
      rw [this, Bool.not_true, Bool.and_false, Bool.false_and, Bool.false_and]
  unfold readEnd
  rw [(xlink_lit hs).2 ht, (xlink_lit hs).2 h1]
  simp only [bind, Except.bind, if_true]
  rw [if_neg (by decide)]
  unfold readResource
  rw [(xlink_lit hs).2 h1, (xlink_lit hs).2 h2]
  simp only [bind, Except.bind]
  rw [htag, Option.getD_some]
  rw [if_neg (by rw [hno]; decide)]
  simp only [pure, Except.pure]
  generalize parseResource _ _ = pr
  cases pr <;> exact ⟨_, rfl⟩

theorem readEnds_succeed : ∀ (xs : List (List (Option String) × XNode)) (uid : Nat), (∀ x ∈ xs, ∀ uid, ∃ e, readEnd elems facts str uid x.1 x.2 = .ok e) →
    ∃ es, readEnds elems facts str uid xs = .ok es
  | [], _, _ => ⟨[], rfl⟩
  | x :: xs, uid, h => by
    obtain ⟨e, he⟩ := h x List.mem_cons_self uid
    obtain ⟨es, hes⟩ := readEnds_succeed xs (uid + 1) (fun y hy => h y (List.mem_cons_of_mem _ hy))
    unfold readEnds
    rw [he]
    simp only [bind, Except.bind]
    rw [hes]
    exact ⟨_, rfl⟩

/-- A valid link is read. -/
theorem readLink_succeeds (hp : PlainLinks roots) (hv : ValidLinks elems facts float roots) {l : LinkNode} (hl : l ∈ linkNodes roots) : ∃ r, readLink elems facts float str l = .ok r := by
  unfold readLink
  rw [xlink?_eq (hp.scope_link hl) (by decide +kernel) (by decide +kernel)]
  simp only [bind, Except.bind]
  cases hrole : l.node.xlinkAttr "role" with
  | none => exact ⟨_, rfl⟩
  | some role =>
    obtain ⟨name, hname, htag⟩ := hp.tag_link hl
    obtain ⟨up, hlink, _⟩ := node_hasLink hl htag hrole
    have V := hv name role up _ hlink
    dsimp only
    split
    · exact ⟨_, rfl⟩
    · obtain ⟨as, has⟩ := mapM_succeeds (fun x : List (Option String) × XNode => readArc float x.2) (findXlink ["arc"] l.node (l.node.scoped l.langs)) (fun x hx => by
        obtain ⟨t, ht, own, hpart, _⟩ := (findXlink_parts (hp.scope_link hl) ["arc"] l.langs x).1 hx
        rw [List.mem_singleton] at ht
        subst ht
        obtain ⟨a1, a2, a3, _⟩ := V.arcs own _ hpart
        exact readArc_succeeds (hp.scope_part hl hpart) a1 a2 a3)
      obtain ⟨es, hes⟩ := readEnds_succeed (elems := elems) (facts := facts) (str := str) (findXlink ["resource", "locator"] l.node (l.node.scoped l.langs)) l.base (fun x hx uid => by
        obtain ⟨t, ht, own, hpart, _⟩ := (findXlink_parts (hp.scope_link hl) ["resource", "locator"] l.langs x).1 hx
        simp only [List.mem_cons, List.not_mem_nil, or_false] at ht
        rcases ht with rfl | rfl
        · obtain ⟨a1, a2, t, a3, a4, a5⟩ := V.resources own _ hpart
          refine readEnd_resource_succeeds (hp.scope_part hl hpart) hpart.type a1 a2 ⟨t, ?_, a4, a5⟩
          simp only [resourceTags, List.mem_cons, List.not_mem_nil, or_false, Prod.mk.injEq] at a3
          rcases a3 with ⟨_, rfl⟩ | ⟨_, rfl⟩ | ⟨_, rfl⟩ <;> simp
        · obtain ⟨a1, href, i, a2, _⟩ := V.locators own _ hpart
          exact readEnd_locator_succeeds (hp.scope_part hl hpart) hpart.type a1 ⟨href, a2⟩)
      rw [has]
      dsimp only
      rw [hes]
      exact ⟨_, rfl⟩

theorem reading_of_link (hp : PlainLinks roots) {l : LinkNode} (hl : l ∈ linkNodes roots) {r : LinkReading} (hr : readLink elems facts float str l = .ok r) {role : String}
    (hrole : l.node.xlinkAttr "role" = some role) :
    linkOf elems facts float str l = r.link ∧ (linkOf elems facts float str l).role = .ok (some role) ∧ ∃ es, Reading elems facts float str l r es ∧
      r.reports = (linkKinds (l.node.tag.getD "")).flatMap (fun _ =>
          (repeated Arc.key r.link.arcs).map (fun a => ("DUPLICATE_LINKBASE_ARC", [("arc_from", some a.frm), ("arc_to", some a.to)])) ++ es.flatMap (·.reports)) := by
  have hx : l.node.xlink? "role" = .ok (some role) := by rw [xlink?_eq (hp.scope_link hl) (by decide +kernel) (by decide +kernel), hrole]
  obtain ⟨name, hn, ht⟩ := hp.tag_link hl
  have hlink : linkOf elems facts float str l = r.link := by unfold linkOf; rw [hr]
  have hrole' : (linkOf elems facts float str l).role = .ok (some role) := by rw [role_eq, linkOf_node, hx]
  rcases (readLink_ok hr).2 with ⟨h1 | h1, _⟩ | ⟨_, _, es, h1, h2, h3, h4, h5⟩
  · rw [hx] at h1; cases h1
  · rw [ht] at h1; exact absurd h1 (linkKinds_tag hn)
  · exact ⟨hlink, hrole', es, ⟨h1, h2, h3, h4⟩, h5⟩

/-! ## Making the networks of a valid link -/

/-- What a link end of a valid link stands for. -/
theorem valid_end (hp : PlainLinks roots) {l : LinkNode} (hl : l ∈ linkNodes roots) {name : String} (V : ValidLink elems facts float name l.node) {r : LinkReading} {es : List EndReading}
    (R : Reading elems facts float str l r es) {e : LinkEnd} (he : e ∈ r.link.ends) {t : Target} (ht : e.target = some t) :
    (∃ own x, Part l.node "locator" own x ∧ x.xlinkAttr "label" = some e.label ∧
      ((∃ q b, t = .element q b ∧ (name = "calculationLink" → b = true)) ∨ (∃ i, t = .fact i) ∧ name = "footnoteLink")) ∨
    (∃ own x, Part l.node "resource" own x ∧ x.xlinkAttr "label" = some e.label ∧
      ((∃ i, t = .labelResource i) ∧ name = "labelLink" ∨ (∃ i, t = .footnoteResource i) ∧ name = "footnoteLink" ∨ (∃ i, t = .referenceResource i) ∧ name = "referenceLink")) := by
  obtain ⟨ty, hty, own, x, j, d, hpart, _, rfl, hread⟩ := R.end_of hp hl he
  simp only [List.mem_cons, List.not_mem_nil, or_false] at hty
  rcases hty with rfl | rfl
  · right
    obtain ⟨lb, role, h1, h2, h3, h4⟩ := readEnd_resource (hp.scope_part hl hpart) hpart.type hread
    refine ⟨own, x, hpart, by rw [h1, h3], ?_⟩
    obtain ⟨_, _, ty, hmem, htag, _⟩ := V.resources own x hpart
    simp only [resourceTags, List.mem_cons, List.not_mem_nil, or_false, Prod.mk.injEq] at hmem
    rcases h4 with ⟨h5, h6⟩ | ⟨h5, h6⟩ | ⟨h5, _, h6, _⟩ | h6
    · rw [htag] at h5
      have := linkTag_inj (Option.some.inj h5)
      subst this
      rcases h6 with ⟨_, _, h6, _⟩ | ⟨_, h6, _⟩
      · rw [h6] at ht
        cases ht
        simp only [String.reduceEq, and_false, or_false, and_true] at hmem
        exact Or.inl ⟨⟨_, rfl⟩, hmem⟩
      · rw [h6] at ht; cases ht
    · rw [htag] at h5
      have := linkTag_inj (Option.some.inj h5)
      subst this
      rcases h6 with ⟨_, _, _, h6, _⟩ | ⟨_, h6, _⟩
      · rw [h6] at ht
        cases ht
        simp only [String.reduceEq, and_false, or_false, false_or, and_true] at hmem
        exact Or.inr (Or.inl ⟨⟨_, rfl⟩, hmem⟩)
      · rw [h6] at ht; cases ht
    · rw [htag] at h5
      have := linkTag_inj (Option.some.inj h5)
      subst this
      rw [h6] at ht
      cases ht
      simp only [String.reduceEq, and_false, or_false, false_or, and_true] at hmem
      exact Or.inr (Or.inr ⟨⟨_, rfl⟩, hmem⟩)
    · refine absurd htag (h6 ty ?_)
      rcases hmem with ⟨_, rfl⟩ | ⟨_, rfl⟩ | ⟨_, rfl⟩ <;> simp
  · left
    obtain ⟨href, lb, h1, h2, h3, _, h4⟩ := readEnd_locator (hp.scope_part hl hpart) hpart.type hread
    refine ⟨own, x, hpart, by rw [h2, h3], ?_⟩
    obtain ⟨_, href', i, a1, a2, a3, a4⟩ := V.locators own x hpart
    rw [h1] at a1
    cases a1
    have hi := refers_unique a2
    rw [← hi] at h4
    rcases h4 with ⟨el, h5, h6, _⟩ | ⟨h5, ⟨f, h6, h7, _⟩ | ⟨_, h7, _⟩⟩
    · rw [h6] at ht
      cases ht
      left
      exact ⟨_, _, rfl, fun hn => by simp [a3 el h5 hn]⟩
    · rw [h7] at ht
      cases ht
      exact Or.inr ⟨⟨_, rfl⟩, a4 f h5 h6⟩
    · rw [h7] at ht; cases ht

theorem Reading.arc_joined {l : LinkNode} {r : LinkReading} {es : List EndReading} (R : Reading elems facts float str l r es) (hp : PlainLinks roots) (hl : l ∈ linkNodes roots)
    {a : Arc} (ha : a ∈ r.link.arcs) : Joined l.node a.frm a.to := by
  obtain ⟨own, x, hpart, hread⟩ := R.arc_of hp hl ha
  obtain ⟨h1, h2, h3, _⟩ := readArc_ok (hp.scope_part hl hpart) hread
  exact ⟨own, x, _, hpart, h1, h2, h3⟩

theorem Reading.joined_arc {l : LinkNode} {r : LinkReading} {es : List EndReading} (R : Reading elems facts float str l r es) (hp : PlainLinks roots) (hl : l ∈ linkNodes roots)
    {u v : String} (h : Joined l.node u v) : ∃ a ∈ r.link.arcs, a.frm = u ∧ a.to = v := by
  obtain ⟨own, x, role, hpart, h1, h2, _⟩ := h
  obtain ⟨a, ha, hread⟩ := R.of_arc hp hl hpart
  obtain ⟨h3, h4, _⟩ := readArc_ok (hp.scope_part hl hpart) hread
  rw [h1] at h3
  rw [h2] at h4
  exact ⟨a, ha, (Option.some.inj h3).symm, (Option.some.inj h4).symm⟩

/-- The networks of a valid link can be made. -/
theorem valid_parse (hp : PlainLinks roots) {l : LinkNode} (hl : l ∈ linkNodes roots) {name : String} (hn : name ∈ tagKinds.map (·.1)) (htag : l.node.tag = some (linkTag name))
    (V : ValidLink elems facts float name l.node) {r : LinkReading} {es : List EndReading} (R : Reading elems facts float str l r es) (role : String) (h : Heap) :
    ∃ x, parseXmlLink (l.node.tag.getD "") so role h r.link.arcs r.link.ends = .ok x := by
  have hnum : ∀ a ∈ r.link.arcs, a.order ≠ .empty ∧ a.order ≠ .invalid ∧ a.weight ≠ .empty ∧ a.weight ≠ .invalid := by
    intro a ha
    obtain ⟨own, x, hpart, hread⟩ := R.arc_of hp hl ha
    obtain ⟨_, _, _, h1, h2, _⟩ := readArc_ok (hp.scope_part hl hpart) hread
    obtain ⟨_, _, _, h3, h4⟩ := V.arcs own x hpart
    rw [h1, h2]
    exact ⟨(numAttr_ok h3).1, (numAttr_ok h3).2, (numAttr_ok h4).1, (numAttr_ok h4).2⟩
  have hend := fun e he t ht => valid_end (e := e) (t := t) hp hl V R he ht
  rw [htag, Option.getD_some]
  have plain : ∀ k : LinkKind, k ≠ .label → (∀ e ∈ r.link.ends, ∀ t, e.target = some t → Admissible k t) → ∀ h, ∃ res, parseLink k so role h r.link.arcs r.link.ends = .ok res :=
    fun k hk ha h => C20_succeeds hk hnum (fun e he t ht => (refuses_iff k t).2 (ha e he t ht))
  have single : ∀ k, (name, [k]) ∈ tagKinds → (∃ res, parseLink k so role h r.link.arcs r.link.ends = .ok res) →
      ∃ x, parseXmlLink (linkTag name) so role h r.link.arcs r.link.ends = .ok x := by
    rintro k hk ⟨res, hres⟩
    rw [(C69_tags name [k] hk).1 k rfl, hres]
    exact ⟨_, rfl⟩
  simp only [tagKinds, List.map_cons, List.map_nil, List.mem_cons, List.not_mem_nil, or_false] at hn
  rcases hn with rfl | rfl | rfl | rfl | rfl | rfl
  · refine single .presentation (by simp [tagKinds]) (plain _ (by simp) (fun e he t ht => ?_) h)
    rcases hend e he t ht with ⟨_, _, _, _, ⟨q, b, rfl, _⟩ | ⟨_, h1⟩⟩ | ⟨_, _, _, _, ⟨_, h1⟩ | ⟨_, h1⟩ | ⟨_, h1⟩⟩
    · exact ⟨q, b, rfl⟩
    all_goals simp at h1
  · refine single .calculation (by simp [tagKinds]) (plain _ (by simp) (fun e he t ht => ?_) h)
    rcases hend e he t ht with ⟨_, _, _, _, ⟨q, b, rfl, hb⟩ | ⟨_, h1⟩⟩ | ⟨_, _, _, _, ⟨_, h1⟩ | ⟨_, h1⟩ | ⟨_, h1⟩⟩
    · exact ⟨q, by rw [hb rfl]⟩
    all_goals simp at h1
  · have hadm : ∀ e ∈ r.link.ends, ∀ t, e.target = some t → ∃ q c, t = .element q c := by
      intro e he t ht
      rcases hend e he t ht with ⟨_, _, _, _, ⟨q, b, rfl, _⟩ | ⟨_, h1⟩⟩ | ⟨_, _, _, _, ⟨_, h1⟩ | ⟨_, h1⟩ | ⟨_, h1⟩⟩
      · exact ⟨q, b, rfl⟩
      all_goals simp at h1
    rw [(C69_tags "definitionLink" [.physicalDefinition, .logicalDefinition] (by simp [tagKinds])).2 _ _ rfl]
    obtain ⟨r1, h1⟩ := plain .physicalDefinition (by simp) hadm h
    obtain ⟨r2, h2⟩ := plain .logicalDefinition (by simp) hadm r1.heap
    rw [h1]
    simp only [Except.bind]
    rw [h2]
    exact ⟨_, rfl⟩
  · refine single .label (by simp [tagKinds]) ?_
    have lab : ∀ e ∈ r.link.ends, ∀ i, e.target = some (.labelResource i) → ∃ own x, Part l.node "resource" own x ∧ x.xlinkAttr "label" = some e.label := by
      intro e he i ht
      rcases hend e he _ ht with ⟨_, _, _, _, ⟨q, b, h1, _⟩ | ⟨⟨_, h1⟩, _⟩⟩ | ⟨own, x, h1, h2, _⟩
      · cases h1
      · cases h1
      · exact ⟨own, x, h1, h2⟩
    refine C65_succeeds ?_ ?_ ?_ ?_
    · intro e he t ht
      rcases hend e he t ht with ⟨_, _, _, _, ⟨q, b, rfl, _⟩ | ⟨_, h1⟩⟩ | ⟨_, _, _, _, ⟨⟨i, rfl⟩, _⟩ | ⟨_, h1⟩ | ⟨_, h1⟩⟩
      · exact Or.inl ⟨q, b, rfl⟩
      · simp at h1
      · exact Or.inr ⟨i, rfl⟩
      all_goals simp at h1
    · intro a ha e he hlab i ht
      obtain ⟨own, x, hx, hxl⟩ := lab e he i ht
      have := ((V.labels rfl).1 own x _ hx hxl).2 a.to
      rw [hlab] at this
      exact this (R.arc_joined hp hl ha)
    · intro a ha e he hlab q b ht
      rcases hend e he _ ht with ⟨own, x, hx, hxl, _⟩ | ⟨_, _, _, _, ⟨⟨_, h1⟩, _⟩ | ⟨⟨_, h1⟩, _⟩ | ⟨⟨_, h1⟩, _⟩⟩
      · have := (V.labels rfl).2 own x _ hx hxl a.frm
        rw [hlab] at this
        exact this (R.arc_joined hp hl ha)
      all_goals cases h1
    · intro e he i ht
      obtain ⟨own, x, hx, hxl⟩ := lab e he i ht
      obtain ⟨u, hu⟩ := ((V.labels rfl).1 own x _ hx hxl).1
      obtain ⟨a, ha, _, h2⟩ := R.joined_arc hp hl hu
      exact ⟨a, ha, h2⟩
  · refine single .reference (by simp [tagKinds]) (plain _ (by simp) (fun e he t ht => ?_) h)
    rcases hend e he t ht with ⟨_, _, _, _, ⟨q, b, rfl, hb⟩ | ⟨_, h1⟩⟩ | ⟨_, _, _, _, ⟨_, h1⟩ | ⟨_, h1⟩ | ⟨⟨i, rfl⟩, _⟩⟩
    · exact Or.inl ⟨q, b, rfl⟩
    · simp at h1
    · simp at h1
    · simp at h1
    · exact Or.inr ⟨i, rfl⟩
  · refine single .footnote (by simp [tagKinds]) (plain _ (by simp) (fun e he t ht => ?_) h)
    rcases hend e he t ht with ⟨_, _, _, _, ⟨q, b, rfl, hb⟩ | ⟨⟨i, rfl⟩, _⟩⟩ | ⟨_, _, _, _, ⟨_, h1⟩ | ⟨⟨i, rfl⟩, _⟩ | ⟨_, h1⟩⟩
    · exact Or.inl ⟨q, b, rfl⟩
    · exact Or.inr (Or.inl ⟨i, rfl⟩)
    · simp at h1
    · exact Or.inr (Or.inr ⟨i, rfl⟩)
    · simp at h1

/-! ## All links -/

theorem readPass_succeeds : ∀ (ls : List LinkNode) (s : ReadPass) (p : LinkPass), (∀ l ∈ ls, ∃ r, readLink elems facts float str l = .ok r) →
    (ls.map (linkOf elems facts float str)).foldlM (LinkPass.step so) s.pass = .ok p → ∃ q, ls.foldlM (ReadPass.step elems facts float str so) s = .ok q ∧ q.pass = p := by
  intro ls
  induction ls with
  | nil => intro s p _ h; cases h; exact ⟨s, rfl, rfl⟩
  | cons l ls ih =>
    intro s p hall h
    obtain ⟨r, hr⟩ := hall l List.mem_cons_self
    rw [List.map_cons, List.foldlM_cons] at h
    have hlink : linkOf elems facts float str l = r.link := by unfold linkOf; rw [hr]
    rw [hlink] at h
    cases h1 : s.pass.step so r.link with
    | error e => rw [h1] at h; cases h
    | ok p1 =>
      rw [h1] at h
      obtain ⟨q, hq, hqp⟩ := ih { pass := p1, resources := s.resources ++ r.resources, reports := s.reports ++ r.reports } p (fun x hx => hall x (List.mem_cons_of_mem _ hx)) h
      refine ⟨q, ?_, hqp⟩
      rw [List.foldlM_cons]
      have : ReadPass.step elems facts float str so s l = .ok { pass := p1, resources := s.resources ++ r.resources, reports := s.reports ++ r.reports } := by
        unfold ReadPass.step
        rw [hr]
        simp only [bind, Except.bind]
        rw [h1]
        rfl
      rw [this]
      exact hq

theorem readNetworks_of (hread : ∀ l ∈ linkNodes roots, ∃ r, readLink elems facts float str l = .ok r) {n : Networks}
    (h : ∀ j, parseNetworks so (steps + j) ((linkNodes roots).map (linkOf elems facts float str)) = some (.ok n)) :
    ∃ s, (∀ j, readNetworks elems facts float str so (steps + j) roots = some (.ok s)) ∧ s.networks = n := by
  have hkeys : ∃ sorted, sortLinkNodes (linkNodes roots) = .ok sorted := by
    have h0 := h 0
    unfold parseNetworks at h0
    unfold sortLinkNodes
    cases hs : sortLinks ((linkNodes roots).map (linkOf elems facts float str)) with
    | error e => rw [hs] at h0; cases h0
    | ok sorted =>
      unfold sortLinks at hs
      cases hm : ((linkNodes roots).map (linkOf elems facts float str)).mapM LinkXml.role with
      | error e => rw [hm] at hs; cases hs
      | ok keys =>
        have hall : ∀ l ∈ linkNodes roots, ∃ o, l.node.xlink? "role" = .ok o := by
          intro l hl
          obtain ⟨o, _, ho⟩ := ((mapM_ok_iff _ _ _).1 hm).mem_left _ (List.mem_map_of_mem hl)
          rw [role_eq, linkOf_node] at ho
          exact ⟨o, ho⟩
        obtain ⟨ks, hks⟩ := mapM_succeeds (fun l : LinkNode => l.node.xlink? "role") (linkNodes roots) hall
        rw [hks]
        exact ⟨_, rfl⟩
  obtain ⟨sorted, hsorted⟩ := hkeys
  obtain ⟨hsort, q, hq⟩ := sortLinkNodes_eq hsorted elems facts float str
  have hall : ∀ l ∈ sorted, ∃ r, readLink elems facts float str l = .ok r := by
    intro l hl
    rw [hq, List.mem_append, List.mem_filter, List.mem_filter] at hl
    rcases hl with ⟨h1, _⟩ | ⟨h1, _⟩ <;> exact hread l h1
  unfold parseNetworks at h
  rw [hsort] at h
  dsimp only at h
  cases hf : (sorted.map (linkOf elems facts float str)).foldlM (LinkPass.step so) {} with
  | error e => rw [hf] at h; cases h 0
  | ok p =>
    rw [hf] at h
    dsimp only at h
    obtain ⟨rp, hrp, hpass⟩ := readPass_succeeds sorted {} p hall hf
    refine ⟨⟨n, rp.resources, rp.reports⟩, fun j => ?_, rfl⟩
    have hj := h j
    unfold readNetworks
    rw [hsorted]
    dsimp only
    rw [hrp]
    dsimp only
    rw [hpass]
    cases hc : combineRoles so (steps + j) p.heap p.byRole with
    | none => rw [hc] at hj; cases hj
    | some x =>
      cases x with
      | error e => rw [hc] at hj; cases hj
      | ok y =>
        rw [hc] at hj
        cases hj
        rfl

theorem valid_succeeds (hp : PlainLinks roots) (hv : ValidLinks elems facts float roots) :
    ∃ steps s, (∀ j, readNetworks elems facts float str so (steps + j) roots = some (.ok s)) ∧ ∃ rank, RankedBy s.networks.heap rank := by
  have hread : ∀ l ∈ linkNodes roots, ∃ r, readLink elems facts float str l = .ok r := fun l hl => readLink_succeeds hp hv hl
  have hrole : ∀ l ∈ linkNodes roots, (linkOf elems facts float str l).role = .ok (l.node.xlinkAttr "role") := by
    intro l hl
    rw [role_eq, linkOf_node, xlink?_eq (hp.scope_link hl) (by decide +kernel) (by decide +kernel)]
  obtain ⟨steps, n, hn, hrk⟩ := networks_succeed (so := so) (links := (linkNodes roots).map (linkOf elems facts float str))
    (by
      intro x hx
      obtain ⟨l, hl, rfl⟩ := List.mem_map.1 hx
      exact ⟨_, hrole l hl⟩)
    (by
      intro x hx role hxr h
      obtain ⟨l, hl, rfl⟩ := List.mem_map.1 hx
      rw [hrole l hl] at hxr
      have hr : l.node.xlinkAttr "role" = some role := Except.ok.inj hxr
      obtain ⟨name, hname, htag⟩ := hp.tag_link hl
      obtain ⟨up, hlink, _⟩ := node_hasLink hl htag hr
      obtain ⟨r, hrd⟩ := hread l hl
      obtain ⟨h1, _, es, R, _⟩ := reading_of_link hp hl hrd hr
      rw [linkOf_node, h1]
      exact valid_parse hp hl hname htag (hv name role up _ hlink) R role h)
    (by
      intro x hx
      obtain ⟨l, hl, rfl⟩ := List.mem_map.1 hx
      obtain ⟨r, hrd⟩ := hread l hl
      cases hr : l.node.xlinkAttr "role" with
      | none =>
        refine ⟨fun _ => 0, ?_⟩
        intro a ha
        have hx : l.node.xlink? "role" = .ok none := by rw [xlink?_eq (hp.scope_link hl) (by decide +kernel) (by decide +kernel), hr]
        have hlink : linkOf elems facts float str l = r.link := by unfold linkOf; rw [hrd]
        rw [hlink] at ha
        rcases (readLink_ok hrd).2 with ⟨_, h1, _⟩ | ⟨⟨_, h1⟩, _⟩
        · rw [h1] at ha; cases ha
        · rw [hx] at h1; cases h1
      | some role =>
        obtain ⟨name, hname, htag⟩ := hp.tag_link hl
        obtain ⟨up, hlink, _⟩ := node_hasLink hl htag hr
        obtain ⟨h1, _, es, R, _⟩ := reading_of_link hp hl hrd hr
        obtain ⟨rank, hrank⟩ := (hv name role up _ hlink).acyclic
        refine ⟨rank, fun a ha => hrank _ _ ?_⟩
        rw [h1] at ha
        exact R.arc_joined hp hl ha)
  obtain ⟨s, hs, rfl⟩ := readNetworks_of hread hn
  exact ⟨steps, s, hs, hrk⟩

/-- C102: link bases whose links are valid are read without an exception; the traversals of the networks end. -/
theorem C102_succeeds (hp : PlainLinks roots) (hv : ValidLinks elems facts float roots) : ∃ steps s, ∀ j, readNetworks elems facts float str so (steps + j) roots = some (.ok s) := by
  obtain ⟨steps, s, hs, _⟩ := valid_succeeds (str := str) (so := so) hp hv
  exact ⟨steps, s, hs⟩

theorem readNetworks_mono {j : Nat} {x} (h : readNetworks elems facts float str so steps roots = some x) : readNetworks elems facts float str so (steps + j) roots = some x := by
  unfold readNetworks at h ⊢
  cases hs : sortLinkNodes (numberLinks 0 (linkElements roots)) with
  | error e => rw [hs] at h; exact h
  | ok sorted =>
    rw [hs] at h
    dsimp only at h ⊢
    cases hf : sorted.foldlM (ReadPass.step elems facts float str so) {} with
    | error e => rw [hf] at h; exact h
    | ok p =>
      rw [hf] at h
      dsimp only at h ⊢
      cases hc : combineRoles so steps p.pass.heap p.pass.byRole with
      | none => rw [hc] at h; cases h
      | some y => rw [hc] at h; rw [combineRoles_mono _ _ hc]; exact h

/-- C102: in the networks of valid links no node is below itself: there is a rank that grows from each node to its children. -/
theorem C102_no_cycles (hp : PlainLinks roots) (hv : ValidLinks elems facts float roots) {s : ReadNetworks} (h : readNetworks elems facts float str so steps roots = some (.ok s)) :
    ∃ rank : Nat → Nat, ∀ i, ∀ c ∈ s.networks.heap.children i, rank i < rank c := by
  obtain ⟨st, s', hs', hrk⟩ := valid_succeeds (str := str) (so := so) hp hv
  have h1 := readNetworks_mono (j := st) h
  have h2 := hs' steps
  rw [Nat.add_comm, h1] at h2
  cases h2
  exact hrk

/-! ## Reports -/

theorem repeated_count {α κ : Type} [DecidableEq κ] [BEq κ] [LawfulBEq κ] (key : α → κ) (l : List α) (c : κ) : (∃ a ∈ repeated key l, key a = c) ↔ 2 ≤ (l.map key).count c := by
  rw [← List.reverse_reverse l]
  induction l.reverse with
  | nil => simp [repeated_nil]
  | cons a l' ih =>
    rw [List.reverse_cons]
    generalize l'.reverse = l at ih ⊢
    rw [repeated_snoc, List.map_append, List.count_append]
    have hany : (l.any (fun b => decide (key b = key a))) = true ↔ 0 < (l.map key).count (key a) := by
      rw [List.count_pos_iff, List.any_eq_true]
      simp only [decide_eq_true_iff, List.mem_map]
    constructor
    · rintro ⟨b, hb, rfl⟩
      rcases List.mem_append.1 hb with hb | hb
      · have := ih
        have h2 : 2 ≤ (l.map key).count (key b) := ih.1 ⟨b, hb, rfl⟩
        omega
      · split at hb
        · rename_i h1
          rw [List.mem_singleton] at hb
          subst hb
          have := hany.1 h1
          simp only [List.map_cons, List.map_nil, List.count_singleton_self]
          omega
        · cases hb
    · intro h
      by_cases h1 : 2 ≤ (l.map key).count c
      · obtain ⟨b, hb, hbc⟩ := ih.2 h1
        exact ⟨b, List.mem_append_left _ hb, hbc⟩
      · by_cases h2 : key a = c
        · subst h2
          simp only [List.map_cons, List.map_nil, List.count_singleton_self] at h
          refine ⟨a, List.mem_append_right _ ?_, rfl⟩
          rw [if_pos (hany.2 (by omega))]
          exact List.mem_singleton.2 rfl
        · simp only [List.map_cons, List.map_nil] at h
          rw [List.count_singleton, if_neg (by simpa using h2)] at h
          omega

mutual
theorem scoped_nodes (langs : List (Option String)) : ∀ x : XNode, (x.scoped langs).map (·.2) = x.descendants
  | .mk _ _ _ _ cs => by
    unfold XNode.scoped XNode.descendants
    exact scopedAll_nodes langs cs
theorem scopedAll_nodes (langs : List (Option String)) : ∀ cs : List XNode, (XNode.scopedAll langs cs).map (·.2) = XNode.descendantsOfAll cs
  | [] => by unfold XNode.scopedAll XNode.descendantsOfAll; rfl
  | c :: cs => by
    unfold XNode.scopedAll XNode.descendantsOfAll
    rw [List.map_cons, List.map_append, scoped_nodes, scopedAll_nodes]
end

/-- The arcs that are read are those of the document. -/
theorem Reading.keys {l : LinkNode} {r : LinkReading} {es : List EndReading} (R : Reading elems facts float str l r es) (hp : PlainLinks roots) (hl : l ∈ linkNodes roots) :
    arcKeys l.node = r.link.arcs.map (fun a => (some a.frm, some a.to, some a.role)) := by
  have h1 : l.arcs.map (fun x => (x.2.xlinkAttr "from", x.2.xlinkAttr "to", x.2.xlinkAttr "arcrole")) = r.link.arcs.map (fun a => (some a.frm, some a.to, some a.role)) := by
    refine R.arcs.map_eq _ _ ?_
    intro x hx a ha
    obtain ⟨t, ht, own, hpart, _⟩ := (findXlink_parts (hp.scope_link hl) ["arc"] l.langs x).1 hx
    rw [List.mem_singleton] at ht
    subst ht
    obtain ⟨a1, a2, a3, _⟩ := readArc_ok (hp.scope_part hl hpart) ha
    rw [a1, a2, a3]
  rw [← h1]
  unfold arcKeys LinkNode.arcs findXlink
  rw [hp.scope_link hl, ← scoped_nodes l.langs l.node, List.filter_map, List.map_map]
  dsimp only
  congr 1
  apply List.filter_congr
  intro x _
  simp only [Function.comp, List.any_cons, List.any_nil, Bool.or_false]
  congr 1
  cases x.2.tag <;> simp

theorem mem_reports {l : LinkNode} (hp : PlainLinks roots) (hl : l ∈ linkNodes roots) {up : List XNode} (hlang : l.langs = up.map XNode.lang) {r : LinkReading} {es : List EndReading}
    (R : Reading elems facts float str l r es) (rep : SchemaReport) :
    rep ∈ (repeated Arc.key r.link.arcs).map (fun a => (("DUPLICATE_LINKBASE_ARC", [("arc_from", some a.frm), ("arc_to", some a.to)]) : SchemaReport)) ++ es.flatMap (·.reports) ↔
      LinkReport elems facts up l.node rep := by
  have hcount : ∀ f t ro : String, (arcKeys l.node).count (some f, some t, some ro) = (r.link.arcs.map Arc.key).count (f, t, ro) := by
    intro f t ro
    rw [R.keys hp hl]
    have : r.link.arcs.map (fun a => (some a.frm, some a.to, some a.role)) = (r.link.arcs.map Arc.key).map (fun k => (some k.1, some k.2.1, some k.2.2)) := by
      rw [List.map_map]; rfl
    rw [this]
    unfold List.count
    rw [List.countP_map]
    apply List.countP_congr
    rintro ⟨a, b, c⟩ _
    simp
  rw [List.mem_append]
  constructor
  · rintro (h | h)
    · obtain ⟨a, ha, rfl⟩ := List.mem_map.1 h
      refine .repeated (r := a.role) ?_
      rw [hcount]
      exact (repeated_count Arc.key _ _).1 ⟨a, ha, rfl⟩
    · obtain ⟨d, hd, hrep⟩ := List.mem_flatMap.1 h
      obtain ⟨hlen, hread⟩ := readEnds_ok R.read
      obtain ⟨j, hj, hdj⟩ := List.mem_iff_getElem.1 hd
      have hx : l.ends[j]? = some (l.ends[j]'(by omega)) := List.getElem?_eq_getElem _
      have hd' : es[j]? = some d := by rw [List.getElem?_eq_getElem hj, hdj]
      obtain ⟨t, ht, own, hpart, hl2⟩ := (findXlink_parts (hp.scope_link hl) ["resource", "locator"] l.langs _).1 (List.getElem_mem (h := by omega) (l := l.ends) (n := j))
      have hd2 := hread j _ d hx hd'
      rw [hl2, hlang, ← List.map_append] at hd2
      simp only [List.mem_cons, List.not_mem_nil, or_false] at ht
      rcases ht with rfl | rfl
      · obtain ⟨lb, role, _, _, _, h4⟩ := readEnd_resource (hp.scope_part hl hpart) hpart.type hd2
        rw [← nearestLang_eq] at h4
        rcases h4 with ⟨h5, h6⟩ | ⟨h5, h6⟩ | ⟨h5, _, _, _, h6⟩ | h6
        · rcases h6 with ⟨_, _, _, _, h6⟩ | ⟨h7, _, _, h6⟩
          · rw [h6] at hrep; cases hrep
          · rw [h6, List.mem_singleton] at hrep
            subst hrep
            exact .label hpart h5 h7
        · rcases h6 with ⟨_, _, _, _, _, _, h6⟩ | ⟨h7, _, _, h6⟩
          · rw [h6] at hrep; cases hrep
          · rw [h6, List.mem_singleton] at hrep
            subst hrep
            exact .footnote hpart h5 h7
        · rw [h6] at hrep; cases hrep
        · obtain ⟨hi, root, hr, own', hb, _⟩ := mem_linkNodes hl
          obtain ⟨n, hn, htag⟩ := hp.resources root hr own' _ hb hi own _ hpart
          exact absurd htag (h6 n hn)
      · obtain ⟨href, lb, h1, _, _, _, h4⟩ := readEnd_locator (hp.scope_part hl hpart) hpart.type hd2
        rcases h4 with ⟨_, _, _, h6⟩ | ⟨h5, ⟨_, _, _, h6⟩ | ⟨h7, _, h6⟩⟩
        · rw [h6] at hrep; cases hrep
        · rw [h6] at hrep; cases hrep
        · rw [h6, List.mem_singleton] at hrep
          subst hrep
          exact .unresolved hpart h1 (fragment_refers href) h5 h7
  · have ends : ∀ {t own x}, t ∈ ["resource", "locator"] → Part l.node t own x → ∃ j d, es[j]? = some d ∧ readEnd elems facts str (l.base + j) ((own ++ up).map XNode.lang) x = .ok d := by
      intro t own x ht hx
      obtain ⟨j, d, h1, _, h2⟩ := R.of_end hp hl ht hx
      rw [hlang, ← List.map_append] at h2
      exact ⟨j, d, h1, h2⟩
    intro h
    cases h with
    | @repeated f t ro h =>
      left
      rw [hcount] at h
      obtain ⟨a, ha, hk⟩ := (repeated_count Arc.key _ _).2 h
      refine List.mem_map.2 ⟨a, ha, ?_⟩
      cases hk
      rfl
    | @unresolved own x href i hpart hhref hi he hf =>
      right
      obtain ⟨j, d, hd, hread⟩ := ends (by simp) hpart
      obtain ⟨href', _, h1, _, _, _, h4⟩ := readEnd_locator (hp.scope_part hl hpart) hpart.type hread
      rw [hhref] at h1
      cases h1
      rw [← refers_unique hi] at h4
      refine List.mem_flatMap.2 ⟨d, List.mem_of_getElem? hd, ?_⟩
      rcases h4 with ⟨_, h5, _⟩ | ⟨_, ⟨_, h5, _⟩ | ⟨_, _, h6⟩⟩
      · rw [he] at h5; cases h5
      · rw [hf] at h5; cases h5
      · rw [h6]; exact List.mem_singleton.2 rfl
    | @label own x hpart htag hno =>
      right
      obtain ⟨j, d, hd, hread⟩ := ends (by simp) hpart
      obtain ⟨lb, role, _, _, _, h4⟩ := readEnd_resource (hp.scope_part hl hpart) hpart.type hread
      refine List.mem_flatMap.2 ⟨d, List.mem_of_getElem? hd, ?_⟩
      rw [← nearestLang_eq] at h4
      rcases h4 with ⟨_, ⟨_, h5, _⟩ | ⟨_, _, _, h6⟩⟩ | ⟨h5, _⟩ | ⟨h5, _⟩ | h5
      · rw [hno] at h5; cases h5
      · rw [h6]; exact List.mem_singleton.2 rfl
      · rw [htag] at h5; exact absurd (linkTag_inj (Option.some.inj h5)) (by decide)
      · rw [htag] at h5; exact absurd (linkTag_inj (Option.some.inj h5)) (by decide)
      · exact absurd htag (h5 _ (by simp))
    | @footnote own x hpart htag hno =>
      right
      obtain ⟨j, d, hd, hread⟩ := ends (by simp) hpart
      obtain ⟨lb, role, _, _, _, h4⟩ := readEnd_resource (hp.scope_part hl hpart) hpart.type hread
      refine List.mem_flatMap.2 ⟨d, List.mem_of_getElem? hd, ?_⟩
      rw [← nearestLang_eq] at h4
      rcases h4 with ⟨h5, _⟩ | ⟨_, ⟨_, _, h5, _⟩ | ⟨_, _, _, h6⟩⟩ | ⟨h5, _⟩ | h5
      · rw [htag] at h5; exact absurd (linkTag_inj (Option.some.inj h5)) (by decide)
      · rw [hno] at h5; cases h5
      · rw [h6]; exact List.mem_singleton.2 rfl
      · rw [htag] at h5; exact absurd (linkTag_inj (Option.some.inj h5)) (by decide)
      · exact absurd htag (h5 _ (by simp))

/-- C102: what is reported about the content of links is what there is to report, and nothing else. -/
theorem C102_reports (h : readNetworks elems facts float str so steps roots = some (.ok s)) (hp : PlainLinks roots) (rep : SchemaReport) :
    rep ∈ s.reports ↔ ∃ name role up link, HasLink roots name role up link ∧ LinkReport elems facts up link rep := by
  rw [(readNetworks_ok h).2.2.2 rep]
  constructor
  · rintro ⟨l, hl, r, hr, hrep⟩
    cases hrole : l.node.xlinkAttr "role" with
    | none =>
      have hx : l.node.xlink? "role" = .ok none := by rw [xlink?_eq (hp.scope_link hl) (by decide +kernel) (by decide +kernel), hrole]
      rcases (readLink_ok hr).2 with ⟨_, _, _, _, h1⟩ | ⟨⟨_, h1⟩, _⟩
      · rw [h1] at hrep; cases hrep
      · rw [hx] at h1; cases h1
    | some role =>
      obtain ⟨name, hname, htag⟩ := hp.tag_link hl
      obtain ⟨up, hlink, hlang⟩ := node_hasLink hl htag hrole
      obtain ⟨_, _, es, R, hreps⟩ := reading_of_link hp hl hr hrole
      rw [hreps] at hrep
      obtain ⟨_, _, hrep⟩ := List.mem_flatMap.1 hrep
      exact ⟨name, role, up, l.node, hlink, (mem_reports hp hl hlang R rep).1 hrep⟩
  · rintro ⟨name, role, up, link, hlink, hrep⟩
    obtain ⟨l, hl, rfl, hlang⟩ := hlink.node
    obtain ⟨r, hr⟩ := (readNetworks_ok h).2.1 l hl
    obtain ⟨_, _, es, R, hreps⟩ := reading_of_link hp hl hr hlink.role
    refine ⟨l, hl, r, hr, ?_⟩
    rw [hreps]
    obtain ⟨name', hname, htag⟩ := hp.tag_link hl
    have := linkKinds_tag hname
    rw [htag, Option.getD_some]
    cases hk : linkKinds (linkTag name') with
    | nil => exact absurd hk this
    | cons k ks =>
      rw [List.flatMap_cons]
      exact List.mem_append_left _ ((mem_reports hp hl hlang R rep).2 hrep)

/-- C102: the only other report is that a link has no role. -/
theorem C102_roles (h : readNetworks elems facts float str so steps roots = some (.ok s)) (hp : PlainLinks roots) (e : String) :
    e ∈ s.networks.errs ↔ e = "MISSING_LINK_ROLE" ∧ ∃ name up link, ContainsLink roots name up link ∧ link.xlinkAttr "role" = none := by
  obtain ⟨_, _, _, _, _, _, _, herr⟩ := C84_networks (readNetworks_ok h).1
  rw [herr, List.mem_filterMap]
  have hrep : ∀ l ∈ linkNodes roots, (linkOf elems facts float str l).report = if l.node.xlinkAttr "role" = none then some "MISSING_LINK_ROLE" else none := by
    intro l hl
    obtain ⟨name, hname, htag⟩ := hp.tag_link hl
    have hx : (linkOf elems facts float str l).role = .ok (l.node.xlinkAttr "role") := by
      rw [role_eq, linkOf_node, xlink?_eq (hp.scope_link hl) (by decide +kernel) (by decide +kernel)]
    unfold LinkXml.report
    rw [hx]
    cases hr : l.node.xlinkAttr "role" with
    | none => rfl
    | some role =>
      dsimp only
      rw [linkOf_node, htag, Option.getD_some, if_neg (c := some role = none) (by simp)]
      simp only [tagKinds, List.map_cons, List.map_nil, List.mem_cons, List.not_mem_nil, or_false] at hname
      rcases hname with rfl | rfl | rfl | rfl | rfl | rfl <;> rw [if_pos (by decide +kernel)]
  constructor
  · rintro ⟨x, hx, hxe⟩
    obtain ⟨l, hl, rfl⟩ := List.mem_map.1 ((mem_inOrder _ _).1 hx)
    rw [hrep l hl] at hxe
    split at hxe
    · rename_i hr
      obtain ⟨name, hname, htag⟩ := hp.tag_link hl
      obtain ⟨h1, root, hroot, own, hb, _⟩ := mem_linkNodes hl
      unfold isLinkElement at h1
      rw [Bool.and_eq_true, decide_eq_true_iff] at h1
      exact ⟨(Option.some.inj hxe).symm, name, own ++ [root], l.node, ⟨⟨root, hroot, own, hb, rfl⟩, htag, h1.2⟩, hr⟩
    · cases hxe
  · rintro ⟨rfl, name, up, link, hlink, hr⟩
    obtain ⟨root, hroot, own, hb, rfl⟩ := hlink.placed
    obtain ⟨l, hl, rfl, _⟩ := exists_linkNode hroot hb (isLink_of hlink.tag hlink.extended)
    exact ⟨_, (mem_inOrder _ _).2 (List.mem_map_of_mem hl), by rw [hrep l hl, if_pos hr]⟩

/-- C102: link bases with valid links that all have roles, whose locators lead to objects, whose labels and footnotes have a language and whose arcs say different things are
read without any report. -/
theorem C102_silent (hp : PlainLinks roots) (hv : ValidLinks elems facts float roots)
    (hrole : ∀ name up link, ContainsLink roots name up link → ∃ role, link.xlinkAttr "role" = some role)
    (hres : ∀ name role up link, HasLink roots name role up link → ∀ own x href i, Part link "locator" own x → x.xlinkAttr "href" = some href → Refers href i →
      (∃ e, elems.byId.get? i = some e) ∨ ∃ f, facts.byId.get? i = some f)
    (hlang : ∀ name role up link, HasLink roots name role up link → ∀ own x, Part link "resource" own x → x.tag ≠ some (linkTag "reference") → ∃ lang, nearestLang (own ++ up) = some lang)
    (harcs : ∀ name role up link, HasLink roots name role up link → (arcKeys link).Nodup) :
    ∃ steps s, (∀ j, readNetworks elems facts float str so (steps + j) roots = some (.ok s)) ∧ s.reports = [] ∧ s.networks.errs = [] := by
  obtain ⟨steps, s, hs⟩ := C102_succeeds (str := str) (so := so) hp hv
  refine ⟨steps, s, hs, ?_, ?_⟩
  · rw [List.eq_nil_iff_forall_not_mem]
    intro rep hrep
    obtain ⟨name, role, up, link, hl, hrep⟩ := (C102_reports (hs 0) hp rep).1 hrep
    cases hrep with
    | @repeated l m r h =>
      have := List.nodup_iff_count.1 (harcs name role up link hl) (some l, some m, some r)
      exact absurd (Nat.le_trans h this) (by decide)
    | unresolved h1 h2 h3 h4 h5 =>
      rcases hres name role up link hl _ _ _ _ h1 h2 h3 with ⟨_, h6⟩ | ⟨_, h6⟩
      · rw [h4] at h6; cases h6
      · rw [h5] at h6; cases h6
    | label h1 h2 h3 =>
      obtain ⟨_, h4⟩ := hlang name role up link hl _ _ h1 (by rw [h2]; intro h; exact absurd (linkTag_inj (Option.some.inj h)) (by decide))
      rw [h3] at h4; cases h4
    | footnote h1 h2 h3 =>
      obtain ⟨_, h4⟩ := hlang name role up link hl _ _ h1 (by rw [h2]; intro h; exact absurd (linkTag_inj (Option.some.inj h)) (by decide))
      rw [h3] at h4; cases h4
  · rw [List.eq_nil_iff_forall_not_mem]
    intro e he
    obtain ⟨_, name, up, link, h1, h2⟩ := (C102_roles (hs 0) hp e).1 he
    obtain ⟨role, h3⟩ := hrole name up link h1
    rw [h2] at h3
    cases h3

end Brel
