import Verif.Spec.Linkbase
import Verif.Props.Networks
import Verif.Props.LinkKinds

/-! Lemmas about reading links from documents. -/

namespace Brel

/-! ## The nodes below a node -/

theorem Lineage.head {r x : XNode} {c : List XNode} (h : Lineage r c x) : c.head? = some x := by cases h <;> rfl

theorem Lineage.under {r c x : XNode} {ch : List XNode} (hc : c ∈ r.children) (h : Lineage c ch x) : Lineage r (ch ++ [r]) x := by
  induction h with
  | self => exact .child .self hc
  | child h1 h2 ih => exact .child ih h2

theorem Lineage.split {r x : XNode} {ch : List XNode} (h : Lineage r ch x) : (ch = [r] ∧ x = r) ∨ ∃ c ∈ r.children, ∃ ch', Lineage c ch' x ∧ ch = ch' ++ [r] := by
  induction h with
  | self => exact Or.inl ⟨rfl, rfl⟩
  | @child q x up h1 h2 ih =>
    rcases ih with ⟨h3, h4⟩ | ⟨e, he, ch', h3, h4⟩
    · right
      rw [h4] at h2
      refine ⟨x, h2, [x], .self, ?_⟩
      rw [h3]
      rfl
    · right
      refine ⟨e, he, x :: ch', ?_, by rw [h4]; rfl⟩
      cases h3 with
      | self => exact .child .self h2
      | child h5 h6 => exact .child (.child h5 h6) h2

mutual
theorem mem_scoped (langs : List (Option String)) : ∀ (r : XNode) (p : List (Option String) × XNode), p ∈ r.scoped langs ↔
    ∃ c ∈ r.children, ∃ ch, Lineage c ch p.2 ∧ p.1 = ch.map XNode.lang ++ langs
  | .mk t a x n cs, p => by
    unfold XNode.scoped
    exact mem_scopedAll langs cs p
theorem mem_scopedAll (langs : List (Option String)) : ∀ (cs : List XNode) (p : List (Option String) × XNode), p ∈ XNode.scopedAll langs cs ↔
    ∃ c ∈ cs, ∃ ch, Lineage c ch p.2 ∧ p.1 = ch.map XNode.lang ++ langs
  | [], p => by
    unfold XNode.scopedAll
    simp
  | c :: cs, p => by
    unfold XNode.scopedAll
    rw [List.mem_cons, List.mem_append, mem_scoped (c.lang :: langs) c p, mem_scopedAll langs cs p]
    constructor
    · rintro (rfl | ⟨d, hd, ch, hl, hp⟩ | ⟨d, hd, ch, hl, hp⟩)
      · exact ⟨c, List.mem_cons_self, [c], .self, rfl⟩
      · refine ⟨c, List.mem_cons_self, ch ++ [c], ?_, by rw [hp]; simp⟩
        exact hl.under hd
      · exact ⟨d, List.mem_cons_of_mem _ hd, ch, hl, hp⟩
    · rintro ⟨d, hd, ch, hl, hp⟩
      rcases List.mem_cons.1 hd with rfl | hd
      · rcases hl.split with ⟨h1, h2⟩ | ⟨e, he, ch', h1, h2⟩
        · left
          rw [h1] at hp
          exact Prod.ext hp h2
        · right; left
          exact ⟨e, he, ch', h1, by rw [hp, h2]; simp⟩
      · exact Or.inr (Or.inr ⟨d, hd, ch, hl, hp⟩)
end

theorem below_iff (r x : XNode) (own : List XNode) : Below r own x ↔ ∃ c ∈ r.children, Lineage c own x := by
  constructor
  · rintro ⟨hne, hl⟩
    rcases hl.split with ⟨h1, _⟩ | ⟨c, hc, ch', h1, h2⟩
    · have : own.length = 0 := by have := congrArg List.length h1; simpa using this
      exact absurd (List.length_eq_zero_iff.1 this) hne
    · have := List.append_cancel_right h2
      exact ⟨c, hc, this ▸ h1⟩
  · rintro ⟨c, hc, hl⟩
    refine ⟨?_, hl.under hc⟩
    cases hl <;> simp

theorem scoped_iff (langs : List (Option String)) (r : XNode) (p : List (Option String) × XNode) :
    p ∈ r.scoped langs ↔ ∃ own, Below r own p.2 ∧ p.1 = own.map XNode.lang ++ langs := by
  rw [mem_scoped]
  constructor
  · rintro ⟨c, hc, ch, hl, hp⟩
    exact ⟨ch, (below_iff ..).2 ⟨c, hc, hl⟩, hp⟩
  · rintro ⟨own, hb, hp⟩
    obtain ⟨c, hc, hl⟩ := (below_iff ..).1 hb
    exact ⟨c, hc, own, hl, hp⟩

theorem nearestLang_eq (chain : List XNode) : nearestLang chain = elemLang (chain.map XNode.lang) := by
  induction chain with
  | nil => rfl
  | cons x xs ih =>
    unfold nearestLang at ih ⊢
    rw [List.findSome?_cons, List.map_cons]
    have : x.lang = x.attr? "{http://www.w3.org/XML/1998/namespace}lang" := rfl
    rw [this]
    cases x.attr? "{http://www.w3.org/XML/1998/namespace}lang" with
    | none => exact ih
    | some l => rfl

/-! ## The attributes -/

/-- The prefix is bound to the name space of XLink. -/
abbrev XlinkScope (x : XNode) : Prop := x.ns.get? (some "xlink") = some "http://www.w3.org/1999/xlink"

theorem xlink?_eq {x : XNode} (h : XlinkScope x) {n : String} (h1 : matchClark ("xlink:" ++ n) = none) (h2 : matchColon ("xlink:" ++ n) = some ("xlink", n)) :
    x.xlink? n = .ok (x.xlinkAttr n) := by
  unfold XNode.xlink? qnameFromStr
  rw [h1, h2]
  simp only [Option.isSome_none, Bool.false_eq_true, if_false, Option.isSome_some, if_true, qnameFromPrefixLocal, h2, bind, Except.bind, pure, Except.pure]
  rw [Dict.get?_set, if_neg (by decide), h]
  rfl

theorem xlink_eq {x : XNode} (h : XlinkScope x) {n : String} (h1 : matchClark ("xlink:" ++ n) = none) (h2 : matchColon ("xlink:" ++ n) = some ("xlink", n)) (v : String) :
    x.xlink n = .ok v ↔ x.xlinkAttr n = some v := by
  unfold XNode.xlink
  rw [xlink?_eq h h1 h2]
  simp only [bind, Except.bind]
  cases x.xlinkAttr n with
  | none => simp [throw, throwThe, MonadExceptOf.throw]
  | some w => simp [pure, Except.pure]

/-- `x.xlink n` for a literal name. -/
macro "xlink_lit" h:term : term => `(xlink_eq $h (by decide +kernel) (by decide +kernel) _)

theorem xlink?_ok (x : XNode) (n : String) (hn : (matchColon ("xlink:" ++ n)).isSome = true) : ∃ o, x.xlink? n = .ok o := by
  unfold XNode.xlink? qnameFromStr
  split
  · unfold qnameFromClark
    rename_i h
    obtain ⟨v, hv⟩ := Option.isSome_iff_exists.1 h
    rw [hv]
    exact ⟨_, rfl⟩
  · obtain ⟨v, hv⟩ := Option.isSome_iff_exists.1 hn
    unfold qnameFromPrefixLocal
    rw [hv]
    exact ⟨_, rfl⟩

theorem mem_findXlink {link : XNode} (h : XlinkScope link) (types : List String) (l : List (List (Option String) × XNode)) (p : List (Option String) × XNode) :
    p ∈ findXlink types link l ↔ p ∈ l ∧ p.2.tag ≠ none ∧ ∃ t ∈ types, p.2.xlinkAttr "type" = some t := by
  unfold findXlink
  rw [h]
  simp only [List.mem_filter, Bool.and_eq_true, List.any_eq_true, decide_eq_true_eq, XNode.xlinkAttr]
  have : ("{" ++ "http://www.w3.org/1999/xlink" ++ "}type") = "{http://www.w3.org/1999/xlink}" ++ "type" := by decide
  rw [this, Option.isSome_iff_ne_none]

/-- The elements found in a link are its parts of these types. -/
theorem findXlink_parts {link : XNode} (h : XlinkScope link) (types : List String) (langs : List (Option String)) (p : List (Option String) × XNode) :
    p ∈ findXlink types link (link.scoped langs) ↔ ∃ t ∈ types, ∃ own, Part link t own p.2 ∧ p.1 = own.map XNode.lang ++ langs := by
  rw [mem_findXlink h, scoped_iff]
  constructor
  · rintro ⟨⟨own, hb, hp⟩, hne, t, ht, hty⟩
    exact ⟨t, ht, own, ⟨hb, hne, hty⟩, hp⟩
  · rintro ⟨t, ht, own, ⟨hb, hne, hty⟩, hp⟩
    exact ⟨⟨own, hb, hp⟩, hne, t, ht, hty⟩

/-! ## Arcs -/

theorem readArc_ok {float : String → Option Rat} {x : XNode} (hs : XlinkScope x) {a : Arc} (h : readArc float x = .ok a) :
    x.xlinkAttr "from" = some a.frm ∧ x.xlinkAttr "to" = some a.to ∧ x.xlinkAttr "arcrole" = some a.role ∧
    a.order = numAttr float (x.attr? "order") ∧ a.weight = numAttr float (x.attr? "weight") ∧ a.preferredLabel = x.attr? "preferredLabel" ∧ a.use = x.attr? "use" := by
  unfold readArc at h
  cases h1 : x.xlink "from" with
  | error e => rw [h1] at h; cases h
  | ok f =>
    cases h2 : x.xlink "to" with
    | error e => rw [h1, h2] at h; cases h
    | ok t =>
      cases h3 : x.xlink "arcrole" with
      | error e => rw [h1, h2, h3] at h; cases h
      | ok r =>
        rw [h1, h2, h3] at h
        cases h
        exact ⟨(xlink_lit hs).1 h1, (xlink_lit hs).1 h2, (xlink_lit hs).1 h3, rfl, rfl, rfl, rfl⟩

/-! ## Link ends -/

theorem readEnds_ok {elems : ElemStore} {facts : FactStore} {str : XNode → String} : ∀ {xs : List (List (Option String) × XNode)} {uid : Nat} {es : List EndReading},
    readEnds elems facts str uid xs = .ok es → es.length = xs.length ∧ ∀ (j : Nat) x e, xs[j]? = some x → es[j]? = some e → readEnd elems facts str (uid + j) x.1 x.2 = .ok e := by
  intro xs
  induction xs with
  | nil => intro uid es h; cases h; exact ⟨rfl, by simp⟩
  | cons x xs ih =>
    intro uid es h
    unfold readEnds at h
    cases h1 : readEnd elems facts str uid x.1 x.2 with
    | error e => rw [h1] at h; cases h
    | ok e =>
      rw [h1] at h
      cases h2 : readEnds elems facts str (uid + 1) xs with
      | error e => simp only [h2, bind, Except.bind] at h; cases h
      | ok es' =>
        simp only [h2, bind, Except.bind] at h
        cases h
        obtain ⟨hl, hj⟩ := ih h2
        refine ⟨by simp [hl], ?_⟩
        intro j y d hy hd
        cases j with
        | zero => simp only [List.getElem?_cons_zero, Option.some.injEq] at hy hd; subst hy hd; exact h1
        | succ j =>
          rw [List.getElem?_cons_succ] at hy hd
          have := hj j y d hy hd
          rwa [Nat.add_assoc, Nat.add_comm 1 j] at this

theorem fragment_refers (href : String) : Refers href (String.ofList (fragment href.toList)) := by
  unfold Refers fragment
  rw [String.toList_ofList]
  have hno : '#' ∉ (href.toList.reverse.takeWhile (· ≠ '#')).reverse := by
    intro hm
    have := takeWhile_all _ _ _ (List.mem_reverse.1 hm)
    simp at this
  refine ⟨hno, ?_⟩
  have hsplit := List.takeWhile_append_dropWhile (p := (· ≠ '#')) (l := href.toList.reverse)
  cases hd : href.toList.reverse.dropWhile (· ≠ '#') with
  | nil =>
    left
    rw [hd, List.append_nil] at hsplit
    rw [hsplit, List.reverse_reverse, String.ofList_toList]
  | cons c rest =>
    right
    have hc : c = '#' := by
      have := List.head_dropWhile_not (p := (fun c : Char => decide (c ≠ '#'))) (l := href.toList.reverse) (by rw [hd]; simp)
      simp only [hd, List.head_cons] at this
      simpa using this
    subst hc
    refine ⟨String.ofList rest.reverse, ?_⟩
    rw [hd] at hsplit
    have := congrArg List.reverse hsplit
    rw [List.reverse_reverse, List.reverse_append, List.reverse_cons] at this
    apply String.toList_injective
    simp only [String.toList_append, String.toList_ofList]
    exact this.symm

theorem refers_unique {href i : String} (h : Refers href i) : i = String.ofList (fragment href.toList) := by
  obtain ⟨hno, he | ⟨doc, rfl⟩⟩ := h
  · subst he
    unfold fragment
    have : (href.toList.reverse.takeWhile (· ≠ '#')) = href.toList.reverse := by
      have := List.takeWhile_append_of_pos (p := fun c : Char => decide (c ≠ '#')) (l₁ := href.toList.reverse) (l₂ := []) (by
        intro c hc
        simp only [ne_eq, decide_eq_true_eq]
        rintro rfl
        exact hno (List.mem_reverse.1 hc))
      simpa using this
    rw [this, List.reverse_reverse, String.ofList_toList]
  · have : (doc ++ "#" ++ i).toList = doc.toList ++ '#' :: i.toList := by
      rw [String.toList_append, String.toList_append, List.append_assoc]
      rfl
    rw [this, fragment_append _ _ hno, String.ofList_toList]

/-- What a locator stands for. -/
theorem readEnd_locator {elems : ElemStore} {facts : FactStore} {str : XNode → String} {uid : Nat} {langs : List (Option String)} {x : XNode} {e : EndReading} (hs : XlinkScope x)
    (ht : x.xlinkAttr "type" = some "locator") (h : readEnd elems facts str uid langs x = .ok e) :
    ∃ href l, x.xlinkAttr "href" = some href ∧ x.xlinkAttr "label" = some l ∧ e.link.label = l ∧ e.resource = none ∧
      ((∃ el, elems.byId.get? (String.ofList (fragment href.toList)) = some el ∧ e.link.target = some (.element el.name (decide (el.kind = .concept))) ∧ e.reports = []) ∨
       (elems.byId.get? (String.ofList (fragment href.toList)) = none ∧
        ((∃ f, facts.byId.get? (String.ofList (fragment href.toList)) = some f ∧
            e.link.target = some (.fact (facts.byId.keys.idxOf (String.ofList (fragment href.toList)))) ∧ e.reports = []) ∨
         (facts.byId.get? (String.ofList (fragment href.toList)) = none ∧ e.link.target = none ∧
            e.reports = [("XML_REFERENCED_LOCATOR_ELEMENT_NOT_FOUND", [("elem_id", some (String.ofList (fragment href.toList)))])])))) := by
  unfold readEnd at h
  rw [(xlink_lit hs).2 ht] at h
  cases h1 : x.xlink "label" with
  | error e => rw [h1] at h; cases h
  | ok l =>
    rw [h1] at h
    simp only [bind, Except.bind, if_true] at h
    cases h2 : x.xlink "href" with
    | error e => rw [h2] at h; cases h
    | ok href =>
      rw [h2] at h
      simp only at h
      refine ⟨href, l, (xlink_lit hs).1 h2, (xlink_lit hs).1 h1, ?_⟩
      unfold resolveLocator at h
      simp only [ElemStore.hasId, FactStore.hasId, Dict.has_eq, ElemStore.getById_eq, FactStore.getById, Dict.get] at h
      cases h3 : elems.byId.get? (String.ofList (fragment href.toList)) with
      | some el =>
        rw [h3] at h
        cases h
        exact ⟨rfl, rfl, Or.inl ⟨el, rfl, rfl, rfl⟩⟩
      | none =>
        rw [h3] at h
        cases h4 : facts.byId.get? (String.ofList (fragment href.toList)) with
        | some f =>
          rw [h4] at h
          cases h
          exact ⟨rfl, rfl, Or.inr ⟨rfl, Or.inl ⟨f, rfl, rfl, rfl⟩⟩⟩
        | none =>
          rw [h4] at h
          cases h
          exact ⟨rfl, rfl, Or.inr ⟨rfl, Or.inr ⟨rfl, rfl, rfl⟩⟩⟩

/-- What a resource element becomes. -/
theorem readEnd_resource {elems : ElemStore} {facts : FactStore} {str : XNode → String} {uid : Nat} {langs : List (Option String)} {x : XNode} {e : EndReading} (hs : XlinkScope x)
    (ht : x.xlinkAttr "type" = some "resource") (h : readEnd elems facts str uid langs x = .ok e) :
    ∃ l role, x.xlinkAttr "label" = some l ∧ x.xlinkAttr "role" = some role ∧ e.link.label = l ∧
      ((x.tag = some (linkTag "label") ∧ ((∃ lang, elemLang langs = some lang ∧ e.link.target = some (.labelResource uid) ∧
            e.resource = some (uid, .label (x.text.getD "") l lang role) ∧ e.reports = []) ∨
          (elemLang langs = none ∧ e.link.target = none ∧ e.resource = none ∧ e.reports = [("MISSING_LABEL_LANGUAGE", [])]))) ∨
       (x.tag = some (linkTag "footnote") ∧ ((∃ lang text, elemLang langs = some lang ∧ e.link.target = some (.footnoteResource uid) ∧
            e.resource = some (uid, .footnote text l lang role) ∧ (∀ t, x.text = some t → t ≠ "" → text = t) ∧ e.reports = []) ∨
          (elemLang langs = none ∧ e.link.target = none ∧ e.resource = none ∧ e.reports = [("XML_MISSING_FOOTNOTE_LANGUAGE", [])]))) ∨
       (x.tag = some (linkTag "reference") ∧ ∃ content, e.link.target = some (.referenceResource uid) ∧ e.resource = some (uid, .reference content l role) ∧ e.reports = []) ∨
       (∀ name ∈ ["label", "footnote", "reference"], x.tag ≠ some (linkTag name))) := by
  unfold readEnd at h
  rw [(xlink_lit hs).2 ht] at h
  cases h1 : x.xlink "label" with
  | error e => rw [h1] at h; cases h
  | ok l =>
    rw [h1] at h
    simp only [bind, Except.bind, if_true] at h
    rw [if_neg (by decide)] at h
    unfold readResource at h
    rw [h1] at h
    simp only [bind, Except.bind] at h
    cases h2 : x.xlink "role" with
    | error e => rw [h2] at h; cases h
    | ok role =>
      rw [h2] at h
      simp only at h
      refine ⟨l, role, (xlink_lit hs).1 h1, (xlink_lit hs).1 h2, ?_⟩
      by_cases t1 : x.tag = some (linkTag "label")
      · have a1 : isInfix "label".toList (linkTag "label").toList = true := by decide +kernel
        rw [t1] at h
        simp only [Option.getD_some, a1, Bool.not_true, Bool.false_and, Bool.false_eq_true, if_false, Bool.true_or, if_true, parseResource, pure, Except.pure] at h
        cases h3 : elemLang langs with
        | none =>
          rw [h3] at h
          cases h
          exact ⟨rfl, Or.inl ⟨t1, Or.inr ⟨rfl, rfl, rfl, rfl⟩⟩⟩
        | some lang =>
          rw [h3] at h
          cases h
          refine ⟨rfl, Or.inl ⟨t1, Or.inl ⟨lang, rfl, rfl, ?_, rfl⟩⟩⟩
          have : orText x.text "" = x.text.getD "" := by
            unfold orText
            cases x.text with
            | none => rfl
            | some t =>
              dsimp only
              by_cases ht0 : t = ""
              · rw [if_pos ht0, ht0]; rfl
              · rw [if_neg ht0]; rfl
          rw [this]
      · by_cases t2 : x.tag = some (linkTag "footnote")
        · have a1 : isInfix "label".toList (linkTag "footnote").toList = false := by decide +kernel
          have a2 : isInfix "footnote".toList (linkTag "footnote").toList = true := by decide +kernel
          rw [t2] at h
          simp only [Option.getD_some, a1, a2, Bool.not_true, Bool.not_false, Bool.true_and, Bool.false_and, Bool.false_eq_true, if_false, Bool.or_false, if_true, parseResource, pure, Except.pure] at h
          cases h3 : elemLang langs with
          | none =>
            rw [h3] at h
            cases h
            exact ⟨rfl, Or.inr (Or.inl ⟨t2, Or.inr ⟨rfl, rfl, rfl, rfl⟩⟩)⟩
          | some lang =>
            rw [h3] at h
            cases h
            refine ⟨rfl, Or.inr (Or.inl ⟨t2, Or.inl ⟨lang, _, rfl, rfl, rfl, ?_, rfl⟩⟩)⟩
            intro t h4 h5
            rw [h4]
            simp [orText, h5]
        · by_cases t3 : x.tag = some (linkTag "reference")
          · have a1 : isInfix "label".toList (linkTag "reference").toList = false := by decide +kernel
            have a2 : isInfix "footnote".toList (linkTag "reference").toList = false := by decide +kernel
            have a3 : isInfix "reference".toList (linkTag "reference").toList = true := by decide +kernel
            rw [t3] at h
            simp only [Option.getD_some, a1, a2, a3, Bool.not_false, Bool.true_and, Bool.and_true, Bool.false_eq_true, if_false, Bool.or_true, if_true, parseResource, pure, Except.pure] at h
            by_cases h6 : (x.children.any fun c => c.tag.isNone) = true
            · rw [if_pos h6] at h; cases h
            · rw [if_neg h6] at h
              cases h
              exact ⟨rfl, Or.inr (Or.inr (Or.inl ⟨t3, _, rfl, rfl, rfl⟩))⟩
          · refine ⟨?_, Or.inr (Or.inr (Or.inr (by
              intro name hn
              simp only [List.mem_cons, List.not_mem_nil, or_false] at hn
              rcases hn with rfl | rfl | rfl <;> assumption)))⟩
            revert h
            generalize (!isInfix "label".toList (x.tag.getD "").toList && !isInfix "footnote".toList (x.tag.getD "").toList && isInfix "reference".toList (x.tag.getD "").toList &&
              x.children.any fun c => c.tag.isNone) = b
            cases b with
            | true => intro h; cases h
            | false =>
              simp only [Bool.false_eq_true, if_false, pure, Except.pure]
              generalize parseResource _ _ = pr
              cases pr <;> (intro h; cases h; rfl)

/-! ## The numbers of resources -/

/-- How many numbers a link takes. -/
def LinkNode.size (l : LinkNode) : Nat := (l.node.scoped l.langs).length

theorem numberLinks_map : ∀ (xs : List (List (Option String) × XNode)) (n : Nat), (numberLinks n xs).map (fun l => (l.langs, l.node)) = xs
  | [], _ => rfl
  | x :: xs, n => by
    unfold numberLinks
    rw [List.map_cons, numberLinks_map xs]

theorem numberLinks_base : ∀ (xs : List (List (Option String) × XNode)) (n : Nat), ∀ l ∈ numberLinks n xs, n ≤ l.base
  | [], _, _, h => by cases h
  | x :: xs, n, l, h => by
    unfold numberLinks at h
    rcases List.mem_cons.1 h with rfl | h
    · exact Nat.le_refl _
    · have := numberLinks_base xs _ l h
      omega

theorem numberLinks_apart : ∀ (xs : List (List (Option String) × XNode)) (n : Nat), (numberLinks n xs).Pairwise (fun a b => a.base + a.size ≤ b.base)
  | [], _ => .nil
  | x :: xs, n => by
    unfold numberLinks
    refine .cons ?_ (numberLinks_apart xs _)
    intro l hl
    exact numberLinks_base xs _ l hl

theorem numberLinks_same {xs : List (List (Option String) × XNode)} {n i : Nat} {a b : LinkNode} (ha : a ∈ numberLinks n xs) (hb : b ∈ numberLinks n xs)
    (h1 : a.base ≤ i) (h2 : i < a.base + a.size) (h3 : b.base ≤ i) (h4 : i < b.base + b.size) : a = b := by
  have := numberLinks_apart xs n
  generalize numberLinks n xs = l at *
  induction this with
  | nil => cases ha
  | cons hx _ ih =>
    rcases List.mem_cons.1 ha with rfl | ha' <;> rcases List.mem_cons.1 hb with rfl | hb'
    · rfl
    · have := hx b hb'; omega
    · have := hx a ha'; omega
    · exact ih ha' hb'

/-! ## One link -/

theorem findXlink_length (types : List String) (link : XNode) (l : List (List (Option String) × XNode)) : (findXlink types link l).length ≤ l.length := by
  unfold findXlink
  split
  · exact Nat.zero_le _
  · exact List.length_filter_le _ _

/-- The link ends of a link element. -/
abbrev LinkNode.ends (l : LinkNode) : List (List (Option String) × XNode) := findXlink ["resource", "locator"] l.node (l.node.scoped l.langs)

/-- The arcs of a link element. -/
abbrev LinkNode.arcs (l : LinkNode) : List (List (Option String) × XNode) := findXlink ["arc"] l.node (l.node.scoped l.langs)

theorem readLink_ok {elems : ElemStore} {facts : FactStore} {float : String → Option Rat} {str : XNode → String} {l : LinkNode} {r : LinkReading}
    (h : readLink elems facts float str l = .ok r) :
    r.link.node = l.node ∧
    ((l.node.xlink? "role" = .ok none ∨ linkKinds (l.node.tag.getD "") = []) ∧ r.link.arcs = [] ∧ r.link.ends = [] ∧ r.resources = [] ∧ r.reports = [] ∨
     (∃ role, l.node.xlink? "role" = .ok (some role)) ∧ linkKinds (l.node.tag.getD "") ≠ [] ∧
      ∃ es, Rel2 (fun x a => readArc float x.2 = .ok a) l.arcs r.link.arcs ∧ readEnds elems facts str l.base l.ends = .ok es ∧ r.link.ends = es.map (·.link) ∧
        r.resources = es.filterMap (·.resource) ∧
        r.reports = (linkKinds (l.node.tag.getD "")).flatMap (fun _ =>
          (repeated Arc.key r.link.arcs).map (fun a => ("DUPLICATE_LINKBASE_ARC", [("arc_from", some a.frm), ("arc_to", some a.to)])) ++ es.flatMap (·.reports))) := by
  unfold readLink at h
  cases h1 : l.node.xlink? "role" with
  | error e => rw [h1] at h; cases h
  | ok o =>
    rw [h1] at h
    cases o with
    | none => cases h; exact ⟨rfl, Or.inl ⟨Or.inl rfl, rfl, rfl, rfl, rfl⟩⟩
    | some role =>
      simp only [bind, Except.bind] at h
      by_cases hk : linkKinds (l.node.tag.getD "") = []
      · rw [if_pos hk] at h
        cases h
        exact ⟨rfl, Or.inl ⟨Or.inr hk, rfl, rfl, rfl, rfl⟩⟩
      · rw [if_neg hk] at h
        cases h2 : (findXlink ["arc"] l.node (l.node.scoped l.langs)).mapM (fun x => readArc float x.2) with
        | error e => rw [h2] at h; cases h
        | ok arcs =>
          rw [h2] at h
          simp only at h
          cases h3 : readEnds elems facts str l.base (findXlink ["resource", "locator"] l.node (l.node.scoped l.langs)) with
          | error e => rw [h3] at h; cases h
          | ok es =>
            rw [h3] at h
            cases h
            refine ⟨rfl, Or.inr ⟨⟨role, rfl⟩, hk, es, (mapM_ok_iff _ _ _).1 h2, rfl, rfl, rfl, ?_⟩⟩
            rw [scanArcs_spec]

theorem readEnds_uid {elems : ElemStore} {facts : FactStore} {str : XNode → String} {uid : Nat} {langs : List (Option String)} {x : XNode} {e : EndReading}
    (h : readEnd elems facts str uid langs x = .ok e) : ∀ p ∈ e.resource, p.1 = uid := by
  unfold readEnd at h
  cases h1 : x.xlink "label" with
  | error e => rw [h1] at h; cases h
  | ok l =>
    cases h2 : x.xlink "type" with
    | error e => rw [h1, h2] at h; cases h
    | ok t =>
      rw [h1, h2] at h
      simp only [bind, Except.bind] at h
      by_cases h3 : t = "locator"
      · rw [if_pos h3] at h
        cases h4 : x.xlink "href" with
        | error e => rw [h4] at h; cases h
        | ok href =>
          rw [h4] at h
          simp only at h
          cases h5 : resolveLocator elems facts href with
          | error e => rw [h5] at h; cases h
          | ok o =>
            rw [h5] at h
            match o, h with
            | some (.inl _), h => cases h; simp
            | some (.inr _), h => cases h; simp
            | none, h => cases h; simp
      · rw [if_neg h3] at h
        by_cases h4 : t = "resource"
        · rw [if_pos h4] at h
          cases h5 : readResource str langs x with
          | error e => rw [h5] at h; cases h
          | ok o =>
            rw [h5] at h
            match o, h with
            | .ok r, h => cases h; simp
            | .error r, h => cases h; simp
        · rw [if_neg h4] at h
          cases h
          simp

/-- The resource with a number is that of the link end at this place. -/
theorem mem_resources {elems : ElemStore} {facts : FactStore} {str : XNode → String} {l : LinkNode} {es : List EndReading}
    (h : readEnds elems facts str l.base l.ends = .ok es) (i : Nat) (r : Resource) :
    (i, r) ∈ es.filterMap (·.resource) ↔ l.base ≤ i ∧ ∃ e, es[i - l.base]? = some e ∧ e.resource = some (i, r) := by
  obtain ⟨hlen, hj⟩ := readEnds_ok h
  rw [List.mem_filterMap]
  constructor
  · rintro ⟨e, he, hr⟩
    obtain ⟨j, hj', he'⟩ := List.mem_iff_getElem.1 he
    have hx : l.ends[j]? = some (l.ends[j]'(by omega)) := List.getElem?_eq_getElem _
    have he2 : es[j]? = some e := by rw [List.getElem?_eq_getElem hj', he']
    have := readEnds_uid (hj j _ e hx he2) (i, r) (by rw [hr]; rfl)
    dsimp only at this
    refine ⟨by omega, e, ?_, hr⟩
    rw [this, Nat.add_sub_cancel_left]
    exact he2
  · rintro ⟨_, e, he, hr⟩
    exact ⟨e, List.mem_of_getElem? he, hr⟩

/-! ## All links -/

/-- The link elements of the documents. -/
abbrev linkNodes (roots : List XNode) : List LinkNode := numberLinks 0 (linkElements roots)

theorem mem_linkNodes {roots : List XNode} {l : LinkNode} (h : l ∈ linkNodes roots) :
    isLinkElement l.node = true ∧ ∃ root ∈ roots, ∃ own, Below root own l.node ∧ l.langs = (own ++ [root]).map XNode.lang := by
  have h1 : (l.langs, l.node) ∈ linkElements roots := by
    rw [← numberLinks_map (linkElements roots) 0]
    exact List.mem_map.2 ⟨l, h, rfl⟩
  obtain ⟨root, hr, h2⟩ := List.mem_flatMap.1 h1
  obtain ⟨h3, h4⟩ := List.mem_filter.1 h2
  obtain ⟨own, hb, hl⟩ := (scoped_iff ..).1 h3
  refine ⟨h4, root, hr, own, hb, ?_⟩
  rw [List.map_append]
  exact hl

theorem exists_linkNode {roots : List XNode} {root : XNode} (hr : root ∈ roots) {own : List XNode} {x : XNode} (hb : Below root own x) (hx : isLinkElement x = true) :
    ∃ l ∈ linkNodes roots, l.node = x ∧ l.langs = (own ++ [root]).map XNode.lang := by
  have h1 : ((own ++ [root]).map XNode.lang, x) ∈ linkElements roots := by
    refine List.mem_flatMap.2 ⟨root, hr, List.mem_filter.2 ⟨(scoped_iff ..).2 ⟨own, hb, ?_⟩, hx⟩⟩
    rw [List.map_append]
    rfl
  rw [← numberLinks_map (linkElements roots) 0] at h1
  obtain ⟨l, hl, he⟩ := List.mem_map.1 h1
  exact ⟨l, hl, congrArg Prod.snd he, congrArg Prod.fst he⟩

/-- What is read from the link. -/
def linkOf (elems : ElemStore) (facts : FactStore) (float : String → Option Rat) (str : XNode → String) (l : LinkNode) : LinkXml :=
  match readLink elems facts float str l with
  | .ok r => r.link
  | .error _ => ⟨l.node, [], []⟩

theorem linkOf_node (elems : ElemStore) (facts : FactStore) (float : String → Option Rat) (str : XNode → String) (l : LinkNode) : (linkOf elems facts float str l).node = l.node := by
  unfold linkOf
  cases h : readLink elems facts float str l with
  | error e => rfl
  | ok r => exact (readLink_ok h).1

theorem role_eq (l : LinkXml) : l.role = l.node.xlink? "role" := rfl

theorem readPass_ok {elems : ElemStore} {facts : FactStore} {float : String → Option Rat} {str : XNode → String} {so : SetOrder} : ∀ (ls : List LinkNode) (s p : ReadPass),
    ls.foldlM (ReadPass.step elems facts float str so) s = .ok p →
    ∃ rs, Rel2 (fun l r => readLink elems facts float str l = .ok r) ls rs ∧ (ls.map (linkOf elems facts float str)).foldlM (LinkPass.step so) s.pass = .ok p.pass ∧
      p.resources = s.resources ++ rs.flatMap (·.resources) ∧ p.reports = s.reports ++ rs.flatMap (·.reports) := by
  intro ls
  induction ls with
  | nil => intro s p h; cases h; exact ⟨[], .nil, rfl, by simp, by simp⟩
  | cons l ls ih =>
    intro s p h
    rw [List.foldlM_cons] at h
    unfold ReadPass.step at h
    cases h1 : readLink elems facts float str l with
    | error e => rw [h1] at h; cases h
    | ok r =>
      rw [h1] at h
      simp only [bind, Except.bind] at h
      cases h2 : s.pass.step so r.link with
      | error e => rw [h2] at h; cases h
      | ok p1 =>
        rw [h2] at h
        simp only [pure, Except.pure] at h
        obtain ⟨rs, h3, h4, h5, h6⟩ := ih _ _ h
        refine ⟨r :: rs, .cons h1 h3, ?_, ?_, ?_⟩
        · rw [List.map_cons, List.foldlM_cons]
          have : linkOf elems facts float str l = r.link := by unfold linkOf; rw [h1]
          rw [this, h2]
          exact h4
        · rw [h5, List.flatMap_cons, List.append_assoc]
        · rw [h6, List.flatMap_cons, List.append_assoc]

theorem sortLinkNodes_eq {links sorted : List LinkNode} (h : sortLinkNodes links = .ok sorted) (elems : ElemStore) (facts : FactStore) (float : String → Option Rat) (str : XNode → String) :
    sortLinks (links.map (linkOf elems facts float str)) = .ok (sorted.map (linkOf elems facts float str)) ∧
    ∃ p : LinkNode → Bool, sorted = links.filter p ++ links.filter (fun l => !p l) := by
  have hlit : (matchColon ("xlink:" ++ "role")).isSome = true := by decide +kernel
  unfold sortLinkNodes at h
  cases hk : links.mapM (fun l => l.node.xlink? "role") with
  | error e => rw [hk] at h; cases h
  | ok keys =>
    rw [hk] at h
    cases h
    have hr := (mapM_ok_iff _ _ _).1 hk
    have hstd : Rel2 (fun (b : LinkNode) a => stdKey a = LinkXml.standard ⟨b.node, [], []⟩) links keys := by
      refine hr.imp ?_
      intro l _ o ho
      unfold LinkXml.standard
      rw [role_eq]
      dsimp only
      rw [ho]
      cases o with
      | none => decide
      | some r => simp [stdKey, isStandardRole, standardLinkRoles]
    have hs := sort_pairs stdKey (fun b : LinkNode => LinkXml.standard ⟨b.node, [], []⟩) hstd
    have hkeys : (links.map (linkOf elems facts float str)).mapM LinkXml.role = .ok keys := by
      rw [mapM_ok_iff]
      clear hstd hs hk
      induction hr with
      | nil => exact .nil
      | cons h1 _ ih => exact .cons (by rw [role_eq, linkOf_node]; exact h1) ih
    have hs2 : ∃ sorted', sortLinks (links.map (linkOf elems facts float str)) = .ok sorted' := by
      unfold sortLinks
      rw [hkeys]
      exact ⟨_, rfl⟩
    obtain ⟨sorted', hs2⟩ := hs2
    refine ⟨?_, _, hs⟩
    rw [hs2, sortLinks_eq hs2]
    have : (sortBy (fun a b => isStandardRole (a.1.getD "") || !isStandardRole (b.1.getD "")) (keys.zip links)).map (·.2) =
      (sortBy (fun a b : Option String × LinkNode => stdKey a.1 || !stdKey b.1) (keys.zip links)).map (·.2) := rfl
    rw [this, hs]
    unfold inOrder
    rw [List.filter_map, List.filter_map, List.map_append]
    have hcomp : ∀ l : LinkNode, (linkOf elems facts float str l).standard = LinkXml.standard ⟨l.node, [], []⟩ := by
      intro l
      unfold LinkXml.standard
      rw [role_eq, role_eq, linkOf_node]
    have e1 : LinkXml.standard ∘ linkOf elems facts float str = fun l => LinkXml.standard ⟨l.node, [], []⟩ := funext hcomp
    have e2 : (fun l => !LinkXml.standard l) ∘ linkOf elems facts float str = fun l => !LinkXml.standard ⟨l.node, [], []⟩ := funext (fun l => by simp [hcomp])
    rw [e1, e2]

theorem Rel2.flatMap_mem {α β γ : Type} {R : α → β → Prop} {l : List α} {m : List β} (h : Rel2 R l m) (g : β → List γ) (x : γ) : x ∈ m.flatMap g ↔ ∃ a ∈ l, ∃ b ∈ m, R a b ∧ x ∈ g b := by
  rw [List.mem_flatMap]
  constructor
  · rintro ⟨b, hb, hx⟩
    obtain ⟨a, ha, hab⟩ := h.mem_right b hb
    exact ⟨a, ha, b, hb, hab, hx⟩
  · rintro ⟨_, _, b, hb, _, hx⟩
    exact ⟨b, hb, hx⟩

/-- Reading the networks of the documents is reading the links of their link elements. -/
theorem readNetworks_ok {elems : ElemStore} {facts : FactStore} {float : String → Option Rat} {str : XNode → String} {so : SetOrder} {steps : Nat} {roots : List XNode} {s : ReadNetworks}
    (h : readNetworks elems facts float str so steps roots = some (.ok s)) :
    parseNetworks so steps ((linkNodes roots).map (linkOf elems facts float str)) = some (.ok s.networks) ∧
    (∀ l ∈ linkNodes roots, ∃ r, readLink elems facts float str l = .ok r) ∧
    (∀ x, x ∈ s.resources ↔ ∃ l ∈ linkNodes roots, ∃ r, readLink elems facts float str l = .ok r ∧ x ∈ r.resources) ∧
    (∀ x, x ∈ s.reports ↔ ∃ l ∈ linkNodes roots, ∃ r, readLink elems facts float str l = .ok r ∧ x ∈ r.reports) := by
  unfold readNetworks at h
  cases hs : sortLinkNodes (numberLinks 0 (linkElements roots)) with
  | error e => rw [hs] at h; cases h
  | ok sorted =>
    rw [hs] at h
    dsimp only at h
    obtain ⟨hsort, q, hsorted⟩ := sortLinkNodes_eq hs elems facts float str
    have hmem : ∀ l, l ∈ sorted ↔ l ∈ linkNodes roots := by
      intro l
      rw [hsorted, List.mem_append, List.mem_filter, List.mem_filter]
      constructor
      · rintro (⟨h1, _⟩ | ⟨h1, _⟩) <;> exact h1
      · intro h1
        cases hq : q l with
        | true => exact Or.inl ⟨h1, rfl⟩
        | false => exact Or.inr ⟨h1, rfl⟩
    cases hf : sorted.foldlM (ReadPass.step elems facts float str so) {} with
    | error e => rw [hf] at h; cases h
    | ok p =>
      rw [hf] at h
      dsimp only at h
      obtain ⟨rs, hrel, hpass, hres, hrep⟩ := readPass_ok _ _ _ hf
      cases hc : combineRoles so steps p.pass.heap p.pass.byRole with
      | none => rw [hc] at h; cases h
      | some x =>
        cases x with
        | error e => rw [hc] at h; cases h
        | ok y =>
          rw [hc] at h
          cases h
          have hread : ∀ (g : LinkReading → List (Nat × Resource)) (x : Nat × Resource), x ∈ rs.flatMap g ↔ ∃ l ∈ linkNodes roots, ∃ r, readLink elems facts float str l = .ok r ∧ x ∈ g r := by
            intro g x
            rw [hrel.flatMap_mem]
            constructor
            · rintro ⟨l, hl, r, _, h1, h2⟩
              exact ⟨l, (hmem l).1 hl, r, h1, h2⟩
            · rintro ⟨l, hl, r, h1, h2⟩
              obtain ⟨r', hr', h3⟩ := hrel.mem_left l ((hmem l).2 hl)
              rw [h1] at h3
              cases h3
              exact ⟨l, (hmem l).2 hl, r, hr', h1, h2⟩
          have hread' : ∀ (g : LinkReading → List SchemaReport) (x : SchemaReport), x ∈ rs.flatMap g ↔ ∃ l ∈ linkNodes roots, ∃ r, readLink elems facts float str l = .ok r ∧ x ∈ g r := by
            intro g x
            rw [hrel.flatMap_mem]
            constructor
            · rintro ⟨l, hl, r, _, h1, h2⟩
              exact ⟨l, (hmem l).1 hl, r, h1, h2⟩
            · rintro ⟨l, hl, r, h1, h2⟩
              obtain ⟨r', hr', h3⟩ := hrel.mem_left l ((hmem l).2 hl)
              rw [h1] at h3
              cases h3
              exact ⟨l, (hmem l).2 hl, r, hr', h1, h2⟩
          refine ⟨?_, ?_, ?_, ?_⟩
          · unfold parseNetworks
            rw [hsort]
            dsimp only
            rw [hpass]
            dsimp only
            rw [hc]
            rfl
          · intro l hl
            obtain ⟨r, _, hr⟩ := hrel.mem_left l ((hmem l).2 hl)
            exact ⟨r, hr⟩
          · intro x
            dsimp only
            rw [hres]
            exact hread _ x
          · intro x
            dsimp only
            rw [hrep]
            exact hread' _ x

/-- Different resources have different numbers. -/
theorem resources_unique {elems : ElemStore} {facts : FactStore} {float : String → Option Rat} {str : XNode → String} {so : SetOrder} {steps : Nat} {roots : List XNode} {s : ReadNetworks}
    (h : readNetworks elems facts float str so steps roots = some (.ok s)) {i : Nat} {r r' : Resource} (h1 : (i, r) ∈ s.resources) (h2 : (i, r') ∈ s.resources) : r = r' := by
  obtain ⟨_, _, hres, _⟩ := readNetworks_ok h
  have key : ∀ {r}, (i, r) ∈ s.resources → ∃ l ∈ linkNodes roots, ∃ es, readEnds elems facts str l.base l.ends = .ok es ∧ l.base ≤ i ∧ i < l.base + l.size ∧
      ∃ e, es[i - l.base]? = some e ∧ e.resource = some (i, r) := by
    intro r hr
    obtain ⟨l, hl, rd, hrd, hm⟩ := (hres _).1 hr
    rcases (readLink_ok hrd).2 with ⟨_, _, _, h0, _⟩ | ⟨_, _, es, _, h4, _, h5, _⟩
    · rw [h0] at hm; cases hm
    · rw [h5] at hm
      obtain ⟨a1, e, a2, a3⟩ := (mem_resources h4 i r).1 hm
      refine ⟨l, hl, es, h4, a1, ?_, e, a2, a3⟩
      have b1 := (readEnds_ok h4).1
      have b2 : i - l.base < es.length := (List.getElem?_eq_some_iff.1 a2).1
      have b3 := findXlink_length ["resource", "locator"] l.node (l.node.scoped l.langs)
      have b4 : l.ends.length ≤ l.size := b3
      omega
  obtain ⟨l, hl, es, a1, a2, a3, e, a4, a5⟩ := key h1
  obtain ⟨l', hl', es', b1, b2, b3, e', b4, b5⟩ := key h2
  have := numberLinks_same hl hl' a2 a3 b2 b3
  subst this
  rw [a1] at b1
  cases b1
  rw [a4] at b4
  cases b4
  rw [a5] at b5
  cases b5
  rfl

end Brel
