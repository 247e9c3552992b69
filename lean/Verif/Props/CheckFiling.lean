import Verif.Props.OpenExample

/-! Deciding the conditions on links and roles for a given filing whose links join report elements. -/

namespace Brel

/-- The conditions of `ValidLinkbases` for a part of a link with this tag, if the link has no resources and its locators lead to report elements. -/
def checkPart (elems : ElemStore) (float : String → Option Rat) (name : String) (locators : List XNode) (y : XNode) : Bool :=
  decide (y.tag = none) ||
    ((decide (y.xlinkAttr "type" ≠ some "arc") || ((y.xlinkAttr "from").isSome && (y.xlinkAttr "to").isSome && (y.xlinkAttr "arcrole").isSome &&
        ["order", "weight"].all (fun a => (y.attr? a).all (fun t => decide (t ≠ "") && (float t).isSome)) &&
        locators.any (fun z => decide (z.xlinkAttr "label" = y.xlinkAttr "from")))) &&
     (decide (y.xlinkAttr "type" ≠ some "locator") || ((y.xlinkAttr "label").isSome && (y.xlinkAttr "href").any (fun h =>
        (elems.byId.get? (String.ofList (fragment h.toList))).any (fun e => decide (name ≠ "calculationLink") || decide (e.kind = .concept))))) &&
     decide (y.xlinkAttr "type" ≠ some "resource"))

/-- The locators of a link. -/
def locatorsOf (link : XNode) : List XNode := link.descendants.filter (fun y => decide (y.tag ≠ none) && decide (y.xlinkAttr "type" = some "locator"))

def checkLink (elems : ElemStore) (float : String → Option Rat) (rank : String → Nat) (link : XNode) : Bool :=
  (link.xlinkAttr "role").isSome &&
  (unitedTags.map (·.1)).any (fun name => decide (link.tag = some (linkTag name)) && link.descendants.all (checkPart elems float name (locatorsOf link))) &&
  (arcPairs link).all (fun a => decide (rank (a.1.getD "") < rank (a.2.getD ""))) && decide (arcKeys link).Nodup

variable {elems : ElemStore} {facts : FactStore} {float : String → Option Rat} {roots : List XNode}

theorem checkLinkbases (rank : String → Nat) (hp : PlainLinks roots)
    (h : roots.all (fun r => r.descendants.all (fun x => decide (x.xlinkAttr "type" ≠ some "extended") || checkLink elems float rank x)) = true) : ValidLinkbases elems facts float roots := by
  have one : ∀ name up link, ContainsLink roots name up link → checkLink elems float rank link = true := by
    rintro name up link ⟨⟨root, hr, own, hb, _⟩, _, hx⟩
    have := List.all_eq_true.1 (List.all_eq_true.1 h root hr) link hb.descendant
    rw [Bool.or_eq_true, decide_eq_true_eq] at this
    exact this.resolve_left (fun hn => hn hx)
  have has : ∀ name role up link, HasLink roots name role up link → (name ∈ unitedTags.map (·.1) ∧ ∀ t own x, Part link t own x → checkPart elems float name (locatorsOf link) x = true) ∧
      (∀ l m, Joined link l m → rank l < rank m) ∧ (arcKeys link).Nodup := by
    intro name role up link hl
    have hc := one name up link ⟨hl.placed, hl.tag, hl.extended⟩
    unfold checkLink at hc
    rw [Bool.and_eq_true, Bool.and_eq_true, Bool.and_eq_true] at hc
    obtain ⟨⟨⟨_, h2⟩, h3⟩, h4⟩ := hc
    obtain ⟨name', hn, hn'⟩ := List.any_eq_true.1 h2
    rw [Bool.and_eq_true, decide_eq_true_eq] at hn'
    have he : name' = name := by
      have := hn'.1
      rw [hl.tag] at this
      exact (linkTag_inj (Option.some.inj this)).symm
    subst he
    refine ⟨⟨hn, fun t own x hx => List.all_eq_true.1 hn'.2 x hx.below.descendant⟩, fun l m hj => ?_, of_decide_eq_true h4⟩
    have := List.all_eq_true.1 h3 _ (joined_pair hj)
    simpa using this
  have part : ∀ {name l} {x : XNode}, checkPart elems float name l x = true → x.tag ≠ none →
      (x.xlinkAttr "type" = some "arc" → ((((x.xlinkAttr "from").isSome = true ∧ (x.xlinkAttr "to").isSome = true) ∧ (x.xlinkAttr "arcrole").isSome = true) ∧
        (["order", "weight"].all (fun a => (x.attr? a).all (fun t => decide (t ≠ "") && (float t).isSome))) = true) ∧ l.any (fun z => decide (z.xlinkAttr "label" = x.xlinkAttr "from")) = true) ∧
      (x.xlinkAttr "type" = some "locator" → (x.xlinkAttr "label").isSome = true ∧ ∃ href, x.xlinkAttr "href" = some href ∧ ∃ e, elems.byId.get? (String.ofList (fragment href.toList)) = some e ∧
        (name = "calculationLink" → e.kind = .concept)) ∧ x.xlinkAttr "type" ≠ some "resource" := by
    intro name l x hx ht
    unfold checkPart at hx
    rw [decide_eq_false ht, Bool.false_or, Bool.and_eq_true, Bool.and_eq_true] at hx
    obtain ⟨⟨h1, h2⟩, h3⟩ := hx
    rw [Bool.or_eq_true, decide_eq_true_eq] at h1 h2
    refine ⟨fun h => ?_, fun h => ?_, of_decide_eq_true h3⟩
    · have := h1.resolve_left (fun hn => hn h)
      rw [Bool.and_eq_true, Bool.and_eq_true, Bool.and_eq_true, Bool.and_eq_true] at this
      exact this
    · have := h2.resolve_left (fun hn => hn h)
      rw [Bool.and_eq_true, Option.any_eq_true] at this
      obtain ⟨g1, href, g2, g3⟩ := this
      rw [Option.any_eq_true] at g3
      obtain ⟨e, g4, g5⟩ := g3
      rw [Bool.or_eq_true, decide_eq_true_eq, decide_eq_true_eq] at g5
      exact ⟨g1, href, g2, e, g4, fun hn => g5.resolve_left (fun hne => hne hn)⟩
  refine ⟨hp, ?_, ?_, ?_, ?_, ?_, ?_⟩
  · intro name role up link hl
    obtain ⟨⟨hn, hpt⟩, hrk, hnd⟩ := has name role up link hl
    refine ⟨?_, ?_, ?_, ?_, rank, hrk⟩
    · intro own x hx
      obtain ⟨⟨⟨⟨g1, g2⟩, g3⟩, g4⟩, _⟩ := (part (hpt _ _ _ hx) hx.element).1 hx.type
      have num : ∀ a ∈ ["order", "weight"], NumberAttr float x a := by
        intro a ha t ht
        have := List.all_eq_true.1 g4 a ha
        rw [ht, Option.all_some, Bool.and_eq_true, decide_eq_true_eq] at this
        exact ⟨this.1, Option.isSome_iff_exists.1 this.2⟩
      exact ⟨Option.isSome_iff_exists.1 g1, Option.isSome_iff_exists.1 g2, Option.isSome_iff_exists.1 g3, num _ (by simp), num _ (by simp)⟩
    · intro own x hx
      obtain ⟨g1, href, g2, e, g3, g4⟩ := (part (hpt _ _ _ hx) hx.element).2.1 hx.type
      refine ⟨Option.isSome_iff_exists.1 g1, href, _, g2, fragment_refers href, fun e' he' hc => ?_, fun f hf => ?_⟩
      · rw [g3] at he'; cases he'; exact g4 hc
      · rw [g3] at hf; cases hf
    · intro own x hx
      exact absurd hx.type (part (hpt _ _ _ hx) hx.element).2.2
    · intro hn'
      have : ∀ n ∈ unitedTags.map (·.1), n ≠ "labelLink" := by decide
      exact absurd hn' (this name hn)
  · intro name up link hl
    have hc := one name up link hl
    unfold checkLink at hc
    rw [Bool.and_eq_true, Bool.and_eq_true, Bool.and_eq_true] at hc
    exact Option.isSome_iff_exists.1 hc.1.1.1
  · intro name role up link hl own x href i hx hh hr
    obtain ⟨_, href', g2, e, g3, _⟩ := (part ((has name role up link hl).1.2 _ _ _ hx) hx.element).2.1 hx.type
    rw [hh] at g2
    cases g2
    rw [← refers_unique hr] at g3
    exact Or.inl ⟨e, g3⟩
  · intro name role up link hl own x hx
    exact absurd hx.type (part ((has name role up link hl).1.2 _ _ _ hx) hx.element).2.2
  · intro name role up link hl
    exact (has name role up link hl).2.2
  · intro p _ role up link hl l m hj
    obtain ⟨own, x, r, hx, x1, _⟩ := hj
    obtain ⟨_, g5⟩ := (part ((has _ role up link hl).1.2 _ _ _ hx) hx.element).1 hx.type
    obtain ⟨z, hz, hzl⟩ := List.any_eq_true.1 g5
    rw [decide_eq_true_eq, x1] at hzl
    obtain ⟨hzd, hzc⟩ := List.mem_filter.1 hz
    rw [Bool.and_eq_true, decide_eq_true_eq, decide_eq_true_eq] at hzc
    have hzp : ∃ own', Below link own' z := by
      rw [← scoped_nodes [] link] at hzd
      obtain ⟨p', hp', rfl⟩ := List.mem_map.1 hzd
      obtain ⟨own', hb, _⟩ := (scoped_iff [] link p').1 hp'
      exact ⟨own', hb⟩
    obtain ⟨own', hb⟩ := hzp
    have hzp : Part link "locator" own' z := ⟨hb, hzc.1, hzc.2⟩
    obtain ⟨_, href, g2, e, g3, _⟩ := (part ((has _ role up link hl).1.2 _ _ _ hzp) hzp.element).2.1 hzp.type
    exact ⟨e.name, own', z, href, _, e, hzp, hzl, g2, fragment_refers href, g3, rfl⟩

theorem checkRoles (h : (roots.flatMap declaredRoles).all (fun x => decide (x.ns.get? (some "link") = some "http://www.xbrl.org/2003/linkbase") && (x.attr? "roleURI").any (fun r =>
    roots.all (fun root => root.descendants.all (fun y => decide (y.xlinkAttr "role" ≠ some r) || (unitedTags.map (·.1)).all (fun n => decide (y.tag ≠ some (linkTag n)) || decide ("link:" ++ n ∈ declaredOn x)))))) = true) :
    ValidRoles roots := by
  intro x hx
  have := List.all_eq_true.1 h x hx
  rw [Bool.and_eq_true, decide_eq_true_eq, Option.any_eq_true] at this
  obtain ⟨h1, r, h2, h3⟩ := this
  refine ⟨r, ⟨h2, h1⟩, fun p hp up link hl => ?_⟩
  obtain ⟨root, hr, own, hb, _⟩ := hl.placed
  have := List.all_eq_true.1 (List.all_eq_true.1 h3 root hr) link hb.descendant
  rw [Bool.or_eq_true, decide_eq_true_eq] at this
  have := List.all_eq_true.1 (this.resolve_left (fun hn => hn hl.role)) p.1 (List.mem_map_of_mem hp)
  rw [Bool.or_eq_true, decide_eq_true_eq, decide_eq_true_eq] at this
  exact this.resolve_left (fun hn => hn hl.tag)

theorem checkSchemas {docs : List SchemaDoc} (h1 : (schemaDeclarations docs).all (fun d => decide (d.ns ≠ "" ∧ '}' ∉ d.ns.toList ∧ d.x.attr? "name" ≠ some "" ∧ '{' ∉ ((d.x.attr? "name").getD "").toList)) = true)
    (h2 : (schemaDeclarations docs).all (fun d => (conceptChecks d.x d.name).all (fun k => k.1)) = true)
    (h3 : (schemaDeclarations docs).all (fun d => !isInfix "dimensionItem".toList ((d.x.attr? "substitutionGroup").getD "").toList) = true) : ValidSchemas docs := by
  refine ⟨fun d hd => by have h := List.all_eq_true.1 h1 d hd; rw [decide_eq_true_eq] at h; exact h, fun d hd _ _ k hk => List.all_eq_true.1 (List.all_eq_true.1 h2 d hd) k hk, fun d hd hg => ?_⟩
  have h := (isInfix_iff _ _).2 hg
  have := List.all_eq_true.1 h3 d hd
  rw [h] at this
  cases this

end Brel
