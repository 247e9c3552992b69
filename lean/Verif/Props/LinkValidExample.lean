import Verif.Props.LinkValid
import Verif.Props.LinkbaseExample

/-! Examples for C102, and where the claim fails without a condition. -/

namespace Brel

theorem Below.descendant {r x : XNode} {own : List XNode} (h : Below r own x) : x ∈ r.descendants := by
  rw [← scoped_nodes [] r]
  exact List.mem_map.2 ⟨(own.map XNode.lang, x), (scoped_iff [] r _).2 ⟨own, h, by simp⟩, rfl⟩

namespace LinkbaseExample

theorem links_are {name role : String} {up : List XNode} {link : XNode} (h : HasLink [labelDoc, presDoc] name role up link) :
    link = labels ∧ name = "labelLink" ∨ (link = pres1 ∨ link = pres2) ∧ name = "presentationLink" := by
  obtain ⟨root, hr, own, hb, _⟩ := h.placed
  have hx := h.extended
  have ht := h.tag
  have key : link ∈ labelDoc.descendants ++ presDoc.descendants := by
    simp only [List.mem_cons, List.not_mem_nil, or_false] at hr
    rw [List.mem_append]
    rcases hr with rfl | rfl
    · exact Or.inl hb.descendant
    · exact Or.inr hb.descendant
  have hd : labelDoc.descendants ++ presDoc.descendants = [note, labels, note, loc "a" "p_A", loc "b" "p_B", lab "la" "std" "Aktiva" [(lang, "de")], lab "lb" "std" "Bonds" [], arc "labelArc" "a" "la" "cl", arc "labelArc" "b" "lb" "cl",
      pres1, loc "a" "p_A", loc "b" "p_B", arc "presentationArc" "a" "b" "pc", pres2, loc "x" "p_B", loc "y" "p_C", arc "presentationArc" "x" "y" "pc"] := rfl
  rw [hd] at key
  have hl : ∀ l i : String, (loc l i).xlinkAttr "type" = some "locator" := fun _ _ => rfl
  have ha : ∀ t f g r : String, (arc t f g r).xlinkAttr "type" = some "arc" := fun _ _ _ _ => rfl
  have hres : ∀ l r t a, (lab l r t a).xlinkAttr "type" = some "resource" := fun _ _ _ _ => rfl
  have hn : note.xlinkAttr "type" = none := rfl
  have t1 : labels.tag = some (linkTag "labelLink") := rfl
  have t2 : pres1.tag = some (linkTag "presentationLink") := rfl
  have t3 : pres2.tag = some (linkTag "presentationLink") := rfl
  simp only [List.mem_cons, List.not_mem_nil, or_false] at key
  rcases key with rfl | rfl | rfl | rfl | rfl | rfl | rfl | rfl | rfl | rfl | rfl | rfl | rfl | rfl | rfl | rfl | rfl
  all_goals first
    | (rw [hl] at hx; simp at hx; done)
    | (rw [ha] at hx; simp at hx; done)
    | (rw [hres] at hx; simp at hx; done)
    | (rw [hn] at hx; simp at hx; done)
    | skip
  · rw [t1] at ht; exact Or.inl ⟨rfl, (linkTag_inj (Option.some.inj ht)).symm⟩
  · rw [t2] at ht; exact Or.inr ⟨Or.inl rfl, (linkTag_inj (Option.some.inj ht)).symm⟩
  · rw [t3] at ht; exact Or.inr ⟨Or.inr rfl, (linkTag_inj (Option.some.inj ht)).symm⟩

/-- The parts of a link whose parts have no parts. -/
theorem part_child {link x : XNode} {t : String} {own : List XNode} (hflat : link.descendants = link.children) (h : Part link t own x) : x ∈ link.children ∧ x.tag ≠ none ∧ x.xlinkAttr "type" = some t := by
  rw [← hflat]
  exact ⟨h.below.descendant, h.element, h.type⟩

theorem child_part {link x : XNode} {t : String} (hc : x ∈ link.children) (h1 : x.tag ≠ none) (h2 : x.xlinkAttr "type" = some t) : Part link t [x] x :=
  ⟨(below_iff ..).2 ⟨_, hc, .self⟩, h1, h2⟩

theorem parts_are {link : XNode} (hflat : link.descendants = link.children) (locs : List (String × String)) (arcs : List (String × String × String × String)) (labs : List (String × String × String × Dict String String))
    (hc : ∀ x ∈ link.children, x = note ∨ (∃ p ∈ locs, x = loc p.1 p.2) ∨ (∃ p ∈ labs, x = lab p.1 p.2.1 p.2.2.1 p.2.2.2) ∨ ∃ p ∈ arcs, x = arc p.1 p.2.1 p.2.2.1 p.2.2.2) {t : String} {own : List XNode} {x : XNode}
    (h : Part link t own x) : t = "locator" ∧ (∃ p ∈ locs, x = loc p.1 p.2) ∨ t = "resource" ∧ (∃ p ∈ labs, x = lab p.1 p.2.1 p.2.2.1 p.2.2.2) ∨ t = "arc" ∧ ∃ p ∈ arcs, x = arc p.1 p.2.1 p.2.2.1 p.2.2.2 := by
  obtain ⟨h1, h2, h3⟩ := part_child hflat h
  have hl : ∀ l i : String, (loc l i).xlinkAttr "type" = some "locator" := fun _ _ => rfl
  have ha : ∀ t f g r : String, (arc t f g r).xlinkAttr "type" = some "arc" := fun _ _ _ _ => rfl
  have hb : ∀ l r t a, (lab l r t a).xlinkAttr "type" = some "resource" := fun _ _ _ _ => rfl
  rcases hc x h1 with rfl | ⟨p, hp, rfl⟩ | ⟨p, hp, rfl⟩ | ⟨p, hp, rfl⟩
  · exact absurd rfl h2
  · rw [hl] at h3
    exact Or.inl ⟨(Option.some.inj h3).symm, p, hp, rfl⟩
  · rw [hb] at h3
    exact Or.inr (Or.inl ⟨(Option.some.inj h3).symm, p, hp, rfl⟩)
  · rw [ha] at h3
    exact Or.inr (Or.inr ⟨(Option.some.inj h3).symm, p, hp, rfl⟩)

theorem labels_parts {t : String} {own : List XNode} {x : XNode} (h : Part labels t own x) :
    t = "locator" ∧ (∃ p ∈ [("a", "p_A"), ("b", "p_B")], x = loc p.1 p.2) ∨
    t = "resource" ∧ (∃ p ∈ [("la", "std", "Aktiva", [(lang, "de")]), ("lb", "std", "Bonds", [])], x = lab p.1 p.2.1 p.2.2.1 p.2.2.2) ∨
    t = "arc" ∧ ∃ p ∈ [("labelArc", "a", "la", "cl"), ("labelArc", "b", "lb", "cl")], x = arc p.1 p.2.1 p.2.2.1 p.2.2.2 := parts_are (link := labels) rfl [("a", "p_A"), ("b", "p_B")]
  [("labelArc", "a", "la", "cl"), ("labelArc", "b", "lb", "cl")] [("la", "std", "Aktiva", [(lang, "de")]), ("lb", "std", "Bonds", [])] (by
    intro x hx
    have hd : labels.children = [note, loc "a" "p_A", loc "b" "p_B", lab "la" "std" "Aktiva" [(lang, "de")], lab "lb" "std" "Bonds" [], arc "labelArc" "a" "la" "cl", arc "labelArc" "b" "lb" "cl"] := rfl
    rw [hd] at hx
    simp only [List.mem_cons, List.not_mem_nil, or_false] at hx
    rcases hx with rfl | rfl | rfl | rfl | rfl | rfl | rfl <;> simp) h

theorem valid_arc (t f g r : String) : (∃ l, (arc t f g r).xlinkAttr "from" = some l) ∧ (∃ m, (arc t f g r).xlinkAttr "to" = some m) ∧ (∃ r', (arc t f g r).xlinkAttr "arcrole" = some r') ∧
    NumberAttr LinkbaseExample.float (arc t f g r) "order" ∧ NumberAttr LinkbaseExample.float (arc t f g r) "weight" :=
  ⟨⟨f, rfl⟩, ⟨g, rfl⟩, ⟨r, rfl⟩, (fun _ h => nomatch h), (fun _ h => nomatch h)⟩

theorem valid_loc {facts : FactStore} {name l i : String} (hi : '#' ∉ i.toList) (h : ∃ e, LinkbaseExample.elems.byId.get? i = some e ∧ name ≠ "calculationLink") :
    (∃ l', (loc l i).xlinkAttr "label" = some l') ∧ ∃ href i', (loc l i).xlinkAttr "href" = some href ∧ Refers href i' ∧
      (∀ e, LinkbaseExample.elems.byId.get? i' = some e → name = "calculationLink" → e.kind = .concept) ∧
      (∀ f, LinkbaseExample.elems.byId.get? i' = none → facts.byId.get? i' = some f → name = "footnoteLink") := by
  obtain ⟨e, he, hn⟩ := h
  exact ⟨⟨l, rfl⟩, "a.xsd#" ++ i, i, rfl, ⟨hi, Or.inr ⟨"a.xsd", rfl⟩⟩, fun _ _ h => absurd h hn, fun _ h => by rw [he] at h; cases h⟩

theorem joined_labels {l m : String} : Joined labels l m ↔ l = "a" ∧ m = "la" ∨ l = "b" ∧ m = "lb" := by
  constructor
  · intro h
    have hd : arcPairs labels = [(some "a", some "la"), (some "b", some "lb")] := by decide +kernel
    have := joined_pair h
    rw [hd] at this
    simpa using this
  · rintro (⟨rfl, rfl⟩ | ⟨rfl, rfl⟩)
    · exact ⟨_, arc "labelArc" "a" "la" "cl", "cl", child_part (by simp [labels, XNode.children]) (by simp [arc, XNode.tag]) rfl, rfl, rfl, rfl⟩
    · exact ⟨_, arc "labelArc" "b" "lb" "cl", "cl", child_part (by simp [labels, XNode.children]) (by simp [arc, XNode.tag]) rfl, rfl, rfl, rfl⟩

theorem labels_valid (facts : FactStore) : ValidLink LinkbaseExample.elems facts LinkbaseExample.float "labelLink" labels := by
  have hlab : ∀ l r t a m, (lab l r t a).xlinkAttr "label" = some m → m = l := fun _ _ _ _ _ h => (Option.some.inj h).symm
  have hloc : ∀ l i m : String, (loc l i).xlinkAttr "label" = some m → m = l := fun _ _ _ h => (Option.some.inj h).symm
  refine ⟨?_, ?_, ?_, ?_, ⟨fun l => if l = "a" ∨ l = "b" then 0 else 1, ?_⟩⟩
  · intro own x h
    rcases labels_parts h with ⟨h1, _⟩ | ⟨h1, _⟩ | ⟨_, p, _, rfl⟩
    · simp at h1
    · simp at h1
    · exact valid_arc ..
  · intro own x h
    rcases labels_parts h with ⟨_, p, hp, rfl⟩ | ⟨h1, _⟩ | ⟨h1, _⟩
    · simp only [List.mem_cons, List.not_mem_nil, or_false] at hp
      rcases hp with rfl | rfl
      · exact valid_loc (by decide +kernel) ⟨⟨.abstract, nm "A", some "p_A", [], 0⟩, by decide +kernel, by decide⟩
      · exact valid_loc (by decide +kernel) ⟨⟨.concept, nm "B", some "p_B", [], 0⟩, by decide +kernel, by decide⟩
    · simp at h1
    · simp at h1
  · intro own x h
    rcases labels_parts h with ⟨h1, _⟩ | ⟨_, p, _, rfl⟩ | ⟨h1, _⟩
    · simp at h1
    · exact ⟨⟨p.1, rfl⟩, ⟨p.2.1, rfl⟩, "label", by simp [resourceTags], rfl, by simp⟩
    · simp at h1
  · intro _
    constructor
    · intro own x m h hm
      rcases labels_parts h with ⟨h1, _⟩ | ⟨_, p, hp, rfl⟩ | ⟨h1, _⟩
      · simp at h1
      · have := hlab _ _ _ _ _ hm
        simp only [List.mem_cons, List.not_mem_nil, or_false] at hp
        rcases hp with rfl | rfl
        · subst this
          exact ⟨⟨"a", joined_labels.2 (by simp)⟩, fun m' hj => by simpa using joined_labels.1 hj⟩
        · subst this
          exact ⟨⟨"b", joined_labels.2 (by simp)⟩, fun m' hj => by simpa using joined_labels.1 hj⟩
      · simp at h1
    · intro own x m h hm l hj
      rcases labels_parts h with ⟨_, p, hp, rfl⟩ | ⟨h1, _⟩ | ⟨h1, _⟩
      · have := hloc _ _ _ hm
        simp only [List.mem_cons, List.not_mem_nil, or_false] at hp
        rcases hp with rfl | rfl <;> (subst this; simpa using joined_labels.1 hj)
      · simp at h1
      · simp at h1
  · intro l m hj
    rcases joined_labels.1 hj with ⟨rfl, rfl⟩ | ⟨rfl, rfl⟩ <;> decide

theorem pres_valid {facts : FactStore} {link : XNode} {l i m j : String} (hc : link.children = [loc l i, loc m j, arc "presentationArc" l m "pc"]) (hlm : l ≠ m) (hi : '#' ∉ i.toList) (hj : '#' ∉ j.toList)
    (he1 : ∃ e, LinkbaseExample.elems.byId.get? i = some e) (he2 : ∃ e, LinkbaseExample.elems.byId.get? j = some e) :
    ValidLink LinkbaseExample.elems facts LinkbaseExample.float "presentationLink" link := by
  have hflat : link.descendants = link.children := by
    rw [hc]
    cases link with
    | mk t a x n cs =>
      have : cs = [loc l i, loc m j, arc "presentationArc" l m "pc"] := hc
      subst this
      rfl
  have parts {t own x} (h : Part link t own x) := parts_are hflat [(l, i), (m, j)] [("presentationArc", l, m, "pc")] [] (by
    intro x hx
    rw [hc] at hx
    simp only [List.mem_cons, List.not_mem_nil, or_false] at hx
    rcases hx with rfl | rfl | rfl <;> simp) h
  refine ⟨?_, ?_, ?_, by simp, ⟨fun k => if k = l then 0 else 1, ?_⟩⟩
  · intro own x h
    rcases parts h with ⟨h1, _⟩ | ⟨h1, _⟩ | ⟨_, p, _, rfl⟩
    · simp at h1
    · simp at h1
    · exact valid_arc ..
  · intro own x h
    rcases parts h with ⟨_, p, hp, rfl⟩ | ⟨h1, _⟩ | ⟨h1, _⟩
    · simp only [List.mem_cons, List.not_mem_nil, or_false] at hp
      obtain ⟨e1, he1⟩ := he1
      obtain ⟨e2, he2⟩ := he2
      rcases hp with rfl | rfl
      · exact valid_loc hi ⟨e1, he1, by decide⟩
      · exact valid_loc hj ⟨e2, he2, by decide⟩
    · simp at h1
    · simp at h1
  · intro own x h
    rcases parts h with ⟨h1, _⟩ | ⟨_, p, hp, _⟩ | ⟨h1, _⟩
    · simp at h1
    · cases hp
    · simp at h1
  · rintro u v ⟨own, x, r, hx, h1, h2, _⟩
    rcases parts hx with ⟨h3, _⟩ | ⟨_, p, hp, _⟩ | ⟨_, p, hp, rfl⟩
    · simp at h3
    · cases hp
    · rw [List.mem_singleton] at hp
      subst hp
      have e1 : u = l := (Option.some.inj h1).symm
      have e2 : v = m := (Option.some.inj h2).symm
      subst e1 e2
      simp [Ne.symm hlm]

/-- The conditions of C102 are met by the link bases of the example. -/
theorem valid_links (facts : FactStore) : ValidLinks LinkbaseExample.elems facts LinkbaseExample.float [labelDoc, presDoc] := by
  intro name role up link h
  rcases links_are h with ⟨rfl, rfl⟩ | ⟨rfl | rfl, rfl⟩
  · exact labels_valid facts
  · exact pres_valid (l := "a") (i := "p_A") (m := "b") (j := "p_B") rfl (by decide) (by decide +kernel) (by decide +kernel) ⟨⟨.abstract, nm "A", some "p_A", [], 0⟩, by decide +kernel⟩ ⟨⟨.concept, nm "B", some "p_B", [], 0⟩, by decide +kernel⟩
  · exact pres_valid (l := "x") (i := "p_B") (m := "y") (j := "p_C") rfl (by decide) (by decide +kernel) (by decide +kernel) ⟨⟨.concept, nm "B", some "p_B", [], 0⟩, by decide +kernel⟩ ⟨⟨.concept, nm "C", some "p_C", [], 0⟩, by decide +kernel⟩

example : ∃ steps s, ∀ j, readNetworks LinkbaseExample.elems LinkbaseExample.facts LinkbaseExample.float LinkbaseExample.str .insertion (steps + j) [labelDoc, presDoc] = some (.ok s) :=
  C102_succeeds plain (valid_links _)

/-- A link with an arc twice, a locator that leads nowhere and a label without language gives three reports. -/
def sloppy : XNode := .mk (some (linkTag "linkbase")) [] none LinkbaseExample.ns [.mk (some (linkTag "labelLink")) [(xl "type", "extended"), (xl "role", "r")] none LinkbaseExample.ns
  [loc "a" "p_A", loc "z" "p_Z", lab "la" "std" "Aktiva" [(lang, "de")], lab "lb" "std" "Bonds" [], arc "labelArc" "a" "la" "cl", arc "labelArc" "a" "la" "cl"]]
example : (good [sloppy]).map (fun s => s.reports) = some [("DUPLICATE_LINKBASE_ARC", [("arc_from", some "a"), ("arc_to", some "la")]),
    ("XML_REFERENCED_LOCATOR_ELEMENT_NOT_FOUND", [("elem_id", some "p_Z")]), ("MISSING_LABEL_LANGUAGE", [])] := by decide +kernel

end LinkbaseExample

open LinkbaseExample

/-- C102 fails: a comment among the parts of a reference prevents the filing from being opened. -/
theorem C102_comment_false : ∃ (roots : List XNode) (link x c : XNode) (up own : List XNode), PlainLinks roots ∧ HasLink roots "referenceLink" "r" up link ∧ Part link "resource" own x ∧
    x.tag = some (linkTag "reference") ∧ c ∈ x.children ∧ c.tag = none ∧
    readNetworks LinkbaseExample.elems LinkbaseExample.facts LinkbaseExample.float LinkbaseExample.str .insertion 20 roots = some (.error .typeError) := by
  let x : XNode := .mk (some (linkTag "reference")) [(xl "type", "resource"), (xl "label", "ra"), (xl "role", "std")] none LinkbaseExample.ns [note]
  let link : XNode := .mk (some (linkTag "referenceLink")) [(xl "type", "extended"), (xl "role", "r")] none LinkbaseExample.ns [loc "a" "p_A", x, arc "referenceArc" "a" "ra" "cr"]
  let root : XNode := .mk (some (linkTag "linkbase")) [] none LinkbaseExample.ns [link]
  exact ⟨[root], link, x, note, [link, root], [x], plainLinks_of (by decide +kernel),
    ⟨⟨root, List.mem_singleton.2 rfl, [link], (below_iff ..).2 ⟨_, List.mem_cons_self, .self⟩, rfl⟩, rfl, rfl, rfl⟩,
    child_part (List.mem_cons_of_mem _ List.mem_cons_self) (by simp [x, XNode.tag]) rfl, rfl, List.mem_cons_self, rfl, out_of_bad (docs := [root]) (by decide +kernel)⟩

end Brel
