import Verif.Spec.Schema
import Verif.Lemmas.Names
import Verif.Lemmas.History
import Verif.Lemmas.Link

/-! C43, C44, C85 and C86: the elements a taxonomy declares. -/

namespace Brel

/-! ## C44: concepts -/

/-- C44: if all attributes are valid, the concept has their values; otherwise the first invalid attribute is reported. -/
theorem C44_concept (x : XNode) (id : Option String) (name : QName) :
    (∀ c, conceptFromXml x id name = .ok c ↔ (∀ k ∈ conceptChecks x name, k.1 = true) ∧ ShowsAttributes x name id c) ∧
    (∀ r, conceptFromXml x id name = .error r ↔ ∃ b, (conceptChecks x name).find? (fun k => !k.1) = some (b, r)) := by
  have e1 : xbrliAttr "periodType" = "{http://www.xbrl.org/2003/instance}periodType" := by decide
  have e2 : xbrliAttr "balance" = "{http://www.xbrl.org/2003/instance}balance" := by decide
  unfold conceptFromXml conceptChecks
  rw [e1, e2]
  dsimp only
  by_cases h1 : x.attr? "{http://www.xbrl.org/2003/instance}periodType" ∈ [some "instant", some "duration"]
  · rw [if_neg (not_not_intro h1)]
    by_cases h2 : x.attr? "{http://www.xbrl.org/2003/instance}balance" ∈ [some "credit", some "debit", none]
    · rw [if_neg (not_not_intro h2)]
      by_cases h3 : x.attr? "nillable" ∈ [some "true", some "false", none]
      · rw [if_neg (not_not_intro h3)]
        have g1 : (x.attr? "{http://www.xbrl.org/2003/instance}periodType" = some "instant" ∨ x.attr? "{http://www.xbrl.org/2003/instance}periodType" = some "duration") := by simpa using h1
        have g2 : (x.attr? "{http://www.xbrl.org/2003/instance}balance" = none ∨ x.attr? "{http://www.xbrl.org/2003/instance}balance" = some "debit" ∨
          x.attr? "{http://www.xbrl.org/2003/instance}balance" = some "credit") := by
          simp at h2; rcases h2 with h2 | h2 | h2 <;> simp [h2]
        have g3 : (x.attr? "nillable" = none ∨ x.attr? "nillable" = some "true" ∨ x.attr? "nillable" = some "false") := by
          simp at h3; rcases h3 with h3 | h3 | h3 <;> simp [h3]
        cases ht : x.attr? "type" with
        | none => simp [List.find?, g1, g2, g3]
        | some t =>
          constructor
          · intro c
            constructor
            · intro hc
              cases hc
              refine ⟨by simp [g1, g2, g3], rfl, rfl, rfl, ?_, rfl, by simp, ht⟩
              rcases g1 with g1 | g1 <;> rw [g1] <;> rfl
            · rintro ⟨_, hs⟩
              obtain ⟨s1, s2, s3, s4, s5, s6, s7⟩ := hs
              obtain ⟨cn, ci, cl, cp, cb, cnil, ct⟩ := c
              simp only at s1 s2 s3 s4 s5 s6 s7
              rw [ht] at s7
              cases s7
              rw [s4, s5, ← s1, ← s2, s3]
              congr 2
              cases cnil
              · simpa using s6
              · simpa using s6
          · intro r
            simp [List.find?, g1, g2, g3]
      · rw [if_pos h3]
        have g1 : (x.attr? "{http://www.xbrl.org/2003/instance}periodType" = some "instant" ∨ x.attr? "{http://www.xbrl.org/2003/instance}periodType" = some "duration") := by simpa using h1
        have g2 : (x.attr? "{http://www.xbrl.org/2003/instance}balance" = none ∨ x.attr? "{http://www.xbrl.org/2003/instance}balance" = some "debit" ∨
          x.attr? "{http://www.xbrl.org/2003/instance}balance" = some "credit") := by
          simp at h2; rcases h2 with h2 | h2 | h2 <;> simp [h2]
        have g3 : ¬ (x.attr? "nillable" = none ∨ x.attr? "nillable" = some "true" ∨ x.attr? "nillable" = some "false") := by
          rintro (h | h | h) <;> exact h3 (by simp [h])
        refine ⟨fun c => by simp [g3], fun r => ?_⟩
        rw [List.find?_cons_of_neg (by simp [g1]), List.find?_cons_of_neg (by simp [g2]), List.find?_cons_of_pos (by simp [g3])]
        constructor
        · intro h; cases h; exact ⟨_, rfl⟩
        · rintro ⟨b, h⟩; cases h; rfl
    · rw [if_pos h2]
      have g1 : (x.attr? "{http://www.xbrl.org/2003/instance}periodType" = some "instant" ∨ x.attr? "{http://www.xbrl.org/2003/instance}periodType" = some "duration") := by simpa using h1
      have g2 : ¬ (x.attr? "{http://www.xbrl.org/2003/instance}balance" = none ∨ x.attr? "{http://www.xbrl.org/2003/instance}balance" = some "debit" ∨
          x.attr? "{http://www.xbrl.org/2003/instance}balance" = some "credit") := by
        rintro (h | h | h) <;> exact h2 (by simp [h])
      refine ⟨fun c => by simp [g2], fun r => ?_⟩
      rw [List.find?_cons_of_neg (by simp [g1]), List.find?_cons_of_pos (by simp [g2])]
      constructor
      · intro h; cases h; exact ⟨_, rfl⟩
      · rintro ⟨b, h⟩; cases h; rfl
  · rw [if_pos h1]
    have g1 : ¬ (x.attr? "{http://www.xbrl.org/2003/instance}periodType" = some "instant" ∨ x.attr? "{http://www.xbrl.org/2003/instance}periodType" = some "duration") := by simpa using h1
    refine ⟨fun c => by simp [g1], fun r => ?_⟩
    rw [List.find?_cons_of_pos (by simp [g1])]
    constructor
    · intro h; cases h; exact ⟨_, rfl⟩
    · rintro ⟨b, h⟩; cases h; rfl

/-! ## C43: kinds -/

theorem isInfix_iff (w t : List Char) : isInfix w t = true ↔ w <:+: t := by
  unfold isInfix
  rw [List.any_eq_true]
  constructor
  · rintro ⟨i, _, hi⟩
    have hp : w <+: t.drop i := by simpa using hi
    exact hp.isInfix.trans (List.drop_suffix i t).isInfix
  · rintro ⟨a, b, rfl⟩
    refine ⟨a.length, by simp; omega, ?_⟩
    rw [List.append_assoc, List.drop_left]
    simp

/-- C43: what an element becomes, for all attribute values. -/
theorem C43_kinds (x : XNode) (name : QName) :
    let ab := x.attr? "abstract" = some "true"
    let kind := (createElement x name).1.map (·.kind)
    (kind = some .member ↔ typeHas x "domainItemType") ∧
    (kind = some .concept ↔ ¬ typeHas x "domainItemType" ∧ ¬ ab ∧ groupHas x "item" ∧ ∀ k ∈ conceptChecks x name, k.1 = true) ∧
    (kind = some .hypercube ↔ ¬ typeHas x "domainItemType" ∧ ab ∧ groupHas x "hypercubeItem") ∧
    (kind = some .dimension ↔ ¬ typeHas x "domainItemType" ∧ ab ∧ ¬ groupHas x "hypercubeItem" ∧ groupHas x "dimensionItem") ∧
    (kind = some .lineItems ↔ ¬ typeHas x "domainItemType" ∧ ab ∧ ¬ groupHas x "hypercubeItem" ∧ ¬ groupHas x "dimensionItem" ∧ nameHas x "LineItems") ∧
    (kind = some .abstract ↔ ¬ typeHas x "domainItemType" ∧ ab ∧ ¬ groupHas x "hypercubeItem" ∧ ¬ groupHas x "dimensionItem" ∧ ¬ nameHas x "LineItems") ∧
    (kind = none ↔ ¬ typeHas x "domainItemType" ∧ ¬ ab ∧ (groupHas x "item" → ∃ k ∈ conceptChecks x name, k.1 = false)) := by
  have hab : ((x.attr? "abstract").getD "false" = "true") ↔ x.attr? "abstract" = some "true" := by
    cases h : x.attr? "abstract" with
    | none => simp
    | some v => simp
  have hc := C44_concept x (x.attr? "id") name
  have hcon : (∀ k ∈ conceptChecks x name, k.1 = true) ↔ ∃ c, conceptFromXml x (x.attr? "id") name = .ok c := by
    constructor
    · intro h
      cases hr : conceptFromXml x (x.attr? "id") name with
      | ok c => exact ⟨c, rfl⟩
      | error r =>
        obtain ⟨b, hb⟩ := (hc.2 r).1 hr
        have h1 := List.find?_some hb
        have h2 := h _ (List.mem_of_find?_eq_some hb)
        rw [h2] at h1
        cases h1
    · rintro ⟨c, h⟩
      exact ((hc.1 c).1 h).1
  have hncon : (∃ k ∈ conceptChecks x name, k.1 = false) ↔ ¬ ∃ c, conceptFromXml x (x.attr? "id") name = .ok c := by
    rw [← hcon]
    simp only [Classical.not_forall, Bool.not_eq_true, exists_prop]
  dsimp only
  rw [hcon, hncon]
  unfold typeHas groupHas nameHas createElement
  simp only [← isInfix_iff, ← hab]
  generalize isInfix "domainItemType".toList ((x.attr? "type").getD "").toList = d
  generalize isInfix "item".toList ((x.attr? "substitutionGroup").getD "").toList = i
  generalize isInfix "hypercubeItem".toList ((x.attr? "substitutionGroup").getD "").toList = hy
  generalize isInfix "dimensionItem".toList ((x.attr? "substitutionGroup").getD "").toList = di
  generalize isInfix "LineItems".toList ((x.attr? "name").getD "").toList = li
  by_cases ha : (x.attr? "abstract").getD "false" = "true" <;> cases d <;> cases i <;> cases hy <;> cases di <;> cases li <;>
    cases conceptFromXml x (x.attr? "id") name <;> simp [ha]

/-- C85: what is known of an element when it is created: its name, its id and, if it is a concept, the values of its attributes; the first invalid attribute of a concept is reported, and
nothing else. -/
theorem C85_created (x : XNode) (name : QName) :
    let item := ¬ typeHas x "domainItemType" ∧ x.attr? "abstract" ≠ some "true" ∧ groupHas x "item"
    (∀ e, (createElement x name).1 = some e → e.name = name ∧ e.id = x.attr? "id" ∧ e.typed = none ∧
      if e.kind = .concept then ∃ c, e.concept = some c ∧ ShowsAttributes x name (x.attr? "id") c else e.concept = none) ∧
    (item → (createElement x name).2 = (((conceptChecks x name).find? (fun k => !k.1)).map (·.2)).toList) ∧
    (¬ item → (createElement x name).2 = []) := by
  have hab : ((x.attr? "abstract").getD "false" = "true") ↔ x.attr? "abstract" = some "true" := by
    cases h : x.attr? "abstract" with
    | none => simp
    | some v => simp
  have hc := C44_concept x (x.attr? "id") name
  have hrep : ((conceptChecks x name).find? (fun k => !k.1)).map (·.2) = (match conceptFromXml x (x.attr? "id") name with | .ok _ => none | .error r => some r) := by
    cases hr : conceptFromXml x (x.attr? "id") name with
    | ok c =>
      have h := ((hc.1 c).1 hr).1
      dsimp only
      rw [Option.map_eq_none_iff, List.find?_eq_none]
      intro k hk
      rw [h k hk]
      decide
    | error r =>
      obtain ⟨b, hb⟩ := (hc.2 r).1 hr
      rw [hb]
      rfl
  have hatt : ∀ c, conceptFromXml x (x.attr? "id") name = .ok c → ShowsAttributes x name (x.attr? "id") c := fun c h => ((hc.1 c).1 h).2
  dsimp only
  rw [hrep]
  unfold typeHas groupHas createElement
  simp only [← isInfix_iff, ne_eq, ← hab]
  generalize isInfix "domainItemType".toList ((x.attr? "type").getD "").toList = d
  generalize isInfix "item".toList ((x.attr? "substitutionGroup").getD "").toList = i
  generalize isInfix "hypercubeItem".toList ((x.attr? "substitutionGroup").getD "").toList = hy
  generalize isInfix "dimensionItem".toList ((x.attr? "substitutionGroup").getD "").toList = di
  generalize isInfix "LineItems".toList ((x.attr? "name").getD "").toList = li
  revert hatt
  by_cases ha : (x.attr? "abstract").getD "false" = "true" <;> cases d <;> cases i <;> cases hy <;> cases di <;> cases li <;>
    cases conceptFromXml x (x.attr? "id") name <;> simp [ha]

theorem infix_split {w a b : List Char} {c : Char} (h : w <:+: a ++ c :: b) (hc : c ∉ w) : w <:+: a ∨ w <:+: b := by
  obtain ⟨l, r, e⟩ := h
  rw [List.append_assoc] at e
  rcases List.append_eq_append_iff.1 e with ⟨m, rfl, h2⟩ | ⟨m, rfl, h2⟩
  · rcases List.append_eq_append_iff.1 h2 with ⟨n, rfl, h3⟩ | ⟨n, rfl, h3⟩
    · exact Or.inl ⟨l, n, by simp⟩
    · cases n with
      | nil => exact Or.inl ⟨l, [], by simp⟩
      | cons d n =>
        rw [List.cons_append] at h3
        cases h3
        exact absurd (by simp) hc
  · cases m with
    | nil =>
      simp only [List.nil_append] at h2
      cases w with
      | nil => exact Or.inl ⟨[], a, by simp⟩
      | cons d w => cases h2; exact absurd (by simp) hc
    | cons d m =>
      rw [List.cons_append] at h2
      cases h2
      exact Or.inr ⟨m, r, by simp⟩

theorem infix_prefixed {w p l : String} (hc : ':' ∉ w.toList) (hp : ¬ w.toList <:+: p.toList) : w.toList <:+: (p ++ ":" ++ l).toList ↔ w.toList <:+: l.toList := by
  have e : (p ++ ":" ++ l).toList = p.toList ++ ':' :: l.toList := by simp [String.toList_append]
  rw [e]
  constructor
  · intro h
    exact (infix_split h hc).resolve_left hp
  · intro h
    exact h.trans ⟨p.toList ++ [':'], [], by simp⟩

/-- C43 for taxonomies written in the customary way: `abstract` is written `true` or `false`, every element belongs to one of the three substitution groups (under a prefix that does not itself
contain their names), hypercubes and dimensions are abstract as their specification demands, and the local name of the type contains `domainItemType` only if it is that name. Then
elements have the kind the specifications give them, except concepts with an invalid attribute (C44). -/
theorem C43_standard_partial (x : XNode) (name : QName) (p q g t : String) (hg : x.attr? "substitutionGroup" = some (p ++ ":" ++ g)) (hgs : g ∈ ["item", "hypercubeItem", "dimensionItem"])
    (hp : ∀ w ∈ ["item", "hypercubeItem", "dimensionItem"], ¬ w.toList <:+: p.toList) (ht : x.attr? "type" = some (q ++ ":" ++ t)) (hq : ¬ "domainItemType".toList <:+: q.toList)
    (htd : "domainItemType".toList <:+: t.toList → t = "domainItemType") (hab : x.attr? "abstract" ∈ [none, some "true", some "false"]) (hdim : g ≠ "item" → x.attr? "abstract" = some "true") :
    (createElement x name).1.map (·.kind) =
      let k := kindOf (decide (x.attr? "abstract" ∈ [some "true", some "1"])) g t ((x.attr? "name").getD "")
      if k = some .concept ∧ ∃ c ∈ conceptChecks x name, c.1 = false then none else k := by
  obtain ⟨k1, k2, k3, k4, k5, k6, k7⟩ := C43_kinds x name
  have htype : typeHas x "domainItemType" ↔ t = "domainItemType" := by
    unfold typeHas
    rw [ht, Option.getD_some, infix_prefixed (by decide) hq]
    exact ⟨htd, fun h => by rw [h]; exact List.infix_rfl⟩
  have hgroup : ∀ w ∈ ["item", "hypercubeItem", "dimensionItem"], groupHas x w ↔ g = w := by
    intro w hw
    unfold groupHas
    rw [hg, Option.getD_some, infix_prefixed (by revert w; decide) (hp w hw), ← isInfix_iff]
    exact (show ∀ g ∈ ["item", "hypercubeItem", "dimensionItem"], ∀ w ∈ ["item", "hypercubeItem", "dimensionItem"], isInfix w.toList g.toList = true ↔ g = w by decide) g hgs w hw
  have hname : nameHas x "LineItems" ↔ isInfix "LineItems".toList ((x.attr? "name").getD "").toList = true := (isInfix_iff _ _).symm
  rw [htype] at k1 k2 k3 k4 k5 k6 k7
  rw [hgroup "item" (by decide)] at k2 k7
  rw [hgroup "hypercubeItem" (by decide)] at k3 k4 k5 k6
  rw [hgroup "dimensionItem" (by decide)] at k4 k5 k6
  rw [hname] at k5 k6
  have habs : x.attr? "abstract" ∈ [some "true", some "1"] ↔ x.attr? "abstract" = some "true" := by
    revert hab
    generalize x.attr? "abstract" = a
    intro hab
    exact (show ∀ a ∈ [none, some "true", some "false"], a ∈ [some "true", some "1"] ↔ a = some "true" by decide) a hab
  unfold kindOf
  dsimp only
  by_cases h1 : t = "domainItemType"
  · rw [if_pos h1]; rw [if_neg (fun h => by cases h.1)]; exact k1.2 h1
  · rw [if_neg h1]
    by_cases h2 : g = "hypercubeItem"
    · rw [if_pos h2]; rw [if_neg (fun h => by cases h.1)]; exact k3.2 ⟨h1, hdim (by rw [h2]; decide), h2⟩
    · rw [if_neg h2]
      by_cases h3 : g = "dimensionItem"
      · rw [if_pos h3]; rw [if_neg (fun h => by cases h.1)]; exact k4.2 ⟨h1, hdim (by rw [h3]; decide), h2, h3⟩
      · rw [if_neg h3]
        have h4 : g = "item" := by
          rcases List.mem_cons.1 hgs with h | h
          · exact h
          · rcases List.mem_cons.1 h with h | h
            · exact absurd h h2
            · exact absurd (List.mem_singleton.1 h) h3
        rw [if_pos h4]
        by_cases h5 : x.attr? "abstract" = some "true"
        · rw [if_pos (decide_eq_true (habs.2 h5))]
          by_cases h6 : isInfix "LineItems".toList ((x.attr? "name").getD "").toList = true
          · rw [if_pos h6]; rw [if_neg (fun h => by cases h.1)]; exact k5.2 ⟨h1, h5, h2, h3, h6⟩
          · rw [if_neg h6]; rw [if_neg (fun h => by cases h.1)]; exact k6.2 ⟨h1, h5, h2, h3, h6⟩
        · rw [if_neg (fun h => h5 (habs.1 (of_decide_eq_true h)))]
          by_cases h6 : ∃ c ∈ conceptChecks x name, c.1 = false
          · rw [k7.2 ⟨h1, h5, fun _ => h6⟩, if_pos ⟨rfl, h6⟩]
          · rw [if_neg (fun h => h6 h.2), k2.2]
            refine ⟨h1, h5, h4, fun k hk => ?_⟩
            cases hk' : k.1 with
            | true => rfl
            | false => exact absurd ⟨k, hk, hk'⟩ h6

namespace SchemaExample

def xs : String := "{http://www.w3.org/2001/XMLSchema}element"
def ns : NsMap := [(some "ex", "http://ex"), (some "xbrldt", "http://xbrl.org/2005/xbrldt")]
def cash : XNode := .mk (some xs) [("name", "Cash"), ("id", "ex_Cash"), ("substitutionGroup", "xbrli:item"), ("type", "xbrli:monetaryItemType"),
  ("{http://www.xbrl.org/2003/instance}periodType", "instant"), ("{http://www.xbrl.org/2003/instance}balance", "debit")] none ns []

example : (createElement cash ⟨"http://ex", "ex", "Cash"⟩).1.map (·.kind) = some .concept := by decide +kernel
example : ∀ k ∈ conceptChecks cash ⟨"http://ex", "ex", "Cash"⟩, k.1 = true := by decide +kernel
example : (conceptFromXml (.mk (some xs) [("{http://www.xbrl.org/2003/instance}periodType", "instant"), ("nillable", "no")] none ns []) none ⟨"http://ex", "ex", "Cash"⟩) =
    .error ("INVALID_CONCEPT_NILLABLE_VALUE", [("concept_name", some "Cash"), ("nillable_value", some "no")]) := by decide +kernel
example : (createElement cash ⟨"http://ex", "ex", "Cash"⟩).1.map (·.kind) = some .concept := by
  rw [C43_standard_partial cash _ "xbrli" "xbrli" "item" "monetaryItemType" (by decide) (by decide) (by simp only [← isInfix_iff]; decide) (by decide)
    (by simp only [← isInfix_iff]; decide) (by simp only [← isInfix_iff]; decide) (by decide) (by decide)]
  decide +kernel

end SchemaExample

/-- C44 fails: an element whose `nillable` is written `1`, which is a valid boolean, is no concept. -/
theorem C44_boolean_false : ∃ x : XNode, (∃ v ∈ xsBoolean, x.attr? "nillable" = some v) ∧ (∀ k ∈ conceptChecks (.mk x.tag (x.attrs.erase "nillable") x.text x.ns x.children) ⟨"u", "p", "A"⟩, k.1 = true) ∧
    conceptFromXml x none ⟨"u", "p", "A"⟩ = .error ("INVALID_CONCEPT_NILLABLE_VALUE", [("concept_name", some "A"), ("nillable_value", some "1")]) :=
  ⟨.mk (some SchemaExample.xs) [("nillable", "1"), ("type", "t"), ("{http://www.xbrl.org/2003/instance}periodType", "instant")] none [] [], ⟨"1", by decide, by decide⟩, by decide +kernel, by decide +kernel⟩

/-- C43 fails: an abstract item whose `abstract` is written `1` becomes a concept. -/
theorem C43_boolean_false : ∃ x : XNode, x.attr? "abstract" = some "1" ∧ x.attr? "substitutionGroup" = some "xbrli:item" ∧
    kindOf true "item" "stringItemType" "A" = some .abstract ∧ (createElement x ⟨"u", "p", "A"⟩).1.map (·.kind) = some .concept :=
  ⟨.mk (some SchemaExample.xs) [("name", "A"), ("abstract", "1"), ("substitutionGroup", "xbrli:item"), ("type", "xbrli:stringItemType"), ("{http://www.xbrl.org/2003/instance}periodType", "instant")] none [] [],
    by decide, by decide, by decide +kernel, by decide +kernel⟩

/-- C43 fails: abstract elements that belong to no substitution group become report elements. -/
theorem C43_head_false : ∃ x : XNode, x.attr? "substitutionGroup" = none ∧ kindOf true "" "anyType" "item" = none ∧ (createElement x ⟨"u", "p", "item"⟩).1.map (·.kind) = some .abstract :=
  ⟨.mk (some SchemaExample.xs) [("name", "item"), ("abstract", "true"), ("type", "anyType")] none [] [], by decide, by decide +kernel, by decide +kernel⟩

/-- C43 fails: a non-abstract element of another group whose name contains `item` becomes a concept. -/
theorem C43_group_false : ∃ x : XNode, x.attr? "substitutionGroup" = some "ex:lineitemNote" ∧ kindOf false "lineitemNote" "stringItemType" "A" = none ∧
    (createElement x ⟨"u", "p", "A"⟩).1.map (·.kind) = some .concept :=
  ⟨.mk (some SchemaExample.xs) [("name", "A"), ("substitutionGroup", "ex:lineitemNote"), ("type", "xbrli:stringItemType"), ("{http://www.xbrl.org/2003/instance}periodType", "instant")] none [] [],
    by decide, by decide +kernel, by decide +kernel⟩

/-! ## All declarations -/

def schemaStep (docs : List SchemaDoc) (s : SchemaState) (d : Declaration) : Except PyErr SchemaState := parseReportElement docs d.doc d.ns s d.x

theorem foldlM_flatMap_except {α β σ ε : Type} (g : α → List β) (f : σ → β → Except ε σ) (l : List α) (s : σ) :
    (l.flatMap g).foldlM f s = l.foldlM (fun s a => (g a).foldlM f s) s := by
  induction l generalizing s with
  | nil => rfl
  | cons a l ih =>
    rw [List.flatMap_cons, List.foldlM_append, List.foldlM_cons]
    cases (g a).foldlM f s with
    | error e => rfl
    | ok s => exact ih s

theorem parseReportElements_steps (docs : List SchemaDoc) : parseReportElements docs = (schemaDeclarations docs).foldlM (schemaStep docs) {} := by
  unfold parseReportElements schemaDeclarations
  rw [foldlM_flatMap_except]
  congr 1
  funext s d
  unfold parseSchemaDoc
  cases d.root.attr? "targetNamespace" with
  | none => rfl
  | some ns =>
    dsimp only
    rw [List.foldlM_map]
    congr 1
    unfold schemaElements
    congr 1
    funext x
    cases x.attr? "name" <;> simp

structure SchemaInv (docs : List SchemaDoc) (ds : List Declaration) (s : SchemaState) : Prop where
  elems : Rel2 (DeclaredAs docs) (counting ds) (s.byName.map (·.2))
  keyed : ∀ e ∈ s.byName, e.1 = e.2.name
  ids : ∀ i, s.byId.get? i = ((s.byName.map (·.2)).filter (fun e => decide (e.id = some i))).getLast?
  errs : s.errs.Perm (ds.flatMap (fun d => (createElement d.x d.name).2) ++ (counting ds).flatMap (typeReports docs))

theorem Rel2.snoc {α β : Type} {R : α → β → Prop} {l : List α} {m : List β} (h : Rel2 R l m) {a : α} {b : β} (hab : R a b) : Rel2 R (l ++ [a]) (m ++ [b]) := by
  induction h with
  | nil => exact .cons hab .nil
  | cons h1 _ ih => exact .cons h1 ih

theorem createElement_named (x : XNode) (q : QName) {e : SchemaElement} (h : (createElement x q).1 = some e) : e.name = q ∧ e.typed = none := by
  unfold createElement at h
  dsimp only at h
  repeat' split at h
  all_goals first | (cases h; exact ⟨rfl, rfl⟩) | cases h

theorem counting_snoc (ds : List Declaration) (d : Declaration) :
    counting (ds ++ [d]) = if d.yields = true ∧ d.name ∉ (counting ds).map Declaration.name then counting ds ++ [d] else counting ds := by
  unfold counting
  rw [List.filter_append, firstByKey_append]
  have hmem : d.name ∈ (ds.filter Declaration.yields).map Declaration.name ↔ d.name ∈ (firstByKey Declaration.name (ds.filter Declaration.yields)).map Declaration.name := by
    simp only [List.mem_map]
    constructor
    · rintro ⟨y, hy, e⟩
      obtain ⟨z, hz, ez⟩ := firstByKey_key_mem Declaration.name _ y hy
      exact ⟨z, hz, ez.trans e⟩
    · rintro ⟨y, hy, e⟩
      obtain ⟨pre, post, hl, _⟩ := (mem_firstByKey _ _ _).1 hy
      exact ⟨y, by rw [hl]; simp, e⟩
  by_cases hy : d.yields = true
  · by_cases hn : d.name ∈ (firstByKey Declaration.name (ds.filter Declaration.yields)).map Declaration.name
    · rw [if_neg (fun h => h.2 hn)]
      simp [List.filter_cons, hy, firstByKey, hmem.2 hn]
      exact List.mem_map.1 (hmem.2 hn) |>.imp (fun a h => by simpa [and_assoc] using h)
    · rw [if_pos ⟨hy, hn⟩]
      have hn' : ¬ d.name ∈ (ds.filter Declaration.yields).map Declaration.name := fun h => hn (hmem.1 h)
      simp only [List.filter_cons, hy, if_true, List.filter_nil, firstByKey]
      rw [if_pos (decide_eq_true hn')]
  · rw [if_neg (fun h => hy h.1)]
    simp [List.filter_cons, hy, firstByKey]

theorem schemaStep_spec (docs : List SchemaDoc) (ds : List Declaration) (s : SchemaState) (d : Declaration) (hd : d.plain) (hn : d.x.attr? "name" ≠ none) (hs : SchemaInv docs ds s) :
    match schemaStep docs s d with
    | .ok s' => SchemaInv docs (ds ++ [d]) s'
    | .error e => d ∈ counting (ds ++ [d]) ∧ (createElement d.x d.name).1.map (·.kind) = some .dimension ∧ typedDomain docs d.doc d.x = .error e := by
  obtain ⟨n, hn⟩ := Option.ne_none_iff_exists'.1 hn
  have hq : qnameFromStr ("{" ++ d.ns ++ "}" ++ n) d.x.ns = .ok d.name := by
    obtain ⟨h1, h2, h3, h4⟩ := hd
    rw [hn] at h3 h4
    rw [Option.getD_some] at h4
    rw [qnameFromStr_clark _ _ _ ⟨h1, fun e => h3 (by rw [e]), h2, h4⟩]
    unfold Declaration.name
    rw [hn]
    rfl
  have hname : d.x.attr "name" = .ok n := by
    unfold XNode.attr
    rw [show d.x.attrs.get? "name" = some n from hn]
  have hkeys : s.byName.keys = (counting ds).map Declaration.name := by
    have h1 : s.byName.keys = (s.byName.map (·.2)).map (·.name) := by
      rw [List.map_map]
      exact List.map_congr_left (fun e he => hs.keyed e he)
    rw [h1]
    exact (Rel2.map_eq hs.elems _ _ (fun a _ b h => h.name.symm)).symm
  unfold schemaStep parseReportElement
  rw [hname]
  simp only [bind, Except.bind, hq, pure, Except.pure]
  cases hm : (createElement d.x d.name).1 with
  | none =>
    have hy : ¬ d.yields = true := by unfold Declaration.yields; rw [hm]; decide
    have hc : counting (ds ++ [d]) = counting ds := by rw [counting_snoc, if_neg (fun h => hy h.1)]
    dsimp only
    refine ⟨by rw [hc]; exact hs.elems, hs.keyed, hs.ids, ?_⟩
    rw [hc]
    simp only [List.flatMap_append, List.flatMap_cons, List.flatMap_nil, List.append_nil]
    refine (hs.errs.append_right _).trans ?_
    rw [List.append_assoc, List.append_assoc]
    exact (List.perm_append_comm).append_left _
  | some e =>
    have hy : d.yields = true := by unfold Declaration.yields; rw [hm]; rfl
    obtain ⟨he1, he2⟩ := createElement_named d.x d.name hm
    dsimp only
    by_cases hh : s.byName.has d.name = true
    · have hc : counting (ds ++ [d]) = counting ds := by
        have hin := (Dict.has_iff_mem_keys _ _).1 hh
        rw [hkeys] at hin
        rw [counting_snoc, if_neg (fun h => h.2 hin)]
      rw [if_pos hh]
      refine ⟨by rw [hc]; exact hs.elems, hs.keyed, hs.ids, ?_⟩
      rw [hc]
      simp only [List.flatMap_append, List.flatMap_cons, List.flatMap_nil, List.append_nil]
      refine (hs.errs.append_right _).trans ?_
      rw [List.append_assoc, List.append_assoc]
      exact (List.perm_append_comm).append_left _
    · have hfresh : d.name ∉ s.byName.keys := fun h => hh ((Dict.has_iff_mem_keys _ _).2 h)
      have hc : counting (ds ++ [d]) = counting ds ++ [d] := by
        rw [counting_snoc, if_pos ⟨hy, by rw [← hkeys]; exact hfresh⟩]
      rw [if_neg hh]
      have key : ∀ (e' : SchemaElement) (r : List SchemaReport), e'.name = d.name → DeclaredAs docs d e' → typeReports docs d = r →
          ∀ s0 : SchemaState, s0.byName = s.byName → s0.byId = s.byId → s0.errs = s.errs ++ (createElement d.x d.name).2 →
          ∀ s' : SchemaState, s'.byName = (s0.upsert e').byName → s'.byId = (s0.upsert e').byId → s'.errs = s0.errs ++ r → SchemaInv docs (ds ++ [d]) s' := by
        intro e' r hn' hde hr s0 hs1 hs2 hs3 s' hs4 hs5 hs6
        have hset : s.byName.set e'.name e' = s.byName ++ [(e'.name, e')] := Dict.set_of_not_mem _ _ _ (by rw [hn']; exact hfresh)
        have hb : s'.byName = s.byName ++ [(e'.name, e')] := by
          rw [hs4]
          unfold SchemaState.upsert
          cases e'.id <;> (dsimp only; rw [hs1, hset])
        refine ⟨?_, ?_, ?_, ?_⟩
        · rw [hb, hc, List.map_append]
          exact hs.elems.snoc hde
        · rw [hb]
          intro x hx
          rcases List.mem_append.1 hx with hx | hx
          · exact hs.keyed x hx
          · rw [List.mem_singleton.1 hx]
        · intro i
          rw [hb, hs5, List.map_append, List.filter_append]
          simp only [List.map_cons, List.map_nil, List.filter_cons, List.filter_nil]
          unfold SchemaState.upsert
          cases hi : e'.id with
          | none =>
            simp only [reduceCtorEq, decide_false, Bool.false_eq_true, if_false, List.append_nil]
            rw [hs2]
            exact hs.ids i
          | some j =>
            dsimp only
            rw [Dict.get?_set, hs2]
            by_cases hj : j = i
            · subst hj; simp
            · rw [if_neg hj, if_neg (by simpa using hj), List.append_nil]
              exact hs.ids i
        · rw [hc, hs6, hs3]
          simp only [List.flatMap_append, List.flatMap_cons, List.flatMap_nil, List.append_nil, hr]
          refine ((hs.errs.append_right _).append_right _).trans ?_
          rw [List.append_assoc, List.append_assoc, List.append_assoc, ← List.append_assoc _ _ r]
          refine List.Perm.append_left _ ?_
          rw [← List.append_assoc]
          exact (List.perm_append_comm).append_right _
      have hu : ∀ (s : SchemaState) (e : SchemaElement), (s.upsert e).errs = s.errs := by
        intro s e; unfold SchemaState.upsert; cases e.id <;> rfl
      by_cases hk : e.kind = .dimension
      · rw [if_pos hk]
        cases ht : typedDomain docs d.doc d.x with
        | error er =>
          dsimp only
          exact ⟨by rw [hc]; simp, by rw [Option.map_some, hk], rfl⟩
        | ok t =>
          dsimp only
          refine key { e with typed := t.1 } t.2 he1 ⟨he1, ⟨e, hm, rfl, rfl, rfl⟩, ?_⟩ ?_ { s with errs := s.errs ++ (createElement d.x d.name).2 } rfl rfl rfl _ rfl rfl ?_
          · rw [if_pos hk]; exact ⟨t.2, ht⟩
          · unfold typeReports; rw [hm, Option.map_some, hk, if_pos rfl, ht]
          · dsimp only; rw [hu]
      · rw [if_neg hk]
        exact key e [] he1 ⟨he1, ⟨e, hm, rfl, rfl, rfl⟩, by rw [if_neg hk]; exact he2⟩
          (by unfold typeReports; rw [hm, Option.map_some, if_neg (fun h => hk (Option.some.inj h))])
          { s with errs := s.errs ++ (createElement d.x d.name).2 } rfl rfl rfl _ rfl rfl (by rw [hu, List.append_nil])

theorem schemaSteps_spec (docs : List SchemaDoc) (rest : List Declaration) : ∀ (ds : List Declaration) (s : SchemaState), (∀ d ∈ rest, d.plain ∧ d.x.attr? "name" ≠ none) → SchemaInv docs ds s →
    match rest.foldlM (schemaStep docs) s with
    | .ok s' => SchemaInv docs (ds ++ rest) s'
    | .error e => ∃ d ∈ counting (ds ++ rest), (createElement d.x d.name).1.map (·.kind) = some .dimension ∧ typedDomain docs d.doc d.x = .error e := by
  induction rest with
  | nil => intro ds s _ h; rw [List.append_nil]; exact h
  | cons d rest ih =>
    intro ds s hp hs
    have h1 := schemaStep_spec docs ds s d (hp d (by simp)).1 (hp d (by simp)).2 hs
    rw [List.foldlM_cons]
    cases hst : schemaStep docs s d with
    | error e =>
      rw [hst] at h1
      dsimp only [bind, Except.bind]
      refine ⟨d, ?_, h1.2⟩
      have h2 := h1.1
      unfold counting at h2 ⊢
      rw [show ds ++ d :: rest = (ds ++ [d]) ++ rest by simp, List.filter_append, firstByKey_append]
      exact List.mem_append.2 (Or.inl h2)
    | ok s' =>
      rw [hst] at h1
      have h2 := ih (ds ++ [d]) s' (fun x hx => hp x (by simp [hx])) h1
      rw [List.append_assoc] at h2
      exact h2

/-- C85: the elements of a filing are those declared in its schemas: each document in its order, in each all declarations in theirs; of several declarations with one name the first that
is valid counts. An id finds the last of the elements with that id. There are the reports about the attributes of every declaration and about the types of the counting dimensions.
Only the type of a counting dimension can make the parsing fail. -/
theorem C85_elements (docs : List SchemaDoc) (hp : ∀ d ∈ schemaDeclarations docs, d.plain) :
    match parseReportElements docs with
    | .ok s => Rel2 (DeclaredAs docs) (counting (schemaDeclarations docs)) (s.byName.map (·.2)) ∧ (∀ e ∈ s.byName, e.1 = e.2.name) ∧ s.byName.keys.Nodup ∧
        (∀ i, s.byId.get? i = ((s.byName.map (·.2)).filter (fun e => decide (e.id = some i))).getLast?) ∧
        s.errs.Perm ((schemaDeclarations docs).flatMap (fun d => (createElement d.x d.name).2) ++ (counting (schemaDeclarations docs)).flatMap (typeReports docs))
    | .error e => ∃ d ∈ counting (schemaDeclarations docs), (createElement d.x d.name).1.map (·.kind) = some .dimension ∧ typedDomain docs d.doc d.x = .error e := by
  have hall : ∀ d ∈ schemaDeclarations docs, d.plain ∧ d.x.attr? "name" ≠ none := by
    intro d hd
    refine ⟨hp d hd, ?_⟩
    unfold schemaDeclarations at hd
    obtain ⟨c, _, hc⟩ := List.mem_flatMap.1 hd
    cases ht : c.root.attr? "targetNamespace" with
    | none => rw [ht] at hc; cases hc
    | some ns =>
      rw [ht] at hc
      obtain ⟨x, hx, rfl⟩ := List.mem_map.1 hc
      exact (of_decide_eq_true (List.mem_filter.1 hx).2).2
  have h := schemaSteps_spec docs (schemaDeclarations docs) [] {} hall ⟨.nil, (by intro e he; cases he), (by intro i; rfl), by exact .refl _⟩
  rw [parseReportElements_steps]
  rw [List.nil_append] at h
  cases hr : (schemaDeclarations docs).foldlM (schemaStep docs) {} with
  | error e => rw [hr] at h; exact h
  | ok s =>
    rw [hr] at h
    refine ⟨h.elems, h.keyed, ?_, h.ids, h.errs⟩
    have h1 : s.byName.keys = (s.byName.map (·.2)).map (·.name) := by
      rw [List.map_map]
      exact List.map_congr_left (fun e he => h.keyed e he)
    rw [h1, ← Rel2.map_eq h.elems _ _ (fun a _ b h => h.name.symm)]
    exact firstByKey_keys_nodup _ _

namespace SchemaExample

def amount : XNode := .mk (some xs) [("name", "PAxis"), ("id", "ex_PAxis"), ("abstract", "true"), ("substitutionGroup", "xbrldt:dimensionItem"), ("type", "xbrli:stringItemType"),
  ("{http://xbrl.org/2005/xbrldt}typedDomainRef", "#ex_dom")] none ns []
def dom : XNode := .mk (some xs) [("name", "dom"), ("id", "ex_dom"), ("type", "ex:amount")] none ns []
def schema : SchemaDoc := ⟨"http://ex/a.xsd", .mk (some "{http://www.w3.org/2001/XMLSchema}schema") [("targetNamespace", "http://ex")] none ns [cash, amount, dom, cash]⟩

example : (parseReportElements [schema]).toOption.map (fun s => s.byName.map (fun e => (e.1.localName, e.2.kind, e.2.typed.map (·.localName)))) =
    some [("Cash", .concept, none), ("PAxis", .dimension, some "amount")] := by decide +kernel
example : (schemaDeclarations [schema]).length = 4 ∧ (counting (schemaDeclarations [schema])).length = 2 := by decide +kernel
example : ∀ d ∈ schemaDeclarations [schema], d.plain := by
  intro d hd
  have : ∀ d ∈ schemaDeclarations [schema], (decide (d.ns ≠ "" ∧ '}' ∉ d.ns.toList ∧ d.x.attr? "name" ≠ some "" ∧ '{' ∉ ((d.x.attr? "name").getD "").toList)) = true := by decide +kernel
  have h := this d hd
  rw [decide_eq_true_eq] at h
  exact h

end SchemaExample

/-! ## Typed dimensions -/

theorem takeWhile_hash (a b : List Char) (h : '#' ∉ a) : (a ++ '#' :: b).takeWhile (· ≠ '#') = a ∧ (a ++ '#' :: b).dropWhile (· ≠ '#') = '#' :: b := by
  induction a with
  | nil => exact ⟨by simp, by simp⟩
  | cons c a ih =>
    have hc : c ≠ '#' := fun e => h (by simp [e])
    obtain ⟨h1, h2⟩ := ih (fun hm => h (by simp [hm]))
    constructor
    · rw [List.cons_append, List.takeWhile_cons_of_pos (by simpa using hc), h1]
    · rw [List.cons_append, List.dropWhile_cons_of_pos (by simpa using hc), h2]

theorem splits_hash (l : List Char) : l.dropWhile (· ≠ '#') = [] ∨ ∃ a b, l = a ++ '#' :: b ∧ '#' ∉ a := by
  induction l with
  | nil => exact Or.inl rfl
  | cons c l ih =>
    by_cases hc : c = '#'
    · exact Or.inr ⟨[], l, by rw [hc]; rfl, by simp⟩
    · rcases ih with h | ⟨a, b, h1, h2⟩
      · rw [List.dropWhile_cons_of_pos (by simpa using hc)]; exact Or.inl h
      · exact Or.inr ⟨c :: a, b, by rw [h1]; rfl, by simp [h2, Ne.symm hc]⟩

theorem splitHash_ok {s i : String} (hs : '#' ∉ s.toList) (hi : '#' ∉ i.toList) : splitHash (s ++ "#" ++ i) = .ok (s, i) := by
  have e : (s ++ "#" ++ i).toList = s.toList ++ '#' :: i.toList := by simp [String.toList_append]
  unfold splitHash
  rw [e, (takeWhile_hash _ _ hs).1, (takeWhile_hash _ _ hs).2]
  dsimp only
  rw [if_neg hi, String.ofList_toList, String.ofList_toList]

theorem splitHash_cases (full : String) : (∃ s i, full = s ++ "#" ++ i ∧ '#' ∉ s.toList ∧ '#' ∉ i.toList) ∨ splitHash full = .error .valueError := by
  unfold splitHash
  dsimp only
  rcases splits_hash full.toList with h | ⟨a, b, h1, h2⟩
  · rw [h]; exact Or.inr rfl
  · by_cases hb : '#' ∈ b
    · rw [h1, (takeWhile_hash _ _ h2).2]
      dsimp only
      rw [if_pos hb]
      exact Or.inr rfl
    · refine Or.inl ⟨String.ofList a, String.ofList b, ?_, by rw [String.toList_ofList]; exact h2, by rw [String.toList_ofList]; exact hb⟩
      apply String.toList_inj.1
      rw [String.toList_append, String.toList_append, String.toList_ofList, String.toList_ofList, h1]
      simp

theorem getEtree_iff (docs : List SchemaDoc) (doc : SchemaDoc) (uri : String) (t : SchemaDoc) :
    (if uri ≠ "" ∧ uri ≠ "." then getEtree docs uri else .ok doc) = .ok t ↔ RefersToDoc docs doc uri t := by
  unfold RefersToDoc
  by_cases h : uri ∈ ["", "."]
  · rw [if_pos h, if_neg (by simp at h; intro ⟨a, b⟩; exact h.elim a b)]
    exact ⟨fun h => by cases h; rfl, fun h => by rw [h]⟩
  · rw [if_neg h, if_pos (by simpa using h)]
    unfold getEtree
    cases hf : docs.find? (fun d => d.uri = normalizeUri uri) with
    | none =>
      constructor
      · intro hh; cases hh
      · rintro ⟨pre, post, e, ht, _⟩
        have := List.find?_eq_none.1 hf t (by rw [e]; simp)
        simp [ht] at this
    | some d =>
      obtain ⟨hd, pre, post, e, hp⟩ := List.find?_eq_some_iff_append.1 hf
      constructor
      · intro hh; cases hh
        exact ⟨pre, post, e, by simpa using hd, fun d hd => by simpa using hp d hd⟩
      · rintro ⟨pre', post', e', ht, hp'⟩
        have h2 : docs.find? (fun d => d.uri = normalizeUri uri) = some t :=
          List.find?_eq_some_iff_append.2 ⟨by simpa using ht, pre', post', e', fun d hd => by simpa using hp' d hd⟩
        rw [hf] at h2
        cases h2
        rfl

theorem findSchemaId_iff (root : XNode) (i : String) (e : XNode) : findSchemaId root i = some e ↔ FirstWithId root i e := by
  unfold findSchemaId FirstWithId
  rw [List.find?_eq_some_iff_append]
  constructor
  · rintro ⟨h, pre, post, hl, hp⟩
    simp only [Bool.and_eq_true, decide_eq_true_eq] at h
    refine ⟨pre, post, hl, Option.isSome_iff_ne_none.1 h.1, h.2, fun d hd => ?_⟩
    have := hp d hd
    cases ht : d.tag with
    | none => exact Or.inl rfl
    | some t => rw [ht] at this; exact Or.inr (by simpa using this)
  · rintro ⟨pre, post, hl, h1, h2, hp⟩
    refine ⟨?_, pre, post, hl, fun d hd => ?_⟩
    · rw [h2, Option.isSome_iff_ne_none.2 h1]; simp
    · rcases hp d hd with h | h
      · simp [h]
      · simp [h]

/-- C86 (part: the prefix `xbrldt` has its customary meaning): a dimension without the attribute `typedDomainRef` is explicit. One with a reference to an element of a loaded document, by
the URI under which the document is loaded, is typed by the type of that element. If the document has no element with the id, the dimension is explicit and an error tells. In all
other cases parsing fails. -/
theorem C86_typed_partial (docs : List SchemaDoc) (doc : SchemaDoc) (x : XNode) (hns : x.ns.get? (some "xbrldt") = some dimensionsNs) :
    (x.domainRef = none → typedDomain docs doc x = .ok (none, [])) ∧
    (∀ uri i target, x.domainRef = some (uri ++ "#" ++ i) → '#' ∉ uri.toList → '#' ∉ i.toList → RefersToDoc docs doc uri target →
      (∀ e, FirstWithId target.root i e → typedDomain docs doc x = (match e.attr? "type" with
        | none => .error .valueError
        | some t => (qnameFromStr t e.ns).map (fun q => (some q, [])))) ∧
      ((¬ ∃ e, FirstWithId target.root i e) →
        typedDomain docs doc x = .ok (none, [("REFERENCED_SCHEMA_ELEMENT_NOT_FOUND", [("ref_id", some i), ("ref_schema_name", some uri)])]))) ∧
    (∀ uri i, x.domainRef = some (uri ++ "#" ++ i) → '#' ∉ uri.toList → '#' ∉ i.toList → (¬ ∃ target, RefersToDoc docs doc uri target) → typedDomain docs doc x = .error .keyError) ∧
    (∀ full, x.domainRef = some full → (¬ ∃ uri i, full = uri ++ "#" ++ i ∧ '#' ∉ uri.toList ∧ '#' ∉ i.toList) → typedDomain docs doc x = .error .valueError) := by
  have hq : qnameFromStr "xbrldt:typedDomainRef" x.ns = .ok ⟨dimensionsNs, "xbrldt", "typedDomainRef"⟩ := by
    have h1 : matchClark "xbrldt:typedDomainRef" = none := by decide
    have h2 : matchColon "xbrldt:typedDomainRef" = some ("xbrldt", "typedDomainRef") := by decide
    unfold qnameFromStr qnameFromPrefixLocal
    rw [h1, h2]
    simp only [Option.isSome_none, Option.isSome_some, Bool.false_eq_true, if_false, if_true]
    rw [Dict.get?_set, if_neg (by decide), hns]
    rfl
  have hr : x.attr? (QName.clark ⟨dimensionsNs, "xbrldt", "typedDomainRef"⟩) = x.domainRef := rfl
  have hun : ∀ uri i, x.domainRef = some (uri ++ "#" ++ i) → '#' ∉ uri.toList → '#' ∉ i.toList →
      typedDomain docs doc x = (if uri ≠ "" ∧ uri ≠ "." then getEtree docs uri else .ok doc).bind (fun target =>
        match findSchemaId target.root i with
        | none => .ok (none, [("REFERENCED_SCHEMA_ELEMENT_NOT_FOUND", [("ref_id", some i), ("ref_schema_name", some uri)])])
        | some e => (e.attr "type").bind (fun t => (qnameFromStr t e.ns).bind (fun q => .ok (some q, [])))) := by
    intro uri i h1 h2 h3
    unfold typedDomain
    simp only [bind, Except.bind, hq, hr, h1, splitHash_ok h2 h3]
    by_cases hu : uri ≠ "" ∧ uri ≠ "."
    · rw [if_pos hu, if_pos hu]; rfl
    · rw [if_neg hu, if_neg hu]; rfl
  refine ⟨?_, ?_, ?_, ?_⟩
  · intro h
    unfold typedDomain
    simp only [bind, Except.bind, hq, hr, h]
    rfl
  · intro uri i target h1 h2 h3 h4
    have h5 := hun uri i h1 h2 h3
    rw [(getEtree_iff docs doc uri target).2 h4] at h5
    dsimp only [Except.bind] at h5
    constructor
    · intro e he
      rw [(findSchemaId_iff _ _ _).2 he] at h5
      rw [h5]
      dsimp only
      unfold XNode.attr XNode.attr?
      cases e.attrs.get? "type" with
      | none => rfl
      | some t =>
        dsimp only
        cases qnameFromStr t e.ns <;> rfl
    · intro hno
      cases hf : findSchemaId target.root i with
      | some e => exact absurd ⟨e, (findSchemaId_iff _ _ _).1 hf⟩ hno
      | none => rw [hf] at h5; exact h5
  · intro uri i h1 h2 h3 hno
    rw [hun uri i h1 h2 h3]
    cases hg : (if uri ≠ "" ∧ uri ≠ "." then getEtree docs uri else .ok doc) with
    | ok t => exact absurd ⟨t, (getEtree_iff docs doc uri t).1 hg⟩ hno
    | error e =>
      have : e = .keyError := by
        unfold getEtree at hg
        split at hg
        · split at hg
          · cases hg
          · cases hg; rfl
        · cases hg
      rw [this]
      rfl
  · intro full h hno
    unfold typedDomain
    rcases splitHash_cases full with ⟨s, i, h1⟩ | h1
    · exact absurd ⟨s, i, h1⟩ hno
    · simp only [bind, Except.bind, hq, hr, h, h1]

/-- C86 fails: when another prefix is used for the name space of dimensions, a typed dimension becomes an explicit one, and no error tells. -/
theorem C86_prefix_false : ∃ (doc : SchemaDoc) (x : XNode), x.domainRef = some "#t" ∧ x.ns.get? (some "dt") = some dimensionsNs ∧ (∃ e, FirstWithId doc.root "t" e ∧ e.attr? "type" = some "xs:string") ∧
    typedDomain [doc] doc x = .ok (none, []) :=
  ⟨⟨"http://ex/a.xsd", .mk (some "{http://www.w3.org/2001/XMLSchema}schema") [] none [] [.mk (some SchemaExample.xs) [("id", "t"), ("type", "xs:string")] none [] []]⟩,
    .mk (some SchemaExample.xs) [("{http://xbrl.org/2005/xbrldt}typedDomainRef", "#t")] none [(some "dt", dimensionsNs)] [], by decide, by decide,
    ⟨_, (findSchemaId_iff _ _ _).1 (by rfl), by decide⟩, by decide +kernel⟩

/-- C86 fails: a relative reference to another document of the taxonomy raises, since documents are known by their whole URI. -/
theorem C86_relative_false : ∃ (doc other : SchemaDoc) (x : XNode), x.domainRef = some "b.xsd#t" ∧ doc.uri = "http://ex/a.xsd" ∧ other.uri = "http://ex/b.xsd" ∧
    (∃ e, FirstWithId other.root "t" e ∧ e.attr? "type" = some "xs:string") ∧ typedDomain [doc, other] doc x = .error .keyError :=
  ⟨SchemaExample.schema, ⟨"http://ex/b.xsd", .mk (some "{http://www.w3.org/2001/XMLSchema}schema") [] none [] [.mk (some SchemaExample.xs) [("id", "t"), ("type", "xs:string")] none [] []]⟩,
    .mk (some SchemaExample.xs) [("{http://xbrl.org/2005/xbrldt}typedDomainRef", "b.xsd#t")] none [(some "xbrldt", dimensionsNs)] [], by decide, by decide, by decide,
    ⟨_, (findSchemaId_iff _ _ _).1 (by rfl), by decide⟩, by decide +kernel⟩

end Brel
