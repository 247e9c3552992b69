import Verif.Spec.FactParts
import Verif.Props.InlineQueries

/-! C134: the accessors of the facts of an opened filing. -/

namespace Brel
open Spec

theorem user_name {d : Characteristic} (hw : d.WellFormed) (hu : d.IsUserDimension) : d.aspect.name ∉ ["concept", "period", "entity", "unit"] := by
  rcases hw with ⟨v, rfl⟩ | ⟨v, rfl⟩ | ⟨v, w, rfl⟩ | ⟨n, a, b, rfl⟩ | ⟨_, _, h⟩
  · rcases hu with ⟨_, _, _, h⟩ | ⟨_, _, _, h⟩ <;> cases h
  · rcases hu with ⟨_, _, _, h⟩ | ⟨_, _, _, h⟩ <;> cases h
  · rcases hu with ⟨_, _, _, h⟩ | ⟨_, _, _, h⟩ <;> cases h
  · rcases hu with ⟨_, _, _, h⟩ | ⟨_, _, _, h⟩ <;> cases h
  · exact h

/-- A valid context states its period, its entity and the dimensions of its segment. -/
theorem valid_states {dateOf : String → Option Date} {re : ElemStore} {cx : XNode} (hv : ValidContext dateOf re cx) : ∃ p e d i s, cx.find "period" = some p ∧ cx.find "entity" = some e ∧
    periodOf dateOf p = some d ∧ entityOf e = some (i, s) ∧ statedBy dateOf re cx = .ofPeriod d :: .ofEntity i s :: (segmentOf e).filterMap (dimensionOf re) := by
  obtain ⟨p, e, hpe, hp, he, _⟩ := hv.parts
  obtain ⟨d, hd⟩ := Option.isSome_iff_exists.1 hp
  obtain ⟨⟨i, s⟩, hi⟩ := Option.isSome_iff_exists.1 he
  have hfind : cx.find "period" = some p ∧ cx.find "entity" = some e := by
    unfold partsOf at hpe
    simp only [bind, Option.bind_eq_some_iff] at hpe
    obtain ⟨p', hp', e', he', hpe⟩ := hpe
    cases hpe
    exact ⟨hp', he'⟩
  refine ⟨p, e, d, i, s, hfind.1, hfind.2, hd, hi, ?_⟩
  unfold statedBy
  rw [hpe]
  dsimp only
  rw [hd, hi]
  rfl

/-- The first characteristic of a name, if the list consists of a concept, units, and what a valid context states. -/
theorem hasParts_of {dateOf : String → Option Date} {re : ElemStore} {cx : XNode} (hv : ValidContext dateOf re cx) {c : Concept} {us : List Characteristic} (hus : ∀ u ∈ us, ∃ n a b, u = .ofUnit n a b)
    (hw : ∀ d ∈ statedBy dateOf re cx, d.WellFormed) {f : Fact} {i : String} {cs : List Characteristic} (hcs : f.context = cs.foldl Context.add (Context.new i))
    (hor : cs = Characteristic.ofConcept c :: us ++ statedBy dateOf re cx ∨ cs = statedBy dateOf re cx ++ Characteristic.ofConcept c :: us) : HasParts dateOf re c us.head? cx f := by
  obtain ⟨p, e, d, id, s, hp, he, hd, hi, hst⟩ := valid_states hv
  have hS : ∀ n, (Characteristic.ofPeriod d :: .ofEntity id s :: (segmentOf e).filterMap (dimensionOf re)).find? (fun x => decide (x.aspect.name = n)) =
      if "period" = n then some (.ofPeriod d) else if "entity" = n then some (.ofEntity id s) else ((segmentOf e).filterMap (dimensionOf re)).find? (fun x => decide (x.aspect.name = n)) := by
    intro n
    rw [List.find?_cons, List.find?_cons]
    by_cases h1 : "period" = n
    · rw [if_pos h1, show decide ((Characteristic.ofPeriod d).aspect.name = n) = true from decide_eq_true h1]
    · rw [if_neg h1, show decide ((Characteristic.ofPeriod d).aspect.name = n) = false from decide_eq_false h1]
      by_cases h2 : "entity" = n
      · rw [if_pos h2, show decide ((Characteristic.ofEntity id s).aspect.name = n) = true from decide_eq_true h2]
      · rw [if_neg h2, show decide ((Characteristic.ofEntity id s).aspect.name = n) = false from decide_eq_false h2]
  have hC : ∀ n, (Characteristic.ofConcept c :: us).find? (fun x => decide (x.aspect.name = n)) =
      if "concept" = n then some (.ofConcept c) else us.find? (fun x => decide (x.aspect.name = n)) := by
    intro n
    rw [List.find?_cons]
    by_cases h1 : "concept" = n
    · rw [if_pos h1, show decide ((Characteristic.ofConcept c).aspect.name = n) = true from decide_eq_true h1]
    · rw [if_neg h1, show decide ((Characteristic.ofConcept c).aspect.name = n) = false from decide_eq_false h1]
  have hdim : ∀ n ∈ ["concept", "period", "entity", "unit"], ((segmentOf e).filterMap (dimensionOf re)).find? (fun x => decide (x.aspect.name = n)) = none := by
    intro n hn
    rw [List.find?_eq_none]
    intro x hx
    obtain ⟨m, _, hm⟩ := List.mem_filterMap.1 hx
    have := user_name (hw x (by rw [hst]; exact List.mem_cons_of_mem _ (List.mem_cons_of_mem _ hx))) (dimensionOf_user hm)
    rw [decide_eq_true_eq]
    rintro rfl
    exact this hn
  have hun : ∀ n, n ≠ "unit" → us.find? (fun x => decide (x.aspect.name = n)) = none := by
    intro n hn
    rw [List.find?_eq_none]
    intro x hx
    obtain ⟨m, a, b, rfl⟩ := hus x hx
    rw [decide_eq_true_eq]
    exact fun h => hn h.symm
  have huu : us.find? (fun x => decide (x.aspect.name = "unit")) = us.head? := by
    cases us with
    | nil => rfl
    | cons x us =>
      obtain ⟨m, a, b, rfl⟩ := hus x List.mem_cons_self
      rfl
  rw [hst] at hor
  have hget : ∀ a n, a.name = n → (f.context.getCharacteristic a = ((Characteristic.ofConcept c :: us).find? (fun x => decide (x.aspect.name = n))).or
      ((Characteristic.ofPeriod d :: .ofEntity id s :: (segmentOf e).filterMap (dimensionOf re)).find? (fun x => decide (x.aspect.name = n))) ∨
      f.context.getCharacteristic a = ((Characteristic.ofPeriod d :: .ofEntity id s :: (segmentOf e).filterMap (dimensionOf re)).find? (fun x => decide (x.aspect.name = n))).or
      ((Characteristic.ofConcept c :: us).find? (fun x => decide (x.aspect.name = n)))) := by
    rintro a n rfl
    rw [hcs, C01_first_characteristic_wins]
    rcases hor with rfl | rfl
    · exact Or.inl List.find?_append
    · exact Or.inr List.find?_append
  refine ⟨?_, ?_, ⟨p, d, hp, hd, ?_⟩, ⟨e, id, s, he, hi, ?_⟩, ?_⟩
  · have : f.context.getCharacteristic .concept = some (.ofConcept c) := by
      have h := hget .concept "concept" rfl
      rw [hS, hC, if_pos rfl, if_neg (by decide), if_neg (by decide), hdim "concept" (by decide)] at h
      rcases h with h | h <;> exact h
    unfold Fact.getConcept
    rw [this]
    rfl
  · have h := hget .unit "unit" rfl
    rw [hS, hC, if_neg (by decide), if_neg (by decide), if_neg (by decide), hdim "unit" (by decide), huu] at h
    rcases h with h | h
    · exact h.trans (Option.or_none)
    · exact h
  · have h := hget .period "period" rfl
    rw [hS, hC, if_neg (by decide), if_pos rfl, hun "period" (by decide)] at h
    rcases h with h | h <;> exact h
  · have h := hget .entity "entity" rfl
    rw [hS, hC, if_neg (by decide), if_neg (by decide), if_pos rfl, hun "entity" (by decide)] at h
    rcases h with h | h <;> exact h
  · intro a ha
    have key : ∀ n : String, ':' ∉ n.toList → n ≠ a.name := by
      rintro n hn rfl
      exact hn ha
    have h := hget a a.name rfl
    rw [hS, hC, if_neg (key "concept" (by decide)), if_neg (key "period" (by decide)), if_neg (key "entity" (by decide)), hun a.name (key "unit" (by decide)).symm] at h
    have he' : (cx.find "entity").toList.flatMap segmentOf = segmentOf e := by rw [he]; simp
    rw [he']
    rcases h with h | h
    · exact h
    · exact h.trans Option.or_none

theorem says_xml {dateOf : String → Option Date} {float : String → Option Rat} {str : XNode → String} {so : SetOrder} {steps : Nat} {docs : List SchemaDoc} {o : OpenedFiling}
    (hv : ValidFiling dateOf float docs) (hp : PlainTexts dateOf ((docs.map (·.root)).flatMap XNode.children) ((docs.map (·.root)).flatMap XNode.children))
    (ho : openXml dateOf float str so steps docs = some (.ok o)) :
    Rel2 (fun p f => factOf (taxonomyConcept docs) dateOf (taxonomyStore docs) p.1 p.2 = some f ∧ ElementSays dateOf docs p f) (elementsOf (docs.map (·.root))) o.data.getAllFacts := by
  rw [(opened_data hv ho).1]
  have key : ∀ ps : List (XNode × XNode), (∀ p ∈ ps, p ∈ elementsOf (docs.map (·.root))) →
      Rel2 (fun p f => factOf (taxonomyConcept docs) dateOf (taxonomyStore docs) p.1 p.2 = some f ∧ ElementSays dateOf docs p f) ps (ps.filterMap (fun p => factOf (taxonomyConcept docs) dateOf (taxonomyStore docs) p.1 p.2)) := by
    intro ps
    induction ps with
    | nil => intro _; exact .nil
    | cons p ps ih =>
      intro hps
      have hpm := hps p List.mem_cons_self
      obtain ⟨f, hf⟩ := stated_some hv hpm
      rw [List.filterMap_cons_some (f := fun p : XNode × XNode => factOf (taxonomyConcept docs) dateOf (taxonomyStore docs) p.1 p.2) hf]
      refine .cons ⟨hf, ?_⟩ (ih fun q hq => hps q (List.mem_cons_of_mem _ hq))
      have hc : ∀ y ∈ p.1.children, y ∈ (docs.map (·.root)).flatMap XNode.children ∧ y ∈ (docs.map (·.root)).flatMap XNode.children := by
        intro y hy
        obtain ⟨r, hr, hp'⟩ := List.mem_flatMap.1 hpm
        obtain ⟨x, _, rfl⟩ := List.mem_map.1 hp'
        exact ⟨List.mem_flatMap.2 ⟨r, hr, hy⟩, List.mem_flatMap.2 ⟨r, hr, hy⟩⟩
      obtain ⟨_, _, _, _, h1, h2, _, _, hw⟩ := factOf_chars hp hc hf
      have hvf := hv.instances.facts p hpm
      unfold factOf at hf
      simp only [bind, Option.bind_eq_some_iff] at hf
      obtain ⟨c, hcc, us, hus, cx, hcx, hf⟩ := hf
      cases hf
      have hw' : ∀ d ∈ statedBy dateOf (taxonomyStore docs) cx, d.WellFormed := by
        rw [hcx] at h2
        cases h2
        exact fun d hd => hw d (List.mem_append_right _ hd)
      have hvc : ValidContext dateOf (taxonomyStore docs) cx := by
        obtain ⟨ref, cx', hr, hfi, hcv⟩ := hvf.context
        have : cx = cx' := by
          unfold contextOf at hcx
          rw [hr] at hcx
          simp only [bind, Option.bind_some, hfi] at hcx
          split at hcx <;> cases hcx
          rfl
        rw [this]; exact hcv
      have hu : us.head? = (unitNode p.1 p.2).bind unitOf ∧ (∀ ux, unitNode p.1 p.2 = some ux → (unitOf ux).isSome) ∧ ∀ u ∈ us, ∃ n a b, u = .ofUnit n a b := by
        unfold unitNode
        unfold unitsOf at hus
        split at hus
        · next h => cases hus; rw [h]; exact ⟨rfl, fun _ h => by simp at h, fun _ h => by cases h⟩
        · next h => cases hus; rw [h]; exact ⟨rfl, fun _ h => by simp at h, fun _ h => by cases h⟩
        · next u hne h =>
          simp only [Option.map_eq_some_iff, Option.bind_eq_some_iff] at hus
          obtain ⟨u', ⟨ux, hux, hu'⟩, rfl⟩ := hus
          have hne' : u ≠ "" := fun he => hne he
          rw [h, Option.bind_some, if_neg hne', hux]
          refine ⟨hu'.symm, fun _ h => by cases h; rw [hu']; rfl, fun v hv => ?_⟩
          rw [List.mem_singleton.1 hv]
          obtain ⟨i, a, b, _, rfl⟩ := unitOf_char hu'
          exact ⟨_, _, _, rfl⟩
      refine ⟨rfl, rfl, hu.2.1, c, cx, hcc, hcx, ?_⟩
      rw [← hu.1]
      exact hasParts_of hvc hu.2.2 hw' rfl (Or.inl rfl)
  exact key _ fun _ h => h

theorem root_children {docs : List SchemaDoc} {p : XNode × XNode} (hpm : p ∈ elementsOf (docs.map (·.root))) :
    ∀ y ∈ p.1.children, y ∈ (docs.map (·.root)).flatMap XNode.children ∧ y ∈ (docs.map (·.root)).flatMap XNode.children := by
  intro y hy
  obtain ⟨r, hr, hp'⟩ := List.mem_flatMap.1 hpm
  obtain ⟨x, _, rfl⟩ := List.mem_map.1 hp'
  exact ⟨List.mem_flatMap.2 ⟨r, hr, hy⟩, List.mem_flatMap.2 ⟨r, hr, hy⟩⟩

/-- C134: the facts of an opened filing answer what their elements say: id, value, concept, unit, period, entity and dimensions. -/
theorem C134_xml_partial {dateOf : String → Option Date} {float : String → Option Rat} {str : XNode → String} {so : SetOrder} {steps : Nat} {docs : List SchemaDoc} {o : OpenedFiling}
    (hv : ValidFiling dateOf float docs) (hp : PlainTexts dateOf ((docs.map (·.root)).flatMap XNode.children) ((docs.map (·.root)).flatMap XNode.children))
    (ho : openXml dateOf float str so steps docs = some (.ok o)) : Rel2 (ElementSays dateOf docs) (elementsOf (docs.map (·.root))) o.data.getAllFacts :=
  Rel2.imp (says_xml hv hp ho) fun _ _ _ h => h.2

variable {dateOf : String → Option Date} {dig : Char → Option Nat} {flt : String → Option Bool} {validUri : String → Bool} {float : String → Option Rat} {docs : List FilingDoc} {o : OpenedInline}

theorem inline_says (hv : ValidInlineFiling dateOf dig flt validUri float docs) (hp : InlineTexts dateOf docs) {e : InlineElem} {f : Fact} (h : InlineStates dateOf dig flt docs e f) :
    InlineSays dateOf docs e f := by
  obtain ⟨cs, _, h⟩ := h
  obtain ⟨c, cx, ref, hc, hr, hcx, he, _, hus, hw⟩ := inline_wellFormed hp h
  refine ⟨inlineFactOf_id h, c, ref, cx, hc, hr, hcx, ?_⟩
  have hu : inlineUnitStated docs e = (inlineUnits (resourceElems (inlineDocs docs) "xbrli:unit") e.node).head? := by
    unfold inlineUnitStated inlineUnits
    split
    · next h => rw [h]; rfl
    · next h => rw [h]; rfl
    · next u hne h =>
      have hne' : u ≠ "" := fun he => hne he
      rw [h, Option.bind_some, if_neg hne']
      cases declaredUnit (resourceElems (inlineDocs docs) "xbrli:unit") u <;> rfl
  rw [hu]
  exact hasParts_of (hv.inline.declarations.contexts cx (List.mem_of_find?_eq_some hcx)).2 hus (fun d hd => hw d (List.mem_append_left _ hd)) he (Or.inr rfl)

/-- C134: the facts of an opened inline filing answer what their elements say. -/
theorem C134_inline_partial (hv : ValidInlineFiling dateOf dig flt validUri float docs) (hp : InlineTexts dateOf docs) (hs : ShowsInline dateOf dig flt docs o) :
    Rel2 (InlineSays dateOf docs) (inlineFacts (inlineDocs docs)) o.data.getAllFacts :=
  Rel2.imp hs.facts fun _ _ _ h => inline_says hv hp h

/-! ## Contexts as texts -/


theorem aspects_unique : ∀ {l m : List Aspect}, l.Pairwise (fun a b => a.name < b.name) → m.Pairwise (fun a b => a.name < b.name) → (∀ a, a ∈ l ↔ a ∈ m) → l = m
  | [], [], _, _, _ => rfl
  | [], b :: m, _, _, h => by have := (h b).2 List.mem_cons_self; cases this
  | a :: l, [], _, _, h => by have := (h a).1 List.mem_cons_self; cases this
  | a :: l, b :: m, hl, hm, h => by
    rw [List.pairwise_cons] at hl hm
    have hab : a = b := by
      rcases List.mem_cons.1 ((h a).1 List.mem_cons_self) with h1 | h1
      · exact h1
      · rcases List.mem_cons.1 ((h b).2 List.mem_cons_self) with h2 | h2
        · exact h2.symm
        · exact absurd (hm.1 a h1) (String.lt_asymm (hl.1 b h2))
    subst hab
    rw [aspects_unique hl.2 hm.2 fun x => ?_]
    constructor
    · intro hx
      rcases List.mem_cons.1 ((h x).1 (List.mem_cons_of_mem _ hx)) with rfl | h1
      · exact absurd (hl.1 x hx) (String.lt_irrefl _)
      · exact h1
    · intro hx
      rcases List.mem_cons.1 ((h x).2 (List.mem_cons_of_mem _ hx)) with rfl | h1
      · exact absurd (hm.1 x hx) (String.lt_irrefl _)
      · exact h1

/-- C134: the text of the context of a core fact is its concept, its entity, its period and its unit if it has one, each followed by a space. With dimensions the order depends on their names. -/
theorem C134_text_partial {re : ElemStore} {c : Concept} {u : Option Characteristic} {cx : XNode} {f : Fact} (h : HasParts dateOf re c u cx f) (hst : StatedFact f) (hcore : f.isCore = true) :
    ContextSays dateOf c u cx f.context.text := by
  have hcc : ∀ a ∈ f.context.aspects, a.core = true := by
    intro a ha
    unfold Fact.isCore Context.hasNoncoreDimensions at hcore
    cases h : a.core with
    | true => rfl
    | false =>
      have : f.context.aspects.any (fun a => !a.core) = true := List.any_eq_true.2 ⟨a, ha, by rw [h]; rfl⟩
      rw [this] at hcore
      cases hcore
  have hnames : ∀ a ∈ f.context.aspects, a.name ∈ ["concept", "period", "entity", "unit"] := by
    intro a ha
    rcases (stated_parts (labels := fun _ => []) hst).aspects a ha with ⟨_, h⟩ | ⟨h, _⟩
    · exact h
    · rw [hcc a ha] at h; cases h
  obtain ⟨i0, cs, hctx, hsc, hpc⟩ := hst
  have hget : ∀ a b : Aspect, a.name = b.name → f.context.getCharacteristic a = f.context.getCharacteristic b := by
    intro a b hab
    rw [hctx, C01_first_characteristic_wins, C01_first_characteristic_wins, hab]
  have hmem : ∀ a, a ∈ f.context.aspects ↔ ∃ x, f.context.getCharacteristic a = some x ∧ x.aspect = a := by
    intro a
    rw [hctx, C01_first_characteristic_wins]
    exact C02_aspects_exact i0 cs a
  have hsorted : f.context.aspects.Pairwise (fun a b => a.name < b.name) := by
    rw [hctx]
    exact C02_aspects_strictly_sorted i0 cs
  have hco : f.context.getCharacteristic .concept = some (.ofConcept c) := by
    have h1 := h.concept
    unfold Fact.getConcept at h1
    cases hg : f.context.getCharacteristic .concept with
    | none => rw [hg] at h1; cases h1
    | some x =>
      have hx := hg
      rw [hctx, C01_first_characteristic_wins] at hx
      have hxm := List.mem_of_find?_eq_some hx
      have hs := hsc x hxm
      rw [hg] at h1
      cases hs <;> cases h1
      rfl
  obtain ⟨p, d, hp, hd, hpe⟩ := h.period
  obtain ⟨e, i, s, he, hi, hen⟩ := h.entity
  unfold Fact.getPeriod at hpe
  unfold Fact.getEntity at hen
  have hun := h.unit
  unfold Fact.getUnit at hun
  refine ⟨p, d, e, i, s, hp, hd, he, hi, ?_⟩
  have hin : ∀ a ∈ f.context.aspects, a = .concept ∨ a = .entity ∨ a = .period ∨ (a.name = "unit") := by
    intro a ha
    obtain ⟨x, hx, hxa⟩ := (hmem a).1 ha
    have hn := hnames a ha
    simp only [List.mem_cons, List.not_mem_nil, or_false] at hn
    rcases hn with hn | hn | hn | hn
    · rw [hget a .concept hn, hco] at hx
      cases hx
      exact Or.inl hxa.symm
    · rw [hget a .period hn, hpe] at hx
      cases hx
      exact Or.inr (Or.inr (Or.inl hxa.symm))
    · rw [hget a .entity hn, hen] at hx
      cases hx
      exact Or.inr (Or.inl hxa.symm)
    · exact Or.inr (Or.inr (Or.inr hn))
  have tc : f.context.plainText .concept = c.name.prefixLocal := by unfold Context.plainText; rw [hco]; rfl
  have te : f.context.plainText .entity = "{" ++ s ++ "}" ++ i := by unfold Context.plainText; rw [hen]; rfl
  have tp : f.context.plainText .period = d.shown := by unfold Context.plainText; rw [hpe]; rfl
  cases u with
  | none =>
    refine Or.inl ⟨rfl, ?_⟩
    have ha : f.context.aspects = [.concept, .entity, .period] := by
      refine aspects_unique hsorted (by decide +kernel) fun a => ⟨fun ha => ?_, fun ha => ?_⟩
      · rcases hin a ha with rfl | rfl | rfl | hn
        · simp
        · simp
        · simp
        · obtain ⟨x, hx, _⟩ := (hmem a).1 ha
          rw [hget a .unit hn, hun] at hx
          cases hx
      · simp only [List.mem_cons, List.not_mem_nil, or_false] at ha
        rcases ha with rfl | rfl | rfl
        · exact (hmem _).2 ⟨_, hco, rfl⟩
        · exact (hmem _).2 ⟨_, hen, rfl⟩
        · exact (hmem _).2 ⟨_, hpe, rfl⟩
    unfold Context.text
    rw [ha]
    simp only [List.foldl_cons, List.foldl_nil, tc, te, tp, String.empty_append, String.append_assoc]
  | some x =>
    have hx := hun
    rw [hctx, C01_first_characteristic_wins] at hx
    have hxm := List.mem_of_find?_eq_some hx
    have hxn : x.aspect.name = "unit" := by
      have := List.find?_some hx
      exact of_decide_eq_true this
    obtain ⟨n, a', b', rfl⟩ : ∃ n a b, x = .ofUnit n a b := by
      have hs := hsc x hxm
      have hpl := hpc x hxm
      cases hs with
      | unit n a b => exact ⟨n, a, b, rfl⟩
      | concept => exact absurd (show ("concept" : String) = "unit" from hxn) (by decide)
      | period => exact absurd (show ("period" : String) = "unit" from hxn) (by decide)
      | entity => exact absurd (show ("entity" : String) = "unit" from hxn) (by decide)
      | explicit name _ _ _ =>
        have hxn : name = "unit" := hxn
        have hpl : ':' ∈ name.toList := hpl
        rw [hxn] at hpl
        exact absurd hpl (by decide)
      | typed name _ _ _ =>
        have hxn : name = "unit" := hxn
        have hpl : ':' ∈ name.toList := hpl
        rw [hxn] at hpl
        exact absurd hpl (by decide)
    refine Or.inr ⟨n, a', b', rfl, ?_⟩
    have tu : f.context.plainText .unit = n := by unfold Context.plainText; rw [hun]; rfl
    have ha : f.context.aspects = [.concept, .entity, .period, .unit] := by
      refine aspects_unique hsorted (by decide +kernel) fun a => ⟨fun ha => ?_, fun ha => ?_⟩
      · rcases hin a ha with rfl | rfl | rfl | hn
        · simp
        · simp
        · simp
        · obtain ⟨x, hx, hxa⟩ := (hmem a).1 ha
          rw [hget a .unit hn, hun] at hx
          cases hx
          have : a = .unit := hxa.symm
          rw [this]
          simp
      · simp only [List.mem_cons, List.not_mem_nil, or_false] at ha
        rcases ha with rfl | rfl | rfl | rfl
        · exact (hmem _).2 ⟨_, hco, rfl⟩
        · exact (hmem _).2 ⟨_, hen, rfl⟩
        · exact (hmem _).2 ⟨_, hpe, rfl⟩
        · exact (hmem _).2 ⟨_, hun, rfl⟩
    unfold Context.text
    rw [ha]
    simp only [List.foldl_cons, List.foldl_nil, tc, te, tp, tu, String.empty_append, String.append_assoc]

/-- C134: the text of the context of any fact puts together what the context says, in the order of the names of the aspects. -/
theorem C134_text_all {re : ElemStore} {c : Concept} {u : Option Characteristic} {cx : XNode} {f : Fact} (h : HasParts dateOf re c u cx f) (hst : StatedFact f) :
    SaysAll (SaysAbout dateOf re c u cx) f.context.text := by
  obtain ⟨i0, cs, hctx, hsc, hpc⟩ := hst
  have hget : ∀ a, f.context.getCharacteristic a = cs.find? (fun x => decide (x.aspect.name = a.name)) := fun a => by rw [hctx, C01_first_characteristic_wins]
  refine ⟨f.context.aspects.map (fun a => (a.name, f.context.plainText a)), ?_, fun n v => ?_, ?_⟩
  · rw [List.pairwise_map, hctx]
    exact C02_aspects_strictly_sorted i0 cs
  · have hm : (n, v) ∈ f.context.aspects.map (fun a => (a.name, f.context.plainText a)) ↔ ∃ x, f.context.getCharacteristic { name := n } = some x ∧ v = x.value.plainText := by
      constructor
      · intro hm
        obtain ⟨a, ha, he⟩ := List.mem_map.1 hm
        cases he
        rw [hctx] at ha
        obtain ⟨x, hx, _⟩ := (C02_aspects_exact i0 cs a).1 ha
        refine ⟨x, (hget _).trans hx, ?_⟩
        unfold Context.plainText
        rw [(hget a).trans hx]
      · rintro ⟨x, hx, rfl⟩
        have hx' := hx
        rw [hget] at hx'
        have hn : x.aspect.name = n := by
          have := List.find?_some hx'
          exact of_decide_eq_true this
        refine List.mem_map.2 ⟨x.aspect, ?_, ?_⟩
        · rw [hctx]
          exact (C02_aspects_exact i0 cs x.aspect).2 ⟨x, by rw [hn]; exact hx', rfl⟩
        · have : f.context.getCharacteristic x.aspect = some x := by rw [hget, hn]; exact hx'
          unfold Context.plainText
          rw [this, hn]
    rw [hm]
    have hco : f.context.getCharacteristic { name := "concept" } = some (.ofConcept c) := by
      have h1 := h.concept
      unfold Fact.getConcept at h1
      cases hg : f.context.getCharacteristic .concept with
      | none => rw [hg] at h1; cases h1
      | some x =>
        have hx := hg
        rw [hget] at hx
        have hs := hsc x (List.mem_of_find?_eq_some hx)
        rw [hg] at h1
        cases hs <;> cases h1
        rw [hget]
        exact hx
    obtain ⟨p, d, hp, hd, hpe⟩ := h.period
    obtain ⟨e, i, s, he, hi, hen⟩ := h.entity
    have hpe : f.context.getCharacteristic { name := "period" } = some (.ofPeriod d) := (hget _).trans ((hget .period).symm.trans hpe)
    have hen : f.context.getCharacteristic { name := "entity" } = some (.ofEntity i s) := (hget _).trans ((hget .entity).symm.trans hen)
    have hun : f.context.getCharacteristic { name := "unit" } = u := (hget _).trans ((hget .unit).symm.trans h.unit)
    constructor
    · rintro ⟨x, hx, rfl⟩
      have hx' := hx
      rw [hget] at hx'
      have hxm := List.mem_of_find?_eq_some hx'
      have hn : x.aspect.name = n := by
        have := List.find?_some hx'
        exact of_decide_eq_true this
      have hpl := hpc x hxm
      cases hsc x hxm with
      | concept k =>
        cases hn
        have hx := hco.symm.trans hx
        cases hx
        exact .concept
      | period k =>
        cases hn
        have hx := hpe.symm.trans hx
        cases hx
        exact .period hp hd
      | entity k l =>
        cases hn
        have hx := hen.symm.trans hx
        cases hx
        exact .entity he hi
      | unit k a b =>
        cases hn
        exact .unit (hun.symm.trans hx)
      | explicit name a b k =>
        have hn : name = n := hn
        have hpl : ':' ∈ name.toList := hpl
        rw [hn] at hpl
        exact .dimension hpl ((h.dimensions { name := n } hpl).symm.trans hx)
      | typed name a b k =>
        have hn : name = n := hn
        have hpl : ':' ∈ name.toList := hpl
        rw [hn] at hpl
        exact .dimension hpl ((h.dimensions { name := n } hpl).symm.trans hx)
    · intro hs
      cases hs with
      | concept => exact ⟨_, hco, rfl⟩
      | entity he' hi' =>
        rw [he] at he'; cases he'
        rw [hi] at hi'; cases hi'
        exact ⟨_, hen, rfl⟩
      | period hp' hd' =>
        rw [hp] at hp'; cases hp'
        rw [hd] at hd'; cases hd'
        exact ⟨_, hpe, rfl⟩
      | unit hu => exact ⟨_, hun.trans hu, rfl⟩
      | dimension hc hx => exact ⟨_, (h.dimensions { name := n } hc).trans hx, rfl⟩
  · unfold Context.text
    rw [List.foldl_map]

/-- C134: the texts of the contexts of all facts of an opened filing. -/
theorem C134_xml_texts_partial {str : XNode → String} {so : SetOrder} {steps : Nat} {docs : List SchemaDoc} {o : OpenedFiling}
    (hv : ValidFiling dateOf float docs) (hp : PlainTexts dateOf ((docs.map (·.root)).flatMap XNode.children) ((docs.map (·.root)).flatMap XNode.children))
    (ho : openXml dateOf float str so steps docs = some (.ok o)) :
    Rel2 (fun p f => ∃ c cx, conceptOf (taxonomyConcept docs) (taxonomyStore docs) p.2 = some c ∧ contextOf p.1 p.2 = some cx ∧
      SaysAll (SaysAbout dateOf (taxonomyStore docs) c ((unitNode p.1 p.2).bind unitOf) cx) f.context.text) (elementsOf (docs.map (·.root))) o.data.getAllFacts := by
  refine Rel2.imp (says_xml hv hp ho) fun p hpm f hf => ?_
  obtain ⟨hf, _, _, _, c, cx, h1, h2, h3⟩ := hf
  exact ⟨c, cx, h1, h2, C134_text_all h3 (factOf_stated hp (root_children hpm) hf)⟩

/-- C134: the texts of the contexts of all facts of an opened inline filing. -/
theorem C134_inline_texts_partial (hv : ValidInlineFiling dateOf dig flt validUri float docs) (hp : InlineTexts dateOf docs) (hs : ShowsInline dateOf dig flt docs o) :
    Rel2 (fun e f => ∃ c ref cx, inlineConcept (taxonomyConcept (docs.map (·.doc))) (taxonomyStore (docs.map (·.doc))) e.node = some c ∧ e.node.attr? "contextRef" = some ref ∧
      declaredContext (resourceElems (inlineDocs docs) "xbrli:context") ref = some cx ∧
      SaysAll (SaysAbout dateOf (taxonomyStore (docs.map (·.doc))) c (inlineUnitStated docs e) cx) f.context.text) (inlineFacts (inlineDocs docs)) o.data.getAllFacts := by
  refine Rel2.imp hs.facts fun e hem f hf => ?_
  obtain ⟨_, c, ref, cx, h1, h2, h3, h4⟩ := inline_says hv hp hf
  obtain ⟨cs, _, hf⟩ := hf
  exact ⟨c, ref, cx, h1, h2, h3, C134_text_all h4 (inlineFactOf_stated hp hf)⟩

/-- C134: the texts of the contexts of core facts of an opened filing. -/
theorem C134_xml_text_partial {str : XNode → String} {so : SetOrder} {steps : Nat} {docs : List SchemaDoc} {o : OpenedFiling}
    (hv : ValidFiling dateOf float docs) (hp : PlainTexts dateOf ((docs.map (·.root)).flatMap XNode.children) ((docs.map (·.root)).flatMap XNode.children))
    (ho : openXml dateOf float str so steps docs = some (.ok o)) :
    Rel2 (fun p f => ∃ c cx, conceptOf (taxonomyConcept docs) (taxonomyStore docs) p.2 = some c ∧ contextOf p.1 p.2 = some cx ∧
      ContextSays dateOf c ((unitNode p.1 p.2).bind unitOf) cx f.context.text) (coreElements docs) o.data.getAllCoreFacts := by
  have h := Rel2.filter (says_xml hv hp ho) (fun p => (membersStated p.1 p.2).isEmpty) Fact.isCore
    fun p hpm f h => factOf_core hp (root_children hpm) (hv.instances.facts p hpm) h.1
  refine Rel2.imp h fun p hpm f hf => ?_
  obtain ⟨hf, _, _, _, c, cx, h1, h2, h3⟩ := hf
  refine ⟨c, cx, h1, h2, C134_text_partial h3 (factOf_stated hp (root_children (List.mem_filter.1 hpm).1) hf) ?_⟩
  rw [factOf_core hp (root_children (List.mem_filter.1 hpm).1) (hv.instances.facts p (List.mem_filter.1 hpm).1) hf]
  exact (List.mem_filter.1 hpm).2

/-- C134: the texts of the contexts of core facts of an opened inline filing. -/
theorem C134_inline_text_partial (hv : ValidInlineFiling dateOf dig flt validUri float docs) (hp : InlineTexts dateOf docs) (hs : ShowsInline dateOf dig flt docs o) :
    Rel2 (fun e f => ∃ c ref cx, inlineConcept (taxonomyConcept (docs.map (·.doc))) (taxonomyStore (docs.map (·.doc))) e.node = some c ∧ e.node.attr? "contextRef" = some ref ∧
      declaredContext (resourceElems (inlineDocs docs) "xbrli:context") ref = some cx ∧ ContextSays dateOf c (inlineUnitStated docs e) cx f.context.text) (inlineCore docs) o.data.getAllCoreFacts := by
  refine Rel2.imp (C133_core_partial hv hp hs) fun e hem f hf => ?_
  obtain ⟨_, c, ref, cx, h1, h2, h3, h4⟩ := inline_says hv hp hf
  have hcore := inline_core hv hp hf
  obtain ⟨cs, _, hf⟩ := hf
  refine ⟨c, ref, cx, h1, h2, h3, C134_text_partial h4 (inlineFactOf_stated hp hf) ?_⟩
  rw [hcore]
  exact (List.mem_filter.1 hem).2

end Brel
