import Verif.Model.InlineChecks
import Verif.Spec.InlineChecks
import Verif.Props.OpenInline
import Verif.Props.Aggregation
import Verif.Props.FactTable
import Verif.Props.NonFraction

/-! C128: the checks of calculation networks in inline filings. -/

namespace Brel
open Spec

variable {dateOf : String → Option Date} {dig : Char → Option Nat} {flt : String → Option Bool} {validUri : String → Bool} {float : String → Option Rat} {str : XNode → String} {so : SetOrder}
  {fuel steps : Nat} {docs : List FilingDoc} {o : OpenedInline}

/-! ## The parts of an opened inline filing -/

theorem openXhtml_parts (h : openXhtml dateOf dig flt validUri float str so fuel steps docs = some (.ok o)) :
    parseReportElements (docs.map (·.doc)) = .ok o.elements ∧ parseFactsXhtml fuel o.elements.concept dateOf dig flt o.elements.store (docs.map (·.inline)) = some (.ok o.facts) ∧
    readNetworks o.elements.store o.facts.facts float str so steps (docs.map (·.doc.root)) = some (.ok o.networks) := by
  unfold openXhtml at h
  dsimp only at h
  split at h
  · cases h
  · next elements h1 =>
    split at h
    · cases h
    · cases h
    · next facts h2 =>
      split at h
      · cases h
      · cases h
      · split at h
        · cases h
        · next notes h4 =>
          cases h5 : readNetworks elements.store facts.facts float str so steps (docs.map (·.doc.root)) with
          | none => rw [h5] at h; cases h
          | some r =>
            rw [h5] at h
            cases r with
            | error e => cases h
            | ok n =>
              simp only [Option.map_some, Except.bind, Option.some.injEq] at h
              cases h6 : parseComponents n.networks.store (docs.map (·.doc.root)) with
              | error e => rw [h6] at h; cases h
              | ok c => rw [h6] at h; cases h; exact ⟨h1, h2, h5⟩

/-- The facts and networks of an opened inline filing, in terms of the documents. -/
theorem opened_inline (hv : ValidInlineFiling dateOf dig flt validUri float docs) (hfuel : (inlineConts (inlineDocs docs)).length < fuel)
    (ho : openXhtml dateOf dig flt validUri float str so fuel steps docs = some (.ok o)) :
    (∃ chainOf, (inlineFacts (inlineDocs docs)).map (inlineFactOf (taxonomyConcept (docs.map (·.doc))) dateOf dig flt (taxonomyStore (docs.map (·.doc)))
        (resourceElems (inlineDocs docs) "xbrli:context") (resourceElems (inlineDocs docs) "xbrli:unit") chainOf) = o.facts.facts.getAll.map some) ∧
    ValidLinkbases (taxonomyStore (docs.map (·.doc))) o.facts.facts float ((docs.map (·.doc)).map (·.root)) ∧
    readNetworks (taxonomyStore (docs.map (·.doc))) o.facts.facts float str so steps ((docs.map (·.doc)).map (·.root)) = some (.ok o.networks) ∧
    ∀ q, o.conceptNamed q =
      (((counting (schemaDeclarations (docs.map (·.doc)))).find? (fun d => decide (d.name = q))).bind (fun d => (createElement d.x d.name).1.bind (·.concept))).getD { name := q } := by
  have hroots : (docs.map (·.doc)).map (·.root) = docs.map (·.doc.root) := by rw [List.map_map]; rfl
  obtain ⟨h1, h2, h3⟩ := openXhtml_parts ho
  obtain ⟨hst, hco⟩ := taxonomy_of h1 hv.schemas.plain
  have hall := (List.nodup_append.1 hv.ids).1
  obtain ⟨chainOf, fs, st, hf1, hf2, hf3, hf4, hf5, _⟩ := facts_read (docs := docs.map (·.inline)) (ds := inlineDocs docs) rfl hv.inline hv.texts hall hv.identified hfuel
  have hids : fs.map (·.id) = (inlineFacts (inlineDocs docs)).map (fun e => e.node.attr? "id") := by
    refine ((rel2_of_map hf3).map_eq _ _ ?_).symm
    intro e _ f hf
    exact (inlineFactOf_id hf).symm
  have hl := hv.links fs hids
  rw [hst, hco, hf1] at h2
  have h2' : st = o.facts := Except.ok.inj (Option.some.inj h2)
  subst_vars
  rw [hst] at h3
  rw [hroots]
  rw [← hf4] at hl
  refine ⟨⟨chainOf, hf3⟩, hl, h3, fun q => ?_⟩
  exact congrFun hco ⟨.concept, q, none, [], 0⟩

/-! ## The facts -/

theorem statedBy_stated {re : ElemStore} {cx : XNode} : ∀ c ∈ statedBy dateOf re cx, StatedChar c ∧
    (∀ contexts, NamedApart contexts → cx ∈ contexts → c.aspect.name ≠ "concept") := by
  intro c hc
  unfold statedBy at hc
  cases hpe : partsOf cx with
  | none => rw [hpe] at hc; cases hc
  | some pe =>
    rw [hpe] at hc
    simp only [List.mem_append] at hc
    rcases hc with (hc | hc) | hc
    · obtain ⟨q, _, rfl⟩ := List.mem_map.1 hc
      exact ⟨.period q, fun _ _ _ => by simp [Characteristic.ofPeriod, Aspect.period]⟩
    · obtain ⟨i, _, rfl⟩ := List.mem_map.1 hc
      exact ⟨.entity _ _, fun _ _ _ => by simp [Characteristic.ofEntity, Aspect.entity]⟩
    · obtain ⟨m, hm, hd⟩ := List.mem_filterMap.1 hc
      have hmem : ∀ contexts, cx ∈ contexts → m ∈ membersOf contexts := fun contexts hcx => List.mem_flatMap.2 ⟨cx, hcx, by rw [hpe]; exact hm⟩
      unfold dimensionOf at hd
      simp only [bind, Option.bind_eq_some_iff] at hd
      obtain ⟨t, _, hd⟩ := hd
      split at hd
      · unfold explicitOf at hd
        simp only [bind, Option.bind_eq_some_iff] at hd
        obtain ⟨axis, hax, q, _, dim, _, x, _, hd⟩ := hd
        split at hd
        · cases hd
        · simp only [bind, Option.bind_eq_some_iff] at hd
          obtain ⟨_, _, mem, _, hd⟩ := hd
          cases hd
          exact ⟨.explicit _ _ _ _, fun contexts hna hcx he => hna m (hmem contexts hcx) (by rw [hax]; exact congrArg some he)⟩
      · split at hd
        · unfold typedOf at hd
          simp only [bind, Option.bind_eq_some_iff] at hd
          obtain ⟨axis, hax, q, _, dim, _, x, _, v, _, hd⟩ := hd
          cases hd
          exact ⟨.typed _ _ _ _, fun contexts hna hcx he => hna m (hmem contexts hcx) (by rw [hax]; exact congrArg some he)⟩
        · cases hd

/-- The characteristics of a fact of an inline document. -/
theorem inline_chars {data : ReportElement → Concept} {re : ElemStore} {contexts units : List XNode} {chainOf : Nat → List Elem} {e : InlineElem} {f : Fact}
    (h : inlineFactOf data dateOf dig flt re contexts units chainOf e = some f) :
    ∃ i cs, f.context = List.foldl Context.add (Context.new i) cs ∧ (∀ c ∈ cs, StatedChar c) ∧ (NamedApart contexts → ∃ k, f.HasConcept k) := by
  unfold inlineFactOf at h
  simp only [bind, Option.bind_eq_some_iff] at h
  obtain ⟨k, _, c, _, ref, _, cx, hcx, v, _, h⟩ := h
  cases h
  refine ⟨_, _, rfl, ?_, fun hna => ⟨c, ?_, (C01_has_iff_lookup _ _ _).2 ⟨Characteristic.ofConcept c, List.mem_append.2 (.inr List.mem_cons_self), rfl⟩⟩⟩
  rotate_left
  · unfold Fact.getConcept
    rw [C01_first_characteristic_wins, List.find?_append]
    have : (statedBy dateOf re cx).find? (fun d => decide (d.aspect.name = Aspect.concept.name)) = none := by
      rw [List.find?_eq_none]
      intro d hd
      rw [decide_eq_true_eq]
      exact (statedBy_stated d hd).2 _ hna (List.mem_of_find?_eq_some hcx)
    rw [this]
    rfl
  intro d hd
  rcases List.mem_append.1 hd with hd | hd
  · exact (statedBy_stated d hd).1
  · rcases List.mem_cons.1 hd with rfl | hd
    · exact .concept c
    · unfold inlineUnits at hd
      split at hd
      · cases hd
      · cases hd
      · unfold declaredUnit at hd
        have hd := List.mem_of_getLast? (Option.mem_toList.1 hd)
        obtain ⟨ux, hux, hd⟩ := List.mem_filterMap.1 hd
        split at hd
        · obtain ⟨i, a, b, hi, rfl⟩ := unitOf_char hd
          exact .unit _ _ _
        · cases hd

theorem Dict.mem_set {k : String} {v : Characteristic} : ∀ {d : Dict String Characteristic} {e : String × Characteristic}, e ∈ d.set k v → e ∈ d ∨ e.2 = v := by
  intro d
  induction d with
  | nil => intro e h; exact .inr (by rw [List.mem_singleton.1 h])
  | cons a d ih =>
    intro e h
    unfold Dict.set at h
    split at h
    · rcases List.mem_cons.1 h with h | h
      · exact .inr (by rw [h])
      · exact .inl (List.mem_cons_of_mem _ h)
    · rcases List.mem_cons.1 h with h | h
      · exact .inl (by rw [h]; exact List.mem_cons_self)
      · exact (ih h).imp (List.mem_cons_of_mem _) id

theorem add_chars {cs : List Characteristic} {ctx : Context} (h : ∀ e ∈ ctx.chars, e.2.aspect ∈ ctx.aspects) : ∀ e ∈ (cs.foldl Context.add ctx).chars, e.2.aspect ∈ (cs.foldl Context.add ctx).aspects := by
  induction cs generalizing ctx with
  | nil => exact h
  | cons c cs ih =>
    refine ih ?_
    intro e he
    unfold Context.add at he ⊢
    split at he
    · next hc => rw [if_pos hc]; exact h e he
    · next hc =>
      rw [if_neg hc]
      show _ ∈ sortBy Aspect.nameLe (ctx.aspects ++ [c.aspect])
      rw [mem_sortBy]
      rcases Dict.mem_set he with he | he
      · exact List.mem_append_left _ (h e he)
      · rw [he]; exact List.mem_append_right _ (List.mem_singleton.2 rfl)

theorem add_stated {cs : List Characteristic} {ctx : Context} (h : ∀ e ∈ ctx.chars, StatedChar e.2) (hcs : ∀ c ∈ cs, StatedChar c) : ∀ e ∈ (cs.foldl Context.add ctx).chars, StatedChar e.2 := by
  induction cs generalizing ctx with
  | nil => exact h
  | cons c cs ih =>
    refine ih ?_ (fun d hd => hcs d (List.mem_cons_of_mem _ hd))
    intro e he
    unfold Context.add at he
    split at he
    · exact h e he
    · rcases Dict.mem_set he with he | he
      · exact h e he
      · rw [he]; exact hcs c List.mem_cons_self

/-- Copying changes nothing if there are no dimensions. -/
theorem copied_core {f : Fact} {i : String} {cs : List Characteristic} (hf : f.context = cs.foldl Context.add (Context.new i)) (hcs : ∀ c ∈ cs, StatedChar c) (hc : f.isCore = true) (n : Nat) :
    f.copied n = f := by
  have key : f.context.deepcopy n = f.context := by
    unfold Context.deepcopy
    have : f.context.chars.map (fun e => (e.1, e.2.deepcopy n)) = f.context.chars := by
      refine (List.map_congr_left (fun e he => ?_)).trans (List.map_id _)
      have h1 : e.2.aspect ∈ f.context.aspects := by rw [hf] at he ⊢; exact add_chars (ctx := Context.new i) (by intro e he; cases he) e he
      have h2 : StatedChar e.2 := by rw [hf] at he; exact add_stated (ctx := Context.new i) (by intro e he; cases he) hcs e he
      have h3 : e.2.aspect.core = true := by
        unfold Fact.isCore Context.hasNoncoreDimensions at hc
        cases hh : e.2.aspect.core with
        | true => rfl
        | false =>
          have : f.context.aspects.any (fun a => !a.core) = true := List.any_eq_true.2 ⟨_, h1, by rw [hh]; rfl⟩
          rw [this] at hc; cases hc
      obtain ⟨k, c⟩ := e
      dsimp only at h2 h3
      show (k, c.deepcopy n) = (k, c)
      cases h2 <;> first | rfl | cases h3
    rw [this]
  unfold Fact.copied
  rw [key]

theorem zipIdx_copied {fs : List Fact} (h : ∀ f ∈ fs, ∀ n, f.copied n = f) : ∀ k, (fs.zipIdx k).map (fun p => p.1.copied p.2) = fs := by
  induction fs with
  | nil => intro k; rfl
  | cons f fs ih =>
    intro k
    rw [List.zipIdx_cons, List.map_cons, ih (fun g hg => h g (List.mem_cons_of_mem _ hg)), h f List.mem_cons_self]

/-- A fact of the filing is the copy of a fact that the documents state. -/
theorem mem_allFacts {g : Fact} (h : g ∈ o.allFacts) : ∃ (f : Fact) (n : Nat), o.facts.facts.getAll[n]? = some f ∧ g = f.copied n := by
  obtain ⟨⟨f, n⟩, hm, rfl⟩ := List.mem_map.1 h
  exact ⟨f, n, List.mk_mem_zipIdx_iff_getElem?.1 hm, rfl⟩

theorem copied_concept {f : Fact} {n : Nat} {c : Concept} : (f.copied n).HasConcept c ↔ f.HasConcept c := by
  unfold Fact.HasConcept
  have h : (f.copied n).getConcept = f.getConcept := by
    unfold Fact.getConcept
    rw [copied_lookup]
    cases hc : f.context.getCharacteristic .concept with
    | none => rfl
    | some d =>
      obtain ⟨a, v⟩ := d
      cases v <;> rfl
  rw [h]
  rfl

theorem inline_concept {data : ReportElement → Concept} {re : ElemStore} {contexts units : List XNode} {chainOf : Nat → List Elem} {es : List InlineElem} {fs : List Fact}
    (h : es.map (inlineFactOf data dateOf dig flt re contexts units chainOf) = fs.map some) {f : Fact} (hf : f ∈ fs) :
    ∃ i cs, f.context = List.foldl Context.add (Context.new i) cs ∧ (∀ c ∈ cs, StatedChar c) ∧ (NamedApart contexts → ∃ k, f.HasConcept k) := by
  obtain ⟨e, _, he⟩ := (rel2_of_map h).mem_right f hf
  exact inline_chars he

/-! ## C128: balances and totals -/

/-- C128: the balance check of an opened inline filing says whether the balances of the schemas agree with the weights of the links of the role, as for other filings (C116). -/
theorem C128_balance_partial (hv : ValidInlineFiling dateOf dig flt validUri float docs) (hfuel : (inlineConts (inlineDocs docs)).length < fuel)
    (ho : openXhtml dateOf dig flt validUri float str so fuel steps docs = some (.ok o)) {role : String}
    (hag : ∀ up link, HasLink ((docs.map (·.doc)).map (·.root)) "calculationLink" role up link → AgreeOn link "weight")
    {net : Network} (hn : net ∈ o.networks.networks.store.getByType .calculation) (hl : net.logicalOf role .calculation = true) :
    ∃ depth, (∀ j, (o.isBalanceConsistent float (depth + j) net).isSome) ∧ ∀ j, o.isBalanceConsistent float (depth + j) net = some true ↔ BalancesAgree float (docs.map (·.doc)) role := by
  obtain ⟨_, hlk, hr, hcon⟩ := opened_inline hv hfuel ho
  obtain ⟨depth, ts, hts, hb⟩ := balance_of_links hlk hr hcon hag hn hl
  refine ⟨depth, fun j => ?_, fun j => ?_⟩
  · unfold OpenedInline.isBalanceConsistent OpenedInline.calcForest
    rw [hts j]; rfl
  · unfold OpenedInline.isBalanceConsistent OpenedInline.calcForest
    rw [hts j, Option.map_some, Option.some.injEq]
    exact hb

/-- C128: the aggregation check of an opened inline filing says whether the facts of every total that is met from the top are the weighted sums the link states, as for other filings
(C120). -/
theorem C128_aggregation_partial (hv : ValidInlineFiling dateOf dig flt validUri float docs) (hfuel : (inlineConts (inlineDocs docs)).length < fuel)
    (ho : openXhtml dateOf dig flt validUri float str so fuel steps docs = some (.ok o)) (hna : NamedApart (resourceElems (inlineDocs docs) "xbrli:context")) {role : String} {link : XNode}
    (hone : linksOfRole ((docs.map (·.doc)).map (·.root)) "calculationLink" role = [link]) (hag : AgreeOn link "weight")
    {net : Network} (hn : net ∈ o.networks.networks.store.getByType .calculation) (hl : net.logicalOf role .calculation = true) :
    ∃ depth, ∀ j, ∃ r, o.isAggregationConsistent float (depth + j) o.allFacts net = some r ∧
      (r = .ok true ↔ ∀ l q, Met (taxonomyStore (docs.map (·.doc))) o.allFacts link l q → TotalsHold (taxonomyStore (docs.map (·.doc))) float o.allFacts link l q) := by
  obtain ⟨⟨chainOf, hfs⟩, hlk, hr, hcon⟩ := opened_inline hv hfuel ho
  have hall : ∀ f ∈ o.allFacts, ∃ k, f.HasConcept k := by
    intro g hg
    obtain ⟨f, n, hf, rfl⟩ := mem_allFacts hg
    obtain ⟨_, _, _, _, h⟩ := inline_concept hfs (List.mem_of_getElem? hf)
    obtain ⟨k, hk⟩ := h hna
    exact ⟨k, copied_concept.2 hk⟩
  obtain ⟨depth, ts, hts, hb⟩ := totals_of_links hlk hr hcon hone hag hall hn hl
  refine ⟨depth, fun j => ⟨Brel.isAggregationConsistent (ratOps float) o.allFacts ts, ?_, hb⟩⟩
  unfold OpenedInline.isAggregationConsistent OpenedInline.calcForest
  rw [hts j]; rfl

/-- C128: in a filing all of whose facts are core facts the facts are those that the documents state; copying their contexts makes no difference. -/
theorem C128_core_facts (hv : ValidInlineFiling dateOf dig flt validUri float docs) (hfuel : (inlineConts (inlineDocs docs)).length < fuel)
    (ho : openXhtml dateOf dig flt validUri float str so fuel steps docs = some (.ok o)) (hcore : ∀ f ∈ o.facts.facts.getAll, f.isCore = true) : o.allFacts = o.facts.facts.getAll := by
  obtain ⟨⟨chainOf, hfs⟩, _⟩ := opened_inline hv hfuel ho
  refine zipIdx_copied (fun f hf n => ?_) 0
  obtain ⟨i, cs, h1, h2, _⟩ := inline_concept hfs hf
  exact copied_core h1 h2 (hcore f hf) n

/-! ## C128: dimensions -/

theorem addsUp_match {elems : ElemStore} {facts : List Fact} {f : Fact} {ps : List (XNode × XNode)} {v : Rat} (h : AddsUp elems float facts f ps v) {p : XNode × XNode} (hp : p ∈ ps) {q : QName}
    (hq : LocatorFor elems p.2 q) : ∃ g, UniqueMatch facts f { name := q } g ∧ ∃ x, float g.value = some x := by
  induction h with
  | nil => cases hp
  | skip h1 _ ih =>
    rcases List.mem_cons.1 hp with rfl | hp
    · exact absurd hq (h1 q)
    · exact ih hp
  | @add x y q' g v w rest s h1 h2 h3 _ _ ih =>
    rcases List.mem_cons.1 hp with rfl | hp
    · have : q' = q := by
        have a := locatorFor_iff.1 h1
        rw [locatorFor_iff.1 hq] at a
        exact (Option.some.inj a).symm
      subst this
      exact ⟨g, h2, v, h3⟩
    · exact ih hp

theorem copied_identity {c d : Characteristic} (hc : StatedChar c) (hk : c.aspect.core = false) {n m : Nat} (h : (d.deepcopy m).pyEq (c.deepcopy n) = true) : m = n := by
  obtain ⟨b, w⟩ := d
  cases hc with
  | explicit name dm mm i =>
    cases w <;> simp [Characteristic.deepcopy, Characteristic.pyEq] at h
    exact h.1.1
  | typed name dm i v =>
    cases w <;> simp [Characteristic.deepcopy, Characteristic.pyEq] at h
    exact h.1.1.1
  | _ => cases hk

/-- A fact with a dimension agrees with no fact but itself. -/
theorem no_match {f g : Fact} (hf : f ∈ o.allFacts) (hg : g ∈ o.allFacts) (hst : ∀ f ∈ o.facts.facts.getAll, ∃ i cs, f.context = List.foldl Context.add (Context.new i) cs ∧ ∀ c ∈ cs, StatedChar c)
    (hnc : f.isCore = false) {k : Concept} (hk : f.HasConcept k) {c : Concept} (h : Matches f c g) : g = f := by
  obtain ⟨f0, n, hf0, rfl⟩ := mem_allFacts hf
  obtain ⟨g0, m, hg0, rfl⟩ := mem_allFacts hg
  obtain ⟨i, cs, hctx, hcs⟩ := hst f0 (List.mem_of_getElem? hf0)
  have : ∃ a ∈ f0.context.getAspects, a.core = false := by
    unfold Fact.isCore Context.hasNoncoreDimensions at hnc
    have hnc' : f0.context.aspects.any (fun a => !a.core) = true := by simpa [Fact.copied, Context.deepcopy] using hnc
    obtain ⟨a, ha, hb⟩ := List.any_eq_true.1 hnc'
    exact ⟨a, ha, by simpa using hb⟩
  obtain ⟨a, ha, hac⟩ := this
  have ha' := ha
  rw [hctx, C02_aspects_exact] at ha'
  obtain ⟨d, hd, hda⟩ := ha'
  have hds := hcs d (List.mem_of_find?_eq_some hd)
  have hlook : f0.context.getCharacteristic a = some d := by rw [hctx, C01_first_characteristic_wins]; exact hd
  have hdc : d.aspect.core = false := by rw [hda]; exact hac
  have hname : a.name ≠ "concept" := by
    intro he
    obtain ⟨h1, _⟩ := copied_concept.1 hk
    unfold Fact.getConcept at h1
    have : f0.context.getCharacteristic .concept = f0.context.getCharacteristic a := by
      unfold Context.getCharacteristic
      rw [he]
      rfl
    rw [this, hlook] at h1
    cases hds <;> first | (cases h1; done) | (cases hdc; done)
  have hm := h.2 a ha hname
  rw [copied_lookup, copied_lookup, hlook] at hm
  cases hgl : g0.context.getCharacteristic a with
  | none => rw [hgl] at hm; cases hm
  | some b =>
    rw [hgl] at hm
    have := copied_identity hds hdc hm
    subst this
    rw [hf0] at hg0
    cases hg0
    rfl

/-- C128 fails for dimensions: whatever the numbers are, the check does not succeed if a total that is met has a fact with a dimension and a summand of another concept. -/
theorem C128_dimension_false (hv : ValidInlineFiling dateOf dig flt validUri float docs) (hfuel : (inlineConts (inlineDocs docs)).length < fuel)
    (ho : openXhtml dateOf dig flt validUri float str so fuel steps docs = some (.ok o)) (hna : NamedApart (resourceElems (inlineDocs docs) "xbrli:context")) {role : String} {link : XNode}
    (hone : linksOfRole ((docs.map (·.doc)).map (·.root)) "calculationLink" role = [link]) (hag : AgreeOn link "weight")
    {net : Network} (hn : net ∈ o.networks.networks.store.getByType .calculation) (hl : net.logicalOf role .calculation = true)
    {l : String} {q q' : QName} (hm : Met (taxonomyStore (docs.map (·.doc))) o.allFacts link l q) {p : XNode × XNode} (hp : p ∈ summands link l)
    (hq' : LocatorFor (taxonomyStore (docs.map (·.doc))) p.2 q') (hne : q' ≠ q) {f : Fact} (hf : f ∈ o.allFacts) {k : Concept} (hk : f.HasConcept k) (hkq : k.name = q) (hnc : f.isCore = false) :
    ∃ depth, ∀ j, ∃ r, o.isAggregationConsistent float (depth + j) o.allFacts net = some r ∧ r ≠ .ok true := by
  obtain ⟨depth, h⟩ := C128_aggregation_partial hv hfuel ho hna hone hag hn hl
  refine ⟨depth, fun j => ?_⟩
  obtain ⟨r, h1, h2⟩ := h j
  refine ⟨r, h1, fun hr => ?_⟩
  obtain ⟨v, _, hsum⟩ := h2.1 hr l q hm ⟨p, hp, q', hq'⟩ f hf ⟨k, hk, hkq⟩
  obtain ⟨g, ⟨pre, post, hg, hmatch, _⟩, _⟩ := addsUp_match hsum hp hq'
  obtain ⟨⟨chainOf, hfs⟩, _⟩ := opened_inline hv hfuel ho
  have := no_match hf (by rw [hg]; simp) (fun f hf => by obtain ⟨i, cs, a, b, _⟩ := inline_concept hfs hf; exact ⟨i, cs, a, b⟩) hnc hk hmatch
  subst this
  obtain ⟨k', hk', hn'⟩ := hmatch.1
  rw [hk.1] at hk'
  cases hk'
  exact hne (hn'.symm.trans hkq)

/-! ## C128: amounts -/

theorem amount_value (T : DigitTable dig) (h0 : IntText dig "0".toList 0) (R : ReadsNumerals float) {e : NonFractionElem} {v : ℚ} (h : StatesAmount dig e v) :
    ∃ r, parseNonFraction dig flt e [] = .ok r ∧ float r.1.value = if v = 0 then none else some v := by
  obtain ⟨fmt, mark, grouping, text, t, n, hfmt, hf, ht, htr, hd, hn, hs⟩ := h.number
  obtain ⟨f, errs, ids, h1, h2, _⟩ := C31_text_value (dig := dig) (flt := flt) e [] h.shown text ht h.outer
  refine ⟨_, h1, ?_⟩
  show float f.value = _
  rw [h2]
  have hpow : (10 : ℚ) ^ n ≠ 0 := zpow_ne_zero _ (by norm_num)
  by_cases hw : written mark t = 0
  · have hv0 : v = 0 := by rcases hs with ⟨_, h⟩ | ⟨_, h⟩ <;> rw [h, hw] <;> simp
    rw [if_pos hv0]
    have hfmt' : truthy e.value.format = some fmt := by
      rw [hf, truthy_some, if_neg]
      rintro rfl
      revert hfmt
      simp [decimalFormats]
    have hsc : IntText dig ((truthy e.value.scale).getD "0").toList n := by
      rcases hn with ⟨h1, rfl⟩ | ⟨sc, h1, h2⟩
      · rw [h1]; exact h0
      · rw [h1, truthy_some]
        by_cases hsc : sc = ""
        · rw [hsc] at h2
          have := (pyInt_iff T _ _).2 h2
          have hno : pyInt dig "".toList = none := rfl
          rw [hno] at this
          cases this
        · rw [if_neg hsc]; exact h2
    have key := (C29_decimal T hfmt htr hd hsc).2.2 hw
    have hval : (processNonFraction dig flt e.value).1 = "" ∨ (processNonFraction dig flt e.value).1 = "-" := by
      unfold processNonFraction
      simp only [hfmt', ht, Option.getD_some]
      rw [key]
      rcases hs with ⟨hs, _⟩ | ⟨hs, _⟩
      · rw [hs]; exact .inl rfl
      · rw [hs]; exact .inr rfl
    rcases hval with hval | hval <;> rw [hval]
    · exact R.others.1
    · exact R.others.2
  · have hv0 : v ≠ 0 := by
      rcases hs with ⟨_, h⟩ | ⟨_, h⟩ <;> rw [h]
      · exact mul_ne_zero hw hpow
      · exact neg_ne_zero.2 (mul_ne_zero hw hpow)
    rw [if_neg hv0]
    have := (C31_signed_scaled_partial (flt := flt) T h0 hfmt e.value hf ht htr hd hw hn (hs.imp (·.1) (·.1))).1
    refine R.numerals _ _ ?_
    rcases hs with ⟨hs, h⟩ | ⟨hs, h⟩
    · rw [hs, if_neg (by simp)] at this
      rw [h]; exact this
    · rw [if_pos hs] at this
      rw [h]; exact this

/-- C128: the number that the checks use for a numeric fact of the filing is the one its element states, sign and scale included. A fact that states zero has no number. -/
theorem C128_amounts_partial (hv : ValidInlineFiling dateOf dig flt validUri float docs) (hfuel : (inlineConts (inlineDocs docs)).length < fuel)
    (ho : openXhtml dateOf dig flt validUri float str so fuel steps docs = some (.ok o)) (T : DigitTable dig) (h0 : IntText dig "0".toList 0) (R : ReadsNumerals float)
    {n : Nat} {e : InlineElem} {f : Fact} (he : (inlineFacts (inlineDocs docs))[n]? = some e) (hf : o.allFacts[n]? = some f) (hk : Spec.kindOf e = some .number)
    {v : ℚ} (hs : StatesAmount dig e.num v) : float f.value = if v = 0 then none else some v := by
  obtain ⟨⟨chainOf, hfs⟩, _⟩ := opened_inline hv hfuel ho
  unfold OpenedInline.allFacts at hf
  rw [List.getElem?_map, List.getElem?_zipIdx] at hf
  cases hg : o.facts.facts.getAll[n]? with
  | none => rw [hg] at hf; cases hf
  | some g =>
    rw [hg] at hf
    cases hf
    have := congrArg (·[n]?) hfs
    simp only [List.getElem?_map, he, hg, Option.map_some, Option.some.injEq] at this
    unfold inlineFactOf at this
    simp only [bind, Option.bind_eq_some_iff] at this
    obtain ⟨k, hk', c, _, ref, _, cx, hcx, w, hw, h⟩ := this
    rw [hk] at hk'
    cases hk'
    cases h
    obtain ⟨r, hr, hval⟩ := amount_value (flt := flt) T h0 R hs
    unfold inlineValue at hw
    simp only [hr] at hw
    cases hw
    exact hval

/-- C128 fails for zero: the check does not succeed if a total that is met, and has summands, has a fact that states zero. -/
theorem C128_zero_false (hv : ValidInlineFiling dateOf dig flt validUri float docs) (hfuel : (inlineConts (inlineDocs docs)).length < fuel)
    (ho : openXhtml dateOf dig flt validUri float str so fuel steps docs = some (.ok o)) (hna : NamedApart (resourceElems (inlineDocs docs) "xbrli:context")) {role : String} {link : XNode}
    (hone : linksOfRole ((docs.map (·.doc)).map (·.root)) "calculationLink" role = [link]) (hag : AgreeOn link "weight")
    {net : Network} (hn : net ∈ o.networks.networks.store.getByType .calculation) (hl : net.logicalOf role .calculation = true)
    (T : DigitTable dig) (h0 : IntText dig "0".toList 0) (R : ReadsNumerals float)
    {l : String} {q q' : QName} (hm : Met (taxonomyStore (docs.map (·.doc))) o.allFacts link l q) {p : XNode × XNode} (hp : p ∈ summands link l)
    (hq' : LocatorFor (taxonomyStore (docs.map (·.doc))) p.2 q') {i : Nat} {e : InlineElem} {f : Fact} (he : (inlineFacts (inlineDocs docs))[i]? = some e) (hf : o.allFacts[i]? = some f)
    (hkind : Spec.kindOf e = some .number) (hs : StatesAmount dig e.num 0) {k : Concept} (hk : f.HasConcept k) (hkq : k.name = q) :
    ∃ depth, ∀ j, ∃ r, o.isAggregationConsistent float (depth + j) o.allFacts net = some r ∧ r ≠ .ok true := by
  obtain ⟨depth, h⟩ := C128_aggregation_partial hv hfuel ho hna hone hag hn hl
  refine ⟨depth, fun j => ?_⟩
  obtain ⟨r, h1, h2⟩ := h j
  refine ⟨r, h1, fun hr => ?_⟩
  obtain ⟨v, hval, _⟩ := h2.1 hr l q hm ⟨p, hp, q', hq'⟩ f (List.mem_of_getElem? hf) ⟨k, hk, hkq⟩
  rw [C128_amounts_partial hv hfuel ho T h0 R he hf hkind hs, if_pos rfl] at hval
  cases hval

end Brel
