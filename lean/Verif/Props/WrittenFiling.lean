import Verif.Spec.WrittenFiling
import Verif.Props.Rearranged
import Verif.Props.Arcs
import Verif.Props.LinkValidExample
import Verif.Props.OpenExample
import Mathlib.Tactic.ByContra

/-! C127: a filing that is written and opened shows what was to be said. -/

namespace Brel
open Spec

namespace Written
variable (s : StatedFiling)

/-! ### The schema -/

def annotation : XNode := .mk (some (xsTag "annotation")) [] none s.scope [.mk (some (xsTag "appinfo")) [] none s.scope (s.roles.map (writeRole s.scope))]
def appinfo : XNode := .mk (some (xsTag "appinfo")) [] none s.scope (s.roles.map (writeRole s.scope))
def roleParts (ns : NsMap) (r : StatedRole) : List XNode :=
  [.mk (some (linkTag "definition")) [] (textNode r.definition) ns [], .mk (some (linkTag "usedOn")) [] (some "link:presentationLink") ns [],
     .mk (some (linkTag "usedOn")) [] (some "link:calculationLink") ns [], .mk (some (linkTag "usedOn")) [] (some "link:definitionLink") ns []]

theorem flat_map {α : Type} (f : α → XNode) (h : ∀ a, (f a).children = []) (l : List α) : XNode.descendantsOfAll (l.map f) = l.map f := by
  rw [descendantsOfAll_map f (fun a => [f a]) (by
    intro a
    have := h a
    cases hf : f a with
    | mk t at' x ns cs =>
      rw [hf] at this
      have : cs = [] := this
      subst this
      simp [XNode.descendantsOfAll, XNode.descendants])]
  rw [← List.flatMap_map f (fun x => [x]), List.flatMap_singleton']

theorem schema_descendants : s.schema.descendants =
    annotation s :: appinfo s :: (s.roles.flatMap (fun r => writeRole s.scope r :: roleParts s.scope r) ++ s.elements.map (writeElement s.scope)) := by
  have h1 : XNode.descendantsOfAll (s.roles.map (writeRole s.scope)) = s.roles.flatMap (fun r => writeRole s.scope r :: roleParts s.scope r) :=
    descendantsOfAll_map _ _ (by intro r; simp [writeRole, roleParts, XNode.descendantsOfAll, XNode.descendants]) _
  have h2 : XNode.descendantsOfAll (s.elements.map (writeElement s.scope)) = s.elements.map (writeElement s.scope) := flat_map _ (fun _ => rfl) _
  unfold StatedFiling.schema
  rw [XNode.descendants, XNode.descendantsOfAll, h2, XNode.descendants, XNode.descendantsOfAll, XNode.descendants, h1, XNode.descendantsOfAll]
  simp [annotation, appinfo]

theorem role_tag (r : StatedRole) {x : XNode} (hx : x ∈ writeRole s.scope r :: roleParts s.scope r) : x.tag = some (linkTag "roleType") ∧ x = writeRole s.scope r ∨ x.tag = some (linkTag "definition") ∨ x.tag = some (linkTag "usedOn") := by
  simp only [roleParts, List.mem_cons, List.not_mem_nil, or_false] at hx
  rcases hx with rfl | rfl | rfl | rfl | rfl
  · exact Or.inl ⟨rfl, rfl⟩
  · exact Or.inr (Or.inl rfl)
  all_goals exact Or.inr (Or.inr rfl)

theorem role_attrs (r : StatedRole) {x : XNode} (hx : x ∈ writeRole s.scope r :: roleParts s.scope r) : x.attrs = [("roleURI", r.uri)] ∨ x.attrs = [] := by
  simp only [roleParts, List.mem_cons, List.not_mem_nil, or_false] at hx
  rcases hx with rfl | rfl | rfl | rfl | rfl
  · exact Or.inl rfl
  all_goals exact Or.inr rfl

/-- The declarations are the report elements. -/
theorem declarations : schemaDeclarations s.write = s.elements.map (fun e => ⟨⟨"schema.xsd", s.schema⟩, s.uri, writeElement s.scope e⟩) := by
  have h1 : s.schema.attr? "targetNamespace" = some s.uri := rfl
  have h2 : s.report.write.attr? "targetNamespace" = none := rfl
  have h3 : s.linkbase.attr? "targetNamespace" = none := rfl
  unfold schemaDeclarations StatedFiling.write
  rw [List.flatMap_cons, List.flatMap_cons, List.flatMap_cons, List.flatMap_nil]
  dsimp only
  rw [h1, h2, h3]
  dsimp only
  rw [List.append_nil, List.append_nil, List.append_nil, schema_descendants]
  have e1 : (annotation s).tag ≠ some "{http://www.w3.org/2001/XMLSchema}element" := by
    show some (xsTag "annotation") ≠ _
    decide
  have e2 : (appinfo s).tag ≠ some "{http://www.w3.org/2001/XMLSchema}element" := by
    show some (xsTag "appinfo") ≠ _
    decide
  rw [List.filter_cons_of_neg (by simp [e1]), List.filter_cons_of_neg (by simp [e2]), List.filter_append, List.filter_eq_nil_iff.2, List.nil_append, List.filter_eq_self.2, List.map_map]
  · rfl
  · intro x hx
    obtain ⟨e, _, rfl⟩ := List.mem_map.1 hx
    refine decide_eq_true ⟨by show some (xsTag "element") = _; decide, ?_⟩
    show some e.localName ≠ none
    simp
  · intro x hx
    obtain ⟨r, _, hx⟩ := List.mem_flatMap.1 hx
    have : x.tag ≠ some "{http://www.w3.org/2001/XMLSchema}element" := by
      rcases role_tag s r hx with ⟨h, _⟩ | h | h <;> rw [h] <;> decide
    simp [this]

variable {s} {dateOf : String → Option Date} {float : String → Option Rat}

theorem scope_inverse (s : StatedFiling) : (invertNs s.scope).get? s.uri = some (some s.pfx) := by
  unfold invertNs StatedFiling.scope
  simp only [List.foldl_cons, List.foldl_nil]
  rw [Dict.get?_set, if_pos rfl]

theorem name_is (hv : s.Valid dateOf float) (e : StatedElement) (d : SchemaDoc) : Declaration.name ⟨d, s.uri, writeElement s.scope e⟩ = s.name e := by
  unfold Declaration.name StatedFiling.name
  have : (writeElement s.scope e).ns = s.scope := rfl
  have h2 : (writeElement s.scope e).attr? "name" = some e.localName := rfl
  dsimp only
  rw [if_neg hv.target.2.2.1, this, scope_inverse, h2]
  rfl

theorem scope_xbrldt (hv : s.Valid dateOf float) : s.scope.get? (some "xbrldt") = some dimensionsNs := by
  unfold StatedFiling.scope
  simp [Dict.get?_cons]

/-- The factory makes the report element that is stated. -/
theorem created (hv : s.Valid dateOf float) {e : StatedElement} (he : e ∈ s.elements) : createElement (writeElement s.scope e) (s.name e) = (some (s.element e), []) := by
  have h := hv.elements e he
  obtain ⟨k, ln, id, pt, bal, nil, ty⟩ := e
  have hn : isInfix "LineItems".toList ln.toList = true ↔ "LineItems".toList <:+: ln.toList := isInfix_iff _ _
  have ht : isInfix "domainItemType".toList ty.toList = true ↔ "domainItemType".toList <:+: ty.toList := isInfix_iff _ _
  have a1 : isInfix "item".toList "xbrli:item".toList = true := by decide +kernel
  have a2 : isInfix "hypercubeItem".toList "xbrli:item".toList = false := by decide +kernel
  have a3 : isInfix "dimensionItem".toList "xbrli:item".toList = false := by decide +kernel
  have a4 : isInfix "hypercubeItem".toList "xbrldt:hypercubeItem".toList = true := by decide +kernel
  have a5 : isInfix "hypercubeItem".toList "xbrldt:dimensionItem".toList = false := by decide +kernel
  have a6 : isInfix "dimensionItem".toList "xbrldt:dimensionItem".toList = true := by decide +kernel
  have a7 : isInfix "domainItemType".toList "nonnum:domainItemType".toList = true := by decide +kernel
  have a8 : isInfix "domainItemType".toList "xbrli:stringItemType".toList = false := by decide +kernel
  unfold createElement
  have b1 : ∀ k, (writeElement s.scope ⟨k, ln, id, pt, bal, nil, ty⟩).attr? "abstract" = some (if k = .concept then "false" else "true") := fun _ => rfl
  have b2 : ∀ k, (writeElement s.scope ⟨k, ln, id, pt, bal, nil, ty⟩).attr? "substitutionGroup" = some (match k with | .hypercube => "xbrldt:hypercubeItem" | .dimension => "xbrldt:dimensionItem" | _ => "xbrli:item") := fun _ => rfl
  have b3 : ∀ k, (writeElement s.scope ⟨k, ln, id, pt, bal, nil, ty⟩).attr? "type" = some (match k with | .concept => ty | .member => "nonnum:domainItemType" | _ => "xbrli:stringItemType") := fun _ => rfl
  have b4 : ∀ k, (writeElement s.scope ⟨k, ln, id, pt, bal, nil, ty⟩).attr? "name" = some ln := fun _ => rfl
  have b5 : ∀ k, (writeElement s.scope ⟨k, ln, id, pt, bal, nil, ty⟩).attr? "id" = some id := fun _ => rfl
  have b6 : ∀ k, (writeElement s.scope ⟨k, ln, id, pt, bal, nil, ty⟩).attr? "nillable" = some (if nil then "true" else "false") := fun _ => rfl
  have b7 : ∀ k, (writeElement s.scope ⟨k, ln, id, pt, bal, nil, ty⟩).attr? (xbrliAttr "periodType") = some pt := fun _ => rfl
  have b8 : ∀ k, (writeElement s.scope ⟨k, ln, id, pt, bal, nil, ty⟩).attr? (xbrliAttr "balance") = bal := by
    intro k
    cases bal <;> rfl
  rw [b1, b2, b3, b4, b5]
  dsimp only [Option.getD_some]
  cases k with
  | member => rw [a7]; simp [StatedFiling.element, StatedFiling.concept]
  | hypercube => rw [a8, a4]; simp [StatedFiling.element, StatedFiling.concept]
  | dimension => rw [a8, a5, a6]; simp [StatedFiling.element, StatedFiling.concept]
  | lineItems => rw [a8, a2, a3, hn.2 (h.lineItems rfl)]; simp [StatedFiling.element, StatedFiling.concept]
  | abstract =>
    have : isInfix "LineItems".toList ln.toList = false := Bool.eq_false_iff.2 (fun hh => h.abstract rfl (hn.1 hh))
    rw [a8, a2, a3, this]; simp [StatedFiling.element, StatedFiling.concept]
  | concept =>
    have : isInfix "domainItemType".toList ty.toList = false := Bool.eq_false_iff.2 (fun hh => h.type rfl (ht.1 hh))
    have hc : conceptFromXml (writeElement s.scope ⟨.concept, ln, id, pt, bal, nil, ty⟩) (some id) (s.name ⟨.concept, ln, id, pt, bal, nil, ty⟩) =
        .ok { name := s.name ⟨.concept, ln, id, pt, bal, nil, ty⟩, id := some id, periodType := pt, balance := bal, nillable := nil, dataType := ty } := by
      unfold conceptFromXml
      rw [b7, b8, b6, b3]
      dsimp only
      have c1 : ¬ (some pt ∉ [some "instant", some "duration"]) := by
        have h1 : pt = "instant" ∨ pt = "duration" := h.period
        rcases h1 with h1 | h1 <;> simp [h1]
      have c2 : ¬ (bal ∉ [some "credit", some "debit", none]) := by
        have h1 : bal = none ∨ bal = some "debit" ∨ bal = some "credit" := h.balance
        rcases h1 with h1 | h1 | h1 <;> simp [h1]
      rw [if_neg c1, if_neg c2]
      cases nil <;> simp
    rw [this, a1, hc]; simp [StatedFiling.element, StatedFiling.concept]

theorem declared (hv : s.Valid dateOf float) : counting (schemaDeclarations s.write) = schemaDeclarations s.write := by
  unfold counting
  rw [List.filter_eq_self.2, firstByKey_self]
  · rw [declarations, List.map_map]
    have : (Declaration.name ∘ fun e => (⟨⟨"schema.xsd", s.schema⟩, s.uri, writeElement s.scope e⟩ : Declaration)) = s.name := funext (fun e => name_is hv e _)
    rw [this]
    refine List.pairwise_map.2 ((List.pairwise_map.1 hv.names).imp ?_)
    intro a b hne he
    exact hne (congrArg QName.localName he)
  · intro d hd
    rw [declarations] at hd
    obtain ⟨e, he, rfl⟩ := List.mem_map.1 hd
    unfold Declaration.yields
    rw [name_is hv]
    dsimp only
    rw [created hv he]
    rfl

theorem filterMap_map {α β γ : Type} (f : α → β) (g : β → Option γ) (h : α → γ) (l : List α) (hl : ∀ a ∈ l, g (f a) = some (h a)) : (l.map f).filterMap g = l.map h := by
  induction l with
  | nil => rfl
  | cons a l ih =>
    rw [List.map_cons, List.filterMap_cons, hl a List.mem_cons_self, List.map_cons, ih (fun b hb => hl b (List.mem_cons_of_mem _ hb))]

theorem taxonomy_is (hv : s.Valid dateOf float) : taxonomy s.write = s.elements.map (fun e => (s.element e).element) := by
  unfold taxonomy
  rw [declared hv, declarations]
  refine filterMap_map _ _ _ _ ?_
  intro e he
  dsimp only
  rw [name_is hv, created hv he]
  rfl

theorem store_is (hv : s.Valid dateOf float) : taxonomyStore s.write = s.store := by
  unfold taxonomyStore StatedFiling.store
  rw [taxonomy_is hv]

theorem data_is (hv : s.Valid dateOf float) : taxonomyConcept s.write = s.data := by
  funext r
  unfold taxonomyConcept StatedFiling.data
  rw [declared hv, declarations, List.find?_map]
  have h1 : ((fun d : Declaration => decide (d.name = r.name)) ∘ fun e => (⟨⟨"schema.xsd", s.schema⟩, s.uri, writeElement s.scope e⟩ : Declaration)) = fun e => decide (s.name e = r.name) := by
    funext e
    show decide (Declaration.name _ = _) = _
    rw [name_is hv]
  rw [h1]
  cases hf : s.elements.find? (fun e => decide (s.name e = r.name)) with
  | none => rfl
  | some e =>
    have he := List.mem_of_find?_eq_some hf
    show (Option.bind (some _) _).getD _ = _
    dsimp only [Option.bind_some]
    rw [name_is hv, created hv he]
    rfl

theorem element_attr (e : StatedElement) (n : String) (hn : n ∉ ["name", "id", "abstract", "substitutionGroup", "type", "nillable", "{http://www.xbrl.org/2003/instance}periodType",
    "{http://www.xbrl.org/2003/instance}balance"]) : (writeElement s.scope e).attr? n = none := by
  simp only [List.mem_cons, List.not_mem_nil, or_false, not_or] at hn
  obtain ⟨h1, h2, h3, h4, h5, h6, h7, h8⟩ := hn
  cases hb : e.balance <;>
    simp [writeElement, hb, XNode.attr?, XNode.attrs, Dict.get?_cons, Ne.symm h1, Ne.symm h2, Ne.symm h3, Ne.symm h4, Ne.symm h5, Ne.symm h6, Ne.symm h7, Ne.symm h8]

theorem schemas_valid (hv : s.Valid dateOf float) : ValidSchemas s.write := by
  have hd : ∀ d ∈ schemaDeclarations s.write, ∃ e ∈ s.elements, d = ⟨⟨"schema.xsd", s.schema⟩, s.uri, writeElement s.scope e⟩ := by
    intro d h
    rw [declarations] at h
    obtain ⟨e, he, rfl⟩ := List.mem_map.1 h
    exact ⟨e, he, rfl⟩
  refine ⟨?_, ?_, ?_⟩
  · intro d h
    obtain ⟨e, he, rfl⟩ := hd d h
    have hn : (writeElement s.scope e).attr? "name" = some e.localName := rfl
    refine ⟨hv.target.1, hv.target.2.1, ?_, ?_⟩
    · rw [hn]
      exact fun hh => (hv.elements e he).name.1 (Option.some.inj hh)
    · rw [hn]
      exact (hv.elements e he).name.2
  · intro d h hab hg
    obtain ⟨e, he, rfl⟩ := hd d h
    have hc := created hv he
    have hk := C43_kinds (writeElement s.scope e) (s.name e)
    have hke : e.kind = .concept := by
      by_contra hne
      apply hab
      show some (if e.kind = .concept then "false" else "true") = _
      rw [if_neg hne]
    have := (hk.2.1.1 (by rw [hc]; exact congrArg some hke)).2.2.2
    rw [name_is hv]
    exact this
  · intro d h _
    obtain ⟨e, he, rfl⟩ := hd d h
    refine ⟨scope_xbrldt hv, ?_⟩
    intro ref hr
    have : (writeElement s.scope e).domainRef = none := element_attr e _ (by decide)
    rw [this] at hr
    cases hr

/-! ### Documents without links -/

/-- A node that is neither a part of a link nor a role declaration. -/
def Quiet (y : XNode) : Prop := y.xlinkAttr "type" = none ∧ y.tag ≠ some (linkTag "roleType")

theorem all_of {P : XNode → Prop} : ∀ l : List XNode, (∀ x ∈ l, ∀ y ∈ XNode.descendantsOfAll [x], P y) → ∀ y ∈ XNode.descendantsOfAll l, P y
  | [], _, y, hy => by simp [XNode.descendantsOfAll] at hy
  | x :: xs, h, y, hy => by
    rw [show x :: xs = [x] ++ xs from rfl, descendantsOfAll_append, List.mem_append] at hy
    rcases hy with hy | hy
    · exact h x List.mem_cons_self y hy
    · exact all_of xs (fun z hz => h z (List.mem_cons_of_mem _ hz)) y hy

theorem quiet_mk {t : String} {a : Dict String String} {x : Option String} {ns : NsMap} {cs : List XNode} (h1 : a.get? (xlinkName "type") = none) (h2 : t ≠ linkTag "roleType") :
    Quiet (.mk (some t) a x ns cs) := ⟨h1, fun h => h2 (Option.some.inj h)⟩

theorem dim_quiet (ns : NsMap) (d : StatedDim) (hd : ∀ a t v, d = .typed a t v → t ≠ linkTag "roleType") : ∀ y ∈ XNode.descendantsOfAll [writeDim ns d], Quiet y := by
  intro y hy
  cases d with
  | explicit a m =>
    simp only [writeDim, XNode.descendantsOfAll, XNode.descendants, List.mem_cons, List.append_nil, List.not_mem_nil, or_false] at hy
    subst hy
    exact quiet_mk rfl (by decide)
  | typed a t v =>
    simp only [writeDim, XNode.descendantsOfAll, XNode.descendants, List.mem_cons, List.append_nil, List.not_mem_nil, or_false] at hy
    rcases hy with rfl | rfl
    · exact quiet_mk rfl (by decide)
    · exact quiet_mk rfl (hd a t v rfl)

theorem context_quiet (ns : NsMap) (c : StatedContext) (hd : ∀ a t v, StatedDim.typed a t v ∈ c.dims → t ≠ linkTag "roleType") : ∀ y ∈ XNode.descendantsOfAll [writeContext ns c], Quiet y := by
  intro y hy
  have hseg : ∀ z ∈ XNode.descendantsOfAll (c.dims.map (writeDim ns)), Quiet z := all_of _ (by
    intro x hx
    obtain ⟨d, hm, rfl⟩ := List.mem_map.1 hx
    exact dim_quiet ns d (fun a t v h => hd a t v (h ▸ hm)))
  simp only [writeContext, XNode.descendantsOfAll, XNode.descendants, List.mem_cons, List.mem_append, List.append_nil, List.not_mem_nil] at hy
  rcases hy with rfl | rfl | (rfl | hy) | hy
  · exact quiet_mk rfl (by decide)
  · exact quiet_mk rfl (by decide)
  · exact quiet_mk rfl (by decide)
  · have : y = .mk (some (xbrli "segment")) [] none ns (c.dims.map (writeDim ns)) ∨ y ∈ XNode.descendantsOfAll (c.dims.map (writeDim ns)) := by
      split at hy
      · simp [XNode.descendantsOfAll] at hy
      · simpa [XNode.descendantsOfAll, XNode.descendants] using hy
    rcases this with rfl | h
    · exact quiet_mk rfl (by decide)
    · exact hseg y h
  · cases hp : c.period <;> simp only [hp, writePeriod, XNode.descendantsOfAll, XNode.descendants, List.mem_cons, List.append_nil, List.nil_append, List.not_mem_nil, or_false] at hy
    · rcases hy with rfl | rfl <;> exact quiet_mk rfl (by decide)
    · rcases hy with rfl | rfl | rfl <;> exact quiet_mk rfl (by decide)

theorem unit_quiet (ns : NsMap) (u : StatedUnit) : ∀ y ∈ XNode.descendantsOfAll [writeUnit ns u], Quiet y := by
  intro y hy
  cases hp : u.per <;> simp only [writeUnit, writeMeasure, hp, XNode.descendantsOfAll, XNode.descendants, List.mem_cons, List.mem_append, List.append_nil, List.not_mem_nil, or_false] at hy
  · rcases hy with rfl | rfl <;> exact quiet_mk rfl (by decide)
  · rcases hy with rfl | rfl | (rfl | rfl) | rfl | rfl | rfl <;> exact quiet_mk rfl (by decide)

/-- The element that the store finds by its name or by its id. -/
theorem store_name (hv : s.Valid dateOf float) {q : QName} {r : ReportElement} (h : s.store.byName.get? q = some r) : ∃ e ∈ s.elements, s.name e = q ∧ r = (s.element e).element := by
  unfold StatedFiling.store at h
  rw [ElemStore.run_get?_name] at h
  obtain ⟨h1, h2⟩ := latest_some _ _ _ _ h
  obtain ⟨e, he, rfl⟩ := List.mem_map.1 h1
  exact ⟨e, he, h2, rfl⟩

theorem store_id (hv : s.Valid dateOf float) {i : String} {r : ReportElement} : s.store.byId.get? i = some r ↔ ∃ e ∈ s.elements, e.id = i ∧ r = (s.element e).element := by
  have key : ∀ r, s.store.byId.get? i = some r → ∃ e ∈ s.elements, e.id = i ∧ r = (s.element e).element := by
    intro r h
    unfold StatedFiling.store at h
    rw [ElemStore.run_get?_id] at h
    obtain ⟨h1, h2⟩ := latest_some _ _ _ _ h
    obtain ⟨e, he, rfl⟩ := List.mem_map.1 h1
    exact ⟨e, he, Option.some.inj h2, rfl⟩
  refine ⟨key r, ?_⟩
  rintro ⟨e, he, hi, rfl⟩
  cases hg : s.store.byId.get? i with
  | none =>
    unfold StatedFiling.store at hg
    rw [ElemStore.run_get?_id] at hg
    exact absurd (congrArg some hi) ((latest_none _ _ _).1 hg _ (List.mem_map.2 ⟨e, he, rfl⟩))
  | some r =>
    obtain ⟨e', he', hi', rfl⟩ := key r hg
    rw [eq_of_map_nodup hv.ids he' he (hi'.trans hi.symm)]

theorem clark_ne {q : QName} (h1 : '}' ∉ q.uri.toList) (h2 : q.uri ≠ "http://www.xbrl.org/2003/linkbase") (n : String) : q.clark ≠ linkTag n := by
  intro h
  have h := congrArg String.toList h
  unfold QName.clark linkTag at h
  have e : "{http://www.xbrl.org/2003/linkbase}".toList = '{' :: ("http://www.xbrl.org/2003/linkbase".toList ++ ['}']) := by decide +kernel
  rw [String.toList_append, String.toList_append, String.toList_append, String.toList_append, e] at h
  have e2 : "{".toList = ['{'] := by decide
  have e3 : "}".toList = ['}'] := by decide
  rw [e2, e3] at h
  simp only [List.cons_append, List.nil_append, List.append_assoc, List.cons.injEq, true_and] at h
  have t1 : ∀ a b : List Char, '}' ∉ a → (a ++ '}' :: b).takeWhile (· ≠ '}') = a := by
    intro a b ha
    rw [List.takeWhile_append_of_pos (by
      intro c hc
      have : c ≠ '}' := fun hh => ha (hh ▸ hc)
      simpa using this)]
    simp
  have := congrArg (List.takeWhile (· ≠ '}')) h
  rw [t1 _ _ h1, t1 _ _ (by decide +kernel)] at this
  exact h2 (String.toList_injective this)

theorem report_quiet (hv : s.Valid dateOf float) : ∀ y ∈ s.report.write.descendants, Quiet y := by
  unfold Instance.write
  rw [XNode.descendants]
  apply all_of
  intro x hx
  rw [List.mem_append, List.mem_append] at hx
  rcases hx with (hx | hx) | hx
  · obtain ⟨c, hc, rfl⟩ := List.mem_map.1 hx
    exact context_quiet _ c (hv.typed c hc)
  · obtain ⟨u, _, rfl⟩ := List.mem_map.1 hx
    exact unit_quiet _ u
  · obtain ⟨f, hf, rfl⟩ := List.mem_map.1 hx
    intro y hy
    simp only [writeFact, XNode.descendantsOfAll, XNode.descendants, List.mem_cons, List.append_nil, List.not_mem_nil, or_false] at hy
    subst hy
    refine quiet_mk ?_ ?_
    · cases f.unit <;> rfl
    · obtain ⟨r, hr, _⟩ := hv.report.concepts f hf
      unfold elementOf at hr
      rw [Option.filter_eq_some_iff] at hr
      obtain ⟨e, _, he, _⟩ := store_name hv hr.1
      have hu : f.concept.uri = s.uri := by rw [← he]; rfl
      exact clark_ne (by rw [hu]; exact hv.target.2.1) (by rw [hu]; exact hv.target.2.2.2) _

theorem schema_xlink : ∀ y ∈ s.schema.descendants, y.xlinkAttr "type" = none := by
  intro y hy
  rw [schema_descendants] at hy
  simp only [List.mem_cons, List.mem_append] at hy
  rcases hy with rfl | rfl | hy | hy
  · rfl
  · rfl
  · obtain ⟨r, _, hy⟩ := List.mem_flatMap.1 hy
    show y.attrs.get? _ = none
    rcases role_attrs s r hy with h | h <;> rw [h] <;> rfl
  · obtain ⟨e, _, rfl⟩ := List.mem_map.1 hy
    exact element_attr e _ (by decide)

/-! ### The links -/

/-- The parts of a link without nested elements. -/
theorem part_flat {link : XNode} (hf : ∀ c ∈ link.children, c.children = []) {t : String} {own : List XNode} {x : XNode} :
    Part link t own x ↔ own = [x] ∧ x ∈ link.children ∧ x.tag ≠ none ∧ x.xlinkAttr "type" = some t := by
  constructor
  · rintro ⟨h1, h2, h3⟩
    obtain ⟨c, hc, hl⟩ := (below_iff ..).1 h1
    rcases hl.split with ⟨rfl, rfl⟩ | ⟨d, hd, _⟩
    · exact ⟨rfl, hc, h2, h3⟩
    · rw [hf c hc] at hd; cases hd
  · rintro ⟨rfl, h1, h2, h3⟩
    exact ⟨(below_iff ..).2 ⟨x, h1, .self⟩, h2, h3⟩

/-- A link of the link base. -/
def IsLink (s : StatedFiling) (name role : String) (link : XNode) : Prop :=
  (name = "labelLink" ∧ role = "http://www.xbrl.org/2003/role/link" ∧ link = s.labelLink) ∨ ∃ n ∈ s.networks, name = linkName n.kind ∧ role = n.role ∧ link = writeNetwork s.scope n

theorem part_type {link : XNode} (h : link ∈ s.linkbase.children) : (∀ c ∈ link.children, c.children = [] ∧ c.ns = s.scope ∧
      ((∃ i, c = writeLoc s.scope i) ∨ (∃ l, c = writeLabel s.scope l) ∨ ∃ g a b r m, g ∈ ["labelArc", "presentationArc", "calculationArc", "definitionArc"] ∧ c = writeArc s.scope g a b r m)) ∧
    ∃ name role, IsLink s name role link ∧ link.tag = some (linkTag name) ∧ link.xlinkAttr "type" = some "extended" ∧ link.xlinkAttr "role" = some role ∧ link.ns = s.scope := by
  have h : link ∈ s.labelLink :: s.networks.map (writeNetwork s.scope) := h
  rcases List.mem_cons.1 h with rfl | h
  · refine ⟨?_, _, _, Or.inl ⟨rfl, rfl, rfl⟩, rfl, rfl, rfl, rfl⟩
    intro c hc
    have hc : c ∈ s.elements.map (fun e => writeLoc s.scope e.id) ++ s.labels.map (writeLabel s.scope) ++
     (s.elements.filter (fun e => s.labels.any (fun l => l.element = e.id))).map (fun e =>
       writeArc s.scope "labelArc" ("loc_" ++ e.id) ("lab_" ++ e.id) "http://www.xbrl.org/2003/arcrole/concept-label" []) := hc
    rw [List.mem_append, List.mem_append] at hc
    rcases hc with (hc | hc) | hc
    · obtain ⟨e, _, rfl⟩ := List.mem_map.1 hc
      exact ⟨rfl, rfl, Or.inl ⟨_, rfl⟩⟩
    · obtain ⟨e, _, rfl⟩ := List.mem_map.1 hc
      exact ⟨rfl, rfl, Or.inr (Or.inl ⟨_, rfl⟩)⟩
    · obtain ⟨e, _, rfl⟩ := List.mem_map.1 hc
      exact ⟨rfl, rfl, Or.inr (Or.inr ⟨_, _, _, _, _, by simp, rfl⟩)⟩
  · obtain ⟨n, hn, rfl⟩ := List.mem_map.1 h
    refine ⟨?_, _, _, Or.inr ⟨n, hn, rfl, rfl, rfl⟩, rfl, rfl, rfl, rfl⟩
    intro c hc
    have hc : c ∈ n.objects.map (writeLoc s.scope) ++ n.arcs.map (fun a => writeArc s.scope (arcName n.kind) ("loc_" ++ a.parent) ("loc_" ++ a.child) a.arcrole a.attrs) := hc
    rw [List.mem_append] at hc
    rcases hc with hc | hc
    · obtain ⟨e, _, rfl⟩ := List.mem_map.1 hc
      exact ⟨rfl, rfl, Or.inl ⟨_, rfl⟩⟩
    · obtain ⟨e, _, rfl⟩ := List.mem_map.1 hc
      refine ⟨rfl, rfl, Or.inr (Or.inr ⟨_, _, _, _, _, ?_, rfl⟩)⟩
      cases n.kind <;> simp [arcName]

theorem part_not_extended {c : XNode} (h : (∃ i, c = writeLoc s.scope i) ∨ (∃ l, c = writeLabel s.scope l) ∨
    ∃ g a b r m, g ∈ ["labelArc", "presentationArc", "calculationArc", "definitionArc"] ∧ c = writeArc s.scope g a b r m) : c.xlinkAttr "type" ≠ some "extended" ∧ c.tag ≠ some (linkTag "roleType") := by
  rcases h with ⟨i, rfl⟩ | ⟨l, rfl⟩ | ⟨g, a, b, r, m, hg, rfl⟩
  · have h1 : (writeLoc s.scope i).xlinkAttr "type" = some "locator" := rfl
    have h2 : (writeLoc s.scope i).tag = some (linkTag "loc") := rfl
    rw [h1, h2]
    decide
  · have h1 : (writeLabel s.scope l).xlinkAttr "type" = some "resource" := rfl
    have h2 : (writeLabel s.scope l).tag = some (linkTag "label") := rfl
    rw [h1, h2]
    decide
  · have h1 : (writeArc s.scope g a b r m).xlinkAttr "type" = some "arc" := rfl
    have h2 : (writeArc s.scope g a b r m).tag = some (linkTag g) := rfl
    rw [h1, h2]
    refine ⟨by decide, fun h => ?_⟩
    rw [linkTag_inj (Option.some.inj h)] at hg
    revert hg
    decide

/-- The extended links of the documents are the children of the link base. -/
theorem extended_below (hv : s.Valid dateOf float) {root x : XNode} {own : List XNode} (hr : root ∈ s.write.map (·.root)) (hb : Below root own x) (hx : x.xlinkAttr "type" = some "extended") :
    own ++ [root] = [x, s.linkbase] ∧ x ∈ s.linkbase.children ∧ root = s.linkbase ∧ own = [x] := by
  have hr : root ∈ [s.schema, s.report.write, s.linkbase] := hr
  simp only [List.mem_cons, List.not_mem_nil, or_false] at hr
  rcases hr with rfl | rfl | rfl
  · rw [schema_xlink x hb.descendant] at hx; cases hx
  · rw [(report_quiet hv x hb.descendant).1] at hx; cases hx
  · obtain ⟨c, hc, hl⟩ := (below_iff ..).1 hb
    rcases hl.split with ⟨rfl, rfl⟩ | ⟨d, hd, ch, hl2, _⟩
    · exact ⟨rfl, hc, rfl, rfl⟩
    · obtain ⟨h1, _⟩ := part_type hc
      obtain ⟨g1, _, g3⟩ := h1 d hd
      rcases hl2.split with ⟨_, rfl⟩ | ⟨e, he, _⟩
      · exact absurd hx (part_not_extended g3).1
      · rw [g1] at he; cases he

theorem has_link (hv : s.Valid dateOf float) {name role : String} {up : List XNode} {link : XNode} :
    HasLink (s.write.map (·.root)) name role up link ↔ up = [link, s.linkbase] ∧ IsLink s name role link := by
  constructor
  · rintro ⟨⟨root, hr, own, hb, rfl⟩, ht, he, ho⟩
    obtain ⟨h1, h2, _, _⟩ := extended_below hv hr hb he
    obtain ⟨_, name', role', hi, gt, _, gr, _⟩ := part_type h2
    rw [ht] at gt
    rw [ho] at gr
    have := linkTag_inj (Option.some.inj gt)
    have h3 := Option.some.inj gr
    subst this h3
    exact ⟨h1, hi⟩
  · rintro ⟨rfl, hi⟩
    have hm : link ∈ s.linkbase.children := by
      show link ∈ s.labelLink :: s.networks.map (writeNetwork s.scope)
      rcases hi with ⟨_, _, rfl⟩ | ⟨n, hn, _, _, rfl⟩
      · exact List.mem_cons_self
      · exact List.mem_cons_of_mem _ (List.mem_map.2 ⟨n, hn, rfl⟩)
    refine ⟨⟨s.linkbase, by simp [StatedFiling.write], [link], (below_iff ..).2 ⟨link, hm, .self⟩, rfl⟩, ?_, ?_, ?_⟩
    all_goals rcases hi with ⟨rfl, rfl, rfl⟩ | ⟨n, hn, rfl, rfl, rfl⟩ <;> rfl

theorem linkbase_member {name role : String} {link : XNode} (hi : IsLink s name role link) : link ∈ s.linkbase.children := by
  show link ∈ s.labelLink :: s.networks.map (writeNetwork s.scope)
  rcases hi with ⟨_, _, rfl⟩ | ⟨n, hn, _, _, rfl⟩
  · exact List.mem_cons_self
  · exact List.mem_cons_of_mem _ (List.mem_map.2 ⟨n, hn, rfl⟩)

theorem loc_inj {a b : String} (h : "loc_" ++ a = "loc_" ++ b) : a = b := by
  have := congrArg String.toList h
  rw [String.toList_append, String.toList_append] at this
  exact String.toList_injective (List.append_cancel_left this)

theorem lab_inj {a b : String} (h : "lab_" ++ a = "lab_" ++ b) : a = b := by
  have := congrArg String.toList h
  rw [String.toList_append, String.toList_append] at this
  exact String.toList_injective (List.append_cancel_left this)

theorem loc_lab {a b : String} (h : "loc_" ++ a = "lab_" ++ b) : False := by
  have : ("loc_" ++ a).toList.take 4 = ("lab_" ++ b).toList.take 4 := by rw [h]
  rw [String.toList_append, String.toList_append, List.take_append_of_le_length (by decide), List.take_append_of_le_length (by decide)] at this
  exact absurd this (by decide)

theorem flat {name role : String} {link : XNode} (hi : IsLink s name role link) : ∀ c ∈ link.children, c.children = [] := fun c hc => ((part_type (linkbase_member hi)).1 c hc).1

/-- The parts of the label link. -/
theorem label_part {t : String} {own : List XNode} {x : XNode} : Part s.labelLink t own x ↔ own = [x] ∧
    ((t = "locator" ∧ ∃ e ∈ s.elements, x = writeLoc s.scope e.id) ∨ (t = "resource" ∧ ∃ l ∈ s.labels, x = writeLabel s.scope l) ∨
     (t = "arc" ∧ ∃ e ∈ s.elements, (∃ l ∈ s.labels, l.element = e.id) ∧
       x = writeArc s.scope "labelArc" ("loc_" ++ e.id) ("lab_" ++ e.id) "http://www.xbrl.org/2003/arcrole/concept-label" [])) := by
  rw [part_flat (flat (s := s) (Or.inl ⟨rfl, rfl, rfl⟩))]
  refine and_congr_right (fun _ => ?_)
  have hc : s.labelLink.children = s.elements.map (fun e => writeLoc s.scope e.id) ++ s.labels.map (writeLabel s.scope) ++
     (s.elements.filter (fun e => s.labels.any (fun l => l.element = e.id))).map (fun e =>
       writeArc s.scope "labelArc" ("loc_" ++ e.id) ("lab_" ++ e.id) "http://www.xbrl.org/2003/arcrole/concept-label" []) := rfl
  rw [hc, List.mem_append, List.mem_append, List.mem_map, List.mem_map, List.mem_map]
  constructor
  · rintro ⟨(⟨e, he, rfl⟩ | ⟨l, hl, rfl⟩) | ⟨e, he, rfl⟩, _, ht⟩
    · exact Or.inl ⟨(Option.some.inj ht).symm, e, he, rfl⟩
    · exact Or.inr (Or.inl ⟨(Option.some.inj ht).symm, l, hl, rfl⟩)
    · rw [List.mem_filter, List.any_eq_true] at he
      obtain ⟨he, l, hl, hle⟩ := he
      exact Or.inr (Or.inr ⟨(Option.some.inj ht).symm, e, he, ⟨l, hl, of_decide_eq_true hle⟩, rfl⟩)
  · rintro (⟨rfl, e, he, rfl⟩ | ⟨rfl, l, hl, rfl⟩ | ⟨rfl, e, he, ⟨l, hl, hle⟩, rfl⟩)
    · exact ⟨Or.inl (Or.inl ⟨e, he, rfl⟩), nofun, rfl⟩
    · exact ⟨Or.inl (Or.inr ⟨l, hl, rfl⟩), nofun, rfl⟩
    · exact ⟨Or.inr ⟨e, List.mem_filter.2 ⟨he, List.any_eq_true.2 ⟨l, hl, decide_eq_true hle⟩⟩, rfl⟩, nofun, rfl⟩

/-- The arc element of a relation. -/
def arcOf (s : StatedFiling) (n : StatedNetwork) (a : StatedArc) : XNode := writeArc s.scope (arcName n.kind) ("loc_" ++ a.parent) ("loc_" ++ a.child) a.arcrole a.attrs

theorem network_part {n : StatedNetwork} (hn : n ∈ s.networks) {t : String} {own : List XNode} {x : XNode} : Part (writeNetwork s.scope n) t own x ↔ own = [x] ∧
    ((t = "locator" ∧ ∃ i ∈ n.objects, x = writeLoc s.scope i) ∨ (t = "arc" ∧ ∃ a ∈ n.arcs, x = arcOf s n a)) := by
  rw [part_flat (flat (s := s) (Or.inr ⟨n, hn, rfl, rfl, rfl⟩))]
  refine and_congr_right (fun _ => ?_)
  have hc : (writeNetwork s.scope n).children = n.objects.map (writeLoc s.scope) ++ n.arcs.map (arcOf s n) := rfl
  rw [hc, List.mem_append, List.mem_map, List.mem_map]
  constructor
  · rintro ⟨⟨e, he, rfl⟩ | ⟨a, ha, rfl⟩, _, ht⟩
    · exact Or.inl ⟨(Option.some.inj ht).symm, e, he, rfl⟩
    · exact Or.inr ⟨(Option.some.inj ht).symm, a, ha, rfl⟩
  · rintro (⟨rfl, e, he, rfl⟩ | ⟨rfl, a, ha, rfl⟩)
    · exact ⟨Or.inl ⟨e, he, rfl⟩, nofun, rfl⟩
    · exact ⟨Or.inr ⟨a, ha, rfl⟩, nofun, rfl⟩

theorem loc_refers {i j : String} (hi : '#' ∉ i.toList) : Refers ("schema.xsd#" ++ i) j ↔ j = i := by
  have h : Refers ("schema.xsd#" ++ i) i := ⟨hi, Or.inr ⟨"schema.xsd", rfl⟩⟩
  constructor
  · intro hj
    rw [refers_unique hj, ← refers_unique h]
  · rintro rfl
    exact h

theorem names_store (hv : s.Valid dateOf float) {i : String} {q : QName} : s.Names i q ↔ ∃ r, s.store.byId.get? i = some r ∧ r.name = q := by
  constructor
  · rintro ⟨e, he, hi, hq⟩
    exact ⟨_, (store_id hv).2 ⟨e, he, hi, rfl⟩, hq⟩
  · rintro ⟨r, hr, hq⟩
    obtain ⟨e, he, hi, rfl⟩ := (store_id hv).1 hr
    exact ⟨e, he, hi, hq⟩

theorem locates_network (hv : s.Valid dateOf float) {n : StatedNetwork} (hn : n ∈ s.networks) {l : String} {q : QName} :
    Locates s.store (writeNetwork s.scope n) l q ↔ ∃ i ∈ n.objects, l = "loc_" ++ i ∧ s.Names i q := by
  have hid : ∀ i ∈ n.objects, '#' ∉ i.toList := by
    intro i hi
    obtain ⟨e, he, rfl, _⟩ := (hv.networks n hn).objects i hi
    exact (hv.elements e he).id
  constructor
  · rintro ⟨own, x, href, i, r, hp, hl, hh, hr, hs, hq⟩
    obtain ⟨_, ⟨_, j, hj, rfl⟩ | ⟨h, _⟩⟩ := (network_part hn).1 hp
    · have hh : "schema.xsd#" ++ j = href := Option.some.inj hh
      have hl : "loc_" ++ j = l := Option.some.inj hl
      subst hh hl
      rw [loc_refers (hid j hj)] at hr
      subst hr
      exact ⟨i, hj, rfl, (names_store hv).2 ⟨r, hs, hq⟩⟩
    · exact absurd h (by decide)
  · rintro ⟨i, hi, rfl, hq⟩
    obtain ⟨r, hs, hq⟩ := (names_store hv).1 hq
    exact ⟨_, writeLoc s.scope i, _, i, r, (network_part hn).2 ⟨rfl, Or.inl ⟨rfl, i, hi, rfl⟩⟩, rfl, rfl, (loc_refers (hid i hi)).2 rfl, hs, hq⟩

theorem locates_label (hv : s.Valid dateOf float) {l : String} {q : QName} : Locates s.store s.labelLink l q ↔ ∃ e ∈ s.elements, l = "loc_" ++ e.id ∧ s.name e = q := by
  constructor
  · rintro ⟨own, x, href, i, r, hp, hl, hh, hr, hs, hq⟩
    obtain ⟨_, ⟨_, e, he, rfl⟩ | ⟨h, _⟩ | ⟨h, _⟩⟩ := label_part.1 hp
    · have hh : "schema.xsd#" ++ e.id = href := Option.some.inj hh
      have hl : "loc_" ++ e.id = l := Option.some.inj hl
      subst hh hl
      rw [loc_refers (hv.elements e he).id] at hr
      subst hr
      obtain ⟨e', he', hi, hq'⟩ := (names_store hv).2 ⟨r, hs, hq⟩
      rw [eq_of_map_nodup hv.ids he' he hi] at hq'
      exact ⟨e, he, rfl, hq'⟩
    · exact absurd h (by decide)
    · exact absurd h (by decide)
  · rintro ⟨e, he, rfl, hq⟩
    exact ⟨_, writeLoc s.scope e.id, _, e.id, _, label_part.2 ⟨rfl, Or.inl ⟨rfl, e, he, rfl⟩⟩, rfl, rfl, (loc_refers (hv.elements e he).id).2 rfl, (store_id hv).2 ⟨e, he, rfl, rfl⟩, hq⟩

theorem arc_between {n : StatedNetwork} (hn : n ∈ s.networks) {l m : String} {x : XNode} : ArcBetween (writeNetwork s.scope n) l m x ↔
    ∃ a ∈ n.arcs, l = "loc_" ++ a.parent ∧ m = "loc_" ++ a.child ∧ x = arcOf s n a := by
  constructor
  · rintro ⟨own, role, hp, h1, h2, _⟩
    obtain ⟨_, ⟨h, _⟩ | ⟨_, a, ha, rfl⟩⟩ := (network_part hn).1 hp
    · exact absurd h (by decide)
    · exact ⟨a, ha, (Option.some.inj h1).symm, (Option.some.inj h2).symm, rfl⟩
  · rintro ⟨a, ha, rfl, rfl, rfl⟩
    exact ⟨_, a.arcrole, (network_part hn).2 ⟨rfl, Or.inr ⟨rfl, a, ha, rfl⟩⟩, rfl, rfl, rfl⟩

theorem joined_iff {link : XNode} {l m : String} : Joined link l m ↔ ∃ x, ArcBetween link l m x := by
  constructor
  · rintro ⟨own, x, role, h⟩
    exact ⟨x, own, role, h⟩
  · rintro ⟨x, own, role, h⟩
    exact ⟨own, x, role, h⟩

theorem joined_network {n : StatedNetwork} (hn : n ∈ s.networks) {l m : String} : Joined (writeNetwork s.scope n) l m ↔ ∃ a ∈ n.arcs, l = "loc_" ++ a.parent ∧ m = "loc_" ++ a.child := by
  rw [joined_iff]
  constructor
  · rintro ⟨x, h⟩
    obtain ⟨a, ha, h1, h2, _⟩ := (arc_between hn).1 h
    exact ⟨a, ha, h1, h2⟩
  · rintro ⟨a, ha, h1, h2⟩
    exact ⟨_, (arc_between hn).2 ⟨a, ha, h1, h2, rfl⟩⟩

theorem joined_label {l m : String} : Joined s.labelLink l m ↔ ∃ e ∈ s.elements, (∃ lb ∈ s.labels, lb.element = e.id) ∧ l = "loc_" ++ e.id ∧ m = "lab_" ++ e.id := by
  constructor
  · rintro ⟨own, x, role, hp, h1, h2, _⟩
    obtain ⟨_, ⟨h, _⟩ | ⟨h, _⟩ | ⟨_, e, he, hl, rfl⟩⟩ := label_part.1 hp
    · exact absurd h (by decide)
    · exact absurd h (by decide)
    · exact ⟨e, he, hl, (Option.some.inj h1).symm, (Option.some.inj h2).symm⟩
  · rintro ⟨e, he, hl, rfl, rfl⟩
    exact ⟨_, _, _, label_part.2 ⟨rfl, Or.inr (Or.inr ⟨rfl, e, he, hl, rfl⟩)⟩, rfl, rfl, rfl⟩

theorem textNode_getD (t : String) : (textNode t).getD "" = t := by
  unfold textNode
  split
  · rename_i h; exact h.symm
  · rfl

theorem labelled_label {up : List XNode} {m : String} {lab : Label} : Labelled up s.labelLink m lab ↔ ∃ l ∈ s.labels, m = "lab_" ++ l.element ∧ lab = ⟨l.text, "lab_" ++ l.element, l.language, l.role⟩ := by
  constructor
  · rintro ⟨own, x, hp, _, h1, h2, h3, h4, h5⟩
    obtain ⟨rfl, ⟨h, _⟩ | ⟨_, l, hl, rfl⟩ | ⟨h, _⟩⟩ := label_part.1 hp
    · exact absurd h (by decide)
    · have h1 : "lab_" ++ l.element = m := Option.some.inj h1
      have h3 : l.role = lab.role := Option.some.inj h3
      have h4 : l.language = lab.language := Option.some.inj h4
      have h5 : lab.text = (textNode l.text).getD "" := h5
      rw [textNode_getD] at h5
      refine ⟨l, hl, h1.symm, ?_⟩
      obtain ⟨_, _, _, _⟩ := lab
      dsimp only at h2 h3 h4 h5
      rw [h5, h2, ← h1, ← h3, ← h4]
    · exact absurd h (by decide)
  · rintro ⟨l, hl, rfl, rfl⟩
    exact ⟨_, writeLabel s.scope l, label_part.2 ⟨rfl, Or.inr (Or.inl ⟨rfl, l, hl, rfl⟩)⟩, rfl, rfl, rfl, rfl, rfl, (textNode_getD l.text).symm⟩

theorem arc_order (n : StatedNetwork) (a : StatedArc) : (arcOf s n a).attr? "order" = a.order := by
  obtain ⟨_, _, _, o, w, p⟩ := a
  cases o <;> cases w <;> cases p <;> rfl

theorem arc_weight (n : StatedNetwork) (a : StatedArc) : (arcOf s n a).attr? "weight" = a.weight := by
  obtain ⟨_, _, _, o, w, p⟩ := a
  cases o <;> cases w <;> cases p <;> rfl

theorem arc_preferred (n : StatedNetwork) (a : StatedArc) : (arcOf s n a).attr? "preferredLabel" = a.preferredLabel := by
  obtain ⟨_, _, _, o, w, p⟩ := a
  cases o <;> cases w <;> cases p <;> rfl

theorem linkName_unlabelled (k : NodeKind) : linkName k ≠ "labelLink" ∧ linkName k ≠ "footnoteLink" := by cases k <;> decide

theorem loc_valid (hv : s.Valid dateOf float) (facts : FactStore) {name : String} {e : StatedElement} (he : e ∈ s.elements) (hn : name = "calculationLink" → e.kind = .concept) :
    (∃ l, (writeLoc s.scope e.id).xlinkAttr "label" = some l) ∧ ∃ href i, (writeLoc s.scope e.id).xlinkAttr "href" = some href ∧ Refers href i ∧
      (∀ r, s.store.byId.get? i = some r → name = "calculationLink" → r.kind = .concept) ∧ (∀ f, s.store.byId.get? i = none → facts.byId.get? i = some f → name = "footnoteLink") := by
  have hg : s.store.byId.get? e.id = some (s.element e).element := (store_id hv).2 ⟨e, he, rfl, rfl⟩
  refine ⟨⟨_, rfl⟩, _, e.id, rfl, (loc_refers (hv.elements e he).id).2 rfl, ?_, ?_⟩
  · intro r hr hc
    rw [hg] at hr
    rw [← Option.some.inj hr]
    exact hn hc
  · intro f h
    rw [hg] at h
    cases h

theorem label_valid (hv : s.Valid dateOf float) (facts : FactStore) : ValidLink s.store facts float "labelLink" s.labelLink := by
  refine ⟨?_, ?_, ?_, ?_, ⟨fun l => if "loc_".toList = l.toList.take 4 then 0 else 1, ?_⟩⟩
  · intro own x hp
    obtain ⟨_, ⟨h, _⟩ | ⟨h, _⟩ | ⟨_, e, he, hl, rfl⟩⟩ := label_part.1 hp
    · exact absurd h (by decide)
    · exact absurd h (by decide)
    · exact ⟨⟨_, rfl⟩, ⟨_, rfl⟩, ⟨_, rfl⟩, nofun, nofun⟩
  · intro own x hp
    obtain ⟨_, ⟨_, e, he, rfl⟩ | ⟨h, _⟩ | ⟨h, _⟩⟩ := label_part.1 hp
    · exact loc_valid hv facts he (fun h => absurd h (by decide))
    · exact absurd h (by decide)
    · exact absurd h (by decide)
  · intro own x hp
    obtain ⟨_, ⟨h, _⟩ | ⟨_, l, hl, rfl⟩ | ⟨h, _⟩⟩ := label_part.1 hp
    · exact absurd h (by decide)
    · exact ⟨⟨_, rfl⟩, ⟨_, rfl⟩, "label", by simp [resourceTags], rfl, fun h => absurd h (by decide)⟩
    · exact absurd h (by decide)
  · intro _
    constructor
    · intro own x m hp hm
      obtain ⟨_, ⟨h, _⟩ | ⟨_, l, hl, rfl⟩ | ⟨h, _⟩⟩ := label_part.1 hp
      · exact absurd h (by decide)
      · have hm : "lab_" ++ l.element = m := Option.some.inj hm
        subst hm
        obtain ⟨e, he, hi⟩ := hv.labels l hl
        refine ⟨⟨_, joined_label.2 ⟨e, he, ⟨l, hl, hi.symm⟩, rfl, by rw [hi]⟩⟩, ?_⟩
        intro m' hj
        obtain ⟨e', _, _, h, _⟩ := joined_label.1 hj
        exact loc_lab h.symm
      · exact absurd h (by decide)
    · intro own x m hp hm l hj
      obtain ⟨_, ⟨_, e, he, rfl⟩ | ⟨h, _⟩ | ⟨h, _⟩⟩ := label_part.1 hp
      · have hm : "loc_" ++ e.id = m := Option.some.inj hm
        subst hm
        obtain ⟨e', _, _, _, h⟩ := joined_label.1 hj
        exact loc_lab h
      · exact absurd h (by decide)
      · exact absurd h (by decide)
  · intro l m hj
    obtain ⟨e, _, _, rfl, rfl⟩ := joined_label.1 hj
    have h1 : "loc_".toList = ("loc_" ++ e.id).toList.take 4 := by
      rw [String.toList_append, List.take_append_of_le_length (by decide)]
      decide
    have h2 : "loc_".toList ≠ ("lab_" ++ e.id).toList.take 4 := by
      rw [String.toList_append, List.take_append_of_le_length (by decide)]
      decide
    show (if _ then 0 else 1) < (if _ then 0 else 1)
    rw [if_pos h1, if_neg h2]
    exact Nat.zero_lt_one

theorem loc_drop (i : String) : String.ofList (("loc_" ++ i).toList.drop 4) = i := by
  have h4 : "loc_".toList.length = 4 := by decide
  rw [String.toList_append, List.drop_append, List.drop_eq_nil_of_le (by rw [h4]; exact Nat.le_refl 4), h4]
  simp

theorem network_valid (hv : s.Valid dateOf float) (facts : FactStore) {n : StatedNetwork} (hn : n ∈ s.networks) : ValidLink s.store facts float (linkName n.kind) (writeNetwork s.scope n) := by
  have h := hv.networks n hn
  obtain ⟨rank, hrank⟩ := h.acyclic
  refine ⟨?_, ?_, ?_, ?_, ⟨fun l => rank (String.ofList (l.toList.drop 4)), ?_⟩⟩
  · intro own x hp
    obtain ⟨_, ⟨h', _⟩ | ⟨_, a, ha, rfl⟩⟩ := (network_part hn).1 hp
    · exact absurd h' (by decide)
    · refine ⟨⟨_, rfl⟩, ⟨_, rfl⟩, ⟨_, rfl⟩, ?_, ?_⟩
      · intro t ht
        rw [arc_order] at ht
        exact h.orders a ha t ht
      · intro t ht
        rw [arc_weight] at ht
        exact h.weights a ha t ht
  · intro own x hp
    obtain ⟨_, ⟨_, i, hi, rfl⟩ | ⟨h', _⟩⟩ := (network_part hn).1 hp
    · obtain ⟨e, he, rfl, hk⟩ := h.objects i hi
      refine loc_valid hv facts he (fun hc => hk ?_)
      have := h.kind
      revert hc this
      cases n.kind <;> decide
    · exact absurd h' (by decide)
  · intro own x hp
    obtain ⟨_, ⟨h', _⟩ | ⟨h', _⟩⟩ := (network_part hn).1 hp <;> exact absurd h' (by decide)
  · intro hl
    exact absurd hl (linkName_unlabelled _).1
  · intro l m hj
    obtain ⟨a, ha, rfl, rfl⟩ := (joined_network hn).1 hj
    dsimp only
    rw [loc_drop, loc_drop]
    exact hrank a ha

theorem flat_descendants {link : XNode} (h : ∀ c ∈ link.children, c.children = []) : link.descendants = link.children := by
  have key : ∀ cs : List XNode, (∀ c ∈ cs, c.children = []) → XNode.descendantsOfAll cs = cs := by
   intro cs h
   induction cs with
   | nil => simp [XNode.descendantsOfAll]
   | cons c cs ih =>
    obtain ⟨t', a', x', ns', cs'⟩ := c
    have : cs' = [] := h _ List.mem_cons_self
    subst this
    rw [XNode.descendantsOfAll, XNode.descendants, XNode.descendantsOfAll, ih (fun c hc => h c (List.mem_cons_of_mem _ hc))]
    rfl
  obtain ⟨t, a, x, ns, cs⟩ := link
  rw [XNode.descendants]
  exact key cs h

theorem filter_none {α β : Type} (f : α → β) (p : β → Bool) (h : ∀ a, p (f a) = false) (l : List α) : (l.map f).filter p = [] := by
  rw [List.filter_eq_nil_iff]
  intro b hb
  obtain ⟨a, _, rfl⟩ := List.mem_map.1 hb
  rw [h a]
  simp

theorem filter_all {α β : Type} (f : α → β) (p : β → Bool) (h : ∀ a, p (f a) = true) (l : List α) : (l.map f).filter p = l.map f := by
  rw [List.filter_eq_self]
  intro b hb
  obtain ⟨a, _, rfl⟩ := List.mem_map.1 hb
  exact h a

theorem label_arcKeys : arcKeys s.labelLink = (s.elements.filter (fun e => s.labels.any (fun l => l.element = e.id))).map (fun e =>
    (some ("loc_" ++ e.id), some ("lab_" ++ e.id), some "http://www.xbrl.org/2003/arcrole/concept-label")) := by
  have hc : s.labelLink.children = s.elements.map (fun e => writeLoc s.scope e.id) ++ s.labels.map (writeLabel s.scope) ++
     (s.elements.filter (fun e => s.labels.any (fun l => l.element = e.id))).map (fun e =>
       writeArc s.scope "labelArc" ("loc_" ++ e.id) ("lab_" ++ e.id) "http://www.xbrl.org/2003/arcrole/concept-label" []) := rfl
  unfold arcKeys
  rw [flat_descendants (flat (s := s) (Or.inl ⟨rfl, rfl, rfl⟩)), hc, List.filter_append, List.filter_append, filter_none _ _ (fun _ => rfl), filter_none _ _ (fun _ => rfl), filter_all _ _ (fun _ => rfl)]
  rw [List.nil_append, List.nil_append, List.map_map]
  rfl

theorem network_arcKeys {n : StatedNetwork} (hn : n ∈ s.networks) : arcKeys (writeNetwork s.scope n) = n.arcs.map (fun a => (some ("loc_" ++ a.parent), some ("loc_" ++ a.child), some a.arcrole)) := by
  have hc : (writeNetwork s.scope n).children = n.objects.map (writeLoc s.scope) ++ n.arcs.map (arcOf s n) := rfl
  unfold arcKeys
  rw [flat_descendants (flat (s := s) (Or.inr ⟨n, hn, rfl, rfl, rfl⟩)), hc, List.filter_append, filter_none _ _ (fun _ => rfl), filter_all _ _ (fun _ => rfl)]
  rw [List.nil_append, List.map_map]
  rfl

theorem plain (hv : s.Valid dateOf float) : PlainLinks (s.write.map (·.root)) := by
  have key : ∀ x, isLinkElement x = true → x.xlinkAttr "type" = some "extended" := by
    intro x hx
    unfold isLinkElement at hx
    rw [Bool.and_eq_true] at hx
    exact of_decide_eq_true hx.2
  refine ⟨?_, ?_, ?_⟩
  · intro root hr own x hb hx
    obtain ⟨_, hm, _⟩ := extended_below hv hr hb (key x hx)
    obtain ⟨_, name, role, hi, ht, _⟩ := part_type hm
    refine ⟨name, ?_, ht⟩
    rcases hi with ⟨rfl, _⟩ | ⟨n, _, rfl, _⟩
    · decide
    · cases n.kind <;> decide
  · intro root hr own x hb hx c y hl _
    obtain ⟨_, hm, _⟩ := extended_below hv hr hb (key x hx)
    obtain ⟨hp, name, role, hi, _, _, _, hns⟩ := part_type hm
    have hsc : s.scope.get? (some "xlink") = some "http://www.w3.org/1999/xlink" := by
      unfold StatedFiling.scope
      simp [Dict.get?_cons]
    rcases hl.split with ⟨_, rfl⟩ | ⟨d, hd, ch, hl2, _⟩
    · rw [hns]; exact hsc
    · obtain ⟨g1, g2, _⟩ := hp d hd
      rcases hl2.split with ⟨_, rfl⟩ | ⟨e, he, _⟩
      · rw [g2]; exact hsc
      · rw [g1] at he; cases he
  · intro root hr own x hb hx c y hp
    obtain ⟨_, hm, _⟩ := extended_below hv hr hb (key x hx)
    obtain ⟨hq, _⟩ := part_type hm
    obtain ⟨_, hmem, _, ht⟩ := (part_flat (fun c hc => (hq c hc).1)).1 hp
    rcases (hq y hmem).2.2 with ⟨i, rfl⟩ | ⟨l, rfl⟩ | ⟨g, a, b, r, m, _, rfl⟩
    · have : "locator" = "resource" := Option.some.inj ht
      exact absurd this (by decide)
    · exact ⟨"label", by simp, rfl⟩
    · have : "arc" = "resource" := Option.some.inj ht
      exact absurd this (by decide)

theorem links_valid (hv : s.Valid dateOf float) (facts : FactStore) : ValidLinkbases s.store facts float (s.write.map (·.root)) := by
  refine ⟨plain hv, ?_, ?_, ?_, ?_, ?_, ?_⟩
  · intro name role up link h
    rcases ((has_link hv).1 h).2 with ⟨rfl, _, rfl⟩ | ⟨n, hn, rfl, _, rfl⟩
    · exact label_valid hv facts
    · exact network_valid hv facts hn
  · rintro name up link ⟨⟨root, hr, own, hb, _⟩, _, he⟩
    obtain ⟨_, h2, _⟩ := extended_below hv hr hb he
    obtain ⟨_, _, role, _, _, _, gr, _⟩ := part_type h2
    exact ⟨role, gr⟩
  · intro name role up link h own x href i hp hh hr
    rcases ((has_link hv).1 h).2 with ⟨rfl, _, rfl⟩ | ⟨n, hn, rfl, _, rfl⟩
    · obtain ⟨_, ⟨_, e, he, rfl⟩ | ⟨h, _⟩ | ⟨h, _⟩⟩ := label_part.1 hp
      · have hh : "schema.xsd#" ++ e.id = href := Option.some.inj hh
        subst hh
        rw [loc_refers (hv.elements e he).id] at hr
        subst hr
        exact Or.inl ⟨_, (store_id hv).2 ⟨e, he, rfl, rfl⟩⟩
      · exact absurd h (by decide)
      · exact absurd h (by decide)
    · obtain ⟨_, ⟨_, j, hj, rfl⟩ | ⟨h', _⟩⟩ := (network_part hn).1 hp
      · obtain ⟨e, he, rfl, _⟩ := (hv.networks n hn).objects j hj
        have hh : "schema.xsd#" ++ e.id = href := Option.some.inj hh
        subst hh
        rw [loc_refers (hv.elements e he).id] at hr
        subst hr
        exact Or.inl ⟨_, (store_id hv).2 ⟨e, he, rfl, rfl⟩⟩
      · exact absurd h' (by decide)
  · intro name role up link h own x hp _
    rcases ((has_link hv).1 h).2 with ⟨rfl, _, rfl⟩ | ⟨n, hn, rfl, _, rfl⟩
    · obtain ⟨rfl, ⟨h, _⟩ | ⟨_, l, hl, rfl⟩ | ⟨h, _⟩⟩ := label_part.1 hp
      · exact absurd h (by decide)
      · exact ⟨l.language, rfl⟩
      · exact absurd h (by decide)
    · obtain ⟨_, ⟨h', _⟩ | ⟨h', _⟩⟩ := (network_part hn).1 hp <;> exact absurd h' (by decide)
  · intro name role up link h
    rcases ((has_link hv).1 h).2 with ⟨rfl, _, rfl⟩ | ⟨n, hn, rfl, _, rfl⟩
    · rw [label_arcKeys]
      refine List.pairwise_map.2 (((List.pairwise_map.1 hv.ids).filter _).imp ?_)
      intro a b hne he
      exact hne (loc_inj (Option.some.inj (Prod.mk.inj he).1))
    · rw [network_arcKeys hn]
      refine List.pairwise_map.2 ((List.pairwise_map.1 (hv.networks n hn).once).imp ?_)
      intro a b hne he
      obtain ⟨h1, h2⟩ := Prod.mk.inj he
      obtain ⟨h2, h3⟩ := Prod.mk.inj h2
      exact hne (by rw [loc_inj (Option.some.inj h1), loc_inj (Option.some.inj h2), Option.some.inj h3])
  · intro p hp role up link h l m hj
    rcases ((has_link hv).1 h).2 with ⟨hname, _, rfl⟩ | ⟨n, hn, _, _, rfl⟩
    · simp only [unitedTags, List.mem_cons, List.not_mem_nil, or_false] at hp
      rcases hp with rfl | rfl | rfl <;> exact absurd hname (by decide)
    · obtain ⟨a, ha, rfl, rfl⟩ := (joined_network hn).1 hj
      have hpar := ((hv.networks n hn).ends a ha).1
      obtain ⟨e, he, hi, _⟩ := (hv.networks n hn).objects _ hpar
      exact ⟨s.name e, (locates_network hv hn).2 ⟨_, hpar, rfl, e, he, hi, rfl⟩⟩

/-! ### The instance -/

theorem schema_noInstance : NoInstance s.schema := by
  constructor
  · unfold factElements
    rw [List.filter_eq_nil_iff]
    intro y hy
    have : y.attr? "contextRef" = none := by
      rw [schema_descendants] at hy
      simp only [List.mem_cons, List.mem_append] at hy
      rcases hy with rfl | rfl | hy | hy
      · rfl
      · rfl
      · obtain ⟨r, _, hy⟩ := List.mem_flatMap.1 hy
        show y.attrs.get? _ = none
        rcases role_attrs s r hy with h | h <;> rw [h] <;> rfl
      · obtain ⟨e, _, rfl⟩ := List.mem_map.1 hy
        exact element_attr e _ (by decide)
    rw [this]
    simp
  · intro c hc
    have hc : c ∈ annotation s :: s.elements.map (writeElement s.scope) := hc
    rcases List.mem_cons.1 hc with rfl | hc
    · exact ⟨rfl, rfl⟩
    · obtain ⟨e, _, rfl⟩ := List.mem_map.1 hc
      exact ⟨rfl, rfl⟩

theorem linkbase_descendants {y : XNode} (hy : y ∈ s.linkbase.descendants) : y ∈ s.linkbase.children ∨ ∃ link ∈ s.linkbase.children, y ∈ link.children := by
  have : s.linkbase.descendants = XNode.descendantsOfAll s.linkbase.children := by
    unfold StatedFiling.linkbase
    rw [XNode.descendants]
    rfl
  rw [this] at hy
  refine all_of (P := fun y => y ∈ s.linkbase.children ∨ ∃ link ∈ s.linkbase.children, y ∈ link.children) _ ?_ y hy
  intro x hx y hy
  rw [XNode.descendantsOfAll, XNode.descendantsOfAll, List.append_nil, flat_descendants (fun c hc => ((part_type hx).1 c hc).1)] at hy
  rcases List.mem_cons.1 hy with rfl | hy
  · exact Or.inl hx
  · exact Or.inr ⟨x, hx, hy⟩

theorem linkName_tags (k : NodeKind) : linkName k ∈ ["presentationLink", "calculationLink", "definitionLink"] := by cases k <;> decide

theorem find_none {x : XNode} {n : String} (h : ∀ c ∈ x.children, c.hasLocal n = false) : x.find n = none := by
  unfold XNode.find
  rw [List.find?_eq_none]
  intro c hc
  rw [h c hc]
  simp

theorem linkbase_noInstance : NoInstance s.linkbase := by
  constructor
  · unfold factElements
    rw [List.filter_eq_nil_iff]
    intro y hy
    have : y.attr? "contextRef" = none := by
      rcases linkbase_descendants hy with h | ⟨link, h, hc⟩
      · have h : y ∈ s.labelLink :: s.networks.map (writeNetwork s.scope) := h
        rcases List.mem_cons.1 h with rfl | h
        · rfl
        · obtain ⟨n, _, rfl⟩ := List.mem_map.1 h
          rfl
      · have h : link ∈ s.labelLink :: s.networks.map (writeNetwork s.scope) := h
        rcases List.mem_cons.1 h with rfl | h
        · have hc : y ∈ s.elements.map (fun e => writeLoc s.scope e.id) ++ s.labels.map (writeLabel s.scope) ++
            (s.elements.filter (fun e => s.labels.any (fun l => l.element = e.id))).map (fun e =>
            writeArc s.scope "labelArc" ("loc_" ++ e.id) ("lab_" ++ e.id) "http://www.xbrl.org/2003/arcrole/concept-label" []) := hc
          rw [List.mem_append, List.mem_append] at hc
          rcases hc with (hc | hc) | hc <;> obtain ⟨e, _, rfl⟩ := List.mem_map.1 hc <;> rfl
        · obtain ⟨n, _, rfl⟩ := List.mem_map.1 h
          have hc : y ∈ n.objects.map (writeLoc s.scope) ++ n.arcs.map (arcOf s n) := hc
          rw [List.mem_append] at hc
          rcases hc with hc | hc
          · obtain ⟨e, _, rfl⟩ := List.mem_map.1 hc; rfl
          · obtain ⟨a, _, rfl⟩ := List.mem_map.1 hc
            obtain ⟨_, _, _, o, w, p⟩ := a
            cases o <;> cases w <;> cases p <;> rfl
    rw [this]
    simp
  · intro c hc
    obtain ⟨hp, name, role, hi, ht, _⟩ := part_type hc
    constructor
    · unfold partsOf
      have : c.find "period" = none := find_none (by
        intro d hd
        rcases (hp d hd).2.2 with ⟨i, rfl⟩ | ⟨l, rfl⟩ | ⟨g, a, b, r, m, hg, rfl⟩
        · rfl
        · rfl
        · simp only [List.mem_cons, List.not_mem_nil, or_false] at hg
          rcases hg with rfl | rfl | rfl | rfl <;> rfl)
      rw [this]
      rfl
    · rcases hi with ⟨_, _, rfl⟩ | ⟨n, _, _, _, rfl⟩
      · rfl
      · unfold writeNetwork
        cases n.kind <;> rfl

theorem report_valid (hv : s.Valid dateOf float) : s.report.Valid (taxonomyConcept s.write) dateOf (taxonomyStore s.write) := by
  rw [data_is hv, store_is hv]
  exact hv.report

theorem instances_valid (hv : s.Valid dateOf float) : ValidInstances dateOf s.write :=
  instances_write (pre := [⟨"schema.xsd", s.schema⟩]) (post := [⟨"links.xml", s.linkbase⟩]) (by
    intro d hd
    simp only [List.cons_append, List.nil_append, List.mem_cons, List.not_mem_nil, or_false] at hd
    rcases hd with rfl | rfl
    · exact schema_noInstance
    · exact linkbase_noInstance) (report_valid hv)

theorem fact_elements : elementsOf (s.write.map (·.root)) = s.report.facts.map (fun f => (s.report.write, writeFact s.report.ns f)) := by
  unfold elementsOf StatedFiling.write
  simp only [List.map_cons, List.map_nil, List.flatMap_cons, List.flatMap_nil]
  rw [(schema_noInstance (s := s)).facts, (linkbase_noInstance (s := s)).facts, factElements_write]
  simp

/-! ### The roles -/

theorem declared_roles (hv : s.Valid dateOf float) : (s.write.map (·.root)).flatMap declaredRoles = s.roles.map (writeRole s.scope) := by
  unfold StatedFiling.write
  simp only [List.map_cons, List.map_nil, List.flatMap_cons, List.flatMap_nil, List.append_nil]
  have h2 : declaredRoles s.report.write = [] := by
    unfold declaredRoles
    rw [List.filter_eq_nil_iff]
    intro y hy hd
    exact (report_quiet hv y hy).2 (of_decide_eq_true hd)
  have h3 : declaredRoles s.linkbase = [] := by
    unfold declaredRoles
    rw [List.filter_eq_nil_iff]
    intro y hy hd
    have hd : y.tag = some (linkTag "roleType") := of_decide_eq_true hd
    rcases linkbase_descendants hy with h | ⟨link, h, hc⟩
    · obtain ⟨_, name, role, hi, ht, _⟩ := part_type h
      rw [ht] at hd
      have := linkTag_inj (Option.some.inj hd)
      subst this
      rcases hi with ⟨h, _⟩ | ⟨n, _, h, _⟩
      · exact absurd h (by decide)
      · have := linkName_tags n.kind
        rw [← h] at this
        revert this
        decide
    · exact (part_not_extended ((part_type h).1 y hc).2.2).2 hd
  have h1 : declaredRoles s.schema = s.roles.map (writeRole s.scope) := by
    have e1 : (annotation s).tag ≠ some "{http://www.xbrl.org/2003/linkbase}roleType" := by
      show some (xsTag "annotation") ≠ _
      decide
    have e2 : (appinfo s).tag ≠ some "{http://www.xbrl.org/2003/linkbase}roleType" := by
      show some (xsTag "appinfo") ≠ _
      decide
    unfold declaredRoles
    rw [schema_descendants]
    rw [List.filter_cons_of_neg (by simp [e1]), List.filter_cons_of_neg (by simp [e2]),
      List.filter_append, filter_none _ _ (fun _ => rfl), List.append_nil]
    generalize s.roles = rs
    induction rs with
    | nil => rfl
    | cons r rs ih =>
      rw [List.flatMap_cons, List.filter_append, ih]
      rfl
  rw [h1, h2, h3, List.append_nil, List.append_nil]

theorem roles_valid (hv : s.Valid dateOf float) : ValidRoles (s.write.map (·.root)) := by
  intro x hx
  rw [declared_roles hv] at hx
  obtain ⟨r, _, rfl⟩ := List.mem_map.1 hx
  refine ⟨r.uri, ⟨rfl, ?_⟩, ?_⟩
  · show s.scope.get? _ = _
    unfold StatedFiling.scope
    simp [Dict.get?_cons]
  · intro p hp _ _ _
    have : declaredOn (writeRole s.scope r) = ["link:presentationLink", "link:calculationLink", "link:definitionLink"] := rfl
    rw [this]
    simp only [unitedTags, List.mem_cons, List.not_mem_nil, or_false] at hp
    rcases hp with rfl | rfl | rfl <;> decide

/-- The documents are a valid filing. -/
theorem valid (hv : s.Valid dateOf float) : ValidFiling dateOf float s.write :=
  ⟨schemas_valid hv, instances_valid hv, by rw [store_is hv]; exact links_valid hv _, roles_valid hv⟩

/-! ### What is shown -/

theorem declaredAs {e : StatedElement} (hv : s.Valid dateOf float) (he : e ∈ s.elements) {x : SchemaElement}
    (h : DeclaredAs s.write ⟨⟨"schema.xsd", s.schema⟩, s.uri, writeElement s.scope e⟩ x) : x = s.element e := by
  obtain ⟨h1, ⟨e0, h2, h3, h4, h5⟩, h6⟩ := h
  rw [name_is hv] at h1 h2
  dsimp only at h2
  rw [created hv he] at h2
  have h2 := (Option.some.inj h2).symm
  subst h2
  have ht : x.typed = none := by
    split at h6
    · obtain ⟨r, hr⟩ := h6
      rw [(C86_typed_partial s.write _ (writeElement s.scope e) (scope_xbrldt hv)).1 (element_attr e _ (by decide))] at hr
      exact (congrArg Prod.fst (Except.ok.inj hr)).symm
    · exact h6
  obtain ⟨k, q, i, c, t⟩ := x
  dsimp only at *
  subst ht
  rw [h1, ← h3, ← h4, ← h5]
  rfl

theorem rel2_map {α β γ : Type} {R : β → γ → Prop} (f : α → β) (g : α → γ) : ∀ (l : List α) (m : List γ), (∀ a ∈ l, ∀ c, R (f a) c → c = g a) → Rel2 R (l.map f) m → m = l.map g
  | [], _, _, .nil => rfl
  | a :: l, _, h, .cons hr ht => by
    rw [List.map_cons, h a List.mem_cons_self _ hr, rel2_map f g l _ (fun b hb => h b (List.mem_cons_of_mem _ hb)) ht]

theorem rel2_mem {α β : Type} {R : α → β → Prop} : ∀ {l : List α} {m : List β}, Rel2 R l m → ∀ b ∈ m, ∃ a ∈ l, R a b
  | _, _, .nil, _, h => nomatch h
  | _, _, .cons hr ht, b, hb => by
    rcases List.mem_cons.1 hb with rfl | hb
    · exact ⟨_, List.mem_cons_self, hr⟩
    · obtain ⟨a, ha, h⟩ := rel2_mem ht b hb
      exact ⟨a, List.mem_cons_of_mem _ ha, h⟩

theorem rel2_project {α β γ : Type} {R : α → β → Prop} (f : α → γ) (g : β → γ) (h : ∀ a b, R a b → g b = f a) : ∀ {l : List α} {m : List β}, Rel2 R l m → m.map g = l.map f
  | _, _, .nil => rfl
  | _, _, .cons hr ht => by rw [List.map_cons, List.map_cons, h _ _ hr, rel2_project f g h ht]

theorem kind_iff {k : NodeKind} (hk : k ∈ [NodeKind.presentation, .calculation, .definition]) {p : String × NodeKind} (hp : p ∈ unitedTags) : p.1 = linkName k ↔ k = p.2 := by
  simp only [unitedTags, List.mem_cons, List.not_mem_nil, or_false] at hp hk
  rcases hp with rfl | rfl | rfl <;> rcases hk with rfl | rfl | rfl <;> decide

theorem united_not_label {p : String × NodeKind} (hp : p ∈ unitedTags) : p.1 ≠ "labelLink" := by
  simp only [unitedTags, List.mem_cons, List.not_mem_nil, or_false] at hp
  rcases hp with rfl | rfl | rfl <;> decide

/-- The links with a tag and a role are those of the networks of the class and role. -/
theorem has_network (hv : s.Valid dateOf float) {p : String × NodeKind} (hp : p ∈ unitedTags) {role : String} {up : List XNode} {link : XNode} :
    HasLink (s.write.map (·.root)) p.1 role up link ↔ up = [link, s.linkbase] ∧ ∃ n ∈ s.networks, n.kind = p.2 ∧ n.role = role ∧ link = writeNetwork s.scope n := by
  rw [has_link hv]
  refine and_congr_right (fun _ => ?_)
  constructor
  · rintro (⟨h, _⟩ | ⟨n, hn, h1, h2, h3⟩)
    · exact absurd h (united_not_label hp)
    · exact ⟨n, hn, (kind_iff (hv.networks n hn).kind hp).1 h1, h2.symm, h3⟩
  · rintro ⟨n, hn, h1, h2, h3⟩
    exact Or.inr ⟨n, hn, (kind_iff (hv.networks n hn).kind hp).2 h1, h2.symm, h3⟩

variable {str : XNode → String} {so : SetOrder} {steps : Nat}

theorem shows (hv : s.Valid dateOf float) {o : OpenedFiling} (ho : openXml dateOf float str so steps s.write = some (.ok o)) (h : ShowsDocuments dateOf s.write o) : ShowsStated dateOf s o := by
  have hobj : ∀ p ∈ unitedTags, ∀ role q, o.networks.Shows role p.2 q ↔ ∃ n ∈ s.networks, n.kind = p.2 ∧ n.role = role ∧ ∃ i ∈ n.objects, s.Names i q := by
    intro p hp role q
    rw [h.objects p hp role q, store_is hv]
    constructor
    · rintro ⟨up, link, l, h1, h2⟩
      obtain ⟨_, n, hn, g1, g2, rfl⟩ := (has_network hv hp).1 h1
      obtain ⟨i, hi, _, hq⟩ := (locates_network hv hn).1 h2
      exact ⟨n, hn, g1, g2, i, hi, hq⟩
    · rintro ⟨n, hn, g1, g2, i, hi, hq⟩
      exact ⟨_, _, _, (has_network hv hp).2 ⟨rfl, n, hn, g1, g2, rfl⟩, (locates_network hv hn).2 ⟨i, hi, rfl, hq⟩⟩
  have hcomp := h.components
  rw [declared_roles hv] at hcomp
  refine ⟨?_, ?_, ?_, hobj, ?_, ?_, ?_⟩
  · have := h.elements
    rw [declared hv, declarations] at this
    exact rel2_map _ s.element _ _ (fun e he x hx => declaredAs hv he hx) this
  · rw [h.facts, fact_elements, List.map_map, data_is hv, store_is hv]
    refine List.map_congr_left (fun f hf => ?_)
    exact factOf_write hv.report hf
  · intro q lab
    rw [h.labels q lab, store_is hv]
    constructor
    · rintro ⟨up, link, role, hl, l, m, hj, h1, h2⟩
      rcases ((has_link hv).1 hl).2 with ⟨_, _, rfl⟩ | ⟨n, _, hname, _⟩
      · obtain ⟨e, he, _, rfl, rfl⟩ := joined_label.1 hj
        obtain ⟨e', he', g1, g2⟩ := (locates_label hv).1 h1
        obtain ⟨lb, hlb, g3, g4⟩ := labelled_label.1 h2
        exact ⟨lb, hlb, ⟨e', he', by rw [← loc_inj g1, lab_inj g3], g2⟩, g4⟩
      · exact absurd hname.symm (linkName_unlabelled _).1
    · rintro ⟨lb, hlb, ⟨e, he, hi, hq⟩, rfl⟩
      refine ⟨_, s.labelLink, _, (has_link hv).2 ⟨rfl, Or.inl ⟨rfl, rfl, rfl⟩⟩, "loc_" ++ e.id, "lab_" ++ e.id, joined_label.2 ⟨e, he, ⟨lb, hlb, hi.symm⟩, rfl, rfl⟩,
        (locates_label hv).2 ⟨e, he, rfl, hq⟩, labelled_label.2 ⟨lb, hlb, by rw [hi], rfl⟩⟩
  · intro p hp role q q'
    rw [h.relations p hp role q q', store_is hv]
    constructor
    · rintro ⟨up, link, l, m, h1, hj, h2, h3⟩
      obtain ⟨_, n, hn, g1, g2, rfl⟩ := (has_network hv hp).1 h1
      obtain ⟨a, ha, rfl, rfl⟩ := (joined_network hn).1 hj
      obtain ⟨i, _, hi, hq⟩ := (locates_network hv hn).1 h2
      obtain ⟨j, _, hj, hq'⟩ := (locates_network hv hn).1 h3
      rw [← loc_inj hi] at hq
      rw [← loc_inj hj] at hq'
      exact ⟨n, hn, g1, g2, a, ha, hq, hq'⟩
    · rintro ⟨n, hn, g1, g2, a, ha, hq, hq'⟩
      obtain ⟨e1, e2⟩ := (hv.networks n hn).ends a ha
      exact ⟨_, _, _, _, (has_network hv hp).2 ⟨rfl, n, hn, g1, g2, rfl⟩, (joined_network hn).2 ⟨a, ha, rfl, rfl⟩, (locates_network hv hn).2 ⟨_, e1, rfl, hq⟩,
        (locates_network hv hn).2 ⟨_, e2, rfl, hq'⟩⟩
  · have := rel2_project (fun x : XNode => ((x.attr? "roleURI").getD "", ((linkChildren x "definition").head?.bind (·.text)).getD "")) (fun c : ComponentOf Network => (c.uri, c.info))
      (by rintro x c ⟨h1, h2, _⟩; rw [h1, h2]; rfl) hcomp
    rw [this, List.map_map]
    refine List.map_congr_left (fun r _ => ?_)
    show (r.uri, (textNode r.definition).getD "") = _
    rw [textNode_getD]
  · intro c hc p hp
    obtain ⟨x, _, hx⟩ := rel2_mem hcomp c hc
    rw [Option.isSome_iff_exists]
    have hread := (opened_reading (valid hv) ho).1
    constructor
    · rintro ⟨net, hnet⟩
      obtain ⟨g1, g2⟩ := (hx.networks p hp net).1 hnet
      obtain ⟨q, hq⟩ := network_shows hread (plain hv) hp g1 g2
      obtain ⟨n, hn, e1, e2, i, hi, _⟩ := (hobj p hp c.uri q).1 hq
      exact ⟨n, hn, e1, e2, List.ne_nil_of_mem hi⟩
    · rintro ⟨n, hn, e1, e2, hne⟩
      obtain ⟨i, hi⟩ := List.exists_mem_of_ne_nil _ hne
      obtain ⟨e, he, hid, _⟩ := (hv.networks n hn).objects i hi
      obtain ⟨net, g1, g2, _⟩ := (hobj p hp c.uri (s.name e)).2 ⟨n, hn, e1, e2, i, hi, e, he, hid, rfl⟩
      exact ⟨net, (hx.networks p hp net).2 ⟨g1, g2⟩⟩

theorem states_arc (hv : s.Valid dateOf float) {p : String × NodeKind} (hp : p ∈ unitedTags) {role : String} {q q' : QName} {P : XNode → Prop} {Q : StatedArc → Prop}
    (hPQ : ∀ n a, P (arcOf s n a) ↔ Q a) : StatesArc s.store (s.write.map (·.root)) p.1 role q q' P ↔ s.Relates p.2 role q q' Q := by
  constructor
  · rintro ⟨up, link, l, m, x, h1, hj, h2, h3, hx⟩
    obtain ⟨_, n, hn, g1, g2, rfl⟩ := (has_network hv hp).1 h1
    obtain ⟨a, ha, rfl, rfl, rfl⟩ := (arc_between hn).1 hj
    obtain ⟨i, _, hi, hq⟩ := (locates_network hv hn).1 h2
    obtain ⟨j, _, hj, hq'⟩ := (locates_network hv hn).1 h3
    rw [← loc_inj hi] at hq
    rw [← loc_inj hj] at hq'
    exact ⟨n, hn, g1, g2, a, ha, hq, hq', (hPQ n a).1 hx⟩
  · rintro ⟨n, hn, g1, g2, a, ha, hq, hq', hQ⟩
    obtain ⟨e1, e2⟩ := (hv.networks n hn).ends a ha
    exact ⟨_, _, _, _, _, (has_network hv hp).2 ⟨rfl, n, hn, g1, g2, rfl⟩, (arc_between hn).2 ⟨a, ha, rfl, rfl, rfl⟩, (locates_network hv hn).2 ⟨_, e1, rfl, hq⟩,
      (locates_network hv hn).2 ⟨_, e2, rfl, hq'⟩, (hPQ n a).2 hQ⟩

theorem rooted (hv : s.Valid dateOf float) {p : String × NodeKind} (hp : p ∈ unitedTags) {role : String} {up : List XNode} {link : XNode}
    (h : HasLink (s.write.map (·.root)) p.1 role up link) : Rooted s.store link :=
  ⟨((links_valid hv {}).valid _ _ _ _ h).acyclic, fun l m hj => (links_valid hv {}).sources p hp _ _ _ h l m hj⟩

theorem agree (hv : s.Valid dateOf float) (ha : ∀ n ∈ s.networks, n.Agrees) {p : String × NodeKind} (hp : p ∈ unitedTags) {role : String} {up : List XNode} {link : XNode}
    (h : HasLink (s.write.map (·.root)) p.1 role up link) : AgreeOn link "order" ∧ AgreeOn link "weight" ∧ AgreeOn link "preferredLabel" := by
  obtain ⟨_, n, hn, _, _, rfl⟩ := (has_network hv hp).1 h
  have key : ∀ l l' m x x', ArcBetween (writeNetwork s.scope n) l m x → ArcBetween (writeNetwork s.scope n) l' m x' →
      x.attr? "order" = x'.attr? "order" ∧ x.attr? "weight" = x'.attr? "weight" ∧ x.attr? "preferredLabel" = x'.attr? "preferredLabel" := by
    intro l l' m x x' h1 h2
    obtain ⟨a, g1, rfl, rfl, rfl⟩ := (arc_between hn).1 h1
    obtain ⟨a', g2, rfl, g3, rfl⟩ := (arc_between hn).1 h2
    rw [arc_order, arc_order, arc_weight, arc_weight, arc_preferred, arc_preferred]
    exact ha n hn a g1 a' g2 (loc_inj g3)
  exact ⟨fun l l' m x x' h1 h2 => (key l l' m x x' h1 h2).1, fun l l' m x x' h1 h2 => (key l l' m x x' h1 h2).2.1, fun l l' m x x' h1 h2 => (key l l' m x x' h1 h2).2.2⟩

theorem shows_arcs (hv : s.Valid dateOf float) (ha : ∀ n ∈ s.networks, n.Agrees) {o : OpenedFiling} (ho : openXml dateOf float str so steps s.write = some (.ok o)) : ShowsStatedArcs float s o := by
  have hread := (opened_reading (valid hv) ho).1
  rw [store_is hv] at hread
  have u1 : ("presentationLink", NodeKind.presentation) ∈ unitedTags := by simp [unitedTags]
  have u2 : ("calculationLink", NodeKind.calculation) ∈ unitedTags := by simp [unitedTags]
  refine ⟨?_, ?_, ?_⟩
  · intro role q q' w
    rw [C115_weights_partial hread (plain hv) (fun _ _ h => rooted hv u2 h) (fun _ _ h => (agree hv ha u2 h).2.1)]
    exact states_arc hv u2 (fun n a => by rw [arc_weight])
  · intro k hk role q q' v
    simp only [List.mem_cons, List.not_mem_nil, or_false] at hk
    rcases hk with rfl | rfl
    · rw [show NodeKind.presentation = LinkKind.presentation.nodeKind from rfl, C115_orders_partial hread (plain hv) (Or.inl rfl) (fun _ _ h => rooted hv u1 h) (fun _ _ h => (agree hv ha u1 h).1)]
      exact states_arc hv u1 (fun n a => by rw [arc_order])
    · rw [show NodeKind.calculation = LinkKind.calculation.nodeKind from rfl, C115_orders_partial hread (plain hv) (Or.inr rfl) (fun _ _ h => rooted hv u2 h) (fun _ _ h => (agree hv ha u2 h).1)]
      exact states_arc hv u2 (fun n a => by rw [arc_order])
  · intro role q q' v
    rw [C115_labels_partial hread (plain hv) (fun _ _ h => rooted hv u1 h) (fun _ _ h => (agree hv ha u1 h).2.2)]
    exact states_arc hv u1 (fun n a => by rw [arc_preferred])

end Written

/-- C127: whatever a filing is to say (report elements of all kinds, roles, labels, an instance with contexts, units and facts, and presentation, calculation and definition
networks), the documents that are written for it open without any report, and the opened filing shows exactly that. -/
theorem C127_roundtrip {s : StatedFiling} {dateOf : String → Option Date} {float : String → Option Rat} (str : XNode → String) (so : SetOrder) (hv : s.Valid dateOf float) :
    ∃ steps o, (∀ j, openXml dateOf float str so (steps + j) s.write = some (.ok o)) ∧ o.Silent ∧ ShowsStated dateOf s o := by
  obtain ⟨steps, o, h1, h2, h3⟩ := C105_opens (str := str) (so := so) (Written.valid hv)
  exact ⟨steps, o, h1, h2, Written.shows hv (h1 0) h3⟩

/-- C127, on relations: if relations to the same report element agree in each network, weights, orders and preferred labels are shown as they were to be said. -/
theorem C127_arcs_partial {s : StatedFiling} {dateOf : String → Option Date} {float : String → Option Rat} (str : XNode → String) (so : SetOrder) (hv : s.Valid dateOf float)
    (ha : ∀ n ∈ s.networks, n.Agrees) {steps : Nat} {o : OpenedFiling} (ho : openXml dateOf float str so steps s.write = some (.ok o)) : ShowsStatedArcs float s o :=
  Written.shows_arcs hv ha ho

end Brel
