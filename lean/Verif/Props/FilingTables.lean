import Verif.Spec.FilingTables
import Verif.Props.Rearranged
import Verif.Props.FactTable
import Verif.Props.InlineChecks
import Verif.Props.Rows

/-! C130: the tables of report elements, components and labels of an opened filing. -/

namespace Brel
open Spec

variable {ml : Bool} {langs : List String} {docs : List SchemaDoc} {els : SchemaState} {nets : ReadNetworks}

/-! ## Names of types -/

theorem typeName_after {t : String} {ns : NsMap} {q : QName} (h1 : '{' ∉ t.toList)
    (h2 : ':' ∉ t.toList ∨ ∃ p n, t = p ++ ":" ++ n ∧ p ≠ "" ∧ n ≠ "" ∧ ':' ∉ p.toList ∧ ':' ∉ n.toList) (hq : qnameFromStr t ns = .ok q) : AfterColon t q.localName := by
  have hc : matchClark t = none := by
    unfold matchClark
    cases ht : t.toList with
    | nil => rfl
    | cons a r =>
      have : a ≠ '{' := fun e => h1 (by rw [ht, e]; exact List.mem_cons_self)
      split
      · next h => cases h; exact absurd rfl this
      · rfl
  unfold qnameFromStr at hq
  rw [hc] at hq
  rw [if_neg (by simp)] at hq
  rcases h2 with h2 | ⟨p, n, rfl, hp, hn, hp', hn'⟩
  · have hm : matchColon t = none := by
      rw [matchColon_none_iff]
      rintro ⟨p, l, hpl, _⟩
      refine h2 ?_
      rw [hpl, String.toList_append, String.toList_append]
      simp
    rw [hm, if_neg (by simp)] at hq
    cases hq
    exact ⟨h2, .inl rfl⟩
  · have hm := (matchColon_iff (p ++ ":" ++ n) p n).2 ⟨rfl, hp, hn, hp', hn'⟩
    rw [hm, if_pos Option.isSome_some] at hq
    unfold qnameFromPrefixLocal at hq
    rw [hm] at hq
    cases hq
    exact ⟨hn', .inr ⟨p, rfl⟩⟩

/-! ## The report elements -/

theorem stated_element (hS : ValidSchemas docs) (hT : TypeNames docs) {d : Declaration} (hd : d ∈ schemaDeclarations docs) {e : SchemaElement} (he : DeclaredAs docs d e)
    (hL : ∀ q, StatedLabels docs q (nets.labelsOf q)) : StatedElement docs d (rowElement nets e) := by
  obtain ⟨e0, h0, hk, _, hc⟩ := he.made
  have hn := he.name
  obtain ⟨k1, k2, k3, k4, k5, k6, _⟩ := C43_kinds d.x d.name
  simp only [h0, Option.map_some, hk] at k1 k2 k3 k4 k5 k6
  have hcre := (C85_created d.x d.name).1 e0 h0
  have hl := hL d.name
  unfold rowElement
  cases hke : e.kind with
  | concept =>
    dsimp only
    obtain ⟨g1, g2, g3, _⟩ := k2.1 (by rw [hke])
    have := hcre.2.2.2
    rw [hk, hke, if_pos rfl] at this
    obtain ⟨c, e1, e2⟩ := this
    rw [← hc, e1, hn]
    refine .concept hl g1 g2 g3 ?_
    have : ({ ({ c with labels := nets.labelsOf d.name } : Concept) with labels := [] } : Concept) = c := by
      have := e2.labels
      cases c
      cases this
      rfl
    exact this ▸ e2
  | dimension =>
    dsimp only
    obtain ⟨g1, g2, g3, g4⟩ := k4.1 (by rw [hke])
    obtain ⟨hns, href⟩ := hS.dimensions d hd g4
    have ht := he.typed
    rw [hke, if_pos rfl] at ht
    obtain ⟨reports, ht⟩ := ht
    obtain ⟨t1, t2, _⟩ := C86_typed_partial docs d.doc d.x hns
    rw [hn]
    cases hr : d.x.domainRef with
    | none =>
      rw [t1 hr] at ht
      cases hty : e.typed with
      | none => exact .explicit hl g1 g2 g3 g4 hr
      | some q => rw [hty] at ht; cases ht
    | some ref =>
      obtain ⟨uri, i, target, x, t, rfl, u1, u2, u3, u4, u5⟩ := href ref hr
      have := (t2 uri i target hr u1 u2 u3).1 x u4
      rw [this, u5] at ht
      dsimp only at ht
      obtain ⟨q, hq⟩ := qnameFromStr_total t x.ns
      rw [hq] at ht
      have hty : e.typed = some q := by
        have := congrArg Prod.fst (Except.ok.inj ht)
        exact this.symm
      rw [hty]
      refine .typed hl g1 g2 g3 g4 ⟨uri, i, target, x, t, hr, u1, u2, u3, u4, u5, hq, ?_⟩
      have hdoc : target ∈ docs := by
        unfold RefersToDoc at u3
        split at u3
        · subst u3
          unfold schemaDeclarations at hd
          obtain ⟨d', hd', hm⟩ := List.mem_flatMap.1 hd
          split at hm
          · cases hm
          · obtain ⟨_, _, rfl⟩ := List.mem_map.1 hm
            exact hd'
        · obtain ⟨pre, post, rfl, _⟩ := u3
          simp
      obtain ⟨pre, post, hx, _⟩ := u4
      obtain ⟨v1, v2⟩ := hT target hdoc x (by rw [hx]; simp) t u5
      exact typeName_after v1 v2 hq
  | member =>
    dsimp only
    rw [hn]
    exact .member hl (k1.1 (by rw [hke]))
  | abstract =>
    dsimp only
    rw [hn]
    obtain ⟨g1, g2, g3, g4, g5⟩ := k6.1 (by rw [hke])
    exact .abstract hl g1 g2 g3 g4 g5
  | hypercube =>
    dsimp only
    rw [hn]
    obtain ⟨g1, g2, g3⟩ := k3.1 (by rw [hke])
    exact .hypercube hl g1 g2 g3
  | lineItems =>
    dsimp only
    rw [hn]
    obtain ⟨g1, g2, g3, g4, g5⟩ := k5.1 (by rw [hke])
    exact .lineItems hl g1 g2 g3 g4 g5

theorem Rel2.map_right {α β γ : Type} {R : α → β → Prop} {S : α → γ → Prop} {l : List α} {m : List β} (f : β → γ) (h : Rel2 R l m) (hi : ∀ a ∈ l, ∀ b, R a b → S a (f b)) :
    Rel2 S l (m.map f) := by
  induction h with
  | nil => exact .nil
  | cons hab _ ih => exact .cons (hi _ List.mem_cons_self _ hab) (ih (fun a ha => hi a (List.mem_cons_of_mem _ ha)))

theorem counting_sub {ds : List Declaration} : ∀ d ∈ counting ds, d ∈ ds := fun d hd => (List.mem_filter.1 (mem_of_firstByKey hd)).1

theorem stated_elements (hS : ValidSchemas docs) (hT : TypeNames docs) (hE : Rel2 (DeclaredAs docs) (counting (schemaDeclarations docs)) (els.byName.map (·.2)))
    (hL : ∀ q, StatedLabels docs q (nets.labelsOf q)) : Rel2 (StatedElement docs) (counting (schemaDeclarations docs)) (rowElements els nets) :=
  hE.map_right _ (fun d hd _ he => stated_element hS hT (counting_sub d hd) he hL)

theorem stated_plain {d : Declaration} {e : RowElement} (h : StatedElement docs d e) (hc : ∀ k ∈ conceptChecks d.x d.name, d.x.attr? "abstract" ≠ some "true" → groupHas d.x "item" → k.1 = true) :
    e.Plain := by
  cases h with
  | concept hl h1 h2 h3 h4 =>
    have g1 := hc _ (List.mem_cons_self) h2 h3
    have g2 := hc _ (List.mem_cons_of_mem _ List.mem_cons_self) h2 h3
    simp only [decide_eq_true_eq] at g1 g2
    have p := h4.period
    have b := h4.balance
    dsimp only at p b
    refine ⟨?_, fun b' hb' => ?_⟩
    · rw [p] at g1
      rcases g1 with g1 | g1 <;> (rw [Option.some.inj g1]; decide)
    · rw [b, hb'] at g2
      rcases g2 with g2 | g2 | g2
      · cases g2
      · rw [Option.some.inj g2]; decide
      · rw [Option.some.inj g2]; decide
  | explicit => intro q hq; cases hq
  | typed _ _ _ _ _ ht =>
    intro q hq
    cases hq
    obtain ⟨_, _, _, _, _, _, _, _, _, _, _, _, h⟩ := ht
    exact h.1
  | _ => trivial

theorem stated_labels {d : Declaration} {e : RowElement} (h : StatedElement docs d e) : StatedLabels docs d.name e.labels := by
  cases h <;> assumption

theorem rel2_trans {α β γ : Type} {R : α → β → Prop} {S : β → γ → Prop} {l : List α} {m : List β} {n : List γ} (h : Rel2 R l m) (k : Rel2 S m n) :
    Rel2 (fun a c => ∃ b, R a b ∧ S b c) l n := by
  induction h generalizing n with
  | nil => cases k; exact .nil
  | cons hab _ ih =>
    cases k with
    | cons hbc k => exact .cons ⟨_, hab, hbc⟩ (ih k)

theorem mapM_ok_of {α β : Type} (f : α → Except PyErr β) : ∀ l : List α, (∀ a ∈ l, ∃ b, f a = .ok b) → ∃ r, l.mapM f = .ok r
  | [], _ => ⟨[], rfl⟩
  | a :: l, h => by
    obtain ⟨b, hb⟩ := h a List.mem_cons_self
    obtain ⟨r, hr⟩ := mapM_ok_of f l (fun a ha => h a (List.mem_cons_of_mem _ ha))
    exact ⟨b :: r, by rw [List.mapM_cons, hb, hr]; rfl⟩

theorem hasLabelIn_iff {q : QName} {ls : List Label} (h : StatedLabels docs q ls) {lang : String} : HasLabelIn docs ml q lang ↔ ∃ x ∈ ls, languagesMatch ml lang x.language = true := by
  constructor
  · rintro ⟨lab, up, link, role, h1, h2, h3⟩
    exact ⟨lab, (h lab).2 ⟨up, link, role, h1, h2⟩, h3⟩
  · rintro ⟨lab, hm, h3⟩
    obtain ⟨up, link, role, h1, h2⟩ := (h lab).1 hm
    exact ⟨lab, up, link, role, h1, h2, h3⟩

theorem elements_core (hS : ValidSchemas docs) (hT : TypeNames docs) (hE : Rel2 (DeclaredAs docs) (counting (schemaDeclarations docs)) (els.byName.map (·.2)))
    (hL : ∀ q, StatedLabels docs q (nets.labelsOf q)) {l : Option String} (h : TextLanguage ml langs l) :
    ElementRows ml langs docs l (elementTable shippedTranslations ml true langs els nets) := by
  obtain ⟨title, t1, t2, t3, t4, _⟩ := C104_rows h
  have hst := stated_elements hS hT hE hL
  have hpl : ∀ d ∈ counting (schemaDeclarations docs), ∀ e, StatedElement docs d e → e.Plain := fun d hd e he =>
    stated_plain he (fun k hk h1 h2 => hS.concepts d (counting_sub d hd) h1 h2 k hk)
  refine ⟨title, t1, t2, ?_, ?_⟩
  · unfold elementTable generateRows
    rw [if_pos rfl]
    constructor
    · rintro ⟨rows, hr⟩ d hd
      have hr := (mapM_ok_iff _ _ _).1 hr
      obtain ⟨e, he, hde⟩ := hst.mem_left d hd
      obtain ⟨row, _, hrow⟩ := hr.mem_left e he
      obtain ⟨lang, hl, hx⟩ := (t4 e (hpl d hd e hde)).1 ⟨row, hrow⟩
      exact ⟨lang, hl, hx.imp_right (hasLabelIn_iff (stated_labels hde)).2⟩
    · intro ha
      refine mapM_ok_of _ _ (fun e he => ?_)
      obtain ⟨d, hd, hde⟩ := hst.mem_right e he
      obtain ⟨lang, hl, hx⟩ := ha d hd
      exact (t4 e (hpl d hd e hde)).2 ⟨lang, hl, hx.imp_right (hasLabelIn_iff (stated_labels hde)).1⟩
  · intro rows hr
    unfold elementTable generateRows at hr
    rw [if_pos rfl] at hr
    have hr := (mapM_ok_iff _ _ _).1 hr
    refine (rel2_trans hst hr).imp ?_
    rintro d hd row ⟨e, he, hrow⟩
    exact ⟨e, he, t3 e row (hpl d hd e he) hrow⟩

/-! ## Elements without a label -/

theorem elementRow_label {t : Translations} {e : RowElement} {row : Dict String Cell} (hne : langs ≠ []) (h : elementRow t ml langs e = .ok row) :
    ∃ s, getFromLabels ml e.labels (selectMainLabel e.labels).text langs = .ok s := by
  cases hg : getFromLabels ml e.labels (selectMainLabel e.labels).text langs with
  | ok s => exact ⟨s, rfl⟩
  | error x =>
    exfalso
    have fails : ∀ {α β : Type} {a : Except PyErr α} {f : α → Except PyErr β} {r : β}, (a >>= f) = .ok r → ∃ v, a = .ok v ∧ f v = .ok r := by
      intro α β a f r h
      cases a with
      | error y => cases h
      | ok v => exact ⟨v, rfl, h⟩
    unfold elementRow at h
    rw [if_neg hne] at h
    cases e with
    | concept c =>
      unfold conceptRow at h
      obtain ⟨_, _, h⟩ := fails h
      obtain ⟨_, _, h⟩ := fails h
      obtain ⟨_, h', _⟩ := fails h
      rw [show getFromLabels ml c.labels (selectMainLabel c.labels).text langs = .error x from hg] at h'
      cases h'
    | dimension n ls ty =>
      unfold dimensionRow at h
      obtain ⟨_, _, h⟩ := fails h
      obtain ⟨_, _, h⟩ := fails h
      obtain ⟨_, h', _⟩ := fails h
      rw [show getFromLabels ml ls (selectMainLabel ls).text langs = .error x from hg] at h'
      cases h'
    | plain k n ls =>
      unfold plainRow at h
      obtain ⟨_, _, h⟩ := fails h
      obtain ⟨_, _, h⟩ := fails h
      obtain ⟨_, _, h⟩ := fails h
      obtain ⟨_, _, h⟩ := fails h
      obtain ⟨_, h', _⟩ := fails h
      rw [show getFromLabels ml ls (selectMainLabel ls).text langs = .error x from hg] at h'
      cases h'

theorem unlabelled_core (hS : ValidSchemas docs) (hT : TypeNames docs) (hE : Rel2 (DeclaredAs docs) (counting (schemaDeclarations docs)) (els.byName.map (·.2)))
    (hL : ∀ q, StatedLabels docs q (nets.labelsOf q)) (t : Translations) (hne : langs ≠ []) {d : Declaration} (hd : d ∈ counting (schemaDeclarations docs)) (hu : Unlabelled ml langs docs d.name) :
    (∃ e, elementTable t ml true langs els nets = .error e) ∧ elementTable t ml false langs els nets = .ok [] := by
  have hst := stated_elements hS hT hE hL
  obtain ⟨e, he, hde⟩ := hst.mem_left d hd
  have bad : ∀ ls : List String, ls ≠ [] → (∀ l ∈ ls, l ∈ langs) → ∃ x, elementRow t ml ls e = .error x := by
    intro ls hls hsub
    cases hr : elementRow t ml ls e with
    | error x => exact ⟨x, rfl⟩
    | ok row =>
      exfalso
      obtain ⟨s, hs⟩ := elementRow_label hls hr
      rw [getFromLabels_fails] at hs
      · cases hs
      · intro l hl
        refine ⟨(hu l (hsub l hl)).1, fun x hx => ?_⟩
        cases hm : languagesMatch ml l x.language with
        | false => rfl
        | true => exact absurd ((hasLabelIn_iff (stated_labels hde)).2 ⟨x, hx, hm⟩) (hu l (hsub l hl)).2
  constructor
  · cases hr : elementTable t ml true langs els nets with
    | error x => exact ⟨x, rfl⟩
    | ok rows =>
      unfold elementTable generateRows at hr
      rw [if_pos rfl] at hr
      obtain ⟨row, _, hrow⟩ := ((mapM_ok_iff _ _ _).1 hr).mem_left e he
      obtain ⟨x, hx⟩ := bad langs hne (fun _ h => h)
      have hrow : elementRow t ml langs e = .ok row := hrow
      rw [hx] at hrow
      cases hrow
  · unfold elementTable generateRows
    rw [if_neg (by simp)]
    have key : ∀ ls : List String, (∀ l ∈ ls, l ∈ langs) → ls.foldl (fun data lang => renderLoop (fun e ls => elementRow t ml ls e) lang data (rowElements els nets)) [] = [] := by
      intro ls
      induction ls with
      | nil => intro _; rfl
      | cons l ls ih =>
        intro hs
        rw [List.foldl_cons, renderLoop_fails (rowElements els nets) [] ⟨e, he, bad [l] (by simp) (fun l' hl' => by rw [List.mem_singleton.1 hl']; exact hs l List.mem_cons_self)⟩]
        exact ih (fun l hl => hs l (List.mem_cons_of_mem _ hl))
    rw [key langs (fun _ h => h)]

/-! ## Components -/

theorem stated_component {x : XNode} {c : ComponentOf Network}
    (hO : ∀ p ∈ unitedTags, ∀ role q, nets.Shows role p.2 q ↔ ∃ up link l, HasLink (docs.map (·.root)) p.1 role up link ∧ Locates (taxonomyStore docs) link l q)
    (hN : ∀ p ∈ unitedTags, ∀ role, ∀ net ∈ nets.networks.store.getByType p.2, net.logicalOf role p.2 = true → ∃ q, nets.Shows role p.2 q) (hx : ShownComponent nets x c) :
    StatedComponent docs x (rowComponent c) := by
  have key : ∀ p ∈ unitedTags, (c.ofKind p.2).isSome = true ↔ LinksObjects docs p.1 c.uri := by
    intro p hp
    rw [Option.isSome_iff_exists]
    constructor
    · rintro ⟨net, hnet⟩
      obtain ⟨g1, g2⟩ := (hx.networks p hp net).1 hnet
      obtain ⟨q, hq⟩ := hN p hp c.uri net g1 g2
      obtain ⟨up, link, l, h1, h2⟩ := (hO p hp c.uri q).1 hq
      exact ⟨up, link, l, q, h1, h2⟩
    · rintro ⟨up, link, l, q, h1, h2⟩
      obtain ⟨net, g1, g2, _⟩ := (hO p hp c.uri q).2 ⟨up, link, l, h1, h2⟩
      exact ⟨net, (hx.networks p hp net).2 ⟨g1, g2⟩⟩
  exact ⟨hx.uri, hx.info, key ("presentationLink", .presentation) (by simp [unitedTags]), key ("calculationLink", .calculation) (by simp [unitedTags]),
    key ("definitionLink", .definition) (by simp [unitedTags])⟩

theorem components_core {cs : List (ComponentOf Network)}
    (hO : ∀ p ∈ unitedTags, ∀ role q, nets.Shows role p.2 q ↔ ∃ up link l, HasLink (docs.map (·.root)) p.1 role up link ∧ Locates (taxonomyStore docs) link l q)
    (hN : ∀ p ∈ unitedTags, ∀ role, ∀ net ∈ nets.networks.store.getByType p.2, net.logicalOf role p.2 = true → ∃ q, nets.Shows role p.2 q)
    (hC : Rel2 (ShownComponent nets) ((docs.map (·.root)).flatMap declaredRoles) cs) {l : Option String} (h : TextLanguage ml langs l) :
    ComponentRows ml langs docs l (componentTable shippedTranslations ml true langs cs) := by
  obtain ⟨title, t1, t2, _, _, t5⟩ := C104_rows h
  refine ⟨title, t1, t2, ?_⟩
  unfold componentTable generateRows
  rw [if_pos rfl]
  obtain ⟨rows, hr⟩ := mapM_ok_of (fun c => componentRow shippedTranslations ml langs c) (cs.map rowComponent) (fun c _ => by obtain ⟨row, h, _⟩ := t5 c; exact ⟨row, h⟩)
  refine ⟨rows, hr, ?_⟩
  have h1 : Rel2 (StatedComponent docs) ((docs.map (·.root)).flatMap declaredRoles) (cs.map rowComponent) := hC.map_right _ (fun x _ c hc => stated_component hO hN hc)
  refine (rel2_trans h1 ((mapM_ok_iff _ _ _).1 hr)).imp ?_
  rintro x _ row ⟨c, hc, hrow⟩
  obtain ⟨row', h2, h3⟩ := t5 c
  rw [hrow] at h2
  cases h2
  exact ⟨c, hc, h3⟩

/-! ## Labels -/

theorem labelRow_shows (q : QName) (lab : Label) : LabelRowShows q lab (labelRow lab q) := ⟨rfl, rfl, rfl, rfl, rfl⟩

theorem rel2_self_map {α β : Type} {R : α → β → Prop} (f : α → β) (h : ∀ a, R a (f a)) : ∀ l : List α, Rel2 R l (l.map f)
  | [] => .nil
  | a :: l => .cons (h a) (rel2_self_map f h l)

theorem labels_core (hE : Rel2 (DeclaredAs docs) (counting (schemaDeclarations docs)) (els.byName.map (·.2))) (hL : ∀ q, StatedLabels docs q (nets.labelsOf q)) :
    LabelRows docs (labelTable els nets) := by
  refine ⟨(els.byName.map (·.2)).map (fun e => (nets.labelsOf e.name).map (fun l => labelRow l e.name)), ?_, ?_⟩
  · unfold labelTable
    rw [List.flatMap_def]
  · refine hE.map_right _ (fun d _ e he => ⟨nets.labelsOf d.name, hL d.name, ?_⟩)
    rw [he.name]
    exact rel2_self_map _ (labelRow_shows d.name) _

/-! ## C130 -/

section Xml

variable {dateOf : String → Option Date} {float : String → Option Rat} {str : XNode → String} {so : SetOrder} {steps : Nat} {o : OpenedFiling}

/-- C130: the table of report elements of an opened XML filing has one row for every declaration that counts, in the order of the documents. The row shows what the attributes of the
declaration and the label links say. There is a table exactly if every element has a label in a preferred language or the default language is preferred. -/
theorem C130_elements_partial (hv : ValidFiling dateOf float docs) (hT : TypeNames docs) (ho : openXml dateOf float str so steps docs = some (.ok o)) {l : Option String}
    (h : TextLanguage ml langs l) : ElementRows ml langs docs l (elementTable shippedTranslations ml true langs o.elements o.networks) :=
  have hs := (opened_shows hv ho).2
  elements_core hv.schemas hT hs.elements (fun q => hs.labels q) h

/-- C130 fails for single elements: one element without a label in a preferred language is enough for the table to raise an exception, or, with one language at a time, to be empty. -/
theorem C130_elements_false (hv : ValidFiling dateOf float docs) (hT : TypeNames docs) (ho : openXml dateOf float str so steps docs = some (.ok o)) (t : Translations) (hne : langs ≠ [])
    {d : Declaration} (hd : d ∈ counting (schemaDeclarations docs)) (hu : Unlabelled ml langs docs d.name) :
    (∃ e, elementTable t ml true langs o.elements o.networks = .error e) ∧ elementTable t ml false langs o.elements o.networks = .ok [] :=
  have hs := (opened_shows hv ho).2
  unlabelled_core hv.schemas hT hs.elements (fun q => hs.labels q) t hne hd hu

/-- C130: the table of components has one row for every role declaration. It says that there is a network of a class exactly if a link of the role and the class locates a report element. -/
theorem C130_components (hv : ValidFiling dateOf float docs) (ho : openXml dateOf float str so steps docs = some (.ok o)) {l : Option String} (h : TextLanguage ml langs l) :
    ComponentRows ml langs docs l (componentTable shippedTranslations ml true langs o.components) :=
  have hs := (opened_shows hv ho).2
  components_core hs.objects (fun _ hp _ _ hn hl => network_shows (opened_reading hv ho).1 hv.links.plain hp hn hl) hs.components h

/-- C130: the table of labels consists of the labels that the label links state, element by element. -/
theorem C130_labels (hv : ValidFiling dateOf float docs) (ho : openXml dateOf float str so steps docs = some (.ok o)) : LabelRows docs (labelTable o.elements o.networks) :=
  have hs := (opened_shows hv ho).2
  labels_core hs.elements (fun q => hs.labels q)

end Xml

section Inline

variable {dateOf : String → Option Date} {dig : Char → Option Nat} {flt : String → Option Bool} {validUri : String → Bool} {float : String → Option Rat} {str : XNode → String} {so : SetOrder}
  {fuel : Nat} {fdocs : List FilingDoc}

/-- C130 for inline filings. -/
theorem C130_inline_partial (hv : ValidInlineFiling dateOf dig flt validUri float fdocs) (hfuel : (inlineConts (inlineDocs fdocs)).length < fuel) (hT : TypeNames (fdocs.map (·.doc))) :
    ∃ steps o, (∀ j, openXhtml dateOf dig flt validUri float str so fuel (steps + j) fdocs = some (.ok o)) ∧ LabelRows (fdocs.map (·.doc)) (labelTable o.elements o.networks) ∧
      ∀ ml langs l, TextLanguage ml langs l → ElementRows ml langs (fdocs.map (·.doc)) l (elementTable shippedTranslations ml true langs o.elements o.networks) ∧
        ComponentRows ml langs (fdocs.map (·.doc)) l (componentTable shippedTranslations ml true langs o.components) := by
  have hroots : (fdocs.map (·.doc)).map (·.root) = fdocs.map (·.doc.root) := by rw [List.map_map]; rfl
  obtain ⟨steps, o, ho, _, hs⟩ := C110_opens_partial (str := str) (so := so) hv hfuel
  obtain ⟨_, hl, hr, _⟩ := opened_inline hv hfuel (ho 0)
  have hL : ∀ q, StatedLabels (fdocs.map (·.doc)) q (o.networks.labelsOf q) := by
    intro q lab
    rw [hroots]
    exact hs.labels q lab
  have hO := hs.objects
  have hC := hs.components
  rw [← hroots] at hO hC
  refine ⟨steps, o, ho, labels_core hs.elements hL, fun ml langs l h => ⟨elements_core hv.schemas hT hs.elements hL h, components_core hO ?_ hC h⟩⟩
  exact fun _ hp _ _ hn hl' => network_shows hr hl.plain hp hn hl'

end Inline

end Brel
