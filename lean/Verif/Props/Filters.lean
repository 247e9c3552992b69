import Verif.Spec.Filters
import Verif.Props.TableNodes
import Verif.Props.NonFraction

/-! C129: filters of table link bases. -/

namespace Brel
open Spec

theorem inFilterNs_2014 (k n : String) : inFilterNs "2014" k n = filterName k n := by
  unfold inFilterNs filterName
  rw [show "{http://xbrl.org/" ++ "2014" ++ "/filter/" = "{http://xbrl.org/2014/filter/" from by decide]

theorem acceptedExpr_eq (g : XNode) : acceptedExpr g = if g.text = some (filterName "concept" "qnameExpression") then g.text else none := by
  unfold acceptedExpr
  rw [inFilterNs_2014]

theorem conceptFilterChildren_iff : ∀ (cs : List XNode) (acc r : List QName × List String), conceptFilterChildren acc cs = .ok (some r) ↔
    ∃ qs es, ConceptEntries acceptedExpr "2014" cs qs es ∧ r = (acc.1 ++ qs, acc.2 ++ es) := by
  intro cs
  induction cs with
  | nil =>
    intro acc r
    constructor
    · intro h; cases h; exact ⟨[], [], .nil, by simp⟩
    · rintro ⟨qs, es, h, rfl⟩; cases h; simp [conceptFilterChildren]
  | cons c cs ih =>
    intro acc r
    unfold conceptFilterChildren
    by_cases hc : c.tag = some (filterName "concept" "concept")
    · rw [if_neg (by simpa using hc)]
      match hch : c.children with
      | [] =>
        simp only [List.length_nil, conceptFilterEntries, bind, Except.bind]
        rw [if_neg (by decide), ih]
        constructor
        · rintro ⟨qs, es, h, hr⟩; exact ⟨qs, es, .empty hc hch h, hr⟩
        · rintro ⟨qs, es, h, hr⟩
          cases h with
          | empty _ _ h => exact ⟨_, _, h, hr⟩
          | name _ h _ _ _ => rw [hch] at h; cases h
          | expression _ h _ _ _ => rw [hch] at h; cases h
      | [g] =>
        rw [if_neg (by simp)]
        simp only [conceptFilterEntries, conceptFilterEntry]
        by_cases hq : g.tag = some (filterName "concept" "qname")
        · obtain ⟨q, hn⟩ := qnameFromStr_total (g.text.getD "") g.ns
          rw [if_pos hq, hn]
          simp only [bind, Except.bind, pure, Except.pure]
          rw [ih]
          constructor
          · rintro ⟨qs, es, h, rfl⟩; exact ⟨q :: qs, es, .name hc hch hq hn h, by simp⟩
          · rintro ⟨qs, es, h, rfl⟩
            cases h with
            | empty _ h _ => rw [hch] at h; cases h
            | name _ h _ hn' h' =>
              rw [hch] at h; cases h
              rw [hn] at hn'; cases hn'
              exact ⟨_, _, h', by simp⟩
            | expression _ h hne _ _ => rw [hch] at h; cases h; exact absurd hq hne
        · rw [if_neg hq]
          by_cases ht : g.text = some (filterName "concept" "qnameExpression")
          · have he : acceptedExpr g = some (filterName "concept" "qnameExpression") := by rw [acceptedExpr_eq, if_pos ht]; exact ht
            rw [if_pos ht]
            simp only [bind, Except.bind]
            rw [ih, ht]
            constructor
            · rintro ⟨qs, es, h, rfl⟩; exact ⟨qs, _ :: es, .expression hc hch hq he h, by simp⟩
            · rintro ⟨qs, es, h, rfl⟩
              cases h with
              | empty _ h _ => rw [hch] at h; cases h
              | name _ h ht' _ _ => rw [hch] at h; cases h; exact absurd ht' hq
              | expression _ h _ he' h' =>
                rw [hch] at h; cases h
                rw [he] at he'; cases he'
                exact ⟨_, _, h', by simp⟩
          · rw [if_neg ht]
            simp only [bind, Except.bind, pure, Except.pure]
            constructor
            · intro h; cases h
            · rintro ⟨qs, es, h, _⟩
              cases h with
              | empty _ h _ => rw [hch] at h; cases h
              | name _ h ht' _ _ => rw [hch] at h; cases h; exact absurd ht' hq
              | expression _ h _ he' _ =>
                rw [hch] at h; cases h
                rw [acceptedExpr_eq, if_neg ht] at he'; cases he'
      | g :: g' :: gs =>
        rw [if_pos (by simp)]
        constructor
        · intro h; cases h
        · rintro ⟨qs, es, h, _⟩
          cases h with
          | empty _ h _ => rw [hch] at h; cases h
          | name _ h _ _ _ => rw [hch] at h; cases h
          | expression _ h _ _ _ => rw [hch] at h; cases h
    · rw [if_pos hc]
      constructor
      · intro h; cases h
      · rintro ⟨qs, es, h, _⟩
        cases h with
        | empty h _ _ => exact absurd h hc
        | name h _ _ _ _ => exact absurd h hc
        | expression h _ _ _ _ => exact absurd h hc

/-- C129: which filters for names of concepts are read, and what they contain: the names in the order of the document. -/
theorem C129_concept_partial {x : XNode} (h : x.tag = some (inFilterNs "2014" "concept" "conceptName")) (f : ParsedFilter) : parseFilterElement x = .ok (some f) ↔
    ∃ qs es, ConceptEntries acceptedExpr "2014" x.children qs es ∧ f = { label := x.attr? "label", id := x.attr? "id", body := .conceptName qs es } := by
  rw [inFilterNs_2014] at h
  unfold parseFilterElement parseConceptNameFilter
  rw [if_pos h]
  cases hc : conceptFilterChildren ([], []) x.children with
  | error e =>
    constructor
    · intro h; cases h
    · rintro ⟨qs, es, h, _⟩
      have := (conceptFilterChildren_iff x.children ([], []) _).2 ⟨qs, es, h, rfl⟩
      rw [hc] at this; cases this
  | ok r =>
    cases r with
    | none =>
      constructor
      · intro h; cases h
      · rintro ⟨qs, es, h, _⟩
        have := (conceptFilterChildren_iff x.children ([], []) _).2 ⟨qs, es, h, rfl⟩
        rw [hc] at this; cases this
    | some r =>
      obtain ⟨qs, es, h, rfl⟩ := (conceptFilterChildren_iff x.children ([], []) r).1 hc
      constructor
      · intro h'; cases h'; exact ⟨qs, es, h, rfl⟩
      · rintro ⟨qs', es', h', rfl⟩
        have := (conceptFilterChildren_iff x.children ([], []) _).2 ⟨qs', es', h', rfl⟩
        rw [hc] at this
        cases this
        rfl

/-- C129 fails: an expression, written as specified, makes the whole filter disappear (unless the expression is the name of its own element). -/
theorem C129_expression_false {x c g : XNode} (h : x.tag = some (inFilterNs "2014" "concept" "conceptName")) (hc : c ∈ x.children) (hg : g ∈ c.children)
    (ht : g.tag = some (inFilterNs "2014" "concept" "qnameExpression")) (hn : g.text ≠ g.tag) (f : ParsedFilter) : parseFilterElement x ≠ .ok (some f) := by
  intro hp
  obtain ⟨qs, es, hs, hf⟩ := (C129_concept_partial h f).1 hp
  clear h hp hf
  generalize x.children = cs at *
  have hne : acceptedExpr g = none := by
    unfold acceptedExpr
    rw [if_neg (fun h => hn (h.trans ht.symm))]
  induction hs with
  | nil => cases hc
  | empty _ h _ ih =>
    rcases List.mem_cons.1 hc with rfl | hc
    · rw [h] at hg; cases hg
    · exact ih hc
  | name _ h ht' _ _ ih =>
    rcases List.mem_cons.1 hc with rfl | hc
    · rw [h, List.mem_singleton] at hg
      subst hg
      rw [ht] at ht'
      exact absurd (Option.some.inj ht') (by decide)
    · exact ih hc
  | expression _ h _ he _ ih =>
    rcases List.mem_cons.1 hc with rfl | hc
    · rw [h, List.mem_singleton] at hg
      subst hg
      rw [hne] at he
      cases he
    · exact ih hc

theorem parseFilterDimension_none (x : XNode) : parseFilterDimension x = .ok none := by
  unfold parseFilterDimension
  split
  · rfl
  · rename_i h
    have : x.children = [] := List.length_eq_zero_iff.1 (by omega)
    rw [this]
    rfl

theorem explicitParts_none : ∀ cs : List XNode, explicitParts none cs = .ok none := by
  intro cs
  induction cs with
  | nil => rfl
  | cons c cs ih =>
    unfold explicitParts
    rw [parseFilterDimension_none, ih]
    split
    · rfl
    · split <;> rfl

/-- C129 fails for dimensions: no filter for a dimension is ever read, whatever it contains. -/
theorem C129_dimension_false {x : XNode} (h : x.tag = some (inFilterNs "2014" "dimension" "explicitDimension") ∨ x.tag = some (inFilterNs "2014" "dimension" "typedDimension")) :
    parseFilterElement x = .ok none := by
  rw [inFilterNs_2014, inFilterNs_2014] at h
  unfold parseFilterElement
  rcases h with h | h
  · rw [if_neg (by rw [h]; decide +kernel), if_pos h]
    unfold parseExplicitDimensionFilter
    rw [explicitParts_none]
    rfl
  · rw [if_neg (by rw [h]; decide +kernel), if_neg (by rw [h]; decide +kernel), if_pos h]
    unfold parseTypedDimensionFilter
    split
    · rfl
    · rw [parseFilterDimension_none]
      rfl

/-- C129: filters for periods. -/
theorem C129_period {x : XNode} (h : x.tag = some (inFilterNs "2014" "period" "period")) (r : Option ParsedFilter) : parseFilterElement x = .ok r ↔
    (∃ t, x.attr? "test" = some t ∧ r = some { label := x.attr? "label", id := x.attr? "id", body := .period t }) ∨ (x.attr? "test" = none ∧ r = none) := by
  rw [inFilterNs_2014] at h
  unfold parseFilterElement parsePeriodFilter
  rw [if_neg (by rw [h]; decide +kernel), if_neg (by rw [h]; decide +kernel), if_neg (by rw [h]; decide +kernel), if_pos h]
  cases ha : x.attr? "test" with
  | none => simp [eq_comm]
  | some t => simp [eq_comm]

/-- The elements for a point in time. -/
def dateTimeNames : List (String × DateTimeKind) := [("periodStart", .start), ("periodEnd", .finish), ("periodInstant", .instant)]

/-- C129: filters for the start, the end and the instant of a period. A date is needed, a time is not. -/
theorem C129_date {x : XNode} {n : String} {k : DateTimeKind} (hk : (n, k) ∈ dateTimeNames) (h : x.tag = some (inFilterNs "2014" "period" n)) (r : Option ParsedFilter) :
    parseFilterElement x = .ok r ↔ (∃ d, x.attr? "date" = some d ∧ d ≠ "" ∧ r = some { label := x.attr? "label", id := x.attr? "id", body := .dateTime k d (x.attr? "time") }) ∨
      ((x.attr? "date" = none ∨ x.attr? "date" = some "") ∧ r = none) := by
  rw [inFilterNs_2014] at h
  have key : parseFilterElement x = .ok (parseDateTimeFilter k x) := by
    unfold parseFilterElement
    simp only [dateTimeNames, List.mem_cons, Prod.mk.injEq, List.not_mem_nil, or_false] at hk
    rcases hk with ⟨rfl, rfl⟩ | ⟨rfl, rfl⟩ | ⟨rfl, rfl⟩
    · rw [if_neg (by rw [h]; decide +kernel), if_neg (by rw [h]; decide +kernel), if_neg (by rw [h]; decide +kernel), if_neg (by rw [h]; decide +kernel), if_pos h]
    · rw [if_neg (by rw [h]; decide +kernel), if_neg (by rw [h]; decide +kernel), if_neg (by rw [h]; decide +kernel), if_neg (by rw [h]; decide +kernel), if_neg (by rw [h]; decide +kernel), if_pos h]
    · rw [if_neg (by rw [h]; decide +kernel), if_neg (by rw [h]; decide +kernel), if_neg (by rw [h]; decide +kernel), if_neg (by rw [h]; decide +kernel), if_neg (by rw [h]; decide +kernel), if_neg (by rw [h]; decide +kernel), if_pos h]
  rw [key]
  unfold parseDateTimeFilter
  cases ha : x.attr? "date" with
  | none => simp [truthy, eq_comm]
  | some d =>
    rw [truthy_some]
    by_cases hd : d = ""
    · subst hd; simp [eq_comm]
    · rw [if_neg hd]; simp [hd, eq_comm]

theorem notFilter {a k n p m : String} (ha : a.toList.length = 4) (hne : a.toList ≠ "2014".toList) : inFilterNs a k n ≠ inFilterNs "2014" p m := by
  intro ht
  have h1 : ("{http://xbrl.org/".toList ++ (a.toList ++ ("/filter/".toList ++ (k.toList ++ ("}".toList ++ n.toList))))) = ("{http://xbrl.org/".toList ++ ("2014".toList ++ ("/filter/".toList ++ (p.toList ++ ("}".toList ++ m.toList))))) := by
    have := congrArg String.toList ht
    unfold inFilterNs at this
    rw [String.toList_append, String.toList_append, String.toList_append, String.toList_append, String.toList_append, String.toList_append, String.toList_append, String.toList_append, String.toList_append, String.toList_append, List.append_assoc, List.append_assoc, List.append_assoc, List.append_assoc, List.append_assoc, List.append_assoc, List.append_assoc, List.append_assoc] at this
    exact this
  have h2 := List.append_cancel_left h1
  exact hne (List.append_inj_left h2 (ha.trans rfl))

/-- C129 fails: a filter in the name spaces of the specifications is not read. -/
theorem C129_specified_false {x : XNode} {kind n : String} (h : x.tag = some (inFilterNs "2008" kind n)) : parseFilterElement x = .ok none := by
  have no : ∀ p m, x.tag ≠ some (filterName p m) := by
    intro p m ht
    rw [h, ← inFilterNs_2014] at ht
    exact notFilter (a := "2008") (by decide) (by decide) (Option.some.inj ht)
  unfold parseFilterElement
  rw [if_neg (no _ _), if_neg (no _ _), if_neg (no _ _), if_neg (no _ _), if_neg (no _ _), if_neg (no _ _), if_neg (no _ _), if_neg (no _ _)]

/-- C129 fails: filters have no label unless they have an attribute `label` without a name space; the attribute by which arcs refer to them is not read. -/
theorem C129_label_false {x : XNode} {f : ParsedFilter} (hl : x.attr? "label" = none) (h : parseFilterElement x = .ok (some f)) : f.label = none := by
  unfold parseFilterElement at h
  split at h
  · unfold parseConceptNameFilter at h
    cases hc : conceptFilterChildren ([], []) x.children with
    | error e => rw [hc] at h; cases h
    | ok r =>
      rw [hc] at h
      cases r with
      | none => cases h
      | some r => cases h; exact hl
  split at h
  · unfold parseExplicitDimensionFilter at h
    rw [explicitParts_none] at h
    cases h
  split at h
  · unfold parseTypedDimensionFilter at h
    split at h
    · cases h
    · rw [parseFilterDimension_none] at h; cases h
  split at h
  · unfold parsePeriodFilter at h
    cases ha : x.attr? "test" with
    | none => rw [ha] at h; cases h
    | some t => rw [ha] at h; cases h; exact hl
  have date : ∀ k, (Except.ok (parseDateTimeFilter k x) : Except PyErr _) = .ok (some f) → f.label = none := by
    intro k hk
    unfold parseDateTimeFilter at hk
    cases ha : truthy (x.attr? "date") with
    | none => rw [ha] at hk; cases hk
    | some t => rw [ha] at hk; cases hk; exact hl
  split at h
  · exact date _ h
  split at h
  · exact date _ h
  split at h
  · exact date _ h
  split at h
  · cases h; exact hl
  · cases h

/-- C129: the filter for the period that never ends. -/
theorem C129_forever {x : XNode} (h : x.tag = some (inFilterNs "2014" "period" "forever")) : parseFilterElement x = .ok (some { label := x.attr? "label", id := x.attr? "id", body := .forever }) := by
  rw [inFilterNs_2014] at h
  unfold parseFilterElement
  rw [if_neg (by rw [h]; decide +kernel), if_neg (by rw [h]; decide +kernel), if_neg (by rw [h]; decide +kernel), if_neg (by rw [h]; decide +kernel), if_neg (by rw [h]; decide +kernel),
    if_neg (by rw [h]; decide +kernel), if_neg (by rw [h]; decide +kernel), if_pos h]
  rfl

/-! ## Tables -/

/-- No filter is stored, and no table has one. -/
def TableModel.Unfiltered (m : TableModel) : Prop := m.filters = [] ∧ ∀ l t, m.tables.get? l = some t → t.filters = []

theorem get?_set_unfiltered {d : Dict String TableDef} {k : String} {v : TableDef} (hd : ∀ l t, d.get? l = some t → t.filters = []) (hv : v.filters = []) :
    ∀ l t, (d.set k v).get? l = some t → t.filters = [] := by
  intro l t h
  rw [Dict.get?_set] at h
  split at h
  · cases h; exact hv
  · exact hd l t h

theorem addResource_unfiltered {dig : Char → Option Nat} {env : TableEnv} {role : String} {m m' : TableModel} {x : XNode} (hx : ∀ t, x.tag = some t → LxmlTag t) (hm : m.Unfiltered)
    (h : addResource dig env role m x = .ok m') : m'.Unfiltered := by
  have node : ∀ n, (m.addNode n).Unfiltered := by
    intro n
    cases n with
    | none => exact hm
    | some n => exact hm
  unfold addResource at h
  split at h
  · unfold parseTable at h
    cases ho : parseOrder x with
    | error e => rw [ho] at h; cases h
    | ok o =>
      rw [ho] at h
      cases h
      refine ⟨hm.1, ?_⟩
      show ∀ l t, (addUnique _ _ m.tables).get? l = some t → t.filters = []
      unfold addUnique
      split
      · exact hm.2
      · split
        · exact hm.2
        · exact get?_set_unfiltered hm.2 rfl
  split at h
  · cases ho : parseBreakdown x with
    | error e => rw [ho] at h; cases h
    | ok o => rw [ho] at h; cases h; exact hm
  split at h
  · cases ho : parseRuleNode x with
    | error e => rw [ho] at h; cases h
    | ok o => rw [ho] at h; cases h; exact node _
  split at h
  · cases ho : parseDimensionNode dig env x with
    | error e => rw [ho] at h; cases h
    | ok o => rw [ho] at h; cases h; exact node _
  split at h
  · cases ho : parseDimensionNode dig env x with
    | error e => rw [ho] at h; cases h
    | ok o => rw [ho] at h; cases h; exact node _
  split at h
  · cases ho : parseAspectNode env x with
    | error e => rw [ho] at h; cases h
    | ok o => rw [ho] at h; cases h; exact node _
  · cases ht : x.tag with
    | none => rw [ht] at h; cases h
    | some t =>
      rw [ht] at h
      simp only [lxmlTag_no_filter (hx t ht), Bool.false_eq_true, if_false] at h
      cases h
      exact hm

theorem addArc_unfiltered {dig : Char → Option Nat} {m m' : TableModel} {x : XNode} (hm : m.Unfiltered) (h : addArc dig m x = .ok m') : m'.Unfiltered := by
  unfold addArc at h
  split at h
  · unfold tableArc at h
    split at h
    · cases h; exact hm
    · split at h
      · rename_i ht _
        simp only at h
        split at h
        · cases ho : arcOrder dig x with
          | error e => rw [ho] at h; cases h
          | ok o =>
            rw [ho] at h
            cases h
            refine ⟨hm.1, get?_set_unfiltered hm.2 ?_⟩
            have e := hm.2 _ _ ht
            unfold TableDef.add
            split
            · exact e
            · split
              · exact e
              · exact e
        · cases h
      · cases h; exact hm
  split at h
  · unfold rootArc at h
    split at h
    · cases h; exact hm
    · split at h
      · cases ho : arcOrder dig x with
        | error e => rw [ho] at h; cases h
        | ok o => rw [ho] at h; cases h; exact hm
      · cases h; exact hm
  split at h
  · unfold subtreeArc at h
    split at h
    · cases h; exact hm
    · split at h
      · split at h
        · cases h; exact hm
        · cases ho : arcOrder dig x with
          | error e => rw [ho] at h; cases h
          | ok o => rw [ho] at h; cases h; exact hm
      · cases h; exact hm
  split at h
  · cases h
    unfold filterArc
    split
    · exact hm
    · split
      · rename_i hf
        rw [hm.1] at hf
        cases hf
      · exact hm
  · cases h; exact hm

theorem foldlM_unfiltered {α β : Type} (P : β → Prop) (f : β → α → Except PyErr β) : ∀ (l : List α) (b b' : β), (∀ a ∈ l, ∀ b b', P b → f b a = .ok b' → P b') → P b → l.foldlM f b = .ok b' → P b' := by
  intro l
  induction l with
  | nil => intro b b' _ hb h; cases h; exact hb
  | cons a l ih =>
    intro b b' hf hb h
    rw [List.foldlM_cons] at h
    cases ha : f b a with
    | error e => rw [ha] at h; cases h
    | ok c =>
      rw [ha] at h
      exact ih c b' (fun a' m => hf a' (List.mem_cons_of_mem _ m)) (hf a List.mem_cons_self b c hb ha) h

theorem propagateBreakdown_unfiltered {k : Nat} {m m' : TableModel} {l : String} {o : PCOrder} (hm : m.Unfiltered) (h : propagateBreakdown k m l o = .ok m') : m'.Unfiltered := by
  unfold propagateBreakdown at h
  cases hb : m.breakdowns.get? l with
  | none => rw [hb] at h; cases h; exact hm
  | some b =>
    rw [hb] at h
    simp only [bind, Except.bind, pure, Except.pure] at h
    split at h
    · cases h
    · cases h; exact hm

theorem propagateTable_unfiltered {k : Nat} {m m' : TableModel} {l : String} (hm : m.Unfiltered) (h : propagateTable k m l = .ok m') : m'.Unfiltered := by
  unfold propagateTable at h
  cases ht : m.tables.get? l with
  | none => rw [ht] at h; cases h; exact hm
  | some t =>
    rw [ht] at h
    refine foldlM_unfiltered TableModel.Unfiltered _ _ _ _ (fun a _ b b' hb hf => propagateBreakdown_unfiltered hb hf) ?_ h
    have e := hm.2 _ _ ht
    exact ⟨hm.1, get?_set_unfiltered hm.2 e⟩

/-- C129 fails for tables: whatever the link says, and whatever is read as a filter, no table has a filter. -/
theorem C129_tables_false {dig : Char → Option Nat} {env : TableEnv} {k : Nat} {x : XNode} {m : TableModel} (hx : ∀ e ∈ x.children, ∀ t, e.tag = some t → LxmlTag t)
    (h : parseTableLinkbase dig env k x = .ok m) : m.filters = [] ∧ ∀ l t, m.tables.get? l = some t → t.filters = [] := by
  unfold parseTableLinkbase readTableLinkbase at h
  simp only [bind, Except.bind] at h
  cases h1 : x.children.foldlM (addResource dig env ((x.attr? (xlinkName "role")).getD "")) {} with
  | error e => rw [h1] at h; cases h
  | ok m1 =>
    rw [h1] at h
    simp only at h
    have u1 : m1.Unfiltered := foldlM_unfiltered TableModel.Unfiltered _ _ _ _ (fun a ha b b' hb hf => addResource_unfiltered (hx a ha) hb hf) ⟨rfl, by intro l t h; cases h⟩ h1
    cases h2 : x.children.foldlM (addArc dig) m1 with
    | error e => rw [h2] at h; cases h
    | ok m2 =>
      rw [h2] at h
      simp only at h
      have u2 : m2.Unfiltered := foldlM_unfiltered TableModel.Unfiltered _ _ _ _ (fun a _ b b' hb hf => addArc_unfiltered hb hf) u1 h2
      exact foldlM_unfiltered TableModel.Unfiltered _ _ _ _ (fun a _ b b' hb hf => propagateTable_unfiltered hb hf) u2 h

namespace FilterExample

def el (kind n : String) (attrs : Dict String String) (children : List XNode := []) (text : Option String := none) : XNode :=
  .mk (some (inFilterNs "2014" kind n)) attrs text [(some "a", "http://a")] children

/-- Two names and a child that says nothing. -/
def names : XNode := el "concept" "conceptName" [("label", "f"), ("id", "i")]
  [el "concept" "concept" [] [el "concept" "qname" [] [] (some "a:b")], el "concept" "concept" [], el "concept" "concept" [] [el "concept" "qname" [] [] (some "a:c")]]

def nameOf (s : String) : QName := { uri := "http://a", pfx := "a", localName := s }

example : parseFilterElement names = .ok (some { label := some "f", id := some "i", body := .conceptName [nameOf "b", nameOf "c"] [] }) :=
  (C129_concept_partial rfl _).2 ⟨_, _, .name rfl rfl rfl (by decide +kernel) (.empty rfl rfl (.name rfl rfl rfl (by decide +kernel) .nil)), rfl⟩

/-- An expression beside a name. -/
def expression : XNode := el "concept" "conceptName" []
  [el "concept" "concept" [] [el "concept" "qname" [] [] (some "a:b")], el "concept" "concept" [] [el "concept" "qnameExpression" [] [] (some "QName('http://a', 'c')")]]

example (f : ParsedFilter) : parseFilterElement expression ≠ .ok (some f) :=
  C129_expression_false (c := el "concept" "concept" [] [el "concept" "qnameExpression" [] [] (some "QName('http://a', 'c')")])
    (g := el "concept" "qnameExpression" [] [] (some "QName('http://a', 'c')")) rfl (by simp [expression, el, XNode.children]) (by simp [el, XNode.children]) rfl (by decide +kernel) f

/-- A dimension with its member. -/
def dimension : XNode := el "dimension" "explicitDimension" [] [el "dimension" "dimension" [] [el "dimension" "qname" [] [] (some "a:d")],
  el "dimension" "member" [] [el "dimension" "qname" [] [] (some "a:m"), el "dimension" "axis" [] [] (some "child")]]

example : parseFilterElement dimension = .ok none := C129_dimension_false (.inl rfl)

/-- The member itself is read. -/
example : parseFilterMember (el "dimension" "member" [] [el "dimension" "qname" [] [] (some "a:m"), el "dimension" "axis" [] [] (some "child")]) =
    .ok (some { member := .name (nameOf "m"), axis := .child }) := by decide +kernel

example : parseFilterElement (el "period" "periodEnd" [("date", "xs:date('2020-01-01')")]) = .ok (some { label := none, id := none, body := .dateTime .finish "xs:date('2020-01-01')" none }) :=
  (C129_date (n := "periodEnd") (by decide) rfl _).2 (.inl ⟨_, rfl, by decide, rfl⟩)

example : parseFilterElement (el "period" "period" [("test", "true()"), (TableExample.xl "label", "f")]) = .ok (some { label := none, id := none, body := .period "true()" }) :=
  (C129_period rfl _).2 (.inl ⟨_, rfl, rfl⟩)

/-- The link of `C93_filters_false` with the parser of filters. -/
def env : TableEnv := filterEnv {} (fun _ => true) []

example : (match parseTableLinkbase asciiDigit env 3 TableExample.filtered with | .ok m => decide (m.tables.keys = ["t"]) | .error _ => false) = true := by decide +kernel

end FilterExample

end Brel
