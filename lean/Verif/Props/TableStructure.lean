import Verif.Spec.Tables
import Verif.Lemmas.History
import Verif.Lemmas.Py

/-! # The tables of a link (C91) -/

namespace Brel

/-! ## Dictionaries filled in a row -/

theorem pairs_get? {κ α : Type} [DecidableEq κ] (kvs : List (κ × α)) (d : Dict κ α) (l : κ) :
    (kvs.foldl (fun d p => d.set p.1 p.2) d).get? l = ((latest (·.1) kvs l).map (·.2)).or (d.get? l) := by
  induction kvs generalizing d with
  | nil => simp [latest_nil]
  | cons p kvs ih =>
    rw [List.foldl_cons, ih, latest_cons, Dict.get?_set]
    cases latest (·.1) kvs l with
    | some q => simp
    | none => by_cases e : p.1 = l <;> simp [e]

theorem pairs_keys {κ α : Type} [DecidableEq κ] (kvs : List (κ × α)) (d : Dict κ α) :
    (kvs.foldl (fun d p => d.set p.1 p.2) d).keys = (kvs.map (·.1)).foldl appendNew d.keys := by
  induction kvs generalizing d with
  | nil => rfl
  | cons p kvs ih => rw [List.foldl_cons, ih, Dict.keys_set, List.map_cons, List.foldl_cons]

/-! ## Resources -/

theorem inTableNs_eq : inTableNs = tableName := rfl

/-- The table an element is, with its label. -/
def tableOf (role : String) (e : XNode) : Option (String × TableDef) :=
  if e.tag = some (tableName "table") then
    match parseTable role e with
    | .ok t => (resourceLabel e).map (·, t)
    | .error _ => none
  else none

def breakdownOf (e : XNode) : Option (String × Breakdown) :=
  if e.tag = some (tableName "breakdown") then
    match parseBreakdown e with
    | .ok t => (resourceLabel e).map (·, t)
    | .error _ => none
  else none

theorem addUnique_eq {α : Type} (e : XNode) (a : α) (d : Dict String α) :
    addUnique (e.attr? (xlinkName "label")) a d = (((resourceLabel e).map (·, a)).toList).foldl (fun d p => d.set p.1 p.2) d := by
  unfold addUnique resourceLabel
  show (match e.attr? "{http://www.w3.org/1999/xlink}label" with | none => d | some l => if l = "" then d else d.set l a) = _
  cases e.attr? "{http://www.w3.org/1999/xlink}label" with
  | none => rfl
  | some l => by_cases h : l = "" <;> simp [h]

theorem toList_foldl {α β : Type} (f : β → α → β) (o : Option α) (b : β) : o.toList.foldl f b = (match o with | some a => f b a | none => b) := by
  cases o <;> rfl

/-- The node an element is, with its label. -/
def nodeOf (dig : Char → Option Nat) (env : TableEnv) (e : XNode) : Option (String × DefNode) :=
  match readNode dig env e with
  | .ok (some n) => (resourceLabel e).map (·, n)
  | _ => none

theorem parseRuleNode_label {e : XNode} {n : DefNode} (h : parseRuleNode e = .ok n) : n.label = e.attr? (xlinkName "label") ∧ n.children = [] := by
  unfold parseRuleNode at h
  cases h1 : parseOrder e with
  | error _ => rw [h1] at h; cases h
  | ok o =>
    rw [h1] at h
    cases h2 : parseRuleSets e with
    | error _ => rw [h2] at h; cases h
    | ok s => rw [h2] at h; cases h; exact ⟨rfl, rfl⟩

theorem parseDimensionNode_label {dig : Char → Option Nat} {env : TableEnv} {e : XNode} {n : DefNode} (h : parseDimensionNode dig env e = .ok (some n)) :
    n.label = e.attr? (xlinkName "label") ∧ n.children = [] ∧ n.isRelationship = true := by
  unfold parseDimensionNode at h
  cases h1 : parseOrder e with
  | error _ => rw [h1] at h; cases h
  | ok o =>
    rw [h1] at h
    cases h2 : relationshipChildren dig env e.children {} with
    | error _ => rw [h2] at h; cases h
    | ok s =>
      rw [h2] at h
      cases s with
      | none => cases h
      | some s =>
        cases h3 : relationshipDimension env e.children none with
        | error _ => simp only [h3, bind, Except.bind] at h; cases h
        | ok d =>
          simp only [h3, bind, Except.bind] at h
          rcases d with _ | (_ | d)
          · cases h
          · cases h
          · cases h; exact ⟨rfl, rfl, rfl⟩

theorem parseAspectNode_label {env : TableEnv} {e : XNode} {n : DefNode} (h : parseAspectNode env e = .ok (some n)) :
    n.label = e.attr? (xlinkName "label") ∧ n.children = [] ∧ n.order = none := by
  unfold parseAspectNode at h
  cases h2 : aspectChildren env e.children (none, false) with
  | error _ => rw [h2] at h; cases h
  | ok s =>
    rw [h2] at h
    rcases s with _ | ⟨_ | a, u⟩
    · cases h
    · cases h
    · cases h; exact ⟨rfl, rfl, rfl⟩

theorem readNode_label {dig : Char → Option Nat} {env : TableEnv} {e : XNode} {n : DefNode} (h : readNode dig env e = .ok (some n)) :
    n.label = e.attr? (xlinkName "label") ∧ n.children = [] := by
  unfold readNode at h
  split at h
  · cases h1 : parseRuleNode e with
    | error _ => rw [h1] at h; cases h
    | ok n' => rw [h1] at h; cases h; exact parseRuleNode_label h1
  · split at h
    · exact ⟨(parseDimensionNode_label h).1, (parseDimensionNode_label h).2.1⟩
    · split at h
      · exact ⟨(parseDimensionNode_label h).1, (parseDimensionNode_label h).2.1⟩
      · split at h
        · exact ⟨(parseAspectNode_label h).1, (parseAspectNode_label h).2.1⟩
        · cases h

/-- Tags of filters do not begin with the text that is looked for. -/
theorem lxmlTag_no_filter {t : String} (h : LxmlTag t) : startsWith t.toList "http://xbrl.org/2008/filter".toList = false := by
  cases hs : startsWith t.toList "http://xbrl.org/2008/filter".toList with
  | false => rfl
  | true =>
    obtain ⟨r, hr⟩ := List.isPrefixOf_iff_prefix.1 (show List.isPrefixOf _ _ = true from hs)
    exfalso
    rcases h with h | h
    · rw [← hr] at h
      revert h
      show ¬ (some 'h' = some '{')
      decide
    · apply h
      rw [← hr]
      exact List.mem_append_left _ (by decide)

/-- One resource. -/
theorem addResource_step {dig : Char → Option Nat} {env : TableEnv} {role : String} {m m' : TableModel} {e : XNode} (ht : ∀ t, e.tag = some t → LxmlTag t)
    (h : addResource dig env role m e = .ok m') :
    m'.tables = (tableOf role e).toList.foldl (fun d p => d.set p.1 p.2) m.tables ∧
    m'.breakdowns = (breakdownOf e).toList.foldl (fun d p => d.set p.1 p.2) m.breakdowns ∧
    m'.nodes = (nodeOf dig env e).toList.foldl (fun d p => d.set p.1 p.2) m.nodes ∧
    m'.filters = m.filters ∧ e.tag ≠ none := by
  unfold addResource at h
  unfold tableOf breakdownOf nodeOf readNode
  rw [inTableNs_eq]
  by_cases c1 : e.tag = some (tableName "table")
  · rw [if_pos c1] at h
    have n2 : ¬ some (tableName "table") = some (tableName "breakdown") := by decide
    have n3 : ¬ some (tableName "table") = some (tableName "ruleNode") := by decide
    have n4 : ¬ some (tableName "table") = some (tableName "conceptRelationshipNode") := by decide
    have n5 : ¬ some (tableName "table") = some (tableName "dimensionRelationshipNode") := by decide
    have n6 : ¬ some (tableName "table") = some (tableName "aspectNode") := by decide
    rw [c1, if_pos rfl, if_neg n2, if_neg n3, if_neg n4, if_neg n5, if_neg n6]
    cases hp : parseTable role e with
    | error _ => rw [hp] at h; cases h
    | ok t =>
      rw [hp] at h
      have hl : t.label = e.attr? (xlinkName "label") := by
        unfold parseTable at hp
        cases h1 : parseOrder e with
        | error _ => rw [h1] at hp; cases hp
        | ok o => rw [h1] at hp; cases hp; rfl
      have h : m' = { m with tables := addUnique t.label t m.tables } := by cases h; rfl
      subst h
      exact ⟨by rw [← addUnique_eq, hl], rfl, rfl, rfl, by simp⟩
  · rw [if_neg c1] at h ⊢
    by_cases c2 : e.tag = some (tableName "breakdown")
    · rw [if_pos c2] at h
      have n3 : ¬ some (tableName "breakdown") = some (tableName "ruleNode") := by decide
      have n4 : ¬ some (tableName "breakdown") = some (tableName "conceptRelationshipNode") := by decide
      have n5 : ¬ some (tableName "breakdown") = some (tableName "dimensionRelationshipNode") := by decide
      have n6 : ¬ some (tableName "breakdown") = some (tableName "aspectNode") := by decide
      rw [c2, if_pos rfl, if_neg n3, if_neg n4, if_neg n5, if_neg n6]
      cases hp : parseBreakdown e with
      | error _ => rw [hp] at h; cases h
      | ok t =>
        rw [hp] at h
        have hl : t.label = e.attr? (xlinkName "label") := by
          unfold parseBreakdown at hp
          cases h1 : parseOrder e with
          | error _ => rw [h1] at hp; cases hp
          | ok o => rw [h1] at hp; cases hp; rfl
        have h : m' = { m with breakdowns := addUnique t.label t m.breakdowns } := by cases h; rfl
        subst h
        exact ⟨rfl, by rw [← addUnique_eq, hl], rfl, rfl, by simp⟩
    · rw [if_neg c2] at h ⊢
      -- nodes
      have node : ∀ (r : Except PyErr (Option DefNode)), (∀ n, r = .ok (some n) → n.label = e.attr? (xlinkName "label")) →
          (r.bind fun n => .ok (m.addNode n)) = .ok m' →
          m'.tables = m.tables ∧ m'.breakdowns = m.breakdowns ∧
          m'.nodes = (match r with | .ok (some n) => (resourceLabel e).map (·, n) | _ => none : Option (String × DefNode)).toList.foldl (fun d p => d.set p.1 p.2) m.nodes ∧ m'.filters = m.filters := by
        intro r hl h
        rcases r with _ | (_ | n)
        · cases h
        · cases h; exact ⟨rfl, rfl, rfl, rfl⟩
        · have h : m' = m.addNode (some n) := by cases h; rfl
          subst h
          refine ⟨rfl, rfl, ?_, rfl⟩
          rw [← addUnique_eq, ← hl n rfl]
          rfl
      have fin : ∀ (r : Except PyErr (Option DefNode)) (t : String), e.tag = some t → (∀ n, r = .ok (some n) → n.label = e.attr? (xlinkName "label")) →
          (r.bind fun n => .ok (m.addNode n)) = .ok m' →
          m'.tables = (none : Option (String × TableDef)).toList.foldl (fun d p => d.set p.1 p.2) m.tables ∧
          m'.breakdowns = (none : Option (String × Breakdown)).toList.foldl (fun d p => d.set p.1 p.2) m.breakdowns ∧
          m'.nodes = (match r with | .ok (some n) => (resourceLabel e).map (·, n) | _ => none : Option (String × DefNode)).toList.foldl (fun d p => d.set p.1 p.2) m.nodes ∧
          m'.filters = m.filters ∧ e.tag ≠ none := by
        intro r t htag hl h
        obtain ⟨a, b, c, d⟩ := node r hl h
        exact ⟨a, b, c, d, by rw [htag]; simp⟩
      by_cases c3 : e.tag = some (tableName "ruleNode")
      · rw [if_pos c3] at h ⊢
        refine fin ((parseRuleNode e).map some) _ c3 ?_ ?_
        · intro n hn
          cases hp : parseRuleNode e with
          | error _ => rw [hp] at hn; cases hn
          | ok n' => rw [hp] at hn; cases hn; exact (parseRuleNode_label hp).1
        · cases hp : parseRuleNode e with
          | error _ => rw [hp] at h; cases h
          | ok n' => rw [hp] at h; exact h
      · rw [if_neg c3] at h ⊢
        by_cases c4 : e.tag = some (tableName "conceptRelationshipNode")
        · rw [if_pos c4] at h ⊢
          exact fin _ _ c4 (fun n hn => (parseDimensionNode_label hn).1) h
        · rw [if_neg c4] at h ⊢
          by_cases c5 : e.tag = some (tableName "dimensionRelationshipNode")
          · rw [if_pos c5] at h ⊢
            exact fin _ _ c5 (fun n hn => (parseDimensionNode_label hn).1) h
          · rw [if_neg c5] at h ⊢
            by_cases c6 : e.tag = some (tableName "aspectNode")
            · rw [if_pos c6] at h ⊢
              exact fin _ _ c6 (fun n hn => (parseAspectNode_label hn).1) h
            · rw [if_neg c6] at h ⊢
              cases htag : e.tag with
              | none => rw [htag] at h; cases h
              | some t =>
                rw [htag] at h
                dsimp only at h
                rw [lxmlTag_no_filter (ht t htag)] at h
                cases h
                exact ⟨rfl, rfl, rfl, rfl, by simp⟩

theorem foldl_toList {α : Type} (f : XNode → Option (String × α)) (cs : List XNode) (d : Dict String α) :
    cs.foldl (fun d e => (f e).toList.foldl (fun d p => d.set p.1 p.2) d) d = (cs.filterMap f).foldl (fun d p => d.set p.1 p.2) d := by
  induction cs generalizing d with
  | nil => rfl
  | cons e cs ih =>
    rw [List.foldl_cons, ih, List.filterMap_cons]
    cases f e <;> rfl

theorem addResources {dig : Char → Option Nat} {env : TableEnv} {role : String} (cs : List XNode) (m m' : TableModel) (ht : ∀ e ∈ cs, ∀ t, e.tag = some t → LxmlTag t)
    (h : cs.foldlM (addResource dig env role) m = .ok m') :
    m'.tables = (cs.filterMap (tableOf role)).foldl (fun d p => d.set p.1 p.2) m.tables ∧
    m'.breakdowns = (cs.filterMap breakdownOf).foldl (fun d p => d.set p.1 p.2) m.breakdowns ∧
    m'.nodes = (cs.filterMap (nodeOf dig env)).foldl (fun d p => d.set p.1 p.2) m.nodes ∧
    m'.filters = m.filters ∧ (∀ e ∈ cs, e.tag ≠ none) ∧ ∀ e ∈ cs, ∃ m m', addResource dig env role m e = .ok m' := by
  induction cs generalizing m with
  | nil => cases h; exact ⟨rfl, rfl, rfl, rfl, by simp, by simp⟩
  | cons e cs ih =>
    rw [List.foldlM_cons] at h
    cases h1 : addResource dig env role m e with
    | error _ => rw [h1] at h; cases h
    | ok m1 =>
      rw [h1] at h
      obtain ⟨a1, b1, c1, d1, e1⟩ := addResource_step (ht e (by simp)) h1
      obtain ⟨a2, b2, c2, d2, e2, f2⟩ := ih m1 (fun e he => ht e (by simp [he])) h
      refine ⟨?_, ?_, ?_, d2.trans d1, ?_, ?_⟩
      · rw [a2, a1, ← foldl_toList, ← foldl_toList, List.foldl_cons]
      · rw [b2, b1, ← foldl_toList, ← foldl_toList, List.foldl_cons]
      · rw [c2, c1, ← foldl_toList, ← foldl_toList, List.foldl_cons]
      · intro e' he'
        rcases List.mem_cons.1 he' with rfl | he'
        · exact e1
        · exact e2 e' he'
      · intro e' he'
        rcases List.mem_cons.1 he' with rfl | he'
        · exact ⟨m, m1, h1⟩
        · exact f2 e' he'

/-! ## Arcs -/

theorem edge_of_tag {n : String} {e : XNode} (h : e.tag = some (tableName n)) : edge n e = arcEnds e := by
  unfold edge arcEnds
  rw [if_pos (show e.tag = some (inTableNs n) from h)]
  rfl

theorem edge_of_ne {n : String} {e : XNode} (h : e.tag ≠ some (tableName n)) : edge n e = none := by
  unfold edge
  rw [if_neg (show ¬ e.tag = some (inTableNs n) from h)]

theorem edgesFrom_append {dig : Char → Option Nat} {n : String} {good : XNode → String → Bool} (as bs : List XNode) (l : String) :
    edgesFrom dig n good (as ++ bs) l = edgesFrom dig n good as l ++ edgesFrom dig n good bs l := by
  unfold edgesFrom; rw [List.filterMap_append]

theorem edgesFrom_none {dig : Char → Option Nat} {n : String} {good : XNode → String → Bool} {e : XNode} (l : String) (h : edge n e = none) :
    edgesFrom dig n good [e] l = [] := by
  unfold edgesFrom; simp [h]

theorem edgesFrom_one {dig : Char → Option Nat} {n : String} {good : XNode → String → Bool} {e : XNode} {f t : String} (l : String) (h : edge n e = some (f, t)) :
    edgesFrom dig n good [e] l = (if f = l ∧ good e t = true then ((e.attr? "order").bind (fun o => pyInt dig o.toList)).map (t, ·) else none).toList := by
  unfold edgesFrom
  simp only [List.filterMap_cons, List.filterMap_nil, h]
  by_cases hc : f = l ∧ good e t = true
  · rw [if_pos hc]; cases ((e.attr? "order").bind (fun o => pyInt dig o.toList)) <;> rfl
  · rw [if_neg hc]; rfl

theorem arcOrder_ok {dig : Char → Option Nat} {e : XNode} {o : Int} (h : arcOrder dig e = .ok o) : ((e.attr? "order").bind (fun o => pyInt dig o.toList)) = some o ∨ (e.attr? "order" = none ∧ pyInt dig "1.0".toList = some o) := by
  unfold arcOrder at h
  cases ha : e.attr? "order" with
  | none =>
    rw [ha] at h
    cases hp : pyInt dig "1.0".toList with
    | none => simp only [Option.getD_none, hp] at h; cases h
    | some n => simp only [Option.getD_none, hp] at h; cases h; exact .inr ⟨rfl, rfl⟩
  | some a =>
    rw [ha] at h
    cases hp : pyInt dig a.toList with
    | none => simp only [Option.getD_some, hp] at h; cases h
    | some n => simp only [Option.getD_some, hp] at h; cases h; exact .inl hp

/-- The default order is no integer as long as a dot is no digit. -/
theorem default_no_int {dig : Char → Option Nat} (hd : dig '.' = none) : pyInt dig "1.0".toList = none := by
  have e : pyStrip "1.0".toList = ['1', '.', '0'] := by decide
  unfold pyInt
  rw [e]
  show (pyNat dig ['1', '.', '0']).map _ = none
  have : pyNat dig ['1', '.', '0'] = none := by
    have h2 : parseDigits dig ['1', '.', '0'] = none := by
      rw [parseDigits.eq_4 _ _ _ _ (by decide), parseDigits.eq_4 _ _ _ _ (by decide), hd]
      cases dig '1' <;> rfl
    unfold pyNat; rw [h2]
  rw [this]; rfl

/-- The state after some arcs. -/
structure ArcInv (dig : Char → Option Nat) (m0 : TableModel) (done : List XNode) (m : TableModel) : Prop where
  tables : ∀ l, m.tables.get? l = (m0.tables.get? l).map (fun t => { t with
    xs := t.xs ++ edgesFrom dig "tableBreakdownArc" (fun e b => m0.breakdowns.has b && e.attr? "axis" == some "x") done l
    ys := t.ys ++ edgesFrom dig "tableBreakdownArc" (fun e b => m0.breakdowns.has b && e.attr? "axis" == some "y") done l
    zs := t.zs ++ edgesFrom dig "tableBreakdownArc" (fun e b => m0.breakdowns.has b && e.attr? "axis" == some "z") done l })
  breakdowns : ∀ l, m.breakdowns.get? l = (m0.breakdowns.get? l).map (fun b => { b with
    roots := b.roots ++ edgesFrom dig "breakdownTreeArc" (fun _ n => m0.nodes.has n) done l
    axis := (lastTo "tableBreakdownArc" "axis" m0.tables.has done l).getD b.axis })
  nodes : ∀ l, ∃ f : DefNode → Int, m.nodes.get? l = (m0.nodes.get? l).map (fun n => { n with
    children := if n.isRelationship then n.children else n.children ++ edgesFrom dig "definitionNodeSubtreeArc" (fun _ n => m0.nodes.has n) done l
    arcOrder := f n })
  keys : m.tables.keys = m0.tables.keys
  filters : m.filters = m0.filters

theorem lastTo_append {n a : String} {good : String → Bool} (as : List XNode) (e : XNode) (l : String) :
    lastTo n a good (as ++ [e]) l = (lastTo n a good [e] l).or (lastTo n a good as l) := by
  unfold lastTo
  rw [List.filterMap_append, List.getLast?_append]

theorem lastTo_none {n a : String} {good : String → Bool} {e : XNode} (l : String) (h : edge n e = none) : lastTo n a good [e] l = none := by
  unfold lastTo; simp [h]

theorem lastTo_one {n a : String} {good : String → Bool} {e : XNode} {f t : String} (l : String) (h : edge n e = some (f, t)) :
    lastTo n a good [e] l = (if t = l ∧ good f = true then e.attr? a else none) := by
  unfold lastTo
  simp only [List.filterMap_cons, List.filterMap_nil, h]
  split
  · rename_i h1; rw [h1]; rfl
  · rename_i v h1; rw [h1]; rfl

/-- An arc that has no effect. -/
theorem ArcInv.skip {dig : Char → Option Nat} {m0 m : TableModel} {done : List XNode} {e : XNode} (h : ArcInv dig m0 done m)
    (h1 : ∀ l good, edgesFrom dig "tableBreakdownArc" good [e] l = [] ∨ m0.tables.get? l = none ∨ ∀ x, good = (fun e b => m0.breakdowns.has b && e.attr? "axis" == some x) → edgesFrom dig "tableBreakdownArc" good [e] l = [])
    (h2 : ∀ l, m0.breakdowns.get? l = none ∨ lastTo "tableBreakdownArc" "axis" m0.tables.has [e] l = none)
    (h3 : ∀ l, m0.breakdowns.get? l = none ∨ edgesFrom dig "breakdownTreeArc" (fun _ n => m0.nodes.has n) [e] l = [])
    (h4 : ∀ l n, m0.nodes.get? l = some n → n.isRelationship = false → edgesFrom dig "definitionNodeSubtreeArc" (fun _ n => m0.nodes.has n) [e] l = []) :
    ArcInv dig m0 (done ++ [e]) m := by
  refine ⟨?_, ?_, ?_, h.keys, h.filters⟩
  · intro l
    rw [h.tables l]
    cases ht : m0.tables.get? l with
    | none => rfl
    | some t =>
      have key : ∀ x, edgesFrom dig "tableBreakdownArc" (fun e b => m0.breakdowns.has b && e.attr? "axis" == some x) [e] l = [] := by
        intro x
        rcases h1 l (fun e b => m0.breakdowns.has b && e.attr? "axis" == some x) with h | h | h
        · exact h
        · rw [ht] at h; cases h
        · exact h x rfl
      simp only [edgesFrom_append, key, List.append_nil]
  · intro l
    rw [h.breakdowns l]
    cases ht : m0.breakdowns.get? l with
    | none => rfl
    | some t =>
      rcases h3 l with h3 | h3
      · rw [ht] at h3; cases h3
      rcases h2 l with h2 | h2
      · rw [ht] at h2; cases h2
      simp only [edgesFrom_append, h3, List.append_nil, lastTo_append, h2, Option.none_or]
  · intro l
    obtain ⟨f, hf⟩ := h.nodes l
    refine ⟨f, ?_⟩
    rw [hf]
    cases ht : m0.nodes.get? l with
    | none => rfl
    | some n =>
      simp only [Option.map_some]
      by_cases hr : n.isRelationship = true
      · rw [if_pos hr, if_pos hr]
      · rw [if_neg hr, if_neg hr, edgesFrom_append, h4 l n ht (by simpa using hr), List.append_nil]

theorem ArcInv.hasTable {dig : Char → Option Nat} {m0 m : TableModel} {done : List XNode} (h : ArcInv dig m0 done m) (l : String) : m.tables.has l = m0.tables.has l := by
  rw [Dict.has_eq, Dict.has_eq, h.tables]; cases m0.tables.get? l <;> rfl

theorem ArcInv.hasBreakdown {dig : Char → Option Nat} {m0 m : TableModel} {done : List XNode} (h : ArcInv dig m0 done m) (l : String) : m.breakdowns.has l = m0.breakdowns.has l := by
  rw [Dict.has_eq, Dict.has_eq, h.breakdowns]; cases m0.breakdowns.get? l <;> rfl

theorem ArcInv.hasNode {dig : Char → Option Nat} {m0 m : TableModel} {done : List XNode} (h : ArcInv dig m0 done m) (l : String) : m.nodes.has l = m0.nodes.has l := by
  obtain ⟨f, hf⟩ := h.nodes l
  rw [Dict.has_eq, Dict.has_eq, hf]; cases m0.nodes.get? l <;> rfl

/-- One arc. -/
theorem addArc_step {dig : Char → Option Nat} (hd : dig '.' = none) {m0 m m' : TableModel} {done : List XNode} {e : XNode} (hinv : ArcInv dig m0 done m) (hf0 : m0.filters = [])
    (h : addArc dig m e = .ok m') : ArcInv dig m0 (done ++ [e]) m' := by
  have ord : ∀ o, arcOrder dig e = .ok o → ((e.attr? "order").bind (fun o => pyInt dig o.toList)) = some o := by
    intro o ho
    rcases arcOrder_ok ho with h | ⟨-, h⟩
    · exact h
    · rw [default_no_int hd] at h; cases h
  unfold addArc at h
  by_cases c1 : e.tag = some (tableName "tableBreakdownArc")
  · rw [if_pos c1] at h
    have e2 : edge "breakdownTreeArc" e = none := edge_of_ne (by rw [c1]; decide)
    have e3 : edge "definitionNodeSubtreeArc" e = none := edge_of_ne (by rw [c1]; decide)
    have e1 := edge_of_tag c1
    unfold tableArc at h
    cases he : arcEnds e with
    | none =>
      rw [he] at h e1
      cases h
      exact hinv.skip (fun l good => .inl (edgesFrom_none l e1)) (fun l => .inr (lastTo_none l e1)) (fun l => .inr (edgesFrom_none l e2)) (fun l _ _ _ => edgesFrom_none l e3)
    | some p =>
      obtain ⟨f, t⟩ := p
      rw [he] at h e1
      dsimp only at h
      cases ht : m.tables.get? f with
      | none =>
        rw [ht] at h
        cases h
        have h0 : m0.tables.get? f = none := by
          have := hinv.tables f; rw [ht] at this
          cases hh : m0.tables.get? f with
          | none => rfl
          | some t => rw [hh] at this; cases this
        refine hinv.skip ?_ ?_ (fun l => .inr (edgesFrom_none l e2)) (fun l _ _ _ => edgesFrom_none l e3)
        · intro l good
          rw [edgesFrom_one l e1]
          by_cases hl : f = l
          · subst hl; exact .inr (.inl h0)
          · exact .inl (by rw [if_neg (fun h => hl h.1)]; rfl)
        · intro l
          right
          rw [lastTo_one l e1, if_neg]
          rintro ⟨-, hh⟩
          rw [Dict.has_eq, h0] at hh; cases hh
      | some tab =>
        cases hb : m.breakdowns.get? t with
        | none =>
          rw [ht, hb] at h
          cases h
          have h0 : m0.breakdowns.get? t = none := by
            have := hinv.breakdowns t; rw [hb] at this
            cases hh : m0.breakdowns.get? t with
            | none => rfl
            | some t => rw [hh] at this; cases this
          refine hinv.skip ?_ ?_ (fun l => .inr (edgesFrom_none l e2)) (fun l _ _ _ => edgesFrom_none l e3)
          · intro l good
            right; right
            rintro x rfl
            rw [edgesFrom_one l e1, if_neg]
            · rfl
            · rintro ⟨-, hh⟩
              rw [Dict.has_eq, h0] at hh; cases hh
          · intro l
            rw [lastTo_one l e1]
            by_cases hl : t = l
            · subst hl; exact .inl h0
            · exact .inr (if_neg (fun h => hl h.1))
        | some b =>
          rw [ht, hb] at h
          dsimp only at h
          by_cases hx : (e.attr? "axis").getD "" ∈ ["x", "y", "z"]
          · rw [if_pos hx] at h
            cases ho : arcOrder dig e with
            | error _ => rw [ho] at h; cases h
            | ok o =>
              rw [ho] at h
              have h : m' = { m with tables := m.tables.set f (tab.add ((e.attr? "axis").getD "") (t, o)), breakdowns := m.breakdowns.set t { b with axis := (e.attr? "axis").getD "" } } := by
                cases h; rfl
              have ho := ord o ho
              have hbt : m0.breakdowns.has t = true := by rw [← hinv.hasBreakdown, Dict.has_eq, hb]; rfl
              have hft : m0.tables.has f = true := by rw [← hinv.hasTable, Dict.has_eq, ht]; rfl
              obtain ⟨x, hax, hxx⟩ : ∃ x, e.attr? "axis" = some x ∧ x ∈ ["x", "y", "z"] := by
                cases hh : e.attr? "axis" with
                | none => rw [hh] at hx; exact absurd hx (by decide)
                | some x => rw [hh] at hx; exact ⟨x, rfl, hx⟩
              rw [hax] at h
              simp only [Option.getD_some] at h
              subst h
              have new : ∀ y l, edgesFrom dig "tableBreakdownArc" (fun e b => m0.breakdowns.has b && e.attr? "axis" == some y) [e] l = if f = l ∧ x = y then [(t, o)] else [] := by
                intro y l
                rw [edgesFrom_one l e1, hbt, hax, ho]
                by_cases hl : f = l
                · by_cases hy : x = y
                  · rw [if_pos ⟨hl, by simp [hy]⟩, if_pos ⟨hl, hy⟩]; rfl
                  · rw [if_neg (by simp [hy]), if_neg (fun h => hy h.2)]; rfl
                · rw [if_neg (fun h => hl h.1), if_neg (fun h => hl h.1)]; rfl
              refine ⟨?_, ?_, ?_, ?_, hinv.filters⟩
              · intro l
                show (m.tables.set f (tab.add x (t, o))).get? l = _
                rw [Dict.get?_set]
                by_cases hl : f = l
                · subst hl
                  rw [if_pos rfl]
                  have := hinv.tables f
                  rw [ht] at this
                  cases h0 : m0.tables.get? f with
                  | none => rw [h0] at this; cases this
                  | some t0 =>
                    rw [h0] at this
                    simp only [Option.map_some, Option.some.injEq] at this ⊢
                    simp only [edgesFrom_append, new]
                    subst this
                    simp only [List.mem_cons, List.not_mem_nil, or_false] at hxx
                    rcases hxx with rfl | rfl | rfl
                    · simp [TableDef.add]
                    · simp [TableDef.add]
                    · simp [TableDef.add]
                · rw [if_neg hl, hinv.tables l]
                  simp only [edgesFrom_append, new, hl, false_and, if_false, List.append_nil]
              · intro l
                show (m.breakdowns.set t { b with axis := x }).get? l = _
                rw [Dict.get?_set]
                simp only [edgesFrom_append, edgesFrom_none l e2, List.append_nil, lastTo_append, lastTo_one l e1, hft, hax]
                by_cases hl : t = l
                · subst hl
                  rw [if_pos rfl]
                  have := hinv.breakdowns t
                  rw [hb] at this
                  cases h0 : m0.breakdowns.get? t with
                  | none => rw [h0] at this; cases this
                  | some t0 =>
                    rw [h0] at this
                    simp only [Option.map_some, Option.some.injEq] at this ⊢
                    subst this
                    simp
                · rw [if_neg hl, hinv.breakdowns l]
                  simp [hl]
              · intro l
                obtain ⟨g, hg⟩ := hinv.nodes l
                refine ⟨g, ?_⟩
                show m.nodes.get? l = _
                rw [hg]
                simp only [edgesFrom_append, edgesFrom_none l e3, List.append_nil]
              · show (m.tables.set f _).keys = _
                rw [Dict.keys_set, ← hinv.keys]
                unfold appendNew
                rw [if_pos]
                exact (Dict.has_iff_mem_keys m.tables f).1 (by rw [Dict.has_eq, ht]; rfl)
          · rw [if_neg hx] at h; cases h
  · rw [if_neg c1] at h
    have e1 := edge_of_ne c1
    by_cases c2 : e.tag = some (tableName "breakdownTreeArc")
    · rw [if_pos c2] at h
      have e3 : edge "definitionNodeSubtreeArc" e = none := edge_of_ne (by rw [c2]; decide)
      have e2 := edge_of_tag c2
      unfold rootArc at h
      cases he : arcEnds e with
      | none =>
        rw [he] at h e2
        cases h
        exact hinv.skip (fun l good => .inl (edgesFrom_none l e1)) (fun l => .inr (lastTo_none l e1)) (fun l => .inr (edgesFrom_none l e2)) (fun l _ _ _ => edgesFrom_none l e3)
      | some p =>
        obtain ⟨f, t⟩ := p
        rw [he] at h e2
        dsimp only at h
        cases hb : m.breakdowns.get? f with
        | none =>
          rw [hb] at h
          cases h
          have h0 : m0.breakdowns.get? f = none := by
            have := hinv.breakdowns f; rw [hb] at this
            cases hh : m0.breakdowns.get? f with
            | none => rfl
            | some t => rw [hh] at this; cases this
          refine hinv.skip (fun l good => .inl (edgesFrom_none l e1)) (fun l => .inr (lastTo_none l e1)) ?_ (fun l _ _ _ => edgesFrom_none l e3)
          intro l
          rw [edgesFrom_one l e2]
          by_cases hl : f = l
          · subst hl; exact .inl h0
          · exact .inr (by rw [if_neg (fun h => hl h.1)]; rfl)
        | some b =>
          cases hn : m.nodes.get? t with
          | none =>
            rw [hb, hn] at h
            cases h
            refine hinv.skip (fun l good => .inl (edgesFrom_none l e1)) (fun l => .inr (lastTo_none l e1)) ?_ (fun l _ _ _ => edgesFrom_none l e3)
            intro l
            right
            rw [edgesFrom_one l e2, if_neg]
            · rfl
            · rintro ⟨-, hh⟩
              rw [← hinv.hasNode, Dict.has_eq, hn] at hh; cases hh
          | some n =>
            rw [hb, hn] at h
            dsimp only at h
            cases ho : arcOrder dig e with
            | error _ => rw [ho] at h; cases h
            | ok o =>
              rw [ho] at h
              have h : m' = { m with breakdowns := m.breakdowns.set f { b with roots := b.roots ++ [(t, o)] }, nodes := m.nodes.set t { n with arcOrder := o } } := by
                cases h; rfl
              subst h
              have ho := ord o ho
              have hnt : m0.nodes.has t = true := by rw [← hinv.hasNode, Dict.has_eq, hn]; rfl
              have new : ∀ l, edgesFrom dig "breakdownTreeArc" (fun _ n => m0.nodes.has n) [e] l = if f = l then [(t, o)] else [] := by
                intro l
                rw [edgesFrom_one l e2, hnt, ho]
                by_cases hl : f = l
                · rw [if_pos ⟨hl, rfl⟩, if_pos hl]; rfl
                · rw [if_neg (fun h => hl h.1), if_neg hl]; rfl
              refine ⟨?_, ?_, ?_, hinv.keys, hinv.filters⟩
              · intro l
                show m.tables.get? l = _
                rw [hinv.tables l]
                simp only [edgesFrom_append, edgesFrom_none l e1, List.append_nil]
              · intro l
                show (m.breakdowns.set f { b with roots := b.roots ++ [(t, o)] }).get? l = _
                rw [Dict.get?_set]
                simp only [edgesFrom_append, new, lastTo_append, lastTo_none l e1, Option.none_or]
                by_cases hl : f = l
                · subst hl
                  rw [if_pos rfl]
                  have := hinv.breakdowns f
                  rw [hb] at this
                  cases h0 : m0.breakdowns.get? f with
                  | none => rw [h0] at this; cases this
                  | some t0 =>
                    rw [h0] at this
                    simp only [Option.map_some, Option.some.injEq] at this ⊢
                    subst this
                    simp
                · rw [if_neg hl, hinv.breakdowns l]
                  simp [hl]
              · intro l
                obtain ⟨g, hg⟩ := hinv.nodes l
                by_cases hl : t = l
                · subst hl
                  refine ⟨fun _ => o, ?_⟩
                  show (m.nodes.set t { n with arcOrder := o }).get? t = _
                  rw [Dict.get?_set, if_pos rfl]
                  rw [hn] at hg
                  cases h0 : m0.nodes.get? t with
                  | none => rw [h0] at hg; cases hg
                  | some n0 =>
                    rw [h0] at hg
                    simp only [Option.map_some, Option.some.injEq, edgesFrom_append, edgesFrom_none t e3, List.append_nil] at hg ⊢
                    subst hg
                    rfl
                · refine ⟨g, ?_⟩
                  show (m.nodes.set t { n with arcOrder := o }).get? l = _
                  rw [Dict.get?_set, if_neg hl, hg]
                  simp only [edgesFrom_append, edgesFrom_none l e3, List.append_nil]
    · rw [if_neg c2] at h
      have e2 := edge_of_ne c2
      by_cases c3 : e.tag = some (tableName "definitionNodeSubtreeArc")
      · rw [if_pos c3] at h
        have e3 := edge_of_tag c3
        unfold subtreeArc at h
        cases he : arcEnds e with
        | none =>
          rw [he] at h e3
          cases h
          exact hinv.skip (fun l good => .inl (edgesFrom_none l e1)) (fun l => .inr (lastTo_none l e1)) (fun l => .inr (edgesFrom_none l e2)) (fun l _ _ _ => edgesFrom_none l e3)
        | some p =>
          obtain ⟨f, t⟩ := p
          rw [he] at h e3
          dsimp only at h
          cases hb : m.nodes.get? f with
          | none =>
            rw [hb] at h
            cases h
            have h0 : m0.nodes.get? f = none := by
              have := hinv.hasNode f; rw [Dict.has_eq, Dict.has_eq, hb] at this
              cases hh : m0.nodes.get? f with
              | none => rfl
              | some t => rw [hh] at this; cases this
            refine hinv.skip (fun l good => .inl (edgesFrom_none l e1)) (fun l => .inr (lastTo_none l e1)) (fun l => .inr (edgesFrom_none l e2)) ?_
            intro l n hl _
            rw [edgesFrom_one l e3, if_neg]
            · rfl
            · rintro ⟨rfl, -⟩
              rw [h0] at hl; cases hl
          | some nf =>
            cases hn : m.nodes.get? t with
            | none =>
              rw [hb, hn] at h
              cases h
              refine hinv.skip (fun l good => .inl (edgesFrom_none l e1)) (fun l => .inr (lastTo_none l e1)) (fun l => .inr (edgesFrom_none l e2)) ?_
              intro l n _ _
              rw [edgesFrom_one l e3, if_neg]
              · rfl
              · rintro ⟨-, hh⟩
                rw [← hinv.hasNode, Dict.has_eq, hn] at hh; cases hh
            | some nt =>
              rw [hb, hn] at h
              dsimp only at h
              obtain ⟨gf, hgf⟩ := hinv.nodes f
              rw [hb] at hgf
              cases h0 : m0.nodes.get? f with
              | none => rw [h0] at hgf; cases hgf
              | some n0 =>
                rw [h0] at hgf
                simp only [Option.map_some, Option.some.injEq] at hgf
                have hrel : nf.isRelationship = n0.isRelationship := by rw [hgf]; rfl
                by_cases hr : nf.isRelationship = true
                · rw [if_pos hr] at h
                  cases h
                  refine hinv.skip (fun l good => .inl (edgesFrom_none l e1)) (fun l => .inr (lastTo_none l e1)) (fun l => .inr (edgesFrom_none l e2)) ?_
                  intro l n hl hnr
                  rw [edgesFrom_one l e3, if_neg]
                  · rfl
                  · rintro ⟨rfl, -⟩
                    rw [h0] at hl; cases hl
                    rw [hrel, hnr] at hr; cases hr
                · rw [if_neg hr] at h
                  cases ho : arcOrder dig e with
                  | error _ => rw [ho] at h; cases h
                  | ok o =>
                    rw [ho] at h
                    have h : m' = { m with nodes := m.nodes.set f { nf with children := nf.children ++ [(t, o)] } } := by
                      cases h; rfl
                    subst h
                    have ho := ord o ho
                    have hnt : m0.nodes.has t = true := by rw [← hinv.hasNode, Dict.has_eq, hn]; rfl
                    have new : ∀ l, edgesFrom dig "definitionNodeSubtreeArc" (fun _ n => m0.nodes.has n) [e] l = if f = l then [(t, o)] else [] := by
                      intro l
                      rw [edgesFrom_one l e3, hnt, ho]
                      by_cases hl : f = l
                      · rw [if_pos ⟨hl, rfl⟩, if_pos hl]; rfl
                      · rw [if_neg (fun h => hl h.1), if_neg hl]; rfl
                    refine ⟨?_, ?_, ?_, hinv.keys, hinv.filters⟩
                    · intro l
                      show m.tables.get? l = _
                      rw [hinv.tables l]
                      simp only [edgesFrom_append, edgesFrom_none l e1, List.append_nil]
                    · intro l
                      show m.breakdowns.get? l = _
                      rw [hinv.breakdowns l]
                      simp only [edgesFrom_append, edgesFrom_none l e2, List.append_nil, lastTo_append, lastTo_none l e1, Option.none_or]
                    · intro l
                      by_cases hl : f = l
                      · subst hl
                        refine ⟨gf, ?_⟩
                        show (m.nodes.set f { nf with children := nf.children ++ [(t, o)] }).get? f = _
                        rw [Dict.get?_set, if_pos rfl, h0]
                        simp only [Option.map_some, edgesFrom_append, new, if_true]
                        rw [hrel] at hr
                        rw [if_neg hr] at hgf ⊢
                        rw [hgf]
                        simp
                      · obtain ⟨g, hg⟩ := hinv.nodes l
                        refine ⟨g, ?_⟩
                        show (m.nodes.set f { nf with children := nf.children ++ [(t, o)] }).get? l = _
                        rw [Dict.get?_set, if_neg hl, hg]
                        simp only [edgesFrom_append, new, hl, if_false, List.append_nil]
      · rw [if_neg c3] at h
        have e3 := edge_of_ne c3
        have same : m' = m := by
          by_cases c4 : e.tag = some (tableName "tableFilterArc")
          · rw [if_pos c4] at h
            unfold filterArc at h
            cases he : arcEnds e with
            | none => rw [he] at h; cases h; rfl
            | some p =>
              rw [he] at h
              dsimp only at h
              rw [hinv.filters, hf0] at h
              cases ht : m.tables.get? p.1 with
              | none => rw [ht] at h; cases h; rfl
              | some t => rw [ht] at h; cases h; rfl
          · rw [if_neg c4] at h; cases h; rfl
        subst same
        exact hinv.skip (fun l good => .inl (edgesFrom_none l e1)) (fun l => .inr (lastTo_none l e1)) (fun l => .inr (edgesFrom_none l e2)) (fun l _ _ _ => edgesFrom_none l e3)

theorem arcInv_refl (dig : Char → Option Nat) (m : TableModel) : ArcInv dig m [] m := by
  refine ⟨?_, ?_, ?_, rfl, rfl⟩
  · intro l; cases m.tables.get? l <;> simp [edgesFrom]
  · intro l; cases m.breakdowns.get? l <;> simp [edgesFrom, lastTo]
  · intro l; refine ⟨fun n => n.arcOrder, ?_⟩; cases m.nodes.get? l <;> simp [edgesFrom]

theorem addArcs {dig : Char → Option Nat} (hd : dig '.' = none) {m0 : TableModel} (hf0 : m0.filters = []) (cs : List XNode) (done : List XNode) (m m' : TableModel) (hinv : ArcInv dig m0 done m)
    (h : cs.foldlM (addArc dig) m = .ok m') : ArcInv dig m0 (done ++ cs) m' := by
  induction cs generalizing m done with
  | nil => cases h; rwa [List.append_nil]
  | cons e cs ih =>
    rw [List.foldlM_cons] at h
    cases h1 : addArc dig m e with
    | error _ => rw [h1] at h; cases h
    | ok m1 =>
      rw [h1] at h
      have := ih (done ++ [e]) m1 (addArc_step hd hinv hf0 h1) h
      rwa [List.append_assoc] at this

/-! ## The theorems -/

theorem latest_map {α β : Type} (g : α → β) (l : List (String × α)) (i : String) :
    latest (·.1) (l.map (fun p => (p.1, g p.2))) i = (latest (·.1) l i).map (fun p => (p.1, g p.2)) := by
  unfold latest
  rw [← List.map_reverse, List.find?_map]
  rfl

/-- The order of an element that has one. -/
def theOrder (e : XNode) : PCOrder :=
  match parseOrder e with
  | .ok o => o
  | .error _ => .unspecified

theorem theOrder_states {e : XNode} {o : PCOrder} (h : parseOrder e = .ok o) : StatesOrder e o := by
  unfold parseOrder at h
  unfold StatesOrder
  cases ha : e.attr? "parentChildOrder" with
  | none => rw [ha] at h; cases h; rfl
  | some s =>
    rw [ha] at h
    simp only [Option.getD_some] at h
    by_cases h1 : s = "parent-first"
    · subst h1; cases h; rfl
    · rw [if_neg h1] at h
      by_cases h2 : s = "children-first"
      · subst h2; cases h; rfl
      · rw [if_neg h2] at h
        by_cases h3 : s = ""
        · subst h3; cases h; rfl
        · rw [if_neg h3] at h; cases h

def plainTable (role : String) (e : XNode) : TableDef := { linkrole := role, order := theOrder e, id := e.attr? "id", label := e.attr? (xlinkName "label") }

def plainBreakdown (e : XNode) : Breakdown := { order := theOrder e, id := e.attr? "id", label := e.attr? (xlinkName "label") }

theorem tableOf_eq {dig : Char → Option Nat} {env : TableEnv} {role : String} {cs : List XNode} (h : ∀ e ∈ cs, ∃ m m', addResource dig env role m e = .ok m') :
    cs.filterMap (tableOf role) = (labelled "table" cs).map (fun p => (p.1, plainTable role p.2)) ∧
    ∀ p ∈ labelled "table" cs, StatesOrder p.2 (theOrder p.2) := by
  induction cs with
  | nil => exact ⟨rfl, by intro p hp; cases hp⟩
  | cons e cs ih =>
    obtain ⟨a, b⟩ := ih (fun e he => h e (by simp [he]))
    unfold labelled at a b ⊢
    rw [List.filterMap_cons, List.filterMap_cons]
    by_cases c : e.tag = some (tableName "table")
    · obtain ⟨m, m', h1⟩ := h e (by simp)
      unfold addResource at h1
      rw [if_pos c] at h1
      unfold tableOf
      rw [if_pos c, if_pos (show e.tag = some (inTableNs "table") from c)]
      unfold parseTable at h1 ⊢
      cases ho : parseOrder e with
      | error _ => rw [ho] at h1; cases h1
      | ok o =>
        have ht : theOrder e = o := by unfold theOrder; rw [ho]
        have hs := theOrder_states ho
        cases hl : resourceLabel e with
        | none => exact ⟨a, b⟩
        | some l =>
          refine ⟨?_, ?_⟩
          · show (l, _) :: cs.filterMap (tableOf role) = _
            rw [a]
            show _ = (l, plainTable role e) :: _
            unfold plainTable
            rw [ht]
          · intro p hp
            rcases List.mem_cons.1 hp with rfl | hp
            · rw [ht]; exact hs
            · exact b p hp
    · have : tableOf role e = none := by unfold tableOf; rw [if_neg c]
      rw [this, if_neg (show ¬ e.tag = some (inTableNs "table") from c)]
      exact ⟨a, b⟩

theorem breakdownOf_eq {dig : Char → Option Nat} {env : TableEnv} {role : String} {cs : List XNode} (h : ∀ e ∈ cs, ∃ m m', addResource dig env role m e = .ok m') :
    cs.filterMap breakdownOf = (labelled "breakdown" cs).map (fun p => (p.1, plainBreakdown p.2)) ∧
    ∀ p ∈ labelled "breakdown" cs, StatesOrder p.2 (theOrder p.2) := by
  induction cs with
  | nil => exact ⟨rfl, by intro p hp; cases hp⟩
  | cons e cs ih =>
    obtain ⟨a, b⟩ := ih (fun e he => h e (by simp [he]))
    unfold labelled at a b ⊢
    rw [List.filterMap_cons, List.filterMap_cons]
    by_cases c : e.tag = some (tableName "breakdown")
    · obtain ⟨m, m', h1⟩ := h e (by simp)
      unfold addResource at h1
      rw [if_neg (by rw [c]; decide), if_pos c] at h1
      unfold breakdownOf
      rw [if_pos c, if_pos (show e.tag = some (inTableNs "breakdown") from c)]
      unfold parseBreakdown at h1 ⊢
      cases ho : parseOrder e with
      | error _ => rw [ho] at h1; cases h1
      | ok o =>
        have ht : theOrder e = o := by unfold theOrder; rw [ho]
        have hs := theOrder_states ho
        cases hl : resourceLabel e with
        | none => exact ⟨a, b⟩
        | some l =>
          refine ⟨?_, ?_⟩
          · show (l, _) :: cs.filterMap breakdownOf = _
            rw [a]
            show _ = (l, plainBreakdown e) :: _
            unfold plainBreakdown
            rw [ht]
          · intro p hp
            rcases List.mem_cons.1 hp with rfl | hp
            · rw [ht]; exact hs
            · exact b p hp
    · have : breakdownOf e = none := by unfold breakdownOf; rw [if_neg c]
      rw [this, if_neg (show ¬ e.tag = some (inTableNs "breakdown") from c)]
      exact ⟨a, b⟩

theorem labelled_label {n : String} {cs : List XNode} {p : String × XNode} (h : p ∈ labelled n cs) : p.2.attr? (xlinkName "label") = some p.1 := by
  obtain ⟨e, -, he⟩ := List.mem_filterMap.1 h
  by_cases c : e.tag = some (inTableNs n)
  · rw [if_pos c] at he
    unfold resourceLabel at he
    cases ha : e.attr? "{http://www.w3.org/1999/xlink}label" with
    | none => rw [ha] at he; cases he
    | some l =>
      rw [ha] at he
      by_cases hl : l = ""
      · simp only [hl, if_true] at he; cases he
      · simp only [hl, if_false] at he; cases he; exact ha
  · rw [if_neg c] at he; cases he

/-- The model of resources and that of arcs. -/
theorem read_split {dig : Char → Option Nat} {env : TableEnv} {x : XNode} {m : TableModel} (hd : dig '.' = none) (ht : ∀ e ∈ x.children, ∀ t, e.tag = some t → LxmlTag t)
    (h : readTableLinkbase dig env x = .ok m) :
    ∃ m0, x.children.foldlM (addResource dig env ((x.attr? (xlinkName "role")).getD "")) {} = .ok m0 ∧ ArcInv dig m0 x.children m ∧ m0.filters = [] := by
  unfold readTableLinkbase at h
  cases h1 : x.children.foldlM (addResource dig env ((x.attr? (xlinkName "role")).getD "")) {} with
  | error _ => simp only [h1, bind, Except.bind] at h; cases h
  | ok m0 =>
    simp only [h1, bind, Except.bind] at h
    have hf : m0.filters = [] := (addResources x.children {} m0 ht h1).2.2.2.1
    exact ⟨m0, rfl, by simpa using addArcs hd hf x.children [] m0 m (arcInv_refl dig m0) h, hf⟩

theorem isLabel_iff {n : String} {cs : List XNode} {l : String} : isLabel n cs l = true ↔ l ∈ (labelled n cs).map (·.1) := by
  unfold isLabel; simp [List.any_eq_true]

/-- C91: the tables of a link are its table elements that have a label, in the order the labels appear first; the last element with a label counts. The breakdowns of a table
on each axis are those its arcs lead to, in document order; a table has no filters. -/
theorem C91_tables (dig : Char → Option Nat) (env : TableEnv) (x : XNode) (m : TableModel) (hd : dig '.' = none) (ht : ∀ e ∈ x.children, ∀ t, e.tag = some t → LxmlTag t)
    (h : readTableLinkbase dig env x = .ok m) :
    m.tables.keys = firstOccurrences ((labelled "table" x.children).map (·.1)) ∧
    ∀ l t, m.tables.get? l = some t → ∃ e, latest (·.1) (labelled "table" x.children) l = some (l, e) ∧
      t.linkrole = (x.attr? "{http://www.w3.org/1999/xlink}role").getD "" ∧ t.id = e.attr? "id" ∧ t.label = some l ∧ StatesOrder e t.order ∧
      t.xs = edgesFrom dig "tableBreakdownArc" (fun a b => isLabel "breakdown" x.children b && a.attr? "axis" == some "x") x.children l ∧
      t.ys = edgesFrom dig "tableBreakdownArc" (fun a b => isLabel "breakdown" x.children b && a.attr? "axis" == some "y") x.children l ∧
      t.zs = edgesFrom dig "tableBreakdownArc" (fun a b => isLabel "breakdown" x.children b && a.attr? "axis" == some "z") x.children l ∧
      t.filters = [] := by
  obtain ⟨m0, h0, hinv, -⟩ := read_split hd ht h
  obtain ⟨a, b, -, -, -, f⟩ := addResources x.children {} m0 ht h0
  obtain ⟨teq, tst⟩ := tableOf_eq f
  obtain ⟨beq, -⟩ := breakdownOf_eq f
  rw [teq] at a
  rw [beq] at b
  have hb : ∀ l, m0.breakdowns.has l = isLabel "breakdown" x.children l := by
    intro l
    rw [Bool.eq_iff_iff, Dict.has_iff_mem_keys, b, pairs_keys, isLabel_iff, List.map_map]
    show l ∈ List.foldl appendNew [] _ ↔ _
    rw [foldl_appendNew_nil, mem_firstOccurrences]
    rfl
  constructor
  · rw [hinv.keys, a, pairs_keys, List.map_map]
    show List.foldl appendNew [] _ = _
    rw [foldl_appendNew_nil]
    rfl
  · intro l t hl
    rw [hinv.tables l, a, pairs_get?, latest_map (plainTable _)] at hl
    simp only [hb] at hl
    cases hlat : latest (·.1) (labelled "table" x.children) l with
    | none => rw [hlat] at hl; cases hl
    | some p =>
      rw [hlat] at hl
      obtain ⟨hp, hk⟩ := latest_some _ _ _ _ hlat
      obtain ⟨l', e⟩ := p
      obtain rfl : l' = l := hk
      have h := Option.some.inj hl
      subst h
      exact ⟨e, rfl, rfl, rfl, labelled_label hp, tst _ hp, rfl, rfl, rfl, rfl⟩

/-- C91: the breakdowns, with the roots of their trees and their axis. -/
theorem C91_breakdowns (dig : Char → Option Nat) (env : TableEnv) (x : XNode) (m : TableModel) (hd : dig '.' = none) (ht : ∀ e ∈ x.children, ∀ t, e.tag = some t → LxmlTag t)
    (h : readTableLinkbase dig env x = .ok m) :
    (∀ l, m.breakdowns.has l = isLabel "breakdown" x.children l) ∧
    ∀ l b, m.breakdowns.get? l = some b → ∃ e, latest (·.1) (labelled "breakdown" x.children) l = some (l, e) ∧
      b.id = e.attr? "id" ∧ b.label = some l ∧ StatesOrder e b.order ∧ b.roots = edgesFrom dig "breakdownTreeArc" (fun _ n => m.nodes.has n) x.children l ∧
      b.axis = (lastTo "tableBreakdownArc" "axis" (isLabel "table" x.children) x.children l).getD "x" := by
  obtain ⟨m0, h0, hinv, -⟩ := read_split hd ht h
  obtain ⟨a, b, -, -, -, f⟩ := addResources x.children {} m0 ht h0
  obtain ⟨teq, -⟩ := tableOf_eq f
  obtain ⟨beq, bst⟩ := breakdownOf_eq f
  rw [teq] at a
  rw [beq] at b
  have hb : ∀ l, m0.breakdowns.has l = isLabel "breakdown" x.children l := by
    intro l
    rw [Bool.eq_iff_iff, Dict.has_iff_mem_keys, b, pairs_keys, isLabel_iff, List.map_map]
    show l ∈ List.foldl appendNew [] _ ↔ _
    rw [foldl_appendNew_nil, mem_firstOccurrences]
    rfl
  have htab : m0.tables.has = isLabel "table" x.children := by
    funext l
    rw [Bool.eq_iff_iff, Dict.has_iff_mem_keys, a, pairs_keys, isLabel_iff, List.map_map]
    show l ∈ List.foldl appendNew [] _ ↔ _
    rw [foldl_appendNew_nil, mem_firstOccurrences]
    rfl
  refine ⟨fun l => by rw [hinv.hasBreakdown, hb], ?_⟩
  intro l t hl
  rw [hinv.breakdowns l, htab, b, pairs_get?, latest_map plainBreakdown] at hl
  simp only [← hinv.hasNode] at hl
  cases hlat : latest (·.1) (labelled "breakdown" x.children) l with
  | none => rw [hlat] at hl; cases hl
  | some p =>
    rw [hlat] at hl
    obtain ⟨hp, hk⟩ := latest_some _ _ _ _ hlat
    obtain ⟨l', e⟩ := p
    obtain rfl : l' = l := hk
    have h := Option.some.inj hl
    subst h
    exact ⟨e, rfl, rfl, labelled_label hp, bst _ hp, rfl, rfl⟩

/-- C91: the nodes. Each is the last one read for its label; its children are those its arcs lead to, in document order, but nodes for relationships have none. -/
theorem C91_nodes (dig : Char → Option Nat) (env : TableEnv) (x : XNode) (m : TableModel) (hd : dig '.' = none) (ht : ∀ e ∈ x.children, ∀ t, e.tag = some t → LxmlTag t)
    (h : readTableLinkbase dig env x = .ok m) (l : String) :
    (latest (·.1) (readNodes dig env x.children) l = none → m.nodes.get? l = none) ∧
    ∀ p, latest (·.1) (readNodes dig env x.children) l = some p → ∃ n, m.nodes.get? l = some n ∧ n.kind = p.2.kind ∧ n.order = p.2.order ∧ n.tagSelector = p.2.tagSelector ∧
      n.id = p.2.id ∧ n.label = some l ∧
      n.children = if n.isRelationship then [] else edgesFrom dig "definitionNodeSubtreeArc" (fun _ n => m.nodes.has n) x.children l := by
  obtain ⟨m0, h0, hinv, -⟩ := read_split hd ht h
  obtain ⟨-, -, c, -, -, -⟩ := addResources x.children {} m0 ht h0
  have hc : m0.nodes = (readNodes dig env x.children).foldl (fun (d : Dict String DefNode) p => d.set p.1 p.2) [] := c
  obtain ⟨g, hg⟩ := hinv.nodes l
  rw [hc, pairs_get?] at hg
  constructor
  · intro hn
    rw [hn] at hg
    exact hg
  · intro p hp
    rw [hp] at hg
    refine ⟨_, hg, rfl, rfl, rfl, rfl, ?_, ?_⟩
    · obtain ⟨hm, rfl⟩ := latest_some _ _ _ _ hp
      obtain ⟨e, -, he⟩ := List.mem_filterMap.1 hm
      cases hr : readNode dig env e with
      | error _ => rw [hr] at he; cases he
      | ok o =>
        rw [hr] at he
        cases o with
        | none => cases he
        | some n =>
          dsimp only at he
          have hlab : e.attr? (xlinkName "label") = (resourceLabel e) ∨ resourceLabel e = none := by
            unfold resourceLabel
            show e.attr? "{http://www.w3.org/1999/xlink}label" = _ ∨ _
            cases e.attr? "{http://www.w3.org/1999/xlink}label" with
            | none => exact .inl rfl
            | some l => by_cases hl : l = "" <;> simp [hl]
          cases hl : resourceLabel e with
          | none => rw [hl] at he; cases he
          | some l =>
            rw [hl] at he
            cases he
            show n.label = some l
            rw [(readNode_label hr).1]
            rcases hlab with h | h
            · rw [h, hl]
            · rw [hl] at h; cases h
    · have hch : p.2.children = [] := by
        obtain ⟨hm, -⟩ := latest_some _ _ _ _ hp
        obtain ⟨e, -, he⟩ := List.mem_filterMap.1 hm
        cases hr : readNode dig env e with
        | error _ => rw [hr] at he; cases he
        | ok o =>
          rw [hr] at he
          cases o with
          | none => cases he
          | some n =>
            dsimp only at he
            cases hl : resourceLabel e with
            | none => rw [hl] at he; cases he
            | some l =>
              rw [hl] at he
              cases he
              exact (readNode_label hr).2
      show (if p.2.isRelationship = true then p.2.children else p.2.children ++ _) = if p.2.isRelationship = true then [] else _
      rw [hch]
      simp only [hinv.hasNode, List.nil_append]
      rw [hc]

end Brel
