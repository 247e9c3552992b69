import Verif.Props.TableStructure
import Verif.Props.Tables
import Verif.Lemmas.XmlContext
import Verif.Spec.FactValue

/-! # The nodes of tables (C92, C93) -/

namespace Brel

theorem inFormulaNs_eq : inFormulaNs = formulaName := rfl

theorem parseConceptRule_iff (cs : List XNode) (r : AspectRule) :
    parseConceptRule cs = .ok (some r) ↔ ∃ pre c post n, cs = pre ++ c :: post ∧ SaysName c n ∧ r = .concept n ∧
      ∀ p ∈ pre, p.tag ≠ some (inFormulaNs "qname") ∧ p.tag ≠ some (inFormulaNs "qnameExpression") := by
  have ne : some (inFormulaNs "qname") ≠ some (inFormulaNs "qnameExpression") := by decide
  induction cs with
  | nil =>
    constructor
    · intro h; cases h
    · rintro ⟨pre, c, post, n, h, -⟩
      cases pre <;> cases h
  | cons c cs ih =>
    rw [parseConceptRule]
    by_cases h1 : c.tag = some (formulaName "qname")
    · rw [if_pos h1]
      obtain ⟨q, hq⟩ := qnameFromStr_total (c.text.getD "") c.ns
      rw [hq]
      constructor
      · intro h
        cases h
        exact ⟨[], c, cs, _, rfl, .name h1 hq, rfl, by simp⟩
      · rintro ⟨pre, d, post, n, h, hs, rfl, hp⟩
        cases pre with
        | nil =>
          cases h
          cases hs with
          | name _ hq' => rw [hq] at hq'; cases hq'; rfl
          | expr h2 => rw [h1] at h2; exact absurd h2 ne
        | cons p pre =>
          cases h
          exact absurd h1 (hp c (by simp)).1
    · rw [if_neg h1]
      by_cases h2 : c.tag = some (formulaName "qnameExpression")
      · rw [if_pos h2]
        constructor
        · intro h
          cases h
          exact ⟨[], c, cs, _, rfl, .expr h2, rfl, by simp⟩
        · rintro ⟨pre, d, post, n, h, hs, rfl, hp⟩
          cases pre with
          | nil =>
            cases h
            cases hs with
            | name h3 _ => exact absurd h3 h1
            | expr _ => rfl
          | cons p pre =>
            cases h
            exact absurd h2 (hp c (by simp)).2
      · rw [if_neg h2]
        refine ih.trans ?_
        constructor
        · rintro ⟨pre, d, post, n, h, hs, rfl, hp⟩
          refine ⟨c :: pre, d, post, n, by rw [h]; rfl, hs, rfl, ?_⟩
          intro p hp'
          rcases List.mem_cons.1 hp' with rfl | hp'
          · exact ⟨h1, h2⟩
          · exact hp p hp'
        · rintro ⟨pre, d, post, n, h, hs, rfl, hp⟩
          cases pre with
          | nil =>
            cases h
            cases hs with
            | name h3 _ => exact absurd h3 h1
            | expr h3 => exact absurd h3 h2
          | cons p pre =>
            cases h
            exact ⟨pre, d, post, n, rfl, hs, rfl, fun p hp' => hp p (by simp [hp'])⟩

theorem parsePeriodRule_iff (e : XNode) (r : AspectRule) (ht : e.tag = some (inFormulaNs "period")) : parsePeriodRule e = some r ↔ SaysRule e r := by
  have n1 : some (inFormulaNs "forever") ≠ some (inFormulaNs "instant") := by decide
  have n2 : some (inFormulaNs "forever") ≠ some (inFormulaNs "duration") := by decide
  have n3 : some (inFormulaNs "instant") ≠ some (inFormulaNs "duration") := by decide
  unfold parsePeriodRule
  constructor
  · intro h
    cases hc : e.children with
    | nil => rw [hc] at h; cases h
    | cons c cs =>
      rw [hc] at h
      cases cs with
      | cons _ _ => cases h
      | nil =>
        dsimp only at h
        by_cases h1 : c.tag = some (formulaName "forever")
        · rw [if_pos h1] at h; cases h; exact .forever ht hc h1
        · rw [if_neg h1] at h
          by_cases h2 : c.tag = some (formulaName "instant")
          · rw [if_pos h2] at h; cases h; exact .instant ht hc h2
          · rw [if_neg h2] at h
            by_cases h3 : c.tag = some (formulaName "duration")
            · rw [if_pos h3] at h; cases h; exact .duration ht hc h3
            · rw [if_neg h3] at h; cases h
  · intro h
    cases h with
    | concept h => rw [ht] at h; exact absurd h (by decide)
    | entity h => rw [ht] at h; exact absurd h (by decide)
    | member h => rw [ht] at h; exact absurd h (by decide)
    | omitted h => rw [ht] at h; exact absurd h (by decide)
    | forever _ hc h =>
      rw [hc]; dsimp only
      rw [if_pos (show _ = some (formulaName "forever") from h)]
    | instant _ hc h =>
      rw [hc]; dsimp only
      rw [if_neg (show ¬ _ = some (formulaName "forever") from fun h' => n1 (h'.symm.trans h)), if_pos (show _ = some (formulaName "instant") from h)]
    | duration _ hc h =>
      rw [hc]; dsimp only
      rw [if_neg (show ¬ _ = some (formulaName "forever") from fun h' => n2 (h'.symm.trans h)), if_neg (show ¬ _ = some (formulaName "instant") from fun h' => n3 (h'.symm.trans h)),
        if_pos (show _ = some (formulaName "duration") from h)]

theorem parseExplicitRule_iff (e : XNode) (r : AspectRule) (ht : e.tag = some (inFormulaNs "explicitDimension")) : parseExplicitRule e = .ok (some r) ↔ SaysRule e r := by
  have n1 : some (inFormulaNs "member") ≠ some (inFormulaNs "omit") := by decide
  have n2 : some (inFormulaNs "qname") ≠ some (inFormulaNs "qnameExpression") := by decide
  unfold parseExplicitRule
  cases hd : e.attr? "dimension" with
  | none =>
    constructor
    · intro h; cases h
    · intro h
      cases h with
      | concept h => rw [ht] at h; exact absurd h (by decide)
      | entity h => rw [ht] at h; exact absurd h (by decide)
      | forever h => rw [ht] at h; exact absurd h (by decide)
      | instant h => rw [ht] at h; exact absurd h (by decide)
      | duration h => rw [ht] at h; exact absurd h (by decide)
      | member _ h => rw [hd] at h; cases h
      | omitted _ h => rw [hd] at h; cases h
  | some d =>
    dsimp only
    by_cases hde : d = ""
    · rw [if_pos hde]
      constructor
      · intro h; cases h
      · intro h
        cases h with
        | concept h => rw [ht] at h; exact absurd h (by decide)
        | entity h => rw [ht] at h; exact absurd h (by decide)
        | forever h => rw [ht] at h; exact absurd h (by decide)
        | instant h => rw [ht] at h; exact absurd h (by decide)
        | duration h => rw [ht] at h; exact absurd h (by decide)
        | member _ h h' => rw [hd] at h; cases h; exact absurd hde h'
        | omitted _ h h' => rw [hd] at h; cases h; exact absurd hde h'
    · rw [if_neg hde]
      obtain ⟨q, hq⟩ := qnameFromStr_total d e.ns
      rw [hq]
      show (match e.children with | [c] => _ | _ => _) = _ ↔ _
      constructor
      · intro h
        cases hc : e.children with
        | nil => rw [hc] at h; cases h
        | cons c cs =>
          rw [hc] at h
          cases cs with
          | cons _ _ => cases h
          | nil =>
            dsimp only at h
            by_cases h1 : c.tag = some (formulaName "member")
            · rw [if_pos h1] at h
              cases hg : c.children with
              | nil => rw [hg] at h; cases h
              | cons g gs =>
                rw [hg] at h
                cases gs with
                | cons _ _ => cases h
                | nil =>
                  dsimp only at h
                  by_cases h2 : g.tag = some (formulaName "qname")
                  · rw [if_pos h2] at h
                    obtain ⟨m, hm⟩ := qnameFromStr_total (g.text.getD "") g.ns
                    rw [hm] at h
                    cases h
                    exact .member ht hd hde hq hc h1 hg (.name h2 hm)
                  · rw [if_neg h2] at h
                    by_cases h3 : g.tag = some (formulaName "qnameExpression")
                    · rw [if_pos h3] at h; cases h; exact .member ht hd hde hq hc h1 hg (.expr h3)
                    · rw [if_neg h3] at h; cases h
            · rw [if_neg h1] at h
              by_cases h2 : c.tag = some (formulaName "omit")
              · rw [if_pos h2] at h; cases h; exact .omitted ht hd hde hq hc h2
              · rw [if_neg h2] at h; cases h
      · intro h
        cases h with
        | concept h => rw [ht] at h; exact absurd h (by decide)
        | entity h => rw [ht] at h; exact absurd h (by decide)
        | forever h => rw [ht] at h; exact absurd h (by decide)
        | instant h => rw [ht] at h; exact absurd h (by decide)
        | duration h => rw [ht] at h; exact absurd h (by decide)
        | member _ h _ hq' hc h1 hg hs =>
          rw [hd] at h; cases h
          rw [hq] at hq'; cases hq'
          rw [hc]; dsimp only
          rw [if_pos (show _ = some (formulaName "member") from h1), hg]; dsimp only
          cases hs with
          | name h2 hm => rw [if_pos (show _ = some (formulaName "qname") from h2), hm]; rfl
          | expr h2 => rw [if_neg (show ¬ _ = some (formulaName "qname") from fun h' => n2 (h'.symm.trans h2)), if_pos (show _ = some (formulaName "qnameExpression") from h2)]; rfl
        | omitted _ h _ hq' hc h1 =>
          rw [hd] at h; cases h
          rw [hq] at hq'; cases hq'
          rw [hc]; dsimp only
          rw [if_neg (show ¬ _ = some (formulaName "member") from fun h' => n1 (h'.symm.trans h1)), if_pos (show _ = some (formulaName "omit") from h1)]; rfl

theorem parseRule_iff (e : XNode) (r : AspectRule) : parseRule e = .ok (some r) ↔ SaysRule e r := by
  unfold parseRule
  by_cases h1 : e.tag = some (formulaName "concept")
  · rw [if_pos h1, parseConceptRule_iff]
    constructor
    · rintro ⟨pre, c, post, n, h, hs, rfl, hp⟩
      exact .concept h1 h hs hp
    · intro h
      cases h with
      | concept _ h hs hp => exact ⟨_, _, _, _, h, hs, rfl, hp⟩
      | entity h => rw [h1] at h; exact absurd h (by decide)
      | forever h => rw [h1] at h; exact absurd h (by decide)
      | instant h => rw [h1] at h; exact absurd h (by decide)
      | duration h => rw [h1] at h; exact absurd h (by decide)
      | member h => rw [h1] at h; exact absurd h (by decide)
      | omitted h => rw [h1] at h; exact absurd h (by decide)
  · rw [if_neg h1]
    by_cases h2 : e.tag = some (formulaName "period")
    · rw [if_pos h2, ← parsePeriodRule_iff e r h2]
      constructor
      · intro h; exact Except.ok.inj h
      · intro h; rw [h]
    · rw [if_neg h2]
      by_cases h3 : e.tag = some (formulaName "explicitDimension")
      · rw [if_pos h3]; exact parseExplicitRule_iff e r h3
      · rw [if_neg h3]
        by_cases h4 : e.tag = some (formulaName "entityIdentifier")
        · rw [if_pos h4]
          unfold parseEntityRule
          constructor
          · intro h
            by_cases hc : e.attr? "scheme" = none ∧ e.attr? "value" = none
            · rw [if_pos hc] at h; cases h
            · rw [if_neg hc] at h; cases h
              refine .entity h4 ?_
              rcases hs : e.attr? "scheme" with _ | s
              · rcases hv : e.attr? "value" with _ | v
                · exact absurd ⟨hs, hv⟩ hc
                · exact .inr rfl
              · exact .inl rfl
          · intro h
            cases h with
            | entity _ hh =>
              rw [if_neg]
              rintro ⟨a, b⟩
              rw [a, b] at hh
              rcases hh with hh | hh <;> cases hh
            | concept h => exact absurd h h1
            | forever h => exact absurd h h2
            | instant h => exact absurd h h2
            | duration h => exact absurd h h2
            | member h => exact absurd h h3
            | omitted h => exact absurd h h3
        · rw [if_neg h4]
          constructor
          · intro h; cases h
          · intro h
            cases h with
            | entity h => exact absurd h h4
            | concept h => exact absurd h h1
            | forever h => exact absurd h h2
            | instant h => exact absurd h h2
            | duration h => exact absurd h h2
            | member h => exact absurd h h3
            | omitted h => exact absurd h h3

theorem parseRule_total (e : XNode) : ∃ o, parseRule e = .ok o := by
  unfold parseRule
  split
  · generalize e.children = cs
    induction cs with
    | nil => exact ⟨_, rfl⟩
    | cons c cs ih =>
      rw [parseConceptRule]
      split
      · obtain ⟨q, hq⟩ := qnameFromStr_total (c.text.getD "") c.ns
        rw [hq]; exact ⟨_, rfl⟩
      · split
        · exact ⟨_, rfl⟩
        · exact ih
  · split
    · exact ⟨_, rfl⟩
    · split
      · unfold parseExplicitRule
        cases e.attr? "dimension" with
        | none => exact ⟨_, rfl⟩
        | some d =>
          dsimp only
          by_cases hde : d = ""
          · rw [if_pos hde]; exact ⟨_, rfl⟩
          · rw [if_neg hde]
            obtain ⟨q, hq⟩ := qnameFromStr_total d e.ns
            rw [hq]
            show ∃ o, (match e.children with | [c] => _ | _ => _) = Except.ok o
            rcases e.children with _ | ⟨c, _ | ⟨_, _⟩⟩
            · exact ⟨_, rfl⟩
            · dsimp only
              split
              · rcases c.children with _ | ⟨g, _ | ⟨_, _⟩⟩
                · exact ⟨_, rfl⟩
                · dsimp only
                  split
                  · obtain ⟨m, hm⟩ := qnameFromStr_total (g.text.getD "") g.ns
                    rw [hm]; exact ⟨_, rfl⟩
                  · split <;> exact ⟨_, rfl⟩
                · exact ⟨_, rfl⟩
              · split <;> exact ⟨_, rfl⟩
            · exact ⟨_, rfl⟩
      · split <;> exact ⟨_, rfl⟩

/-- The rules of some elements. -/
def rulesOf (cs : List XNode) : List AspectRule := cs.flatMap (fun e => match parseRule e with | .ok r => r.toList | .error _ => [])

theorem rulesOf_say (cs : List XNode) : SayRules cs (rulesOf cs) := by
  induction cs with
  | nil => exact .nil
  | cons e cs ih =>
    unfold rulesOf
    rw [List.flatMap_cons]
    obtain ⟨o, ho⟩ := parseRule_total e
    rw [ho]
    cases o with
    | none => exact .skip (fun r hr => by have := (parseRule_iff e r).2 hr; rw [ho] at this; cases this) ih
    | some r => exact .rule ((parseRule_iff e r).1 ho) ih

/-- Elements say their rules and no others. -/
theorem SayRules.unique {cs : List XNode} {rs : List AspectRule} (h : SayRules cs rs) : rs = rulesOf cs := by
  induction h with
  | nil => rfl
  | @rule e cs r rs hr _ ih =>
    unfold rulesOf
    rw [List.flatMap_cons, (parseRule_iff e r).2 hr, ih]
    rfl
  | @skip e cs rs hn _ ih =>
    unfold rulesOf
    rw [List.flatMap_cons]
    obtain ⟨o, ho⟩ := parseRule_total e
    cases o with
    | none => rw [ho, ih]; rfl
    | some r => exact absurd ((parseRule_iff e r).1 ho) (hn r)

theorem parseRules_eq (cs : List XNode) : parseRules cs = .ok (rulesOf cs) := by
  unfold parseRules
  suffices h : ∀ acc : List AspectRule, cs.foldlM (fun rs x => do let r ← parseRule x; return rs ++ r.toList) acc = (.ok (acc ++ rulesOf cs) : Except PyErr (List AspectRule)) by
    simpa using h []
  induction cs with
  | nil => intro acc; simp [rulesOf]; rfl
  | cons e cs ih =>
    intro acc
    obtain ⟨o, ho⟩ := parseRule_total e
    rw [List.foldlM_cons]
    simp only [ho]
    show cs.foldlM _ (acc ++ o.toList) = _
    rw [ih]
    unfold rulesOf
    rw [List.flatMap_cons, ho, List.append_assoc]

def setOf (p : String × XNode) : RuleSet := { tag := some p.1, rules := rulesOf p.2.children }

def allSets (cs : List XNode) : List RuleSet :=
  if rulesOf cs = [] then (if taggedSets cs = [] then [{}] else (taggedSets cs).map setOf) else (taggedSets cs).map setOf ++ [{ rules := rulesOf cs }]

theorem parseRuleSets_eq (x : XNode) : parseRuleSets x = .ok (allSets x.children) := by
  have fold : ∀ (cs : List XNode) (a : List AspectRule) (b : List RuleSet), cs.foldlM (fun (st : List AspectRule × List RuleSet) c => do
      if c.tag = some (tableName "ruleSet") then
        let s ← parseRuleSet c
        return (st.1, st.2 ++ s.toList)
      else
        let r ← parseRule c
        return (st.1 ++ r.toList, st.2)) (a, b) = (.ok (a ++ rulesOf cs, b ++ (taggedSets cs).map setOf) : Except PyErr _) := by
    intro cs
    induction cs with
    | nil => intro a b; simp [rulesOf, taggedSets]; rfl
    | cons e cs ih =>
      intro a b
      rw [List.foldlM_cons]
      unfold taggedSets rulesOf
      rw [List.filterMap_cons, List.flatMap_cons]
      by_cases h : e.tag = some (tableName "ruleSet")
      · simp only [if_pos h, if_pos (show e.tag = some (inTableNs "ruleSet") from h)]
        have hno : parseRule e = .ok none := by
          unfold parseRule
          rw [if_neg (by rw [h]; decide), if_neg (by rw [h]; decide), if_neg (by rw [h]; decide), if_neg (by rw [h]; decide)]
        rw [hno]
        cases ht : e.attr? "tag" with
        | none =>
          have hp : parseRuleSet e = .ok none := by unfold parseRuleSet; rw [ht]
          rw [hp]
          show cs.foldlM _ (a, b ++ []) = _
          rw [ih]; simp; exact ⟨rfl, rfl⟩
        | some t =>
          dsimp only
          by_cases hte : t = ""
          · have hp : parseRuleSet e = .ok none := by unfold parseRuleSet; rw [ht]; dsimp only; rw [if_pos hte]
            rw [hp, if_pos hte]
            show cs.foldlM _ (a, b ++ []) = _
            rw [ih]; simp; exact ⟨rfl, rfl⟩
          · have hp : parseRuleSet e = .ok (some (setOf (t, e))) := by unfold parseRuleSet; rw [ht]; dsimp only; rw [if_neg hte, parseRules_eq]; rfl
            rw [hp, if_neg hte]
            show cs.foldlM _ (a, b ++ [setOf (t, e)]) = _
            rw [ih]; simp [rulesOf, taggedSets]
      · simp only [if_neg h, if_neg (show ¬ e.tag = some (inTableNs "ruleSet") from h)]
        obtain ⟨o, ho⟩ := parseRule_total e
        rw [ho]
        show cs.foldlM _ (a ++ o.toList, b) = _
        rw [ih]; simp [rulesOf, taggedSets]
  unfold parseRuleSets
  rw [fold x.children [] []]
  unfold allSets
  show (if rulesOf x.children = [] then pure (if (taggedSets x.children).map setOf = [] then [({} : RuleSet)] else (taggedSets x.children).map setOf)
    else pure ((taggedSets x.children).map setOf ++ [({ rules := rulesOf x.children } : RuleSet)]) : Except PyErr (List RuleSet)) = _
  by_cases h1 : rulesOf x.children = []
  · rw [if_pos h1, if_pos h1]
    by_cases h2 : taggedSets x.children = []
    · simp only [h2]; rfl
    · rw [if_neg h2, if_neg (by simpa using h2)]
      rfl
  · rw [if_neg h1, if_neg h1]; rfl

/-- C92: a rule node. It is abstract or merged if the attributes say `true`; for each tag, the rules are those of the last rule set with this tag; without tag, they are the rules
among its own children. -/
theorem C92_rules (e : XNode) (n : DefNode) (h : parseRuleNode e = .ok n) :
    ∃ own sets, SayRules e.children own ∧ n.kind = .rule (e.attr? "abstract" = some "true") (e.attr? "merge" = some "true") sets ∧
      (∃ o, n.order = some o ∧ StatesOrder e o) ∧ n.tagSelector = e.attr? "tagSelector" ∧ n.id = e.attr? "id" ∧
      (∀ t, (latest (·.1) (taggedSets e.children) t = none → sets.get? (some t) = none) ∧
        ∀ s, latest (·.1) (taggedSets e.children) t = some (t, s) → ∃ rs, SayRules s.children rs ∧ sets.get? (some t) = some { tag := some t, rules := rs }) ∧
      sets.get? none = if own ≠ [] ∨ taggedSets e.children = [] then some { tag := none, rules := own } else none := by
  unfold parseRuleNode at h
  cases ho : parseOrder e with
  | error _ => rw [ho] at h; cases h
  | ok o =>
    rw [ho, parseRuleSets_eq] at h
    have h := (Except.ok.inj h).symm
    subst h
    refine ⟨rulesOf e.children, (allSets e.children).foldl (fun (d : Dict (Option String) RuleSet) s => d.set s.tag s) [], rulesOf_say _, ?_, ⟨o, rfl, theOrder_states ho⟩, rfl, rfl, ?_, ?_⟩
    · dsimp only
      congr 1
      · cases e.attr? "abstract" <;> simp
      · cases e.attr? "merge" <;> simp
    · intro t
      generalize hd : allSets e.children = l
      have hl : latest (fun s : RuleSet => s.tag) l (some t) = (latest (·.1) (taggedSets e.children) t).map setOf := by
        have hm : latest (fun s : RuleSet => s.tag) ((taggedSets e.children).map setOf) (some t) = (latest (·.1) (taggedSets e.children) t).map setOf := by
          unfold latest
          rw [← List.map_reverse, List.find?_map]
          congr 2
          funext p
          show decide (some p.1 = some t) = decide (p.1 = t)
          simp
        rw [← hd]
        unfold allSets
        split
        · split
          · rename_i h2; rw [h2]; rfl
          · exact hm
        · rw [latest_append, hm]; rfl
      have hg : (l.foldl (fun (d : Dict (Option String) RuleSet) s => d.set s.tag s) []).get? (some t) = (latest (·.1) (taggedSets e.children) t).map setOf := by
        have e1 : l.foldl (fun (d : Dict (Option String) RuleSet) s => d.set s.tag s) [] = (l.map (fun s => (s.tag, s))).foldl (fun (d : Dict (Option String) RuleSet) p => d.set p.1 p.2) [] := by
          rw [List.foldl_map]
        rw [e1, pairs_get?, ← hl]
        unfold latest
        rw [← List.map_reverse, List.find?_map]
        show ((_ : Option (Option String × RuleSet)).map _).or none = _
        rw [Option.or_none, Option.map_map]
        show Option.map (fun s => s) _ = _
        rw [Option.map_id']
        rfl
      rw [hg]
      constructor
      · intro h; rw [h]; rfl
      · intro s hs
        rw [hs]
        exact ⟨rulesOf s.children, rulesOf_say _, rfl⟩
    · generalize hd : allSets e.children = l
      have hl : latest (fun s : RuleSet => s.tag) l none = if rulesOf e.children ≠ [] ∨ taggedSets e.children = [] then some { tag := none, rules := rulesOf e.children } else none := by
        have hm : latest (fun s : RuleSet => s.tag) ((taggedSets e.children).map setOf) none = none := by
          rw [latest_none]
          intro s hs
          obtain ⟨p, -, rfl⟩ := List.mem_map.1 hs
          intro h; cases h
        rw [← hd]
        unfold allSets
        by_cases h1 : rulesOf e.children = []
        · rw [if_pos h1]
          by_cases h2 : taggedSets e.children = []
          · rw [if_pos h2, if_pos (.inr h2), h1]; rfl
          · rw [if_neg h2, if_neg, hm]
            rintro (h | h)
            · exact h h1
            · exact h2 h
        · rw [if_neg h1, if_pos (.inl h1), latest_append, hm]; rfl
      have e1 : l.foldl (fun (d : Dict (Option String) RuleSet) s => d.set s.tag s) [] = (l.map (fun s => (s.tag, s))).foldl (fun (d : Dict (Option String) RuleSet) p => d.set p.1 p.2) [] := by
        rw [List.foldl_map]
      rw [e1, pairs_get?, ← hl]
      unfold latest
      rw [← List.map_reverse, List.find?_map]
      show ((_ : Option (Option String × RuleSet)).map _).or none = _
      rw [Option.or_none, Option.map_map]
      show Option.map (fun s => s) _ = _
      rw [Option.map_id']
      rfl

theorem always_not {e : XNode} (h : alwaysAspect e = none) : e.tag ≠ some (tableName "conceptAspect") ∧ e.tag ≠ some (tableName "entityIdentifierAspect") ∧
    e.tag ≠ some (tableName "periodAspect") ∧ e.tag ≠ some (tableName "unitAspect") := by
  unfold alwaysAspect at h
  rw [inTableNs_eq] at h
  split at h
  · cases h
  · split at h
    · cases h
    · split at h
      · cases h
      · split at h
        · cases h
        · exact ⟨by assumption, by assumption, by assumption, by assumption⟩

theorem aspectChildren_skip (env : TableEnv) (pre cs : List XNode) (s : Option Aspect × Bool) (h : ∀ p ∈ pre, alwaysAspect p = none ∧ p.tag ≠ some (inTableNs "dimensionAspect")) :
    aspectChildren env (pre ++ cs) s = aspectChildren env cs s := by
  induction pre with
  | nil => rfl
  | cons p pre ih =>
    obtain ⟨h1, h2⟩ := h p (by simp)
    obtain ⟨a, b, c, d⟩ := always_not h1
    rw [List.cons_append, aspectChildren, if_neg a, if_neg b, if_neg c, if_neg d, if_neg (show ¬ p.tag = some (tableName "dimensionAspect") from h2)]
    exact ih (fun p hp => h p (by simp [hp]))

theorem aspectChildren_always (env : TableEnv) (e : XNode) (cs : List XNode) (s : Option Aspect × Bool) (n : String) (h : alwaysAspect e = some n) :
    aspectChildren env (e :: cs) s = aspectChildren env cs (some (coreAspect n), s.2) := by
  unfold alwaysAspect at h
  rw [inTableNs_eq] at h
  rw [aspectChildren]
  split at h
  · rename_i c; cases h; rw [if_pos c]
  · split at h
    · rename_i a c; cases h; rw [if_neg a, if_pos c]
    · split at h
      · rename_i a b c; cases h; rw [if_neg a, if_neg b, if_pos c]
      · split at h
        · rename_i a b d c; cases h; rw [if_neg a, if_neg b, if_neg d, if_pos c]
        · cases h

/-- C92: an aspect node whose one aspect is concept, entity, period or unit, whatever else it contains. -/
theorem C92_aspect (env : TableEnv) (x e : XNode) (pre post : List XNode) (n : String) (hx : x.children = pre ++ e :: post) (he : alwaysAspect e = some n)
    (ho : ∀ p ∈ pre ++ post, alwaysAspect p = none ∧ p.tag ≠ some (inTableNs "dimensionAspect")) :
    ∃ nd, parseAspectNode env x = .ok (some nd) ∧ (∃ a, nd.kind = .aspect a false ∧ a.name = n ∧ a.core = true) ∧ nd.id = x.attr? "id" ∧ nd.order = none := by
  unfold parseAspectNode
  rw [hx, aspectChildren_skip env pre _ _ (fun p hp => ho p (by simp [hp])), aspectChildren_always env e post _ n he]
  have h2 := aspectChildren_skip env post [] (some (coreAspect n), false) (fun p hp => ho p (by simp [hp]))
  rw [List.append_nil] at h2
  rw [h2]
  exact ⟨_, rfl, ⟨_, rfl, rfl, rfl⟩, rfl, rfl⟩

/-- C92: an aspect node whose one aspect is a dimension: the dimension it names, which must be known as an aspect, or no node. -/
theorem C92_dimension (env : TableEnv) (x e : XNode) (pre post : List XNode) (q : QName) (hx : x.children = pre ++ e :: post) (he : e.tag = some (inTableNs "dimensionAspect"))
    (hq : qnameFromStr (e.text.getD "") e.ns = .ok q) (ho : ∀ p ∈ pre ++ post, alwaysAspect p = none ∧ p.tag ≠ some (inTableNs "dimensionAspect")) :
    (∀ a, env.aspects.get? q.prefixLocal = some a → ∃ nd, parseAspectNode env x = .ok (some nd) ∧ nd.kind = .aspect a (e.attr? "includeUnreportedValue" = some "true") ∧
      nd.id = x.attr? "id" ∧ nd.order = none) ∧
    (env.aspects.get? q.prefixLocal = none → parseAspectNode env x = .ok none) := by
  have hstep : ∀ s, aspectChildren env (e :: post) s = (match env.aspects.get? q.prefixLocal with
      | none => .ok none
      | some a => aspectChildren env post (some a, (e.attr? "includeUnreportedValue").getD "false" = "true")) := by
    intro s
    rw [aspectChildren, if_neg (by rw [he]; decide), if_neg (by rw [he]; decide), if_neg (by rw [he]; decide), if_neg (by rw [he]; decide), if_pos (show e.tag = some (tableName "dimensionAspect") from he), hq]
    show (match env.aspects.get? q.prefixLocal with | none => _ | some a => _) = _
    cases env.aspects.get? q.prefixLocal <;> rfl
  unfold parseAspectNode
  rw [hx, aspectChildren_skip env pre _ _ (fun p hp => ho p (by simp [hp])), hstep]
  constructor
  · intro a ha
    rw [ha]
    have h2 := aspectChildren_skip env post [] (some a, decide ((e.attr? "includeUnreportedValue").getD "false" = "true")) (fun p hp => ho p (by simp [hp]))
    rw [List.append_nil] at h2
    dsimp only
    rw [h2]
    refine ⟨_, rfl, ?_, rfl, rfl⟩
    dsimp only
    congr 1
    cases e.attr? "includeUnreportedValue" <;> simp
  · intro ha
    rw [ha]
    rfl

/-- C92 is false of the code for the other way to write truth values: a rule node that says `abstract="1"` is not abstract. -/
theorem C92_boolean_false : ∃ n s, parseRuleNode (.mk (some (inTableNs "ruleNode")) [("abstract", "1")] none [] []) = .ok n ∧ n.kind = .rule false false s := ⟨_, _, rfl, rfl⟩

/-! ## What is lost -/

/-- C93 is false of the code: in documents whose root is a linkbase element of the XBRL name space, no table is found, whatever the documents contain. -/
theorem C93_found_false (dig : Char → Option Nat) (env : TableEnv) (k : Nat) (roots : List XNode) (h : ∀ r ∈ roots, r.tag = some "{http://www.xbrl.org/2003/linkbase}linkbase") :
    findTableLinks roots = [] ∧ parseTables dig env k roots = .ok [] := by
  have hf : findTableLinks roots = [] := by
    unfold findTableLinks
    rw [List.flatMap_eq_nil_iff]
    intro r hr
    rw [if_neg (by rw [h r hr]; decide)]
  refine ⟨hf, ?_⟩
  unfold parseTables
  rw [hf]
  rfl

/-- C93: what is found are the generic links with a table in documents whose root has the name without `www`. -/
theorem C93_found_partial (roots : List XNode) (x : XNode) :
    x ∈ findTableLinks roots ↔ ∃ r ∈ roots, r.tag = some "{http://xbrl.org/2003/linkbase}linkbase" ∧ x ∈ r.children ∧ x.tag = some "{http://xbrl.org/2008/generic}link" ∧
      ∃ t ∈ x.children, t.tag = some (inTableNs "table") := by
  unfold findTableLinks
  rw [List.mem_flatMap]
  constructor
  · rintro ⟨r, hr, hx⟩
    by_cases ht : r.tag = some "{http://xbrl.org/2003/linkbase}linkbase"
    · rw [if_pos ht] at hx
      obtain ⟨h1, h2⟩ := List.mem_filter.1 hx
      simp only [Bool.and_eq_true, decide_eq_true_eq, List.any_eq_true] at h2
      exact ⟨r, hr, ht, h1, h2.1, h2.2⟩
    · rw [if_neg ht] at hx; cases hx
  · rintro ⟨r, hr, ht, h1, h2, h3⟩
    refine ⟨r, hr, ?_⟩
    rw [if_pos ht]
    refine List.mem_filter.2 ⟨h1, ?_⟩
    simp only [Bool.and_eq_true, decide_eq_true_eq, List.any_eq_true]
    exact ⟨h2, h3⟩

/-- Nothing but a dimension element gives a dimension. -/
theorem relationshipDimension_none (env : TableEnv) (cs : List XNode) (d : Option QName) (h : ∀ c ∈ cs, c.tag ≠ some (inTableNs "dimension")) : relationshipDimension env cs d = .ok (some d) := by
  induction cs with
  | nil => rfl
  | cons c cs ih =>
    rw [relationshipDimension, if_neg (show ¬ c.tag = some (tableName "dimension") from h c (by simp))]
    exact ih (fun c hc => h c (by simp [hc]))

theorem relationshipChild_total (dig : Char → Option Nat) (env : TableEnv) (s : RelState) (c : XNode) : ∃ o, relationshipChild dig env s c = .ok o := by
  unfold relationshipChild
  split
  · obtain ⟨q, hq⟩ := qnameFromStr_total (c.text.getD "") c.ns
    rw [hq]
    show ∃ o, (if env.elements.hasTypedQName q .concept = true then _ else _) = Except.ok o
    split <;> exact ⟨_, rfl⟩
  · split
    · exact ⟨_, rfl⟩
    · split
      · exact ⟨_, rfl⟩
      · split
        · split <;> exact ⟨_, rfl⟩
        · exact ⟨_, rfl⟩

theorem relationshipChildren_total (dig : Char → Option Nat) (env : TableEnv) (cs : List XNode) (s : RelState) : ∃ o, relationshipChildren dig env cs s = .ok o := by
  induction cs generalizing s with
  | nil => exact ⟨_, rfl⟩
  | cons c cs ih =>
    rw [relationshipChildren]
    obtain ⟨o, ho⟩ := relationshipChild_total dig env s c
    rw [ho]
    cases o with
    | none => exact ⟨_, rfl⟩
    | some s' => exact ih s'

theorem relationshipChildren_bad (dig : Char → Option Nat) (env : TableEnv) (cs : List XNode) (s : RelState) (c : XNode) (hc : c ∈ cs) (hbad : ∀ s, relationshipChild dig env s c = .ok none) :
    relationshipChildren dig env cs s = .ok none := by
  induction cs generalizing s with
  | nil => cases hc
  | cons d cs ih =>
    rw [relationshipChildren]
    rcases List.mem_cons.1 hc with rfl | hc
    · rw [hbad]; rfl
    · obtain ⟨o, ho⟩ := relationshipChild_total dig env s d
      rw [ho]
      cases o with
      | none => rfl
      | some s' => exact ih s' hc

/-- C93 is false of the code for concepts: a relationship node for concepts is never a node of a table, unless it has a dimension element, which it may not have. -/
theorem C93_concept_false (dig : Char → Option Nat) (env : TableEnv) (x : XNode) (h : ∀ c ∈ x.children, c.tag ≠ some (inTableNs "dimension")) (n : DefNode) :
    parseDimensionNode dig env x ≠ .ok (some n) := by
  unfold parseDimensionNode
  cases parseOrder x with
  | error _ => intro h; cases h
  | ok o =>
    obtain ⟨s, hs⟩ := relationshipChildren_total dig env x.children {}
    cases s with
    | none => simp only [hs, bind, Except.bind]; intro h; cases h
    | some s => simp only [hs, relationshipDimension_none env x.children none h, bind, Except.bind]; intro h; cases h

/-- C93 is false of the code: a relationship node that states its axis is never a node of a table. -/
theorem C93_axis_false (dig : Char → Option Nat) (env : TableEnv) (x c : XNode) (hc : c ∈ x.children) (ht : c.tag = some (inTableNs "formulaAxis")) (n : DefNode) :
    parseDimensionNode dig env x ≠ .ok (some n) := by
  have hb : relationshipChildren dig env x.children {} = .ok none := by
    refine relationshipChildren_bad dig env _ _ c hc (fun s => ?_)
    unfold relationshipChild
    rw [if_neg (by rw [ht]; decide), if_neg (by rw [ht]; decide), if_pos (show c.tag = some (tableName "formulaAxis") from ht)]
  unfold parseDimensionNode
  cases parseOrder x with
  | error _ => intro h; cases h
  | ok o => simp only [hb, bind, Except.bind]; intro h; cases h

/-- C93 is false of the code: a relationship node for a dimension whose source is a member, as sources of such nodes are, is never a node of a table; sources must be concepts. -/
theorem C93_source_false (dig : Char → Option Nat) (env : TableEnv) (x c : XNode) (q : QName) (hc : c ∈ x.children) (ht : c.tag = some (inTableNs "relationshipSource"))
    (hq : qnameFromStr (c.text.getD "") c.ns = .ok q) (hn : env.elements.hasTypedQName q .concept = false) (n : DefNode) : parseDimensionNode dig env x ≠ .ok (some n) := by
  have hb : relationshipChildren dig env x.children {} = .ok none := by
    refine relationshipChildren_bad dig env _ _ c hc (fun s => ?_)
    unfold relationshipChild
    rw [if_pos (show c.tag = some (tableName "relationshipSource") from ht), hq]
    show (if env.elements.hasTypedQName q .concept = true then _ else _) = _
    rw [hn]
    rfl
  unfold parseDimensionNode
  cases parseOrder x with
  | error _ => intro h; cases h
  | ok o => simp only [hb, bind, Except.bind]; intro h; cases h

/-! ## Links that are read -/

theorem relationshipDimension_total (env : TableEnv) (cs : List XNode) (d : Option QName) : ∃ o, relationshipDimension env cs d = .ok o := by
  induction cs generalizing d with
  | nil => exact ⟨_, rfl⟩
  | cons c cs ih =>
    rw [relationshipDimension]
    split
    · obtain ⟨q, hq⟩ := qnameFromStr_total (c.text.getD "") c.ns
      rw [hq]
      show ∃ o, (if env.elements.hasTypedQName q .dimension = true then _ else _) = Except.ok o
      unfold ElemStore.hasTypedQName
      cases hg : env.elements.getTypedByQName q .dimension with
      | error _ => exact ⟨_, rfl⟩
      | ok e =>
        rw [if_pos rfl]
        show ∃ o, (if env.isExplicit e = true then _ else _) = Except.ok o
        split
        · exact ih _
        · exact ⟨_, rfl⟩
    · exact ih d

theorem aspectChildren_total (env : TableEnv) (cs : List XNode) (s : Option Aspect × Bool) : ∃ o, aspectChildren env cs s = .ok o := by
  induction cs generalizing s with
  | nil => exact ⟨_, rfl⟩
  | cons c cs ih =>
    rw [aspectChildren]
    split
    · exact ih _
    · split
      · exact ih _
      · split
        · exact ih _
        · split
          · exact ih _
          · split
            · obtain ⟨q, hq⟩ := qnameFromStr_total (c.text.getD "") c.ns
              rw [hq]
              show ∃ o, (match env.aspects.get? q.prefixLocal with | none => _ | some a => _) = Except.ok o
              cases env.aspects.get? q.prefixLocal with
              | none => exact ⟨_, rfl⟩
              | some a => exact ih _
            · exact ih _

theorem parseOrder_ok {e : XNode} {o : PCOrder} (h : StatesOrder e o) : parseOrder e = .ok o := by
  unfold StatesOrder at h
  unfold parseOrder
  cases ha : e.attr? "parentChildOrder" with
  | none => rw [ha] at h; rw [show o = _ from h]; rfl
  | some s =>
    rw [ha] at h
    by_cases h1 : s = "parent-first"
    · subst h1; rw [show o = _ from h]; rfl
    · by_cases h2 : s = "children-first"
      · subst h2; rw [show o = _ from h]; rfl
      · by_cases h3 : s = ""
        · subst h3; rw [show o = _ from h]; rfl
        · revert h
          split
          · rename_i h; cases h; exact absurd rfl h1
          · rename_i h; cases h; exact absurd rfl h2
          · rename_i h; cases h; exact absurd rfl h3
          · intro h; cases h
          · rename_i h; cases h

/-- C91: a link is read if it has no comments, its orders are integers, the axes are x, y or z and the parent-child orders are among the values allowed. -/
theorem C91_reads_partial (dig : Char → Option Nat) (env : TableEnv) (x : XNode)
    (ht : ∀ e ∈ x.children, ∃ t, e.tag = some t ∧ LxmlTag t) (ho : ∀ e ∈ x.children, ∃ o, StatesOrder e o)
    (ha : ∀ e ∈ x.children, ∀ n ∈ ["tableBreakdownArc", "breakdownTreeArc", "definitionNodeSubtreeArc"], e.tag = some (inTableNs n) → ((e.attr? "order").bind (fun o => pyInt dig o.toList)).isSome)
    (hx : ∀ e ∈ x.children, e.tag = some (inTableNs "tableBreakdownArc") → ∃ a ∈ ["x", "y", "z"], e.attr? "axis" = some a) :
    ∃ m, readTableLinkbase dig env x = .ok m := by
  have res : ∀ e ∈ x.children, ∀ role m, ∃ m', addResource dig env role m e = .ok m' := by
    intro e he role m
    obtain ⟨t, htag, hl⟩ := ht e he
    obtain ⟨o, hoo⟩ := ho e he
    have hpo := parseOrder_ok hoo
    have dimension : ∃ n, parseDimensionNode dig env e = .ok n := by
      unfold parseDimensionNode
      obtain ⟨s, hs⟩ := relationshipChildren_total dig env e.children {}
      obtain ⟨d, hd⟩ := relationshipDimension_total env e.children none
      cases s with
      | none => simp only [hpo, hs, bind, Except.bind]; exact ⟨_, rfl⟩
      | some s =>
        simp only [hpo, hs, hd, bind, Except.bind]
        rcases d with _ | (_ | d) <;> exact ⟨_, rfl⟩
    have aspect : ∃ n, parseAspectNode env e = .ok n := by
      unfold parseAspectNode
      obtain ⟨s, hs⟩ := aspectChildren_total env e.children (none, false)
      rw [hs]
      rcases s with _ | ⟨_ | a, u⟩ <;> exact ⟨_, rfl⟩
    unfold addResource
    split
    · unfold parseTable; rw [hpo]; exact ⟨_, rfl⟩
    · split
      · unfold parseBreakdown; rw [hpo]; exact ⟨_, rfl⟩
      · split
        · unfold parseRuleNode; rw [hpo, parseRuleSets_eq]; exact ⟨_, rfl⟩
        · split
          · obtain ⟨n, hn⟩ := dimension; rw [hn]; exact ⟨_, rfl⟩
          · split
            · obtain ⟨n, hn⟩ := dimension; rw [hn]; exact ⟨_, rfl⟩
            · split
              · obtain ⟨n, hn⟩ := aspect; rw [hn]; exact ⟨_, rfl⟩
              · rw [htag]
                dsimp only
                rw [lxmlTag_no_filter hl]
                exact ⟨_, rfl⟩
  have arc : ∀ e ∈ x.children, ∀ m, ∃ m', addArc dig m e = .ok m' := by
    intro e he m
    have order : ∀ n ∈ ["tableBreakdownArc", "breakdownTreeArc", "definitionNodeSubtreeArc"], e.tag = some (tableName n) → ∃ o, arcOrder dig e = .ok o := by
      intro n hn htag
      have := ha e he n hn htag
      unfold arcOrder
      cases h1 : e.attr? "order" with
      | none => rw [h1] at this; cases this
      | some s =>
        rw [h1] at this
        obtain ⟨o, hoo⟩ := Option.isSome_iff_exists.1 this
        have hoo : pyInt dig s.toList = some o := hoo
        simp only [Option.getD_some, hoo]
        exact ⟨_, rfl⟩
    unfold addArc
    split
    · rename_i htag
      obtain ⟨o, ho⟩ := order _ (by simp) htag
      unfold tableArc
      cases arcEnds e with
      | none => exact ⟨_, rfl⟩
      | some p =>
        dsimp only
        cases m.tables.get? p.1 with
        | none => exact ⟨_, rfl⟩
        | some t =>
          cases m.breakdowns.get? p.2 with
          | none => exact ⟨_, rfl⟩
          | some b =>
            dsimp only
            obtain ⟨a, ha', hax⟩ := hx e he htag
            rw [hax, if_pos (by exact ha'), ho]
            exact ⟨_, rfl⟩
    · split
      · rename_i htag
        obtain ⟨o, ho⟩ := order _ (by simp) htag
        unfold rootArc
        cases arcEnds e with
        | none => exact ⟨_, rfl⟩
        | some p =>
          dsimp only
          cases m.breakdowns.get? p.1 with
          | none => exact ⟨_, rfl⟩
          | some t =>
            cases m.nodes.get? p.2 with
            | none => exact ⟨_, rfl⟩
            | some b =>
              dsimp only
              rw [ho]
              exact ⟨_, rfl⟩
      · split
        · rename_i htag
          obtain ⟨o, ho⟩ := order _ (by simp) htag
          unfold subtreeArc
          cases arcEnds e with
          | none => exact ⟨_, rfl⟩
          | some p =>
            dsimp only
            cases m.nodes.get? p.1 with
            | none => exact ⟨_, rfl⟩
            | some t =>
              cases m.nodes.get? p.2 with
              | none => exact ⟨_, rfl⟩
              | some b =>
                dsimp only
                split
                · exact ⟨_, rfl⟩
                · rw [ho]
                  exact ⟨_, rfl⟩
        · split <;> exact ⟨_, rfl⟩
  have fold : ∀ {f : TableModel → XNode → Except PyErr TableModel} (cs : List XNode), (∀ e ∈ cs, ∀ m, ∃ m', f m e = .ok m') → ∀ m, ∃ m', cs.foldlM f m = .ok m' := by
    intro f cs
    induction cs with
    | nil => intro _ m; exact ⟨m, rfl⟩
    | cons c cs ih =>
      intro h m
      obtain ⟨m1, h1⟩ := h c (by simp) m
      obtain ⟨m2, h2⟩ := ih (fun e he => h e (by simp [he])) m1
      exact ⟨m2, by rw [List.foldlM_cons, h1]; exact h2⟩
  unfold readTableLinkbase
  obtain ⟨m1, h1⟩ := fold x.children (fun e he => res e he ((x.attr? (xlinkName "role")).getD "")) {}
  obtain ⟨m2, h2⟩ := fold x.children arc m1
  simp only [h1, bind, Except.bind]
  exact ⟨m2, h2⟩

/-- C91 is false of the code: a comment in a link ends the reading with an exception. -/
theorem C91_comment_false (dig : Char → Option Nat) (env : TableEnv) (x c : XNode) (ht : ∀ e ∈ x.children, ∀ t, e.tag = some t → LxmlTag t) (hc : c ∈ x.children) (hn : c.tag = none)
    (m : TableModel) : readTableLinkbase dig env x ≠ .ok m := by
  intro h
  unfold readTableLinkbase at h
  cases h1 : x.children.foldlM (addResource dig env ((x.attr? (xlinkName "role")).getD "")) {} with
  | error _ => simp only [h1, bind, Except.bind] at h; cases h
  | ok m0 => exact (addResources x.children {} m0 ht h1).2.2.2.2.1 c hc hn

namespace TableExample

def el (t : String) (attrs : Dict String String) (children : List XNode := []) : XNode := .mk (some (inTableNs t)) attrs none [] children
def xl (s : String) : String := "{http://www.w3.org/1999/xlink}" ++ s
def resource (t l : String) (attrs : Dict String String := []) (children : List XNode := []) : XNode := el t ((xl "label", l) :: attrs) children
def arc (t a b : String) (attrs : Dict String String) : XNode := el t ([(xl "from", a), (xl "to", b)] ++ attrs)
def linkOf (cs : List XNode) : XNode := .mk (some "{http://xbrl.org/2008/generic}link") [(xl "role", "http://a/role")] none [] cs
def env : TableEnv := ⟨{}, fun _ => true, [], fun _ => .ok none⟩

def forever : XNode := .mk (some (inFormulaNs "period")) [] none [] [.mk (some (inFormulaNs "forever")) [] none [] []]
def conceptRule : XNode := .mk (some (inFormulaNs "concept")) [] none [] [.mk (some (inFormulaNs "qname")) [] (some "a:b") [(some "a", "http://a")] []]

/-- A table with a breakdown that lists children first and a tree of three nodes, one of which lists parents first. -/
def resources : List XNode := [
  resource "table" "t", resource "breakdown" "b" [("parentChildOrder", "children-first")], resource "ruleNode" "n1" [] [forever],
  resource "ruleNode" "n2" [("parentChildOrder", "parent-first")] [conceptRule, el "ruleSet" [("tag", "end")] [forever]], resource "aspectNode" "n3" [] [el "periodAspect" []]]

def arcs : List XNode := [
  arc "tableBreakdownArc" "t" "b" [("axis", "y"), ("order", "1")], arc "breakdownTreeArc" "b" "n1" [("order", "1")],
  arc "definitionNodeSubtreeArc" "n1" "n2" [("order", "2")], arc "definitionNodeSubtreeArc" "n1" "n3" [("order", "1")]]

def link : XNode := linkOf (resources ++ arcs)

/-- The orders of the items after reading. -/
def ordersOf (r : Except PyErr TableModel) : Option (List (Option PCOrder)) :=
  match r with
  | .ok m => some ([.table "t", .breakdown "b", .node "n1", .node "n2", .node "n3"].map m.orderOf)
  | .error _ => none

example : ordersOf (readTableLinkbase asciiDigit env link) = some [some .unspecified, some .childrenFirst, some .unspecified, some .parentFirst, none] ∧
    ordersOf (parseTableLinkbase asciiDigit env 3 link) = some [some .parentFirst, some .childrenFirst, some .childrenFirst, some .parentFirst, none] := by decide +kernel

example : ∀ e ∈ link.children, ∀ t, e.tag = some t → LxmlTag t := by
  have h : link.children.all (fun e => (e.tag.getD "{").toList.head? == some '{') = true := by decide +kernel
  intro e he t ht
  have := List.all_eq_true.1 h e he
  rw [ht] at this
  exact .inl (by simpa using this)

def structureOf (r : Except PyErr TableModel) : List (String × List (String × Int)) :=
  match r with
  | .ok m => m.tables.map (fun t => (t.1, t.2.xs ++ t.2.ys)) ++ m.breakdowns.map (fun b => (b.1 ++ b.2.axis, b.2.roots)) ++ m.nodes.map (fun n => (n.1, n.2.children))
  | .error _ => []

example : structureOf (readTableLinkbase asciiDigit env link) = [("t", [("b", 1)]), ("by", [("n1", 1)]), ("n1", [("n2", 2), ("n3", 1)]), ("n2", []), ("n3", [])] := by
  decide +kernel

/-- The arcs without their orders, which then are 1. -/
def noOrder : XNode := linkOf (resources ++ [arc "tableBreakdownArc" "t" "b" [("axis", "y")]])

/-- A node that is its own child. -/
def cyclic : XNode := linkOf (resources ++ arcs ++ [arc "definitionNodeSubtreeArc" "n2" "n1" [("order", "1")]])

/-- A table with a filter. -/
def filtered : XNode := linkOf (resources ++ arcs ++ [.mk (some "{http://xbrl.org/2008/filter/concept}conceptName") [(xl "label", "f")] none [] [], arc "tableFilterArc" "t" "f" [("complement", "true")]])

end TableExample

/-- C91 is false of the code: an arc need not have an order, but without it, or with a decimal number as order, reading ends with a `ValueError`. -/
theorem C91_order_false (k : Nat) : ∃ e, parseTableLinkbase asciiDigit TableExample.env k TableExample.noOrder = .error e := by
  have h : (match readTableLinkbase asciiDigit TableExample.env TableExample.noOrder with | .ok _ => false | .error e => e == .valueError) = true := by decide +kernel
  unfold parseTableLinkbase
  cases hr : readTableLinkbase asciiDigit TableExample.env TableExample.noOrder with
  | ok m => rw [hr] at h; cases h
  | error e => exact ⟨e, rfl⟩

/-- C45 is false of the code: reading a link whose tree is cyclic ends with a `RecursionError`, whatever the number of calls allowed. -/
theorem C45_cycle_link_false (k : Nat) : parseTableLinkbase asciiDigit TableExample.env k TableExample.cyclic = .error .recursionError := by
  have h : (match readTableLinkbase asciiDigit TableExample.env TableExample.cyclic with
      | .ok m => decide (m.tables.get? "t" = some { linkrole := "http://a/role", order := .unspecified, label := some "t", ys := [("b", 1)] }) &&
          decide (m.breakdowns.get? "b" = some { order := .childrenFirst, label := some "b", axis := "y", roots := [("n1", 1)] }) &&
          decide ((m.nodes.get? "n1").map (·.children) = some [("n2", 2), ("n3", 1)]) && decide ((m.nodes.get? "n2").map (·.children) = some [("n1", 1)])
      | .error _ => false) = true := by decide +kernel
  unfold parseTableLinkbase
  cases hr : readTableLinkbase asciiDigit TableExample.env TableExample.cyclic with
  | error e => rw [hr] at h; cases h
  | ok m =>
    rw [hr] at h
    simp only [Bool.and_eq_true, decide_eq_true_eq] at h
    obtain ⟨⟨⟨h1, h2⟩, h3⟩, h4⟩ := h
    show propagateAll k m = _
    refine C45_cycle_false k m "t" "b" "n1" _ _ h1 (by decide) h2 (by decide) (fun l => l = "n1" ∨ l = "n2") (.inl rfl) ?_
    rintro l (rfl | rfl)
    · cases hn : m.nodes.get? "n1" with
      | none => rw [hn] at h3; cases h3
      | some n => rw [hn] at h3; exact ⟨n, rfl, ("n2", 2), by rw [show n.children = _ from Option.some.inj h3]; simp, .inr rfl⟩
    · cases hn : m.nodes.get? "n2" with
      | none => rw [hn] at h4; cases h4
      | some n => rw [hn] at h4; exact ⟨n, rfl, ("n1", 1), by rw [show n.children = _ from Option.some.inj h4]; simp, .inl rfl⟩

/-- C93 is false of the code: a table has no filters although the link gives it one. -/
theorem C93_filters_false : ∃ m t, readTableLinkbase asciiDigit TableExample.env TableExample.filtered = .ok m ∧ m.tables.get? "t" = some t ∧ t.filters = [] := by
  have h : (match readTableLinkbase asciiDigit TableExample.env TableExample.filtered with
      | .ok m => decide (m.tables.get? "t" = some { linkrole := "http://a/role", order := .unspecified, label := some "t", ys := [("b", 1)] })
      | .error _ => false) = true := by decide +kernel
  cases hr : readTableLinkbase asciiDigit TableExample.env TableExample.filtered with
  | error e => rw [hr] at h; cases h
  | ok m =>
    rw [hr] at h
    exact ⟨m, _, rfl, of_decide_eq_true h, rfl⟩

end Brel
