import Verif.Model.Resource
import Verif.Lemmas.History

namespace Brel

/-! ## C68: a resource keeps its text, language and parts -/

/-- The text a reader of the document sees: all character data of the element and its children. -/
def XResource.fullText (x : XResource) : String :=
  x.text.getD "" ++ String.join (x.children.map (fun c => c.text.getD "" ++ c.tail.getD ""))

/-- The local name of a qualified tag: what follows the namespace in braces. -/
def HasLocalName (tag name : String) : Prop :=
  ('}' ∉ name.toList ∧ ∃ ns : String, tag.toList = '{' :: ns.toList ++ '}' :: name.toList) ∨ (tag = name ∧ tag.toList.head? ≠ some '{')

/-- C68 fails for footnotes with markup: only the text before the first child is kept. -/
theorem C68_footnote_text_complete_false (str : XChild → String) :
    ∃ x t l g r, parseResource str x = .ok (.footnote t l g r) ∧ t ≠ x.fullText :=
  ⟨⟨"{http://www.xbrl.org/2003/linkbase}footnote", "f", "fr", [some "en"], some "see ", [⟨"{http://www.w3.org/1999/xhtml}b", some "note 1", none⟩]⟩,
   "see ", "f", "en", "fr", by simp [parseResource, isInfix, elemLang, orText, List.range_succ, List.any_cons], by decide⟩

/-- C68 fails for references: of two parts with the same name only the last is kept. -/
theorem C68_reference_parts_complete_false (str : XChild → String) :
    ∃ x d l r, parseResource str x = .ok (.reference d l r) ∧ x.children.length = 2 ∧ d.length = 1 :=
  ⟨⟨"{http://www.xbrl.org/2003/linkbase}reference", "f", "fr", [], none, [⟨"{u}Name", some "IAS 1", none⟩, ⟨"{v}Name", some "IAS 2", none⟩]⟩,
   [("Name", some "IAS 2")], "f", "fr", by
     show parseResource str _ = _
     unfold parseResource
     rw [if_neg (by decide +kernel), if_neg (by decide +kernel), if_pos (by decide +kernel)]
     decide +kernel, rfl, rfl⟩

/-- C68, labels and footnotes: without child elements the text is complete; the language is that of the nearest element that states one,
and without one the resource is reported and left out. -/
theorem C68_text_partial (str : XChild → String) (x : XResource) (hx : x.children = []) :
    (∀ t l g r, parseResource str x = .ok (.label t l g r) ∨ parseResource str x = .ok (.footnote t l g r) →
      t = x.fullText ∧ l = x.label ∧ r = x.role ∧ ∃ pre post, x.langs = pre ++ some g :: post ∧ ∀ y ∈ pre, y = none) ∧
    ((∀ y ∈ x.langs, y = none) → ∀ t l g r, parseResource str x ≠ .ok (.label t l g r) ∧ parseResource str x ≠ .ok (.footnote t l g r)) := by
  have hlang : ∀ (ls : List (Option String)) g, elemLang ls = some g ↔ ∃ pre post, ls = pre ++ some g :: post ∧ ∀ y ∈ pre, y = none := by
    intro ls
    induction ls with
    | nil => intro g; simp [elemLang]
    | cons a ls ih =>
      intro g
      cases a with
      | some l =>
        simp only [elemLang, Option.some.injEq]
        constructor
        · rintro rfl; exact ⟨[], ls, rfl, by simp⟩
        · rintro ⟨pre, post, h1, h2⟩
          cases pre with
          | nil => simp only [List.nil_append, List.cons.injEq, Option.some.injEq] at h1; exact h1.1
          | cons p pre =>
            rw [List.cons_append, List.cons.injEq] at h1
            have := h2 p List.mem_cons_self
            rw [this] at h1
            exact absurd h1.1 (by simp)
      | none =>
        simp only [elemLang, ih]
        constructor
        · rintro ⟨pre, post, h1, h2⟩
          refine ⟨none :: pre, post, by rw [h1]; rfl, ?_⟩
          intro y hy
          rcases List.mem_cons.1 hy with rfl | hy
          · rfl
          · exact h2 y hy
        · rintro ⟨pre, post, h1, h2⟩
          cases pre with
          | nil => simp at h1
          | cons p pre =>
            rw [List.cons_append, List.cons.injEq] at h1
            exact ⟨pre, post, h1.2, fun y hy => h2 y (List.mem_cons_of_mem _ hy)⟩
  have hor : orText x.text "" = x.fullText := by
    unfold XResource.fullText orText
    rw [hx]
    cases x.text with
    | none => rfl
    | some t =>
      dsimp only
      split
      · rename_i h; subst h; rfl
      · simp [String.join]
  constructor
  · intro t l g r h
    unfold parseResource at h
    rw [hx] at h
    split at h
    · cases hl : elemLang x.langs with
      | none => rw [hl] at h; rcases h with h | h <;> cases h
      | some g' =>
        rw [hl] at h
        rcases h with h | h <;> cases h
        exact ⟨hor, rfl, rfl, (hlang _ _).1 hl⟩
    · split at h
      · cases hl : elemLang x.langs with
        | none => rw [hl] at h; rcases h with h | h <;> cases h
        | some g' =>
          rw [hl] at h
          rcases h with h | h <;> cases h
          exact ⟨hor, rfl, rfl, (hlang _ _).1 hl⟩
      · split at h <;> rcases h with h | h <;> cases h
  · intro hn t l g r
    have hnone : elemLang x.langs = none := by
      cases hl : elemLang x.langs with
      | none => rfl
      | some g' =>
        obtain ⟨pre, post, h1, _⟩ := (hlang _ _).1 hl
        have := hn (some g') (by rw [h1]; simp)
        cases this
    unfold parseResource
    rw [hnone]
    constructor
    · split
      · simp
      · split
        · simp
        · split <;> simp
    · split
      · simp
      · split
        · simp
        · split <;> simp

example : ∃ x : XResource, x.children = [] ∧ x.text = some "Assets" ∧ parseResource (fun _ => "") x = .ok (.label "Assets" "l" "en" "r") :=
  ⟨⟨"{http://www.xbrl.org/2003/linkbase}label", "l", "r", [none, some "en"], some "Assets", []⟩, rfl, rfl, by decide +kernel⟩

theorem stripNs_local {tag name : String} (h : HasLocalName tag name) : stripNs tag.toList = name.toList := by
  rcases h with ⟨hn, ns, ht⟩ | ⟨rfl, hh⟩
  · unfold stripNs
    rw [ht, if_pos (by simp)]
    have : ('{' :: ns.toList ++ '}' :: name.toList).reverse = name.toList.reverse ++ ('}' :: ('{' :: ns.toList).reverse) := by simp
    rw [this, List.takeWhile_append_of_pos]
    · simp
    · intro c hc
      simp only [ne_eq, decide_eq_true_eq]
      rintro rfl
      exact hn (List.mem_reverse.1 hc)
  · unfold stripNs
    rw [if_neg (fun h => hh h.1)]

/-- C68, references: the content under a local name is the text of the last part with this local name; so if the local names of the
parts differ, every part is kept. Missing: parts with the same local name. -/
theorem C68_reference_parts_partial (str : XChild → String) (x : XResource) (d : Dict String (Option String)) (l r : String)
    (h : parseResource str x = .ok (.reference d l r)) (loc : XChild → String) (hloc : ∀ c ∈ x.children, HasLocalName c.tag (loc c)) :
    l = x.label ∧ r = x.role ∧ (∀ n, d.get? n = (latest loc x.children n).map (·.text)) ∧
    ((∀ a ∈ x.children, ∀ b ∈ x.children, loc a = loc b → a = b) → ∀ c ∈ x.children, d.get? (loc c) = some c.text) := by
  have hd : l = x.label ∧ r = x.role ∧ d = x.children.foldl (fun (d : Dict String (Option String)) c => d.set (String.ofList (stripNs c.tag.toList)) c.text) [] := by
    unfold parseResource at h
    split at h
    · split at h <;> cases h
    · split at h
      · split at h <;> cases h
      · split at h
        · cases h; exact ⟨rfl, rfl, rfl⟩
        · cases h
  obtain ⟨h1, h2, h3⟩ := hd
  have hget : ∀ n, d.get? n = (latest loc x.children n).map (·.text) := by
    intro n
    have : x.children.foldl (fun (d : Dict String (Option String)) c => d.set (String.ofList (stripNs c.tag.toList)) c.text) [] =
        x.children.foldl (fun (d : Dict String (Option String)) c => d.set (loc c) c.text) [] := by
      have : ∀ (cs : List XChild) (d : Dict String (Option String)), (∀ c ∈ cs, HasLocalName c.tag (loc c)) →
          cs.foldl (fun (d : Dict String (Option String)) c => d.set (String.ofList (stripNs c.tag.toList)) c.text) d = cs.foldl (fun (d : Dict String (Option String)) c => d.set (loc c) c.text) d := by
        intro cs
        induction cs with
        | nil => intro d _; rfl
        | cons c cs ih =>
          intro d hc
          rw [List.foldl_cons, List.foldl_cons, stripNs_local (hc c List.mem_cons_self), String.ofList_toList,
            ih _ (fun y hy => hc y (List.mem_cons_of_mem _ hy))]
      exact this _ _ hloc
    rw [h3, this]
    rw [foldl_set_get? loc (·.text)]
    cases latest loc x.children n <;> rfl
  refine ⟨h1, h2, hget, ?_⟩
  intro hinj c hc
  rw [hget]
  cases hl : latest loc x.children (loc c) with
  | none => exact absurd rfl ((latest_none _ _ _).1 hl c hc)
  | some c' =>
    obtain ⟨e1, e2⟩ := latest_some _ _ _ _ hl
    rw [hinj c' e1 c hc e2]
    rfl

example : ∃ (x : XResource) (loc : XChild → String), x.children.length = 2 ∧ (∀ c ∈ x.children, HasLocalName c.tag (loc c)) ∧
    (∀ a ∈ x.children, ∀ b ∈ x.children, loc a = loc b → a = b) :=
  ⟨⟨"{l}reference", "f", "fr", [], none, [⟨"{u}Name", some "IAS", none⟩, ⟨"Number", some "1", none⟩]⟩,
   fun c => if c.tag = "Number" then "Number" else "Name", rfl, by
     intro c hc
     simp only [List.mem_cons, List.not_mem_nil, or_false] at hc
     rcases hc with rfl | rfl
     · exact Or.inl ⟨by decide, "u", by decide⟩
     · exact Or.inr ⟨by decide, by decide⟩, by decide⟩

end Brel
