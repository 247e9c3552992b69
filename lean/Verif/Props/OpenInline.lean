import Verif.Spec.OpenInline
import Verif.Props.Open
import Verif.Props.InlineInstance
import Verif.Props.Footnotes
import Verif.Props.RoleRefs
import Verif.Props.XmlSource

/-! C110: a valid inline filing shows what its documents say. -/

namespace Brel
open Spec

/-! ## Lists of ids -/

theorem last_space {l : List Char} (h : ∀ c ∈ l, pySpace c = false) (hl : ∀ c ∈ l.getLast?, pySpace c = true) : l = [] := by
  cases hg : l.getLast? with
  | none => exact List.getLast?_eq_none_iff.1 hg
  | some c =>
    have := h c (List.mem_of_getLast? hg)
    rw [hl c (by rw [hg]; rfl)] at this
    cases this

theorem head_space {l : List Char} (h : ∀ c ∈ l, pySpace c = false) (hl : ∀ c ∈ l.head?, pySpace c = true) : l = [] := by
  cases l with
  | nil => rfl
  | cons c l =>
    have := h c List.mem_cons_self
    rw [hl c rfl] at this
    cases this

theorem isWord_sep {cur cs w : List Char} {c : Char} (hcur : ∀ a ∈ cur, pySpace a = false) (hc : pySpace c = true) :
    IsWord (cur ++ c :: cs) w ↔ (cur ≠ [] ∧ w = cur) ∨ IsWord cs w := by
  constructor
  · rintro ⟨hw, hn, pre, post, he, h1, h2⟩
    rw [List.append_assoc] at he
    rcases List.append_eq_append_iff.1 he with ⟨a, ha, hb⟩ | ⟨a, ha, hb⟩
    · cases a with
      | nil =>
        rw [List.nil_append] at hb
        cases w with
        | nil => exact absurd rfl hw
        | cons d w =>
          rw [List.cons_append, List.cons.injEq] at hb
          have := hn d List.mem_cons_self
          rw [← hb.1, hc] at this
          cases this
      | cons d a =>
        rw [List.cons_append, List.cons.injEq] at hb
        refine Or.inr ⟨hw, hn, a, post, by rw [List.append_assoc]; exact hb.2, ?_, h2⟩
        intro x hx
        refine h1 x ?_
        rw [ha]
        have : a ≠ [] := by rintro rfl; cases hx
        rw [List.getLast?_append, List.getLast?_cons]
        obtain ⟨y, hy⟩ := Option.ne_none_iff_exists'.1 (mt List.getLast?_eq_none_iff.1 this)
        rw [hy] at hx ⊢
        exact hx
    · have hpre : pre = [] := last_space (fun x hx => hcur x (by rw [ha]; exact List.mem_append_left _ hx)) h1
      rw [hpre, List.nil_append] at ha
      rw [← ha] at hb
      rcases List.append_eq_append_iff.1 hb with ⟨b, hb1, hb2⟩ | ⟨b, hb1, hb2⟩
      · have : b = [] := by
          refine head_space (fun x hx => hcur x (by rw [hb1]; exact List.mem_append_right _ hx)) ?_
          intro x hx
          refine h2 x ?_
          rw [hb2]
          cases b with
          | nil => cases hx
          | cons y b => exact hx
        rw [this, List.append_nil] at hb1
        exact Or.inl ⟨hb1 ▸ hw, hb1.symm⟩
      · cases b with
        | nil =>
          rw [List.append_nil] at hb1
          exact Or.inl ⟨hb1 ▸ hw, hb1⟩
        | cons d b =>
          rw [List.cons_append, List.cons.injEq] at hb2
          have := hn d (by rw [hb1]; simp)
          rw [← hb2.1, hc] at this
          cases this
  · rintro (⟨hn, rfl⟩ | ⟨hw, hn, pre, post, he, h1, h2⟩)
    · exact ⟨hn, hcur, [], c :: cs, rfl, by simp, by intro x hx; have : c = x := by simpa using hx
                                                     rw [← this]; exact hc⟩
    · refine ⟨hw, hn, cur ++ c :: pre, post, by simp [he], ?_, h2⟩
      intro x hx
      rw [List.getLast?_append, List.getLast?_cons] at hx
      cases hp : pre.getLast? with
      | none =>
        rw [hp] at hx
        have : c = x := by simpa using hx
        rw [← this]; exact hc
      | some y =>
        rw [hp] at hx
        have : y = x := by simpa using hx
        exact h1 x (by rw [hp, this]; rfl)

theorem mem_splitSpace : ∀ (s cur w : List Char), (∀ c ∈ cur, pySpace c = false) → (w ∈ splitSpace cur s ↔ IsWord (cur ++ s) w) := by
  intro s
  induction s with
  | nil =>
    intro cur w hcur
    rw [List.append_nil]
    unfold splitSpace
    by_cases h : cur = []
    · rw [if_pos h, h]
      refine ⟨fun hh => (by cases hh), ?_⟩
      rintro ⟨hw, _, pre, post, he, _⟩
      have := congrArg List.length he
      simp only [List.length_nil, List.length_append] at this
      exact absurd (List.eq_nil_of_length_eq_zero (by omega)) hw
    · rw [if_neg h, List.mem_singleton]
      constructor
      · rintro rfl
        exact ⟨h, hcur, [], [], by simp, by simp, by simp⟩
      · rintro ⟨hw, _, pre, post, he, h1, h2⟩
        have hp : pre = [] := last_space (fun x hx => hcur x (by rw [he]; simp [hx])) h1
        have hq : post = [] := head_space (fun x hx => hcur x (by rw [he]; simp [hx])) h2
        rw [he, hp, hq]
        simp
  | cons c s ih =>
    intro cur w hcur
    unfold splitSpace
    by_cases hc : pySpace c = true
    · rw [if_pos hc, isWord_sep hcur hc]
      by_cases h : cur = []
      · rw [if_pos h, ih [] w (by simp), List.nil_append]
        exact ⟨Or.inr, fun hh => hh.resolve_left (fun h' => h'.1 h)⟩
      · rw [if_neg h, List.mem_cons, ih [] w (by simp), List.nil_append]
        exact or_congr ⟨fun hh => ⟨h, hh⟩, fun hh => hh.2⟩ Iff.rfl
    · rw [if_neg hc, ih (cur ++ [c]) w, List.append_assoc]
      · rfl
      · intro x hx
        rcases List.mem_append.1 hx with hx | hx
        · exact hcur x hx
        · rw [List.mem_singleton.1 hx]
          exact Bool.not_eq_true _ ▸ hc

theorem mem_refIds (x : XNode) (n i : String) : i ∈ refIds x n ↔ Names x n i := by
  unfold refIds Names
  cases h : x.attr? n with
  | none =>
    have : splitSpace [] ((none : Option String).getD "").toList = [] := rfl
    rw [this]
    simp
  | some v =>
    rw [Option.getD_some, List.mem_map]
    constructor
    · rintro ⟨w, hw, rfl⟩
      exact ⟨v, rfl, by rw [String.toList_ofList]; exact (mem_splitSpace _ [] w (by simp)).1 hw⟩
    · rintro ⟨v', hv, hw⟩
      cases hv
      exact ⟨i.toList, (mem_splitSpace _ [] _ (by simp)).2 hw, String.ofList_toList⟩

theorem names_nonempty {x : XNode} {n i : String} (h : Names x n i) : (truthy (x.attr? n)).isNone = false := by
  obtain ⟨v, hv, hw, _, pre, post, he, _⟩ := h
  rw [hv]
  unfold truthy
  by_cases hv0 : v = ""
  · rw [hv0] at he
    have := congrArg List.length he
    simp only [List.length_append, String.toList_empty, List.length_nil] at this
    exact absurd (List.eq_nil_of_length_eq_zero (by omega)) hw
  · simp [hv0]

/-! ## Relationships -/

theorem mem_set (so : SetOrder) (l : List String) (i : String) : i ∈ so.strings (l.foldl appendNew []) ↔ i ∈ l := by
  rw [(so.strings_perm _).mem_iff, mem_foldl_appendNew]
  simp

theorem roleOr_accepts {validUri : String → Bool} {dflt err : String} {a : Option String} (h : ∀ r, a = some r → r ≠ "" ∧ validUri r = true) : roleOr validUri dflt err a = (a.getD dflt, []) := by
  cases a with
  | none => rfl
  | some r =>
    obtain ⟨h1, h2⟩ := h r rfl
    simp [roleOr, truthy, h1, h2]

theorem rel_accepts {validUri : String → Bool} {float : String → Option Rat} {so : SetOrder} {ds : List InlineDoc} {footnotes : Dict String Footnote} {facts : FactStore} {x : XNode}
    (hv : ValidRelationship validUri float ds x) (hf : ∀ e ∈ inlineFacts ds, ∀ i, e.node.attr? "id" = some i → facts.hasId i = true)
    (hn : ∀ e ∈ inlineFootnotes ds, ∀ i, e.node.attr? "id" = some i → footnotes.has i = true)
    (hd : ∀ e ∈ inlineFacts ds, ∀ e' ∈ inlineFootnotes ds, ∀ i, e.node.attr? "id" = some i → e'.node.attr? "id" ≠ some i) :
    ∃ r : Rel, parseRel validUri so footnotes facts (readRel float x) = .ok (r, []) ∧ (∀ i, i ∈ r.froms ↔ Names x "fromRefs" i) ∧ (∀ i, i ∈ r.tos ↔ Names x "toRefs" i) ∧
      (r.linkRole, r.arcRole) = rolesOf x ∧ r.froms.Nodup := by
  obtain ⟨v, q, ho, hv0, hq⟩ := hv.order
  obtain ⟨i0, hi0⟩ := hv.froms.1
  obtain ⟨j0, hj0⟩ := hv.tos.1
  have hord : numAttr float (x.attr? "order") = .num q := by
    rw [ho]; simp [numAttr, hv0, hq]
  have hopt : ∀ i, (facts.getByIdOptional i).isNone = !facts.hasId i := by
    intro i
    unfold FactStore.getByIdOptional FactStore.getById Dict.get FactStore.hasId
    rw [Dict.has_eq]
    cases facts.byId.get? i <;> rfl
  have hfrom : ∀ i, i ∈ so.strings ((refIds x "fromRefs").foldl appendNew []) ↔ Names x "fromRefs" i := fun i => (mem_set so _ i).trans (mem_refIds ..)
  have hto : ∀ i, i ∈ so.strings ((refIds x "toRefs").foldl appendNew []) ↔ Names x "toRefs" i := fun i => (mem_set so _ i).trans (mem_refIds ..)
  have hknown : ∀ i, Names x "fromRefs" i → facts.hasId i = true := fun i hi => by
    obtain ⟨e, he, h⟩ := hv.froms.2 i hi
    exact hf e he i h
  have hnote : ∀ i, Names x "toRefs" i → footnotes.has i = true := fun i hi => by
    obtain ⟨e, he, h⟩ := hv.tos.2 i hi
    exact hn e he i h
  have hval : validateRefs footnotes facts (so.strings ((refIds x "fromRefs").foldl appendNew [])) (so.strings ((refIds x "toRefs").foldl appendNew [])) = [] := by
    unfold validateRefs
    rw [if_neg, if_neg, if_neg, if_neg]
    · rfl
    · rw [Bool.and_eq_true, not_and]
      intro _ h
      rw [Bool.not_eq_true', ← Bool.not_eq_true] at h
      exact h (List.all_eq_true.2 (fun i hi => hnote i ((hto i).1 hi)))
    · rw [List.any_eq_true]
      rintro ⟨i, hi, h⟩
      rw [hnote i ((hto i).1 hi)] at h
      simp at h
    · rw [List.any_eq_true]
      rintro ⟨i, hi, h⟩
      rw [hopt, hknown i ((hfrom i).1 hi)] at h
      cases h
    · rw [List.any_eq_true]
      rintro ⟨i, hi, h⟩
      rw [decide_eq_true_eq] at h
      obtain ⟨e, he, h1⟩ := hv.froms.2 i ((hfrom i).1 hi)
      obtain ⟨e', he', h2⟩ := hv.tos.2 i ((hto i).1 h)
      exact hd e he e' he' i h1 h2
  refine ⟨⟨_, _, (x.attr? "arcrole").getD defaultArcRole, (x.attr? "linkRole").getD defaultLinkRole, if q = 0 then 1 else q⟩, ?_, hfrom, hto, rfl,
    (so.strings_perm _).nodup_iff.2 (foldl_appendNew_nodup _ _ List.nodup_nil)⟩
  unfold parseRel parseRelAttrs parseRefs readRel
  dsimp only
  rw [hord, roleOr_accepts (hv.roles _ (by simp)), roleOr_accepts (hv.roles _ (by simp)), names_nonempty hi0, names_nonempty hj0, hval]
  rfl

theorem rels_accept {validUri : String → Bool} {float : String → Option Rat} {so : SetOrder} {ds : List InlineDoc} {footnotes : Dict String Footnote} {facts : FactStore} {xs : List XNode}
    (hv : ∀ x ∈ xs, ValidRelationship validUri float ds x) (hf : ∀ e ∈ inlineFacts ds, ∀ i, e.node.attr? "id" = some i → facts.hasId i = true)
    (hn : ∀ e ∈ inlineFootnotes ds, ∀ i, e.node.attr? "id" = some i → footnotes.has i = true)
    (hd : ∀ e ∈ inlineFacts ds, ∀ e' ∈ inlineFootnotes ds, ∀ i, e.node.attr? "id" = some i → e'.node.attr? "id" ≠ some i) :
    ∃ nets, parseRels validUri so footnotes facts (xs.map (readRel float)) = .ok (nets, []) ∧
      Rel2 (fun k net => ∀ i j, j ∈ net.childrenOf i ↔ ∃ x ∈ xs, rolesOf x = k ∧ Names x "fromRefs" i ∧ Names x "toRefs" j) (firstOccurrences (xs.map rolesOf)) nets := by
  let good : XNode → Rel → Prop := fun x r => (∀ i, i ∈ r.froms ↔ Names x "fromRefs" i) ∧ (∀ i, i ∈ r.tos ↔ Names x "toRefs" i) ∧ (r.linkRole, r.arcRole) = rolesOf x ∧ r.froms.Nodup
  have hmap : ∃ rs : List Rel, (xs.map (readRel float)).mapM (parseRel validUri so footnotes facts) = .ok (rs.map (fun r => (r, []))) ∧ Rel2 good xs rs := by
    revert hv
    induction xs with
    | nil => intro _; exact ⟨[], rfl, .nil⟩
    | cons x xs ih =>
      intro hv
      obtain ⟨rs, h1, h2⟩ := ih (fun y hy => hv y (List.mem_cons_of_mem _ hy))
      obtain ⟨r, h3, h4⟩ := rel_accepts (so := so) (hv x List.mem_cons_self) hf hn hd
      refine ⟨r :: rs, ?_, .cons h4 h2⟩
      rw [List.map_cons, List.mapM_cons, h3, h1]
      rfl
  obtain ⟨rs, hrs, hrel⟩ := hmap
  have hroles : rs.map (fun r => (r.linkRole, r.arcRole)) = xs.map rolesOf := (hrel.map_eq rolesOf (fun r => (r.linkRole, r.arcRole)) (fun x _ r h => h.2.2.1.symm)).symm
  have hbuild : ∃ nets, buildFootNetworks so footnotes facts rs = .ok nets := by
    unfold buildFootNetworks
    refine mapM_succeeds _ _ ?_
    intro g hg
    rw [groupRels_eq, List.mem_map] at hg
    obtain ⟨k, _, rfl⟩ := hg
    have hin : ∀ r ∈ withRoles rs k, r ∈ rs := fun r hr => (List.mem_filter.1 hr).1
    refine C76_footnotes_partial so _ ?_ ?_
    · intro r hr i hi
      obtain ⟨x, hx, h⟩ := hrel.mem_right r (hin r hr)
      obtain ⟨e, he, h'⟩ := (hv x hx).froms.2 i ((h.1 i).1 hi)
      exact hf e he i h'
    · intro r hr i hi
      obtain ⟨x, hx, h⟩ := hrel.mem_right r (hin r hr)
      obtain ⟨e, he, h'⟩ := (hv x hx).tos.2 i ((h.2.1 i).1 hi)
      exact hn e he i h'
  obtain ⟨nets, hnets⟩ := hbuild
  refine ⟨nets, ?_, ?_⟩
  · unfold parseRels
    rw [hrs]
    simp only [bind, Except.bind, List.map_map]
    rw [show ((fun p : Rel × ErrNames => p.1) ∘ fun r => (r, [])) = id from rfl, List.map_id, hnets]
    simp [List.flatMap]
  · rw [← hroles]
    unfold buildFootNetworks at hnets
    rw [groupRels_eq, List.mapM_map, mapM_ok_iff] at hnets
    refine hnets.imp ?_
    intro k _ net hnet i j
    obtain ⟨hs, _⟩ := C76_structure hnet (by
      intro r hr
      obtain ⟨x, _, h⟩ := hrel.mem_right r (List.mem_filter.1 hr).1
      exact h.2.2.2)
    rw [(hs i).mem_iff]
    unfold leadsTo
    rw [List.mem_flatMap]
    constructor
    · rintro ⟨r, hr, hj⟩
      obtain ⟨hm, hk⟩ := List.mem_filter.1 hr
      obtain ⟨x, hx, h1, h2, h3, _⟩ := hrel.mem_right r hm
      by_cases hi : i ∈ r.froms
      · rw [if_pos hi] at hj
        refine ⟨x, hx, ?_, (h1 i).1 hi, (h2 j).1 hj⟩
        rw [← h3]
        have := of_decide_eq_true hk
        exact Prod.ext this.1 this.2
      · rw [if_neg hi] at hj; cases hj
    · rintro ⟨x, hx, hk, hi, hj⟩
      obtain ⟨r, hr, h1, h2, h3, _⟩ := hrel.mem_left x hx
      refine ⟨r, List.mem_filter.2 ⟨hr, decide_eq_true ?_⟩, ?_⟩
      · rw [← hk, ← h3]; exact ⟨rfl, rfl⟩
      · rw [if_pos ((h1 i).2 hi)]; exact (h2 j).2 hj

/-! ## Footnotes -/

theorem elemLang_eq (l : List (Option String)) : elemLang l = l.findSome? id := by
  induction l with
  | nil => rfl
  | cons a l ih => cases a with
    | none => rw [List.findSome?_cons_of_isNone (by rfl)]; exact ih
    | some a => rfl

/-- What a footnote element with continuations says. -/
structure SaysNote (f : FootnoteElem) (chain : List Elem) (n : Footnote) : Prop where
  id : f.id = some n.id
  language : f.langs.findSome? _root_.id = some n.lang
  role : n.role = f.role.getD "http://www.xbrl.org/2003/role/footnote"
  title : n.title = f.title
  content : ∃ c, WrittenElem n.content c ∧ textContent c = (f.elem :: chain).flatMap visibleText

theorem footnote_accepts {validUri : String → Bool} {f : FootnoteElem} {chain : List Elem} {taken : List String} {i l : String} (hi : f.id = some i) (hne : i ≠ "") (ht : i ∉ taken)
    (hr : ∀ r, f.role = some r → validUri r = true) (hl : f.langs.findSome? id = some l) (hl0 : l ≠ "") :
    ∃ n, parseFootnote validUri f chain taken = .ok (some n, [], appendNew taken i) ∧ n.id = i ∧ SaysNote f chain n := by
  obtain ⟨content, hc⟩ := relevantContent_ok f.elem chain
  have h1 : truthy f.id = some i := by rw [hi]; simp [truthy, hne]
  have h2 : truthy (elemLang f.langs) = some l := by rw [elemLang_eq, hl]; simp [truthy, hl0]
  refine ⟨⟨serial content, i, l, f.role.getD "http://www.xbrl.org/2003/role/footnote", f.title⟩, ?_, rfl, ⟨hi, hl, rfl, rfl, content, serial_written content, C34_text hc⟩⟩
  unfold parseFootnote
  rw [h1, h2]
  simp only [hc, bind, Except.bind, if_neg ht]
  cases hrole : f.role with
  | none => rfl
  | some r => simp [hr r hrole]

theorem footnotes_accept {validUri : String → Bool} : ∀ (fs : List (FootnoteElem × List Elem)) (d : Dict String Footnote) (errs : ErrNames) (taken : List String),
    (∀ f ∈ fs, ∃ i l, f.1.id = some i ∧ i ≠ "" ∧ i ∉ taken ∧ i ∉ d.keys ∧ (∀ r, f.1.role = some r → validUri r = true) ∧ f.1.langs.findSome? id = some l ∧ l ≠ "") →
    (fs.map (·.1.id)).Nodup →
    ∃ ns taken', fs.foldlM (footnoteStep validUri) (d, errs, taken) = .ok (d ++ ns.map (fun n => (n.id, n)), errs, taken') ∧ Rel2 (fun f n => SaysNote f.1 f.2 n) fs ns := by
  intro fs
  induction fs with
  | nil => intro d errs taken _ _; exact ⟨[], taken, by simp [pure, Except.pure], .nil⟩
  | cons f fs ih =>
    intro d errs taken hv hn
    obtain ⟨i, l, h1, h2, h3, h4, h5, h6, h7⟩ := hv f List.mem_cons_self
    obtain ⟨n, hp, hid, hs⟩ := footnote_accepts (chain := f.2) h1 h2 h3 h5 h6 h7
    rw [List.map_cons, List.nodup_cons] at hn
    have hset : Dict.set d n.id n = d ++ [(n.id, n)] := by rw [hid]; exact Dict.set_of_not_mem _ _ _ h4
    obtain ⟨ns, taken', k1, k2⟩ := ih (d ++ [(n.id, n)]) errs (appendNew taken i) (by
      intro g hg
      obtain ⟨j, m, g1, g2, g3, g4, g5⟩ := hv g (List.mem_cons_of_mem _ hg)
      have hne : j ≠ i := by
        rintro rfl
        exact hn.1 (List.mem_map.2 ⟨g, hg, by rw [g1, h1]⟩)
      refine ⟨j, m, g1, g2, ?_, ?_, g5⟩
      · rw [mem_appendNew]; rintro (h | h); exacts [g3 h, hne h]
      · unfold Dict.keys at g4 ⊢
        rw [List.map_append, List.mem_append]
        rintro (h | h)
        · exact g4 h
        · rw [List.map_singleton, List.mem_singleton] at h
          exact hne (h.trans hid)) hn.2
    refine ⟨n :: ns, taken', ?_, .cons hs k2⟩
    rw [List.foldlM_cons]
    unfold footnoteStep at k1 ⊢
    rw [hp]
    simp only [Except.map, bind, Except.bind, hset, List.append_nil]
    rw [List.append_assoc] at k1
    exact k1

/-! ## The filing -/

theorem notes_chains {fuel : Nat} {ds : List InlineDoc} {data : ReportElement → Concept} {dateOf : String → Option Date} {dig : Char → Option Nat} {flt : String → Option Bool} {re : ElemStore}
    (hv : ValidInline data dateOf dig flt re ds) (hf : (inlineConts ds).length < fuel) :
    ∃ chains errs taken, createChains fuel ((inlineFacts ds).map (·.link)) ((inlineFootnotes ds).map (·.link)) ((inlineConts ds).map (·.link)) [] = some (chains, errs, taken) ∧
      ∀ e ∈ inlineFootnotes ds, ∃ cs, ContinuedBy ds e cs ∧ chainElems (inlineConts ds) chains e.cont.oid = cs.map (·.nonNumeric.elem) := by
  have hkind : ∀ e ∈ inlineFacts ds, (Spec.kindOf e).isSome := by
    intro e he
    rcases (hv.facts e he).value with ⟨hk, _⟩ | ⟨hk, _⟩ <;> (rw [hk]; rfl)
  have hlinks := continuable_links hkind
  obtain ⟨chains, errs, taken, hc, _⟩ := C33_accepted (taken := []) (fuel := fuel) (by rw [hlinks]; exact hv.continuations) (by rw [List.length_map]; exact hf)
  refine ⟨chains, errs, taken, hc, ?_⟩
  intro e he
  have hfirst := (C33_chains hc).1
  dsimp only at hfirst
  rw [hlinks] at hfirst
  have hoids : (chains.map (·.1.oid)).Nodup := by
    have : chains.map (·.1.oid) = (continuable ds).map (·.cont.oid) := by
      rw [show chains.map (fun p => p.1.oid) = (chains.map (·.1)).map (·.oid) from by rw [List.map_map]; rfl, hfirst, List.map_map]
      rfl
    rw [this]
    refine hv.objects.1.sublist (List.Sublist.map _ ?_)
    exact List.filter_sublist.append (List.Sublist.refl _)
  have hmem : e.link ∈ chains.map (·.1) := by
    rw [hfirst]
    refine List.mem_map.2 ⟨e, ?_, rfl⟩
    unfold continuable
    exact List.mem_append_right _ he
  obtain ⟨p, hp, hpe⟩ := List.mem_map.1 hmem
  obtain ⟨cs, c1, _, c3, c4⟩ := C33_elements hc hv.objects.2 hoids hp
  rw [hpe] at c3 c4
  exact ⟨cs, ⟨c1, c3⟩, c4⟩

theorem rel2_map_left {α β γ : Type} {R : β → γ → Prop} {f : α → β} {l : List α} {m : List γ} (h : Rel2 R (l.map f) m) : Rel2 (fun a c => R (f a) c) l m := by
  induction l generalizing m with
  | nil => cases h; exact .nil
  | cons a l ih =>
    rw [List.map_cons] at h
    cases h with
    | cons h1 h2 => exact .cons h1 (ih h2)

theorem rel2_of_map {α β : Type} {f : α → Option β} {l : List α} {m : List β} (h : l.map f = m.map some) : Rel2 (fun a b => f a = some b) l m := by
  induction l generalizing m with
  | nil => cases m with
    | nil => exact .nil
    | cons b m => cases h
  | cons a l ih => cases m with
    | nil => cases h
    | cons b m =>
      rw [List.map_cons, List.map_cons, List.cons.injEq] at h
      exact .cons h.1 (ih h.2)

theorem inlineFactOf_id {data : ReportElement → Concept} {dateOf : String → Option Date} {dig : Char → Option Nat} {flt : String → Option Bool} {re : ElemStore} {contexts units : List XNode}
    {chainOf : Nat → List Elem} {e : InlineElem} {f : Fact} (hf : inlineFactOf data dateOf dig flt re contexts units chainOf e = some f) : f.id = e.node.attr? "id" := by
  unfold inlineFactOf at hf
  simp only [bind, Option.bind_eq_some_iff] at hf
  obtain ⟨_, _, _, _, _, _, _, _, _, _, hf⟩ := hf
  cases hf
  rfl

/-- The footnotes and their networks, given the facts. -/
theorem notes_read {dateOf : String → Option Date} {dig : Char → Option Nat} {flt : String → Option Bool} {validUri : String → Bool} {float : String → Option Rat}
    {so : SetOrder} {docs : List FilingDoc} (hv : ValidInlineFiling dateOf dig flt validUri float docs) {fuel : Nat} (hfuel : (inlineConts (inlineDocs docs)).length < fuel)
    {taken : List String} {facts : FactStore} (htaken : ∀ i ∈ taken, i ∈ allIds (inlineDocs docs)) (hfacts : ∀ e ∈ inlineFacts (inlineDocs docs), ∀ i, e.node.attr? "id" = some i → facts.hasId i = true) :
    ∃ res fns notes, footnoteInputs fuel (docs.map (·.inline)) [] = some (.ok (res, fns)) ∧ readFootnotes validUri float so res fns taken facts = .ok notes ∧
      notes.reports = (resourceElems (inlineDocs docs) "link:roleRef").flatMap (fun _ => ["ROLEREF_INVALID_LINKTYPE"]) ++
      (resourceElems (inlineDocs docs) "link:arcroleRef").flatMap (fun _ => ["ROLEREF_INVALID_LINKTYPE", "ROLEREF_MISSING_ROLE_URI_ATTRIBUTE"]) ∧
      Rel2 (ShownFootnote (inlineDocs docs)) (inlineFootnotes (inlineDocs docs)) (notes.footnotes.map (·.2)) ∧
      Rel2 (fun k net => ∀ i j, j ∈ net.childrenOf i ↔ ∃ x ∈ resourceElems (inlineDocs docs) "ix:relationship", rolesOf x = k ∧ Names x "fromRefs" i ∧ Names x "toRefs" j)
        (firstOccurrences ((resourceElems (inlineDocs docs) "ix:relationship").map rolesOf)) notes.networks := by
  obtain ⟨parts, hparts⟩ := parseHeaders_accepts hv.inline.declarations
  obtain ⟨_, hpr, _, _⟩ := parseHeaders_spec hparts
  obtain ⟨res, hres⟩ := resources_accept (rs := parts.resources) (errs := []) (by rw [hpr]; exact hv.inline.declarations.inside)
  obtain ⟨r1, r2, r3, _, _, _⟩ := C83_resources hres
  rw [hpr] at r1 r2 r3
  obtain ⟨chains, cerrs, ctaken, hc, hchain⟩ := notes_chains hv.inline hfuel
  have hin : footnoteInputs fuel (docs.map (·.inline)) [] = some (.ok (res, (inlineFootnotes (inlineDocs docs)).map (fun e => (e.footnote, chainElems (inlineConts (inlineDocs docs)) chains e.cont.oid)))) := by
    unfold footnoteInputs
    unfold inlineDocs at hparts hc ⊢
    dsimp only
    rw [hparts]
    dsimp only
    rw [hres]
    dsimp only
    rw [hc]
    rfl
  have hdisj := (List.nodup_append.1 hv.ids).2.2
  have hnoteids := (List.nodup_append.1 hv.ids).2.1
  have hinid : ∀ e ∈ inlineFootnotes (inlineDocs docs), ∀ i, e.node.attr? "id" = some i → i ∈ idsOf ((inlineFootnotes (inlineDocs docs)).map (·.node)) := by
    intro e he i hi
    exact List.mem_filterMap.2 ⟨e.node, List.mem_map_of_mem he, hi⟩
  obtain ⟨ns, taken', hns, hnrel⟩ := footnotes_accept (validUri := validUri)
    ((inlineFootnotes (inlineDocs docs)).map (fun e => (e.footnote, chainElems (inlineConts (inlineDocs docs)) chains e.cont.oid))) [] [] taken (by
      intro f hf
      obtain ⟨e, he, rfl⟩ := List.mem_map.1 hf
      obtain ⟨i, hi, hi0⟩ := hv.notes.ids e he
      obtain ⟨l, hl, hl0⟩ := hv.notes.languages e he
      exact ⟨i, l, hi, hi0, fun h => hdisj i (htaken i h) i (hinid e he i hi) rfl, fun h => (by cases h), hv.notes.roles e he, hl, hl0⟩) (by
      rw [List.map_map]
      have : ∀ l : List InlineElem, (∀ e ∈ l, ∃ i, e.node.attr? "id" = some i) → (idsOf (l.map (·.node))).map some = l.map (fun e => e.node.attr? "id") := by
        intro l
        induction l with
        | nil => intro _; rfl
        | cons x l ih =>
          intro h
          obtain ⟨i, hi⟩ := h x List.mem_cons_self
          have := ih (fun y hy => h y (List.mem_cons_of_mem _ hy))
          unfold idsOf at this ⊢
          rw [List.map_cons, List.filterMap_cons_some (f := fun x : XNode => x.attr? "id") hi, List.map_cons, List.map_cons, hi, this]
      have := this _ (fun e he => (hv.notes.ids e he).imp (fun i h => h.1))
      change ((inlineFootnotes (inlineDocs docs)).map (fun e => e.node.attr? "id")).Nodup
      rw [← this]
      exact List.pairwise_map.2 (hnoteids.imp (fun h e => h (Option.some.inj e))))
  rw [List.nil_append] at hns
  have hnrel := rel2_map_left hnrel
  have hnotes : ∀ e ∈ inlineFootnotes (inlineDocs docs), ∀ i, e.node.attr? "id" = some i → Dict.has (ns.map (fun n => (n.id, n))) i = true := by
    intro e he i hi
    obtain ⟨m, hm, hme⟩ := hnrel.mem_left e he
    rw [Dict.has_iff_mem_keys]
    unfold Dict.keys
    rw [List.map_map]
    refine List.mem_map.2 ⟨m, hm, ?_⟩
    have := hme.id
    exact Option.some.inj (this.symm.trans hi)
  obtain ⟨nets, hnets, hnetrel⟩ := rels_accept (so := so) hv.notes.relationships hfacts hnotes (by
    intro e he e' he' i hi hi'
    refine hdisj i ?_ i (hinid e' he' i hi') rfl
    unfold allIds
    rw [idsOf_append]
    exact List.mem_append_right _ (List.mem_filterMap.2 ⟨e.node, List.mem_map_of_mem he, hi⟩))
  refine ⟨res, _, ⟨ns.map (fun n => (n.id, n)), nets, (resourceElems (inlineDocs docs) "link:roleRef").flatMap (fun _ => ["ROLEREF_INVALID_LINKTYPE"]) ++
      (resourceElems (inlineDocs docs) "link:arcroleRef").flatMap (fun _ => ["ROLEREF_INVALID_LINKTYPE", "ROLEREF_MISSING_ROLE_URI_ATTRIBUTE"])⟩, hin, ?_, rfl, ?_, hnetrel⟩
  · unfold readFootnotes parseFootnotes
    rw [show res.roleRefs = resourceElems (inlineDocs docs) "link:roleRef" from r2, show res.arcroleRefs = resourceElems (inlineDocs docs) "link:arcroleRef" from r3,
      show res.relationships = resourceElems (inlineDocs docs) "ix:relationship" from r1, C109_documents_partial hv.notes.roleRefs hv.notes.arcroleRefs, hns]
    simp only [bind, Except.bind, hnets, pure, Except.pure, List.append_nil]
  · dsimp only
    rw [List.map_map, show ((fun p : String × Footnote => p.2) ∘ fun n => (n.id, n)) = id from rfl, List.map_id]
    refine hnrel.imp ?_
    intro e he m hm
    obtain ⟨cs, c1, c2⟩ := hchain e he
    refine ⟨hm.id, hm.language, hm.role, hm.title, cs, c1, ?_⟩
    obtain ⟨c, d1, d2⟩ := hm.content
    refine ⟨c, d1, ?_⟩
    rw [d2, c2]
    simp only [List.flatMap_cons, List.flatMap_map]
    rfl

/-- The facts, as C98 has them, and the ids taken. -/
theorem facts_read {dateOf : String → Option Date} {fuel : Nat} {data : ReportElement → Concept} {dig : Char → Option Nat} {flt : String → Option Bool} {re : ElemStore} {docs ds : List InlineDoc}
    (hds : docs.filter isInstance = ds) (hv : ValidInline data dateOf dig flt re ds) (hun : Unambiguous re (resourceElems ds "xbrli:context"))
    (hids : (allIds ds).Nodup) (hid : ∀ e ∈ inlineFacts ds, e.node.attr? "id" ≠ none) (hf : (inlineConts ds).length < fuel) :
    ∃ (chainOf : Nat → List Elem) (fs : List Fact) (s' : InlineState), parseFactsXhtml fuel data dateOf dig flt re docs = some (.ok s') ∧ s'.ps.errs = [] ∧
      (inlineFacts ds).map (inlineFactOf data dateOf dig flt re (resourceElems ds "xbrli:context") (resourceElems ds "xbrli:unit") chainOf) = fs.map some ∧ s'.facts = FactStore.run fs ∧
      s'.facts.getAll = fs ∧ (∀ e ∈ inlineFacts ds, Spec.kindOf e = some .text → ∃ cs, ContinuedBy ds e cs ∧ chainOf e.cont.oid = cs.map (·.nonNumeric.elem)) ∧
      ∀ i ∈ s'.taken, i ∈ allIds ds := by
  subst hds
  obtain ⟨chainOf, fs, st, h1, h2, h3, h4, h5, h6⟩ := C98_accepted_partial hv hun hids hf
  refine ⟨chainOf, fs, st, h1, h2, h3, h4, h5 hid, ?_, ?_⟩
  · intro e he hk
    obtain ⟨cs, c1, c2, c3⟩ := h6 e he hk
    exact ⟨cs, ⟨c1, c2⟩, c3⟩
  · intro i hi
    have := ((C48_partial h1).2 i).1 hi
    unfold usedIds at this
    unfold allIds
    simp only [idsOf_append, List.mem_append] at this ⊢
    rcases this with h | h
    · exact Or.inl h
    · refine Or.inr ?_
      unfold idsOf at h ⊢
      obtain ⟨x, hx, hxi⟩ := List.mem_filterMap.1 h
      obtain ⟨e, he, rfl⟩ := List.mem_map.1 hx
      exact List.mem_filterMap.2 ⟨e.node, List.mem_map.2 ⟨e, (List.mem_filter.1 he).1, rfl⟩, hxi⟩

/-- C110: a valid inline filing is opened without an exception and shows what its documents say: the report elements they declare, the facts they state, the footnotes and their
relationships, the labels, the networks and the components. Nothing is reported but the role references, see C109. What is missing: relationships without an order, which raise an
exception (`C36_order_false`), relationships from facts to facts, which may do so (`C76_fact_false`), and the link role of the networks of footnotes, which is wrong (`C35_linkrole_false`). -/
theorem C110_opens_partial {dateOf : String → Option Date} {dig : Char → Option Nat} {flt : String → Option Bool} {validUri : String → Bool} {float : String → Option Rat} {str : XNode → String}
    {so : SetOrder} {docs : List FilingDoc} (hv : ValidInlineFiling dateOf dig flt validUri float docs) {fuel : Nat} (hfuel : (inlineConts (inlineDocs docs)).length < fuel) :
    ∃ steps o, (∀ j, openXhtml dateOf dig flt validUri float str so fuel (steps + j) docs = some (.ok o)) ∧ o.Reports docs ∧ ShowsInline dateOf dig flt docs o := by
  have hroots : (docs.map (·.doc)).map (·.root) = docs.map (·.doc.root) := by rw [List.map_map]; rfl
  obtain ⟨s, hs, herr, hrel⟩ := schemas_read hv.schemas
  obtain ⟨hst, hco⟩ := taxonomy_of hs hv.schemas.plain
  have hall := (List.nodup_append.1 hv.ids).1
  obtain ⟨chainOf, fs, st, hf1, hf2, hf3, hf4, hf5, hf6, htaken⟩ := facts_read (docs := docs.map (·.inline)) (ds := inlineDocs docs) rfl hv.inline hv.texts hall hv.identified hfuel
  have hids : fs.map (·.id) = (inlineFacts (inlineDocs docs)).map (fun e => e.node.attr? "id") := by
    refine ((rel2_of_map hf3).map_eq _ _ ?_).symm
    intro e _ f hf
    exact (inlineFactOf_id hf).symm
  have hl := hv.links fs hids
  rw [← hf4] at hl
  obtain ⟨steps, n, hn, hn1, hn2⟩ := C102_silent (str := str) (so := so) hl.plain hl.valid hl.roles hl.resolved hl.languages hl.once
  obtain ⟨cs, hcs, hcrel⟩ := components_read (hn 0) hl.plain hv.components
  have hfacts : ∀ e ∈ inlineFacts (inlineDocs docs), ∀ i, e.node.attr? "id" = some i → st.facts.hasId i = true := by
    intro e he i hi
    obtain ⟨f, hf, hfe⟩ := (rel2_of_map hf3).mem_left e he
    have hfi := (inlineFactOf_id hfe).trans hi
    unfold FactStore.hasId
    rw [Dict.has_eq, hf4, FactStore.run_get?]
    cases hlat : latest (·.id) fs (some i) with
    | some _ => rfl
    | none => exact absurd hfi ((latest_none _ _ _).1 hlat f hf)
  obtain ⟨res, fns, notes, hin, hread, hrep, hnotes, hnets⟩ := notes_read (so := so) hv hfuel htaken hfacts
  refine ⟨steps, ⟨registerInlinePrefixes (docs.map (·.doc.root)), s, st, notes, n, cs, []⟩, ?_, ⟨herr, hf2, hrep, ⟨hn1, hn2⟩, rfl⟩, ?_⟩
  · intro j
    unfold openXhtml
    dsimp only
    rw [hs]
    dsimp only
    rw [hco, hst, hf1]
    dsimp only
    rw [hin]
    dsimp only
    rw [hread]
    dsimp only
    rw [hn j]
    simp only [Option.map_some, Except.bind, hcs, Except.map]
  · have hrooted : ∀ p ∈ unitedTags, ∀ role up link, HasLink (docs.map (·.doc.root)) p.1 role up link → Rooted (taxonomyStore (docs.map (·.doc))) link :=
      fun p hp role up link h => ⟨(hl.valid p.1 role up link h).acyclic, hl.sources p hp role up link h⟩
    refine ⟨hrel, ?_, hnotes, hnets, ?_, ?_, ?_, hcrel⟩
    · dsimp only
      rw [hf5]
      refine (rel2_of_map hf3).imp ?_
      intro e he f hf
      by_cases hk : Spec.kindOf e = some .text
      · obtain ⟨cs, c1, c3⟩ := hf6 e he hk
        refine ⟨cs, fun _ => c1, ?_⟩
        unfold inlineFactOf at hf ⊢
        rw [← c3]
        exact hf
      · refine ⟨[], fun h => absurd h hk, ?_⟩
        unfold inlineFactOf at hf ⊢
        cases hk' : Spec.kindOf e with
        | none => rw [hk'] at hf; cases hf
        | some k =>
          cases k with
          | text => exact absurd hk' hk
          | number => rw [hk'] at hf; exact hf
    · refine C100_labels (hn 0) hl.plain ?_
      intro up link role h l m hj own x hx hm
      exact ((hl.valid _ role up link h).labels rfl).2 own x m hx hm l hj
    · intro p hp role q
      refine ⟨(C101_nothing_else (hn 0) hl.plain (name := p.1) (k := p.2) hp).1 q, ?_⟩
      rintro ⟨up, link, l, h1, h2⟩
      exact (C101_everything (hn 0) hl.plain (name := p.1) (k := p.2) hp h1 (hrooted p hp role up link h1)).1 l q h2
    · intro p hp role q q'
      refine ⟨(C101_nothing_else (hn 0) hl.plain (name := p.1) (k := p.2) hp).2 q q', ?_⟩
      rintro ⟨up, link, l, m, h1, h2, h3, h4⟩
      exact (C101_everything (hn 0) hl.plain (name := p.1) (k := p.2) hp h1 (hrooted p hp role up link h1)).2 l m q q' h2 h3 h4

end Brel
