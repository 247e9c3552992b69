import Verif.Spec.InlineContent
import Verif.Lemmas.Py
import Mathlib.Data.List.Perm.Subperm
import Mathlib.Tactic.ByContra

/-! C33, C34, C74, C75: continuation chains and the content of non-numeric inline facts. -/

namespace Brel
open Spec

/-! ## C34: text -/

theorem textKids_append (as bs : List Elem) : textKids (as ++ bs) = textKids as ++ textKids bs := by
  induction as with
  | nil => rfl
  | cons a as ih => simp [textKids, ih, List.append_assoc]

theorem textContent_eq (e : Elem) : textContent e = e.text.getD [] ++ textKids e.children := by
  cases e; rfl

theorem textKids_modifyLast (t : List Char) : ∀ cs : List Elem, cs ≠ [] →
    textKids (modifyLast (fun c => c.setTail (some (c.tail.getD [] ++ t))) cs) = textKids cs ++ t
  | [], h => absurd rfl h
  | [c], _ => by cases c; simp [modifyLast, textKids, Elem.setTail, textContent, Elem.tail]
  | c :: d :: cs, _ => by
    have ih := textKids_modifyLast t (d :: cs) (by simp)
    simp only [modifyLast, textKids] at ih ⊢
    rw [ih]
    simp [List.append_assoc]

theorem textContent_appendText (p : Elem) (t : Option (List Char)) : textContent (appendText p t) = textContent p ++ t.getD [] := by
  cases t with
  | none => simp [appendText]
  | some t =>
    obtain ⟨n, a, tx, tl, kids⟩ := p
    cases kids with
    | nil => simp [appendText, Elem.children, Elem.setText, textContent, textKids, Elem.text]
    | cons c cs =>
      simp only [appendText, Elem.children, Elem.setChildren, textContent, Option.getD_some]
      rw [textKids_modifyLast t (c :: cs) (by simp), List.append_assoc]

theorem textContent_appendAll (p : Elem) (cs : List Elem) : textContent (appendAll p cs) = textContent p ++ textKids cs := by
  cases p
  simp [appendAll, Elem.setChildren, Elem.children, textContent, textKids_append, List.append_assoc]

theorem tail_appendText (p : Elem) (t : Option (List Char)) : (appendText p t).tail = p.tail := by
  cases t with
  | none => rfl
  | some t =>
    obtain ⟨n, a, tx, tl, kids⟩ := p
    cases kids <;> rfl

theorem tail_appendAll (p : Elem) (cs : List Elem) : (appendAll p cs).tail = p.tail := by cases p; rfl

mutual
theorem relevant_text : ∀ e : Elem, textContent (relevant e) = visibleText e ∧ (relevant e).tail = e.tail
  | .mk n a t tl kids => by
    obtain ⟨h1, h2⟩ := relevantKids_text kids (.mk n a t tl [])
    rw [relevant, h1, h2]
    simp [textContent, textKids, visibleText, Elem.tail]

theorem relevantKids_text : ∀ (cs : List Elem) (acc : Elem), textContent (relevantKids acc cs) = textContent acc ++ visibleKids cs ∧ (relevantKids acc cs).tail = acc.tail
  | [], acc => by simp [relevantKids, visibleKids]
  | c :: cs, acc => by
    obtain ⟨hc1, hc2⟩ := relevant_text c
    rw [relevantKids]
    split
    · rename_i hx
      obtain ⟨h1, h2⟩ := relevantKids_text cs (appendText acc c.tail)
      rw [h1, h2, textContent_appendText, tail_appendText]
      simp [visibleKids, hx, List.append_assoc]
    · rename_i hx
      split
      · obtain ⟨h1, h2⟩ := relevantKids_text cs (appendText (appendAll (appendText acc (relevant c).text) (relevant c).children) (relevant c).tail)
        rw [h1, h2, textContent_appendText, textContent_appendAll, textContent_appendText, tail_appendText, tail_appendAll, tail_appendText]
        refine ⟨?_, rfl⟩
        have : (relevant c).text.getD [] ++ textKids (relevant c).children = visibleText c := by rw [← hc1, textContent_eq]
        simp only [visibleKids, hx, if_false, List.append_assoc, hc2]
        rw [← List.append_assoc ((relevant c).text.getD []), this]
      · obtain ⟨h1, h2⟩ := relevantKids_text cs (appendAll acc [relevant c])
        rw [h1, h2, textContent_appendAll, tail_appendAll]
        refine ⟨?_, rfl⟩
        simp only [textKids, hc1, hc2, List.append_nil, visibleKids, hx, if_false, List.append_assoc]
end

theorem mergeInto_text (es : List Elem) : ∀ acc, textContent (mergeInto acc es) = textContent acc ++ es.flatMap textContent := by
  induction es with
  | nil => intro acc; simp [mergeInto]
  | cons e es ih =>
    intro acc
    rw [mergeInto, ih, textContent_appendAll, textContent_appendText, List.flatMap_cons, textContent_eq e]
    simp [List.append_assoc]

/-- C34: the text of a fact and its continuations is the text of these elements one after the other, without what is inside `ix:exclude`. -/
theorem C34_text {chain : List Elem} {content : Elem} (h : relevantContent chain = .ok content) : textContent content = chain.flatMap visibleText := by
  unfold relevantContent mergeRelevant at h
  split at h
  · cases h
  · rename_i e es he
    cases h
    rw [mergeInto_text, ← he]
    have : textContent ((e.setChildren []).setText none) = [] := by cases e; rfl
    rw [this, List.nil_append, List.flatMap_map]
    congr 1
    funext x
    exact (relevant_text x).1

theorem relevantContent_ok (e : Elem) (chain : List Elem) : ∃ content, relevantContent (e :: chain) = .ok content := ⟨_, rfl⟩

/-- C34 for facts: the value of a non-numeric fact without `escape` and without a format is the text of its fragments. Nothing is lost, and the id is that of the element. -/
theorem C34_value {dig : Char → Option Nat} {e : NonNumericElem} (he : e.escape = none ∨ e.escape = some "false") (hf : e.format = none) (chain : List Elem) (taken : List String) :
    ∃ errs taken', parseNonNumeric dig e chain taken = .ok ((e.elem :: chain).flatMap visibleText, e.id, errs, taken') := by
  obtain ⟨content, hc⟩ := relevantContent_ok e.elem chain
  have ht := C34_text hc
  unfold parseNonNumeric
  simp only [hc, hf, parseNonNumerical, truthy, bind, Except.bind]
  rcases he with he | he <;> simp [he, ht]

/-- A fact with an excluded page number, a nested fact and a continuation. -/
example : (relevantContent [
    .mk "ix:nonNumeric" [] (some (chars! "Net ")) none [.mk "ix:exclude" [] (some (chars! "page 3")) (some (chars! "income ")) [],
      .mk "ix:nonFraction" [] (some (chars! "5")) (some (chars! " EUR")) []],
    .mk "ix:continuation" [] (some (chars! ", ")) none [.mk "b" [] (some (chars! "unaudited")) none []]]).map textContent
    = .ok (chars! "Net income 5 EUR, unaudited") := by decide +kernel

/-! ## C74: escaped content -/

theorem convertEscaped_eq (s : List Char) : convertEscaped s = s.flatMap (fun c => (escapes.find? (fun p => p.1 = c)).elim [c] (·.2)) := by
  have comp : ∀ (c : Char) (r : List Char) (f : Char → List Char) (s : List Char),
      replaceChar c r (s.flatMap f) = s.flatMap (fun x => replaceChar c r (f x)) := by
    intro c r f s
    simp [replaceChar, List.flatMap_assoc]
  have single : s = s.flatMap (fun c => [c]) := by simp
  refine (congrArg (fun s => escapes.foldl (fun s p => replaceChar p.1 p.2 s) s) single).trans ?_
  simp only [escapes, List.foldl]
  simp only [comp]
  congr 1
  funext c
  by_cases h1 : c = '&'
  · subst h1; decide +kernel
  by_cases h2 : c = '<'
  · subst h2; decide +kernel
  by_cases h3 : c = '>'
  · subst h3; decide +kernel
  by_cases h4 : c = '"'
  · subst h4; decide +kernel
  by_cases h5 : c = '\''
  · subst h5; decide +kernel
  simp [replaceChar, List.find?, Ne.symm h1, Ne.symm h2, Ne.symm h3, Ne.symm h4, Ne.symm h5, h1, h2, h3, h4, h5]

/-! ## C33: continuation chains -/

section
variable {idx : Dict String ContElem}

theorem followChain_path {start : Option String} {cs : List ContElem} (h : Path idx.get? start cs) : ∀ (st : ChainState) (fuel : Nat), cs.length < fuel →
    ∃ used errs, followChain idx fuel start st = some ⟨st.chain ++ cs, used, errs⟩ := by
  induction h with
  | done => intro st fuel _; exact ⟨st.used, st.errs, by cases fuel <;> simp [followChain]⟩
  | unknown h =>
    intro st fuel hf
    obtain ⟨fuel, rfl⟩ : ∃ k, fuel = k + 1 := ⟨fuel - 1, by omega⟩
    simp only [followChain, h]
    exact ⟨_, _, by simp; exact ⟨rfl, rfl⟩⟩
  | @step i c cs h _ ih =>
    intro st fuel hf
    obtain ⟨fuel, rfl⟩ : ∃ k, fuel = k + 1 := ⟨fuel - 1, by simp at hf; omega⟩
    simp only [followChain, h]
    obtain ⟨u, e, h⟩ := ih ⟨st.chain ++ [c], appendNew st.used i, st.errs ++ (if i ∈ st.used then ["IXBRL_REUSED_CONTINUATION"] else [])⟩ fuel (by simp at hf; omega)
    exact ⟨u, e, by rw [h]; simp⟩

theorem path_of_followChain : ∀ (fuel : Nat) (start : Option String) (st st' : ChainState), followChain idx fuel start st = some st' →
    ∃ cs, Path idx.get? start cs ∧ st'.chain = st.chain ++ cs := by
  intro fuel
  induction fuel with
  | zero =>
    intro start st st' h
    cases start with
    | none => simp only [followChain, Option.some.injEq] at h; subst h; exact ⟨[], .done, by simp⟩
    | some i => simp [followChain] at h
  | succ fuel ih =>
    intro start st st' h
    cases start with
    | none => simp only [followChain, Option.some.injEq] at h; subst h; exact ⟨[], .done, by simp⟩
    | some i =>
      simp only [followChain] at h
      cases hi : idx.get? i with
      | none =>
        rw [hi] at h
        simp only [Option.some.injEq] at h
        subst h
        exact ⟨[], .unknown hi, by simp⟩
      | some c =>
        rw [hi] at h
        obtain ⟨cs, hp, e⟩ := ih _ _ _ h
        exact ⟨c :: cs, .step hi hp, by simpa using e⟩

theorem path_unique {start : Option String} {cs cs' : List ContElem} (h : Path idx.get? start cs) (h' : Path idx.get? start cs') : cs = cs' := by
  induction h generalizing cs' with
  | done => cases h'; rfl
  | unknown h => cases h' with
    | unknown _ => rfl
    | step h2 _ => rw [h] at h2; cases h2
  | step h _ ih => cases h' with
    | unknown h2 => rw [h] at h2; cases h2
    | step h2 h3 => rw [h] at h2; cases h2; rw [ih h3]

theorem followAll_chains : ∀ (es : List ContElem) (fuel : Nat) (used : List String) (errs : ErrNames) {r}, followAll idx fuel es used errs = some r →
    r.1.map (·.1) = es ∧ ∀ p ∈ r.1, Path idx.get? p.1.continuedAt p.2 := by
  intro es
  induction es with
  | nil => intro fuel used errs r h; simp only [followAll, Option.some.injEq] at h; subst h; simp
  | cons e es ih =>
    intro fuel used errs r h
    simp only [followAll, Option.bind_eq_bind, Option.bind_eq_some_iff, Option.some.injEq] at h
    obtain ⟨st, h1, r', h2, rfl⟩ := h
    obtain ⟨h3, h4⟩ := ih _ _ _ h2
    obtain ⟨cs, hp, e1⟩ := path_of_followChain _ _ _ _ h1
    refine ⟨by simp [h3], ?_⟩
    intro p hp'
    rcases List.mem_cons.1 hp' with rfl | hp'
    · simp only [List.nil_append] at e1
      rw [show (e, st.chain).2 = cs from e1]
      exact hp
    · exact h4 p hp'

theorem followAll_ok : ∀ (es : List ContElem) (fuel : Nat) (used : List String) (errs : ErrNames),
    (∀ e ∈ es, ∃ cs, Path idx.get? e.continuedAt cs ∧ cs.length < fuel) → ∃ r, followAll idx fuel es used errs = some r := by
  intro es
  induction es with
  | nil => intro fuel used errs _; exact ⟨_, rfl⟩
  | cons e es ih =>
    intro fuel used errs h
    obtain ⟨cs, hp, hl⟩ := h e (by simp)
    obtain ⟨u, er, h1⟩ := followChain_path hp ⟨[], used, errs⟩ fuel hl
    obtain ⟨r, h2⟩ := ih fuel u er (fun x hx => h x (by simp [hx]))
    exact ⟨_, by simp [followAll, h1, h2]; rfl⟩

end

theorem get?_foldl_set (cs : List ContElem) : ∀ (d : Dict String ContElem) (i : String),
    (cs.foldl indexStep d).get? i = ((continuationOf cs i).or (d.get? i)) := by
  induction cs with
  | nil => intro d i; simp [continuationOf]
  | cons c cs ih =>
    intro d i
    rw [List.foldl_cons, ih, indexStep]
    cases hc : c.id with
    | none => simp [continuationOf, hc]
    | some j =>
      simp only [Dict.get?_set]
      by_cases hj : j = i
      · subst hj
        simp only [continuationOf, List.filter_cons, hc, decide_true, if_true]
        rw [List.getLast?_cons]
        cases h : (cs.filter (fun c => c.id = some j)).getLast? <;> simp
      · have : ¬ (i = j) := fun h => hj h.symm
        simp [continuationOf, hc, hj, this]

theorem buildIndex_get? (cs : List ContElem) (taken : List String) : (buildIndex cs taken).1.get? = continuationOf cs := by
  funext i
  unfold buildIndex
  have := get?_foldl_set cs [] i
  simp only
  rw [this]
  simp [Dict.get?]

/-- The elements that can be continued: facts that are not numeric, and footnotes. -/
def canContinue (facts footnotes : List ContElem) : List ContElem := facts.filter (fun f => isInfix "nonNumeric".toList f.name.toList) ++ footnotes

/-- C33: whenever the chains of a document are built, there is one for every non-numeric fact and every footnote, and it is what following `continuedAt` yields. -/
theorem C33_chains {fuel : Nat} {facts footnotes conts : List ContElem} {taken : List String} {r} (h : createChains fuel facts footnotes conts taken = some r) :
    r.1.map (·.1) = canContinue facts footnotes ∧ ∀ p ∈ r.1, Path (continuationOf conts) p.1.continuedAt p.2 := by
  unfold createChains at h
  simp only at h
  split at h
  · cases h
  · rename_i r' hr
    cases h
    have := followAll_chains _ _ _ _ hr
    rw [buildIndex_get?] at this
    exact this

/-- C33: the chains are built, in some number of rounds, exactly when following `continuedAt` ends for every non-numeric fact and every footnote. -/
theorem C33_terminates_iff (facts footnotes conts : List ContElem) (taken : List String) :
    (∃ fuel r, createChains fuel facts footnotes conts taken = some r) ↔ ∀ e ∈ canContinue facts footnotes, ∃ cs, Path (continuationOf conts) e.continuedAt cs := by
  constructor
  · rintro ⟨fuel, r, h⟩ e he
    obtain ⟨h1, h2⟩ := C33_chains h
    rw [← h1] at he
    obtain ⟨p, hp, rfl⟩ := List.mem_map.1 he
    exact ⟨_, h2 p hp⟩
  · intro h
    -- a bound for all chains
    have hb : ∀ es : List ContElem, (∀ e ∈ es, ∃ cs, Path (continuationOf conts) e.continuedAt cs) →
        ∃ fuel, ∀ e ∈ es, ∃ cs, Path (continuationOf conts) e.continuedAt cs ∧ cs.length < fuel := by
      intro es
      induction es with
      | nil => intro _; exact ⟨0, by simp⟩
      | cons e es ih =>
        intro h
        obtain ⟨f, hf⟩ := ih (fun x hx => h x (by simp [hx]))
        obtain ⟨cs, hcs⟩ := h e (by simp)
        refine ⟨max f (cs.length + 1), ?_⟩
        intro x hx
        rcases List.mem_cons.1 hx with rfl | hx
        · exact ⟨cs, hcs, by omega⟩
        · obtain ⟨cs', h1, h2⟩ := hf x hx
          exact ⟨cs', h1, by omega⟩
    obtain ⟨fuel, hf⟩ := hb _ h
    obtain ⟨r, hr⟩ := followAll_ok (idx := (buildIndex conts taken).1) (canContinue facts footnotes) fuel [] [] (by rw [buildIndex_get?]; exact hf)
    unfold canContinue at hr
    exact ⟨fuel, _, by unfold createChains; simp only [hr]; rfl⟩

/-- Following `continuedAt` does not end if it comes back to an id. -/
theorem no_path_of_circle {idx : String → Option ContElem} {a : String} {n : Nat} (h : Visits idx a (n + 1) a) (cs : List ContElem) : ¬ Path idx (some a) cs := by
  have key : ∀ {a b : String} {m : Nat}, Visits idx a m b → ∀ cs, Path idx (some a) cs → ∃ cs', Path idx (some b) cs' ∧ cs'.length + m = cs.length := by
    intro a b m h
    induction h with
    | zero => intro cs hp; exact ⟨cs, hp, rfl⟩
    | succ h1 _ ih =>
      intro cs hp
      obtain ⟨c, hc, hcon⟩ := h1
      cases hp with
      | unknown hn => rw [hc] at hn; cases hn
      | step hc' hp' =>
        rw [hc] at hc'
        cases hc'
        rw [hcon] at hp'
        obtain ⟨cs', h2, h3⟩ := ih _ hp'
        exact ⟨cs', h2, by simp; omega⟩
  intro hp
  have main : ∀ k cs, cs.length = k → ¬ Path idx (some a) cs := by
    intro k
    induction k using Nat.strongRecOn with
    | ind k ih =>
      intro cs hl hp
      obtain ⟨cs', h1, h2⟩ := key h cs hp
      exact ih cs'.length (by omega) cs' rfl h1
  exact main _ cs rfl hp

/-- C33 fails: a continuation that continues at itself makes the parser run forever. -/
theorem C33_cyclic_false : ∃ facts conts : List ContElem, (∃ f ∈ facts, f.continuedAt = some "c") ∧ continuationOf conts "c" ≠ none ∧
    ∀ fuel, createChains fuel facts [] conts [] = none := by
  refine ⟨[⟨0, "ix:nonNumeric", some "f", some "c", []⟩], [⟨1, "ix:continuation", some "c", some "c", []⟩], by simp, by decide +kernel, ?_⟩
  intro fuel
  cases h : createChains fuel [⟨0, "ix:nonNumeric", some "f", some "c", []⟩] [] [⟨1, "ix:continuation", some "c", some "c", []⟩] [] with
  | none => rfl
  | some r =>
    exfalso
    have := (C33_terminates_iff [⟨0, "ix:nonNumeric", some "f", some "c", []⟩] [] [⟨1, "ix:continuation", some "c", some "c", []⟩] []).1 ⟨fuel, r, h⟩
      ⟨0, "ix:nonNumeric", some "f", some "c", []⟩ (by decide +kernel)
    obtain ⟨cs, hp⟩ := this
    have hv : Visits (continuationOf [⟨1, "ix:continuation", some "c", some "c", []⟩]) "c" (0 + 1) "c" :=
      .succ ⟨⟨1, "ix:continuation", some "c", some "c", []⟩, by decide +kernel, rfl⟩ .zero
    exact no_path_of_circle hv cs hp

/-- Lists without repetition inside another list are not longer. -/
theorem length_le_of_nodup_subset {as bs : List String} (h : as.Nodup) (hs : as ⊆ bs) : as.length ≤ bs.length :=
  (List.Nodup.subperm h hs).length_le

theorem continuationOf_mem {cs : List ContElem} {i : String} {c : ContElem} (h : continuationOf cs i = some c) : c ∈ cs ∧ c.id = some i := by
  have := List.mem_of_getLast? h
  simpa using this

theorem path_of_noCircle {conts : List ContElem} (hn : NoCircle (continuationOf conts)) : ∀ (n : Nat) (seen : List String) (i : String),
    seen.Nodup → seen ⊆ conts.filterMap (·.id) → (∀ s ∈ seen, ∃ k, Visits (continuationOf conts) s (k + 1) i) → conts.length ≤ seen.length + n →
    ∃ cs, Path (continuationOf conts) (some i) cs ∧ cs.length ≤ n := by
  have snoc : ∀ {a b c : String} {k : Nat}, Visits (continuationOf conts) a k b → Continues (continuationOf conts) b c → Visits (continuationOf conts) a (k + 1) c := by
    intro a b c k h hc
    induction h with
    | zero => exact .succ hc .zero
    | succ h1 _ ih => exact .succ h1 (ih hc)
  intro n
  induction n with
  | zero =>
    intro seen i hnd hsub hv hl
    cases hi : continuationOf conts i with
    | none => exact ⟨[], .unknown hi, by simp⟩
    | some c =>
      exfalso
      have hi' : i ∈ conts.filterMap (·.id) := List.mem_filterMap.2 ⟨c, continuationOf_mem hi⟩
      have hns : i ∉ seen := fun h => by obtain ⟨k, hk⟩ := hv i h; exact hn _ _ hk
      have := length_le_of_nodup_subset (List.nodup_cons.2 ⟨hns, hnd⟩) (List.cons_subset.2 ⟨hi', hsub⟩)
      have h2 := List.length_filterMap_le (fun c : ContElem => c.id) conts
      simp at this
      omega
  | succ n ih =>
    intro seen i hnd hsub hv hl
    cases hi : continuationOf conts i with
    | none => exact ⟨[], .unknown hi, by simp⟩
    | some c =>
      have hi' : i ∈ conts.filterMap (·.id) := List.mem_filterMap.2 ⟨c, continuationOf_mem hi⟩
      have hns : i ∉ seen := fun h => by obtain ⟨k, hk⟩ := hv i h; exact hn _ _ hk
      cases hc : c.continuedAt with
      | none => exact ⟨[c], .step hi (hc ▸ .done), by simp⟩
      | some j =>
        have hcon : Continues (continuationOf conts) i j := ⟨c, hi, hc⟩
        obtain ⟨cs, hp, hl'⟩ := ih (i :: seen) j (List.nodup_cons.2 ⟨hns, hnd⟩) (List.cons_subset.2 ⟨hi', hsub⟩)
          (by
            intro s hs
            rcases List.mem_cons.1 hs with rfl | hs
            · exact ⟨0, .succ hcon .zero⟩
            · obtain ⟨k, hk⟩ := hv s hs
              exact ⟨k + 1, snoc hk hcon⟩)
          (by simp; omega)
        exact ⟨c :: cs, .step hi (by rw [hc]; exact hp), by simp; omega⟩

/-- C33, the part that holds: if the continuations do not form a circle, the chains are built, and the loop makes at most one round more than there are continuations. -/
theorem C33_acyclic_partial {conts : List ContElem} (hn : NoCircle (continuationOf conts)) (facts footnotes : List ContElem) (taken : List String) :
    ∃ r, createChains (conts.length + 1) facts footnotes conts taken = some r := by
  obtain ⟨r, hr⟩ := followAll_ok (idx := (buildIndex conts taken).1) (canContinue facts footnotes) (conts.length + 1) [] [] (by
    rw [buildIndex_get?]
    intro e _
    cases he : e.continuedAt with
    | none => exact ⟨[], .done, by simp⟩
    | some i =>
      obtain ⟨cs, h1, h2⟩ := path_of_noCircle hn conts.length [] i (by simp) (by simp) (by simp) (by simp)
      exact ⟨cs, h1, by omega⟩)
  unfold canContinue at hr
  exact ⟨_, by unfold createChains; simp only [hr]; rfl⟩

/-- Two continuations one after the other do not form a circle, and the fact gets both of them. -/
example : let conts : List ContElem := [⟨1, "ix:continuation", some "b", none, []⟩, ⟨2, "ix:continuation", some "a", some "b", []⟩]
    NoCircle (continuationOf conts) ∧
    (createChains 3 [⟨0, "ix:nonNumeric", some "f", some "a", []⟩] [] conts []).map (fun r => (r.1.map (fun p => p.2.map (·.oid)), r.2.1)) = some ([[2, 1]], []) := by
  refine ⟨?_, by decide +kernel⟩
  intro a n h
  have h1 : ∀ i j, Continues (continuationOf [⟨1, "ix:continuation", some "b", none, []⟩, ⟨2, "ix:continuation", some "a", some "b", []⟩]) i j → i = "a" ∧ j = "b" := by
    rintro i j ⟨c, hc, hj⟩
    have := continuationOf_mem hc
    simp only [List.mem_cons, List.not_mem_nil, or_false] at this
    rcases this with ⟨rfl | rfl, h⟩ <;> simp_all
  have h2 : ∀ i k j, Visits (continuationOf [⟨1, "ix:continuation", some "b", none, []⟩, ⟨2, "ix:continuation", some "a", some "b", []⟩]) i (k + 1) j → i = "a" ∧ j = "b" := by
    intro i k
    induction k generalizing i with
    | zero => intro j h; cases h with | succ h1' h2' => cases h2'; exact h1 _ _ h1'
    | succ k ih => intro j h; cases h with | succ h1' h2' => exact ⟨(h1 _ _ h1').1, (ih _ _ h2').2⟩
  obtain ⟨rfl, h3⟩ := h2 _ _ _ h
  exact absurd h3 (by decide)

/-! ## C75: every continuation is used once -/

theorem idStep_nil : ∀ (cs : List ContElem) (errs : ErrNames) (taken : List String), (cs.foldl idStep (errs, taken)).1 = [] →
    errs = [] ∧ (∀ c ∈ cs, ∃ i, c.id = some i ∧ i ∉ taken) ∧ (cs.filterMap (·.id)).Nodup := by
  intro cs
  induction cs with
  | nil => intro errs taken h; exact ⟨h, by simp, by simp⟩
  | cons c cs ih =>
    intro errs taken h
    rw [List.foldl_cons, idStep] at h
    cases hc : c.id with
    | none =>
      rw [hc] at h
      have := (ih _ _ h).1
      simp at this
    | some i =>
      rw [hc] at h
      obtain ⟨h1, h2, h3⟩ := ih _ _ h
      simp only [List.append_eq_nil_iff] at h1
      have hi : i ∉ taken := by
        intro hi
        have := h1.2
        simp [hi] at this
      refine ⟨h1.1, ?_, ?_⟩
      · intro x hx
        rcases List.mem_cons.1 hx with rfl | hx
        · exact ⟨i, hc, hi⟩
        · obtain ⟨j, hj, hjt⟩ := h2 x hx
          exact ⟨j, hj, fun h => hjt (mem_appendNew.2 (Or.inl h))⟩
      · rw [List.filterMap_cons, hc]
        refine List.nodup_cons.2 ⟨?_, h3⟩
        intro hm
        obtain ⟨x, hx, hxi⟩ := List.mem_filterMap.1 hm
        obtain ⟨j, hj, hjt⟩ := h2 x hx
        rw [hxi] at hj
        cases hj
        exact hjt (mem_appendNew.2 (Or.inr rfl))

theorem followChain_used {idx : Dict String ContElem} : ∀ (fuel : Nat) (start : Option String) (st st' : ChainState), followChain idx fuel start st = some st' → st'.errs = [] →
    (∀ i c, idx.get? i = some c → c.id = some i) →
    st.errs = [] ∧ ∃ cs, st'.chain = st.chain ++ cs ∧ st'.used = st.used ++ cs.filterMap (·.id) ∧ (st.used.Nodup → st'.used.Nodup) ∧ ∀ c ∈ cs, ∃ i, idx.get? i = some c := by
  intro fuel
  induction fuel with
  | zero =>
    intro start st st' h he _
    cases start with
    | none => simp only [followChain, Option.some.injEq] at h; subst h; exact ⟨he, [], by simp, by simp, id, by simp⟩
    | some i => simp [followChain] at h
  | succ fuel ih =>
    intro start st st' h he hid
    cases start with
    | none => simp only [followChain, Option.some.injEq] at h; subst h; exact ⟨he, [], by simp, by simp, id, by simp⟩
    | some i =>
      simp only [followChain] at h
      cases hi : idx.get? i with
      | none =>
        rw [hi] at h
        simp only [Option.some.injEq] at h
        subst h
        simp at he
      | some c =>
        rw [hi] at h
        obtain ⟨h1, cs, h2, h3, h4, h5⟩ := ih _ _ _ h he hid
        simp only [List.append_eq_nil_iff] at h1
        have hu : i ∉ st.used := by
          intro hu
          have := h1.2
          simp [hu] at this
        have hap : appendNew st.used i = st.used ++ [i] := by simp [appendNew, hu]
        refine ⟨h1.1, c :: cs, by rw [h2]; simp, ?_, ?_, ?_⟩
        · rw [h3, hap, List.filterMap_cons, hid i c hi]; simp
        · intro hnd
          apply h4
          rw [hap]
          exact List.nodup_append.2 ⟨hnd, by simp, by intro a ha b hb; simp at hb; subst hb; exact fun h => hu (h ▸ ha)⟩
        · intro x hx
          rcases List.mem_cons.1 hx with rfl | hx
          · exact ⟨i, hi⟩
          · exact h5 x hx

theorem followAll_used {idx : Dict String ContElem} (hid : ∀ i c, idx.get? i = some c → c.id = some i) : ∀ (es : List ContElem) (fuel : Nat) (used : List String) (errs : ErrNames) {r},
    followAll idx fuel es used errs = some r → r.2.2 = [] →
    errs = [] ∧ r.2.1 = used ++ (r.1.flatMap (·.2)).filterMap (·.id) ∧ (used.Nodup → r.2.1.Nodup) ∧ ∀ c ∈ r.1.flatMap (·.2), ∃ i, idx.get? i = some c := by
  intro es
  induction es with
  | nil => intro fuel used errs r h he; simp only [followAll, Option.some.injEq] at h; subst h; exact ⟨he, by simp, id, by simp⟩
  | cons e es ih =>
    intro fuel used errs r h he
    simp only [followAll, Option.bind_eq_bind, Option.bind_eq_some_iff, Option.some.injEq] at h
    obtain ⟨st, h1, r', h2, rfl⟩ := h
    obtain ⟨e1, u1, n1, m1⟩ := ih _ _ _ h2 he
    obtain ⟨e2, cs, c2, u2, n2, m2⟩ := followChain_used _ _ _ _ h1 e1 hid
    simp only [List.nil_append] at c2
    refine ⟨e2, ?_, fun h => n1 (n2 h), ?_⟩
    · simp only [u1, u2, List.flatMap_cons, List.filterMap_append, c2, List.append_assoc]
    · intro x hx
      rw [List.flatMap_cons, List.mem_append] at hx
      rcases hx with hx | hx
      · exact m2 x (c2 ▸ hx)
      · exact m1 x hx

/-- C75: if no error is reported, each continuation of the document is in one chain, once, and no element of a chain contains another one of it. -/
theorem C75_once {fuel : Nat} {facts footnotes conts : List ContElem} {taken taken' : List String} {chains : List (ContElem × List ContElem)}
    (h : createChains fuel facts footnotes conts taken = some (chains, [], taken')) :
    (chains.flatMap (·.2)).Perm conts ∧ ∀ p ∈ chains, ∀ e ∈ p.1 :: p.2, ∀ e' ∈ p.1 :: p.2, e'.oid ∉ e.inside := by
  unfold createChains at h
  simp only at h
  split at h
  · cases h
  rename_i r hr
  simp only [Option.some.injEq, Prod.mk.injEq, List.append_eq_nil_iff] at h
  obtain ⟨rfl, ⟨⟨⟨hb, hf⟩, hn⟩, hu⟩, -⟩ := h
  have hid : ∀ i c, (buildIndex conts taken).1.get? i = some c → c.id = some i := by
    rw [buildIndex_get?]
    exact fun i c h => (continuationOf_mem h).2
  obtain ⟨-, hall, hnd⟩ := idStep_nil conts [] taken hb
  obtain ⟨-, u, n, m⟩ := followAll_used hid _ _ _ _ hr hf
  simp only [List.nil_append] at u
  have hndu := n (by simp)
  constructor
  · have hnodup : ∀ l : List ContElem, (l.filterMap (·.id)).Nodup → (∀ c ∈ l, ∃ i, c.id = some i) → l.Nodup := by
      intro l
      induction l with
      | nil => intro _ _; exact List.nodup_nil
      | cons c l ih =>
        intro h1 h2
        obtain ⟨i, hi⟩ := h2 c (by simp)
        rw [List.filterMap_cons, hi] at h1
        have h1' := List.nodup_cons.1 h1
        refine List.nodup_cons.2 ⟨fun hc => h1'.1 (List.mem_filterMap.2 ⟨c, hc, hi⟩), ih h1'.2 (fun x hx => h2 x (by simp [hx]))⟩
    have huniq : ∀ {i : String} {c d : ContElem}, c ∈ conts → d ∈ conts → c.id = some i → d.id = some i → c = d := by
      intro i c d hc hd hci hdi
      have gen : ∀ l : List ContElem, (l.filterMap (·.id)).Nodup → c ∈ l → d ∈ l → c = d := by
        intro l
        induction l with
        | nil => intro _ h; cases h
        | cons x l ih =>
          intro h1 h2 h3
          rcases List.mem_cons.1 h2 with h4 | h4 <;> rcases List.mem_cons.1 h3 with h5 | h5
          · rw [h4, h5]
          · subst h4
            rw [List.filterMap_cons, hci] at h1
            exact absurd (List.mem_filterMap.2 ⟨d, h5, hdi⟩ : i ∈ l.filterMap (·.id)) (List.nodup_cons.1 h1).1
          · subst h5
            rw [List.filterMap_cons, hdi] at h1
            exact absurd (List.mem_filterMap.2 ⟨c, h4, hci⟩ : i ∈ l.filterMap (·.id)) (List.nodup_cons.1 h1).1
          · refine ih ?_ h4 h5
            rw [List.filterMap_cons] at h1
            split at h1
            · exact h1
            · exact (List.nodup_cons.1 h1).2
      exact gen conts hnd hc hd
    have hmem : ∀ c ∈ r.1.flatMap (·.2), c ∈ conts := by
      intro c hc
      obtain ⟨i, hi⟩ := m c hc
      rw [buildIndex_get?] at hi
      exact (continuationOf_mem hi).1
    refine (List.perm_ext_iff_of_nodup (hnodup _ (u ▸ hndu) (fun c hc => ?_)) (hnodup _ hnd (fun c hc => ?_))).2 ?_
    · obtain ⟨i, hi, _⟩ := hall c (hmem c hc); exact ⟨i, hi⟩
    · obtain ⟨i, hi, _⟩ := hall c hc; exact ⟨i, hi⟩
    · intro c
      refine ⟨hmem c, fun hc => ?_⟩
      obtain ⟨i, hi, _⟩ := hall c hc
      have hget : ∃ d, (buildIndex conts taken).1.get? i = some d := by
        rw [buildIndex_get?]
        cases hd : continuationOf conts i with
        | some d => exact ⟨d, rfl⟩
        | none =>
          exfalso
          unfold continuationOf at hd
          rw [List.getLast?_eq_none_iff, List.filter_eq_nil_iff] at hd
          exact hd c hc (by simpa using hi)
      obtain ⟨d, hd⟩ := hget
      have hk : i ∈ (buildIndex conts taken).1.keys := by
        exact List.mem_map.2 ⟨_, Dict.mem_get? _ hd, rfl⟩
      have hused : i ∈ r.2.1 := by
        by_contra hno
        have : (buildIndex conts taken).1.keys.filter (fun k => decide (k ∉ r.2.1)) ≠ [] := by
          intro h0
          exact (List.filter_eq_nil_iff.1 h0) i hk (by simpa using hno)
        rw [if_neg this] at hu
        cases hu
      rw [u] at hused
      obtain ⟨x, hx, hxi⟩ := List.mem_filterMap.1 hused
      rw [huniq hc (hmem x hx) hi hxi]
      exact hx
  · intro p hp e he e' he' hin
    have : e'.oid ∈ e.inside.filter (fun o => decide (o ∈ (p.1 :: p.2).map (·.oid))) :=
      List.mem_filter.2 ⟨hin, by simpa using List.mem_map.2 ⟨e', he', rfl⟩⟩
    have hnil := List.flatMap_eq_nil_iff.1 (List.flatMap_eq_nil_iff.1 hn p hp) e he
    rw [List.map_eq_nil_iff] at hnil
    rw [hnil] at this
    cases this

end Brel
