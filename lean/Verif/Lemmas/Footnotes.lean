import Verif.Spec.Footnotes
import Verif.Lemmas.Repos
import Verif.Lemmas.Link

/-! Lemmas about the construction of footnote networks. -/

namespace Brel
open Spec

/-! ## Creating nodes -/

/-- Make a node unless there is one: the common form of `fromStep` and `toStep`. -/
def addJob (m : FootNodes) (j : String × Except PyErr (Option FootNode)) : Except PyErr FootNodes :=
  if Dict.has m j.1 = false then j.2.map (fun o => match o with | some n => Dict.set m j.1 n | none => m) else .ok m

/-- The node for an origin. -/
def fromJob (facts : FactStore) (roots : List String) (a : Rel) (i : String) : String × Except PyErr (Option FootNode) :=
  (i, if i ∈ roots then (facts.getById i).map (fun _ => some ⟨.fact i, a.arcRole, a.linkRole, 1, []⟩) else .ok none)

/-- The node for an end. -/
def toJob (footnotes : Dict String Footnote) (facts : FactStore) (a : Rel) (i : String) : String × Except PyErr (Option FootNode) :=
  (i, (toTarget footnotes facts i).map (fun t => t.map (fun t => ⟨t, a.arcRole, a.linkRole, a.order, []⟩)))

theorem fromStep_eq (facts : FactStore) (roots : List String) (a : Rel) (m : FootNodes) (i : String) : fromStep facts roots a m i = addJob m (fromJob facts roots a i) := by
  unfold fromStep addJob fromJob
  by_cases h : Dict.has m i = false <;> by_cases h' : i ∈ roots <;> simp [h, h', Except.map] <;> cases facts.getById i <;> rfl

theorem toStep_eq (footnotes : Dict String Footnote) (facts : FactStore) (a : Rel) (m : FootNodes) (i : String) : toStep footnotes facts a m i = addJob m (toJob footnotes facts a i) := by
  unfold toStep addJob toJob
  by_cases h : Dict.has m i = false
  · simp only [h, if_true]
    cases ht : toTarget footnotes facts i with
    | error e => rfl
    | ok t => cases t <;> rfl
  · simp [h]

/-- The nodes made for an arc, in order. -/
def arcJobs (footnotes : Dict String Footnote) (facts : FactStore) (roots : List String) (a : Rel) : List (String × Except PyErr (Option FootNode)) :=
  a.froms.map (fromJob facts roots a) ++ a.tos.map (toJob footnotes facts a)

theorem arcs_jobs (footnotes : Dict String Footnote) (facts : FactStore) (roots : List String) : ∀ (arcs : List Rel) (m : FootNodes),
    arcs.foldlM (arcStep footnotes facts roots) m = (arcs.flatMap (arcJobs footnotes facts roots)).foldlM addJob m := by
  intro arcs
  induction arcs with
  | nil => intro m; rfl
  | cons a arcs ih =>
    intro m
    rw [List.foldlM_cons, List.flatMap_cons, List.foldlM_append, arcStep, arcJobs, List.foldlM_append]
    simp only [bind_assoc, List.foldlM_map]
    have e1 : (fromStep facts roots a) = (fun m i => addJob m (fromJob facts roots a i)) := by funext m i; exact fromStep_eq ..
    have e2 : (toStep footnotes facts a) = (fun m i => addJob m (toJob footnotes facts a i)) := by funext m i; exact toStep_eq ..
    rw [e1, e2]
    congr 1
    funext m1
    congr 1
    funext m2
    exact ih m2

/-- The first node a list of jobs makes for an id. -/
def firstNode (js : List (String × Except PyErr (Option FootNode))) (i : String) : Option FootNode :=
  js.findSome? (fun j => if j.1 = i then j.2.toOption.join else none)

theorem jobs_ok : ∀ (js : List (String × Except PyErr (Option FootNode))) (m m' : FootNodes), js.foldlM addJob m = .ok m' →
    (∀ i, m'.get? i = (m.get? i).or (firstNode js i)) ∧ ∀ j ∈ js, m'.get? j.1 = none → j.2 = .ok none := by
  intro js
  induction js with
  | nil => intro m m' h; cases h; simp [firstNode]
  | cons j js ih =>
    intro m m' h
    rw [List.foldlM_cons] at h
    unfold addJob at h
    by_cases hh : Dict.has m j.1 = false
    · rw [if_pos hh] at h
      have hn : Dict.get? m j.1 = none := by
        rw [Dict.has_eq] at hh
        simpa using hh
      cases hj : j.2 with
      | error e => rw [hj] at h; cases h
      | ok o =>
        rw [hj] at h
        obtain ⟨h1, h2⟩ := ih _ _ h
        cases o with
        | none =>
          refine ⟨fun i => ?_, ?_⟩
          · rw [h1]
            unfold firstNode
            rw [List.findSome?_cons]
            simp only [hj, Except.toOption, Option.join]
            by_cases hi : j.1 = i <;> simp [hi]
          · intro x hx hx'
            rcases List.mem_cons.1 hx with rfl | hx
            · exact hj
            · exact h2 x hx hx'
        | some n =>
          refine ⟨fun i => ?_, ?_⟩
          · rw [h1, Dict.get?_set]
            unfold firstNode
            rw [List.findSome?_cons]
            by_cases hi : j.1 = i
            · subst hi
              simp [hj, Except.toOption, Option.join, hn]
            · simp [hi, Ne.symm hi]
          · intro x hx hx'
            rcases List.mem_cons.1 hx with rfl | hx
            · rw [h1, Dict.get?_set] at hx'
              simp at hx'
            · exact h2 x hx hx'
    · rw [if_neg hh] at h
      obtain ⟨h1, h2⟩ := ih _ _ h
      have hs : ∃ n, Dict.get? m j.1 = some n := by
        rw [Dict.has_eq] at hh
        cases hg : Dict.get? m j.1 with
        | none => rw [hg] at hh; simp at hh
        | some n => exact ⟨n, rfl⟩
      obtain ⟨n, hn⟩ := hs
      refine ⟨fun i => ?_, ?_⟩
      · rw [h1]
        unfold firstNode
        rw [List.findSome?_cons]
        by_cases hi : j.1 = i
        · subst hi; simp [hn]
        · simp [hi]
      · intro x hx hx'
        rcases List.mem_cons.1 hx with rfl | hx
        · rw [h1, hn] at hx'; simp at hx'
        · exact h2 x hx hx'

theorem jobs_succeed : ∀ (js : List (String × Except PyErr (Option FootNode))) (m : FootNodes), (∀ j ∈ js, ∃ o, j.2 = .ok o) → ∃ m', js.foldlM addJob m = .ok m' := by
  intro js
  induction js with
  | nil => intro m _; exact ⟨m, rfl⟩
  | cons j js ih =>
    intro m h
    obtain ⟨o, ho⟩ := h j (by simp)
    rw [List.foldlM_cons]
    unfold addJob
    rw [ho]
    by_cases hh : Dict.has m j.1 = false
    · rw [if_pos hh]
      exact ih _ (fun x hx => h x (by simp [hx]))
    · rw [if_neg hh]
      exact ih _ (fun x hx => h x (by simp [hx]))

theorem firstNode_some {js : List (String × Except PyErr (Option FootNode))} {i : String} {n : FootNode} (h : firstNode js i = some n) : (i, .ok (some n)) ∈ js := by
  unfold firstNode at h
  obtain ⟨j, hj, hn⟩ := List.exists_of_findSome?_eq_some h
  by_cases hi : j.1 = i
  · rw [if_pos hi] at hn
    obtain ⟨k, r⟩ := j
    cases r with
    | error e => cases hn
    | ok o =>
      cases o with
      | none => cases hn
      | some n' =>
        simp only [Except.toOption, Option.join] at hn
        cases hn
        simp only at hi
        subst hi
        exact hj
  · rw [if_neg hi] at hn; cases hn

theorem firstNode_of_mem {js : List (String × Except PyErr (Option FootNode))} {i : String} {n : FootNode} (h : (i, .ok (some n)) ∈ js) : ∃ n', firstNode js i = some n' := by
  unfold firstNode
  cases hf : js.findSome? (fun j => if j.1 = i then j.2.toOption.join else none) with
  | some n' => exact ⟨n', rfl⟩
  | none =>
    have := List.findSome?_eq_none_iff.1 hf _ h
    simp [Except.toOption, Option.join] at this

theorem mem_arcJobs {footnotes : Dict String Footnote} {facts : FactStore} {roots : List String} {arcs : List Rel} {j} :
    j ∈ arcs.flatMap (arcJobs footnotes facts roots) ↔ ∃ a ∈ arcs, (∃ i ∈ a.froms, j = fromJob facts roots a i) ∨ ∃ i ∈ a.tos, j = toJob footnotes facts a i := by
  simp only [List.mem_flatMap, arcJobs, List.mem_append, List.mem_map]
  constructor
  · rintro ⟨a, ha, ⟨i, hi, e⟩ | ⟨i, hi, e⟩⟩
    · exact ⟨a, ha, .inl ⟨i, hi, e.symm⟩⟩
    · exact ⟨a, ha, .inr ⟨i, hi, e.symm⟩⟩
  · rintro ⟨a, ha, ⟨i, hi, e⟩ | ⟨i, hi, e⟩⟩
    · exact ⟨a, ha, .inl ⟨i, hi, e.symm⟩⟩
    · exact ⟨a, ha, .inr ⟨i, hi, e.symm⟩⟩

theorem mem_rootIds {so : SetOrder} {arcs : List Rel} {i : String} : i ∈ rootIds so arcs ↔ mentioned arcs i ∧ ¬ isEnd arcs i := by
  unfold rootIds mentioned isEnd
  rw [(so.strings_perm _).mem_iff, List.mem_filter, mem_foldl_appendNew]
  simp

theorem nodup_rootIds (so : SetOrder) (arcs : List Rel) : (rootIds so arcs).Nodup := by
  unfold rootIds
  rw [(so.strings_perm _).nodup_iff]
  exact (foldl_appendNew_nodup _ _ List.nodup_nil).filter _

/-! ## Connecting nodes -/

theorem footOrderLe_congr {m m' : FootNodes} (h : ∀ i, (m'.get? i).map (·.order) = (m.get? i).map (·.order)) : footOrderLe m' = footOrderLe m := by
  funext a b
  unfold footOrderLe
  rw [h a, h b]

theorem footOrderLe_total (m : FootNodes) (a b : String) : footOrderLe m a b = true ∨ footOrderLe m b a = true := by
  unfold footOrderLe
  simp only [decide_eq_true_eq]
  exact Rat.le_total

theorem footOrderLe_trans (m : FootNodes) (a b c : String) : footOrderLe m a b = true → footOrderLe m b c = true → footOrderLe m a c = true := by
  unfold footOrderLe
  simp only [decide_eq_true_eq]
  exact Rat.le_trans

theorem connect_ok : ∀ (ps : List (String × String)) (m m' : FootNodes), ps.foldlM footAddChild m = .ok m' →
    (∀ i, (m'.get? i).map (·.order) = (m.get? i).map (·.order)) ∧
    (∀ i, m.get? i = none → m'.get? i = none) ∧
    (∀ i n, m.get? i = some n → ∃ cs, m'.get? i = some { n with children := cs } ∧ cs.Perm (n.children ++ (ps.filter (fun p => p.1 = i)).map (·.2)) ∧
      (n.children.Pairwise (fun a b => footOrderLe m a b = true) → cs.Pairwise (fun a b => footOrderLe m a b = true))) ∧
    ∀ p ∈ ps, (m.get? p.1).isSome ∧ (m.get? p.2).isSome := by
  intro ps
  induction ps with
  | nil => intro m m' h; cases h; simp; intro i n h; exact ⟨n.children, by simp [h]⟩
  | cons p ps ih =>
    intro m m' h
    rw [List.foldlM_cons] at h
    unfold footAddChild at h
    cases h1 : m.get? p.1 with
    | none => rw [h1] at h; cases h
    | some n1 =>
      cases h2 : m.get? p.2 with
      | none => rw [h1, h2] at h; cases h
      | some n2 =>
        rw [h1, h2] at h
        obtain ⟨o, nn, ss, kk⟩ := ih _ _ h
        have ho : ∀ i, (Dict.get? (Dict.set m p.1 { n1 with children := sortBy (footOrderLe m) (n1.children ++ [p.2]) }) i).map (·.order) = (m.get? i).map (·.order) := by
          intro i
          rw [Dict.get?_set]
          by_cases hi : p.1 = i
          · subst hi; simp [h1]
          · simp [hi]
        have hle := footOrderLe_congr ho
        refine ⟨fun i => by rw [o, ho], fun i hi => ?_, fun i n hi => ?_, ?_⟩
        · apply nn
          rw [Dict.get?_set]
          by_cases hp : i = p.1
          · subst hp; rw [h1] at hi; cases hi
          · simp [Ne.symm hp, hi]
        · by_cases hp : i = p.1
          · subst hp
            rw [h1] at hi
            cases hi
            obtain ⟨cs, e1, e2, e3⟩ := ss p.1 { n1 with children := sortBy (footOrderLe m) (n1.children ++ [p.2]) } (by rw [Dict.get?_set]; simp)
            rw [hle] at e3
            refine ⟨cs, e1, e2.trans ?_, fun _ => e3 (sortBy_sorted (footOrderLe_total m) (footOrderLe_trans m) _)⟩
            rw [List.filter_cons_of_pos (by simp), List.map_cons]
            have := (sortBy_perm (le := footOrderLe m) (n1.children ++ [p.2])).append_right ((ps.filter (fun q => q.1 = p.1)).map (·.2))
            simpa using this
          · obtain ⟨cs, e1, e2, e3⟩ := ss i n (by rw [Dict.get?_set]; simp [Ne.symm hp, hi])
            rw [hle] at e3
            refine ⟨cs, e1, ?_, e3⟩
            rw [List.filter_cons_of_neg (by simpa using fun h => hp h.symm)]
            exact e2
        · intro q hq
          rcases List.mem_cons.1 hq with rfl | hq
          · simp [h1, h2]
          · obtain ⟨k1, k2⟩ := kk q hq
            rw [Dict.get?_set] at k1 k2
            constructor
            · by_cases hq' : q.1 = p.1
              · rw [hq', h1]; rfl
              · simpa [Ne.symm hq'] using k1
            · by_cases hq' : q.2 = p.1
              · rw [hq', h1]; rfl
              · simpa [Ne.symm hq'] using k2

theorem connect_succeeds : ∀ (ps : List (String × String)) (m : FootNodes), (∀ p ∈ ps, (m.get? p.1).isSome ∧ (m.get? p.2).isSome) → ∃ m', ps.foldlM footAddChild m = .ok m' := by
  intro ps
  induction ps with
  | nil => intro m _; exact ⟨m, rfl⟩
  | cons p ps ih =>
    intro m h
    obtain ⟨h1, h2⟩ := h p (by simp)
    obtain ⟨n1, h1⟩ := Option.isSome_iff_exists.1 h1
    obtain ⟨n2, h2⟩ := Option.isSome_iff_exists.1 h2
    rw [List.foldlM_cons]
    unfold footAddChild
    rw [h1, h2]
    apply ih
    intro q hq
    obtain ⟨k1, k2⟩ := h q (by simp [hq])
    rw [Dict.get?_set, Dict.get?_set]
    constructor
    · split
      · rfl
      · exact k1
    · split
      · rfl
      · exact k2

theorem mem_relPairs {a : Rel} {p : String × String} : p ∈ relPairs a ↔ p.1 ∈ a.froms ∧ p.2 ∈ a.tos := by
  unfold relPairs
  simp only [List.mem_flatMap, List.mem_map]
  constructor
  · rintro ⟨f, hf, t, ht, rfl⟩; exact ⟨hf, ht⟩
  · rintro ⟨h1, h2⟩; exact ⟨p.1, h1, p.2, h2, rfl⟩

theorem relPairs_filter {a : Rel} (h : a.froms.Nodup) (i : String) : ((relPairs a).filter (fun p => p.1 = i)).map (·.2) = if i ∈ a.froms then a.tos else [] := by
  unfold relPairs
  have key : ∀ fs : List String, fs.Nodup → ((fs.flatMap (fun f => a.tos.map (fun t => (f, t)))).filter (fun p => p.1 = i)).map (·.2) = if i ∈ fs then a.tos else [] := by
    intro fs
    induction fs with
    | nil => simp
    | cons f fs ih =>
      intro hnd
      have hnd' := List.nodup_cons.1 hnd
      rw [List.flatMap_cons, List.filter_append, List.map_append, ih hnd'.2]
      by_cases hf : f = i
      · subst hf
        have e : (a.tos.map (fun t => (f, t))).filter (fun p => p.1 = f) = a.tos.map (fun t => (f, t)) := List.filter_eq_self.2 (by simp)
        rw [e, if_neg hnd'.1, if_pos (by simp)]
        simp [Function.comp_def]
      · have e : (a.tos.map (fun t => (f, t))).filter (fun p => p.1 = i) = [] := List.filter_eq_nil_iff.2 (by simp [hf])
        rw [e]
        simp [Ne.symm hf]
  exact key _ h

theorem pairs_filter {arcs : List Rel} (h : ∀ a ∈ arcs, a.froms.Nodup) (i : String) : ((arcs.flatMap relPairs).filter (fun p => p.1 = i)).map (·.2) = leadsTo arcs i := by
  induction arcs with
  | nil => rfl
  | cons a arcs ih =>
    rw [List.flatMap_cons, List.filter_append, List.map_append, relPairs_filter (h a (by simp)), ih (fun x hx => h x (by simp [hx]))]
    rfl

end Brel
