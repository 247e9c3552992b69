import Verif.Spec.Sharing
import Mathlib.Data.List.Induction
import Mathlib.Tactic.Set
import Mathlib.Tactic.ByContra

/-! C125: what happens to a filing when a user changes the lists that queries returned. -/

namespace Brel
open Spec

variable {Obj : Type}

theorem handsOut_iff (ob : Objects Obj) (c : ListCall Obj) (l : Slot Obj) : c.handsOut ob = some l ↔ KeptBy ob c l := by
  constructor
  · intro h
    cases c <;> simp only [ListCall.handsOut, Option.some.injEq, reduceCtorEq] at h
    case childrenOf n =>
      cases hc : ob.calculationNode n <;> simp [hc] at h
      subst h; exact .children n hc
    all_goals subst h
    all_goals constructor
  · intro h
    cases h <;> simp_all [ListCall.handsOut]

/-- The cell of the list that the call `c` returned as the user's `i`-th list is that of the slot, or a new one. -/
structure SharingInv (ob : Objects Obj) (s0 s : Session Obj) (calls : List (ListCall Obj)) : Prop where
  cell : s.cell = s0.cell
  facts : s.facts = s0.facts
  elements : s.elements = s0.elements
  nets : s.physicalAndOther = s0.physicalAndOther
  length : s.got.length = calls.length
  kept : ∀ (i : Nat) c l, calls[i]? = some c → KeptBy ob c l → s.got[i]? = some (Place.opening (s.cell l))
  fresh : ∀ (i : Nat) c, calls[i]? = some c → (∀ l, ¬ KeptBy ob c l) → ∃ n, s.got[i]? = some (Place.later n) ∧ n < s.next ∧ ∀ j, s.got[j]? = some (.later n) → j = i
  bound : ∀ (j : Nat) n, s.got[j]? = some (.later n) → n < s.next

theorem callsOf_append (h h' : List (UserStep Obj)) : callsOf (h ++ h') = callsOf h ++ callsOf h' := by
  induction h with
  | nil => rfl
  | cons x h ih => cases x <;> simp [callsOf, ih]

theorem SharingInv.start (ob : Objects Obj) {s : Session Obj} (hs : Fresh s) : SharingInv ob s s [] where
  cell := rfl
  facts := rfl
  elements := rfl
  nets := rfl
  length := by rw [hs.got]; rfl
  kept := by intro i c l h; cases h
  fresh := by intro i c h; cases h
  bound := by rw [hs.got]; intro j n h; cases h

theorem getElem?_append_one {α : Type} (l : List α) (x : α) (i : Nat) (y : α) : (l ++ [x])[i]? = some y ↔ l[i]? = some y ∨ (i = l.length ∧ x = y) := by
  rw [List.getElem?_append]
  split
  · rename_i h; constructor
    · exact Or.inl
    · rintro (h' | ⟨rfl, _⟩)
      · exact h'
      · omega
  · rename_i h
    rw [List.getElem?_eq_none (l := l) (by omega)]
    constructor
    · intro h'
      have : i - l.length = 0 := by
        by_contra hne
        rw [List.getElem?_eq_none (by simp; omega)] at h'; cases h'
      rw [this] at h'
      right; exact ⟨by omega, by simpa using h'⟩
    · rintro (h' | ⟨rfl, rfl⟩)
      · cases h'
      · simp

theorem SharingInv.step {ob : Objects Obj} {s0 s : Session Obj} {calls : List (ListCall Obj)} (I : SharingInv ob s0 s calls) (x : UserStep Obj) :
    SharingInv ob s0 (s.step ob x) (calls ++ callsOf [x]) := by
  cases x with
  | change i l =>
    simp only [callsOf, List.append_nil, Session.step]
    cases h : s.got[i]? with
    | none => exact I
    | some c => exact ⟨I.cell, I.facts, I.elements, I.nets, I.length, I.kept, I.fresh, I.bound⟩
  | call c =>
    simp only [callsOf, Session.step]
    cases h : c.handsOut ob with
    | some l =>
      refine ⟨I.cell, I.facts, I.elements, I.nets, by simp [I.length], ?_, ?_, ?_⟩
      · intro i c' l' hc' hk
        simp only [getElem?_append_one, I.length] at hc' ⊢
        rcases hc' with hc' | ⟨rfl, rfl⟩
        · exact .inl (I.kept i c' l' hc' hk)
        · rw [(handsOut_iff ob _ _).mpr hk] at h; cases h; exact .inr ⟨rfl, rfl⟩
      · intro i c' hc' hk
        simp only [getElem?_append_one, I.length] at hc' ⊢
        rcases hc' with hc' | ⟨rfl, rfl⟩
        · obtain ⟨n, h1, h2, h3⟩ := I.fresh i c' hc' hk
          refine ⟨n, .inl h1, h2, ?_⟩
          rintro j (hj | ⟨_, hj⟩)
          · exact h3 j hj
          · cases hj
        · exact absurd ((handsOut_iff ob _ _).mp h) (hk l)
      · intro j n hj
        simp only [getElem?_append_one] at hj
        rcases hj with hj | ⟨_, hj⟩
        · exact I.bound j n hj
        · cases hj
    | none =>
      refine ⟨I.cell, I.facts, I.elements, I.nets, by simp [I.length], ?_, ?_, ?_⟩
      · intro i c' l' hc' hk
        simp only [getElem?_append_one, I.length] at hc' ⊢
        rcases hc' with hc' | ⟨rfl, rfl⟩
        · exact .inl (I.kept i c' l' hc' hk)
        · rw [(handsOut_iff ob _ _).mpr hk] at h; cases h
      · intro i c' hc' hk
        simp only [getElem?_append_one, I.length] at hc' ⊢
        rcases hc' with hc' | ⟨rfl, rfl⟩
        · obtain ⟨n, h1, h2, h3⟩ := I.fresh i c' hc' hk
          refine ⟨n, .inl h1, Nat.lt_succ_of_lt h2, ?_⟩
          rintro j (hj | ⟨_, hj⟩)
          · exact h3 j hj
          · cases hj; omega
        · refine ⟨s.next, .inr ⟨rfl, rfl⟩, Nat.lt_succ_self _, ?_⟩
          rintro j (hj | ⟨hj, _⟩)
          · exact absurd (I.bound j _ hj) (Nat.lt_irrefl _)
          · exact hj
      · intro j n hj
        simp only [getElem?_append_one] at hj
        rcases hj with hj | ⟨_, hj⟩
        · exact Nat.lt_succ_of_lt (I.bound j n hj)
        · cases hj; exact Nat.lt_succ_self _

theorem run_append (ob : Objects Obj) (s : Session Obj) (h h' : List (UserStep Obj)) : s.run ob (h ++ h') = (s.run ob h).run ob h' := List.foldl_append ..

theorem SharingInv.run {ob : Objects Obj} {s : Session Obj} (hs : Fresh s) (h : List (UserStep Obj)) : SharingInv ob s (s.run ob h) (callsOf h) := by
  induction h using List.reverseRecOn with
  | nil => exact .start ob hs
  | append_singleton h x ih =>
    rw [run_append, callsOf_append]
    exact ih.step x

/-- One step changes the content of a list of the filing exactly if it changes a list that was handed out for it. -/
theorem content_step {ob : Objects Obj} {s0 : Session Obj} (hs : Fresh s0) (h : List (UserStep Obj)) (x : UserStep Obj) (l : Slot Obj) :
    (∀ i y, x = .change i y → Writes ob h i l → (s0.run ob (h ++ [x])).content l = y) ∧
    ((∀ i y, x = .change i y → ¬ Writes ob h i l) → (s0.run ob (h ++ [x])).content l = (s0.run ob h).content l) := by
  have I := SharingInv.run (ob := ob) hs h
  rw [run_append]
  set s := s0.run ob h with hsdef
  have key : s.run ob [x] = s.step ob x := rfl
  rw [key]
  constructor
  · rintro i y rfl ⟨c, hc, hk⟩
    simp only [Session.step, I.kept i c l hc hk]
    simp [Session.content, setCell]
  · intro hno
    cases x with
    | call c =>
      simp only [Session.step]
      cases h : c.handsOut ob with
      | some l' => rfl
      | none => simp [Session.content, setCell]
    | change i y =>
      simp only [Session.step]
      cases hg : s.got[i]? with
      | none => rfl
      | some cell =>
        have hne : cell ≠ .opening (s.cell l) := by
          rintro rfl
          have hi : i < (callsOf h).length := by
            rw [← I.length]; exact (List.getElem?_eq_some_iff.mp hg).1
          have hc : (callsOf h)[i]? = some (callsOf h)[i] := List.getElem?_eq_getElem hi
          by_cases hk : ∃ l', KeptBy ob (callsOf h)[i] l'
          · obtain ⟨l', hk⟩ := hk
            have := I.kept i _ l' hc hk
            rw [hg] at this
            simp only [Option.some.injEq, Place.opening.injEq] at this
            rw [I.cell] at this
            have := hs.distinct _ _ this
            subst this
            exact hno i y rfl ⟨_, hc, hk⟩
          · obtain ⟨n, h1, _⟩ := I.fresh i _ hc (fun l' hl' => hk ⟨l', hl'⟩)
            rw [hg] at h1; cases h1
        simp only [Session.content, setCell]
        rw [if_neg (fun h => hne h.symm)]

/-- C125. After any history, a list of the filing has the content that the last change through a handed-out list gave it. -/
theorem C125_last_change (ob : Objects Obj) {s : Session Obj} (hs : Fresh s) (h1 h2 : List (UserStep Obj)) (i : Nat) (y : List Obj) (l : Slot Obj)
    (hw : Writes ob h1 i l) (hno : LeavesAlone ob (h1 ++ [.change i y]) h2 l) :
    (s.run ob (h1 ++ .change i y :: h2)).content l = y := by
  induction h2 using List.reverseRecOn with
  | nil => exact (content_step hs h1 _ l).1 i y rfl hw
  | append_singleton h2 x ih =>
    have ih := ih (fun a j z b e => hno a j z (b ++ [x]) (by simp [e]))
    have := (content_step (ob := ob) hs (h1 ++ .change i y :: h2) x l).2 (by
      rintro j z rfl
      have := hno h2 j z [] rfl
      simpa using this)
    simp only [List.append_assoc, List.cons_append] at this
    rw [this]; exact ih

/-- C125. A list of the filing that no step changes through a handed-out list keeps its content, whatever else the user does. -/
theorem C125_untouched (ob : Objects Obj) {s : Session Obj} (hs : Fresh s) (h : List (UserStep Obj)) (l : Slot Obj) (hno : LeavesAlone ob [] h l) :
    (s.run ob h).content l = s.content l := by
  induction h using List.reverseRecOn with
  | nil => rfl
  | append_singleton h x ih =>
    have ih := ih (fun a j z b e => hno a j z (b ++ [x]) (by simp [e]))
    rw [← ih]
    refine (content_step (ob := ob) hs h x l).2 ?_
    rintro j z rfl
    have := hno h j z [] rfl
    simpa using this

/-- The steps of a history change only lists that were made for the user. -/
def OnlyOwnLists (ob : Objects Obj) (h : List (UserStep Obj)) : Prop :=
  ∀ h1 i y h2, h = h1 ++ .change i y :: h2 → ∀ c, (callsOf h1)[i]? = some c → ∀ l, ¬ KeptBy ob c l

/-- C125. Users who change only lists that were made for them change no answer of the API. -/
theorem C125_own_lists_partial (ob : Objects Obj) {s : Session Obj} (hs : Fresh s) (h : List (UserStep Obj)) (hown : OnlyOwnLists ob h) :
    (∀ c : ListCall Obj, c.value ob (s.run ob h) = c.value ob s) ∧
    (s.run ob h).hasAnyErrors ob = s.hasAnyErrors ob ∧
    (∀ uri, (s.run ob h).getComponent ob uri = s.getComponent ob uri) ∧
    (s.run ob h).getAllComponentUris ob = s.getAllComponentUris ob ∧
    (∀ f, (s.run ob h).factNow ob f = s.factNow ob f) ∧
    (∀ e, (s.run ob h).elementNow ob e = s.elementNow ob e) ∧
    (∀ n, (s.run ob h).getRoot n = s.getRoot n) ∧ (∀ n, (s.run ob h).isLeaf n = s.isLeaf n) ∧ (∀ u, (s.run ob h).unitIsSimple u = s.unitIsSimple u) := by
  have I := SharingInv.run (ob := ob) hs h
  have hc : ∀ l, (s.run ob h).content l = s.content l := by
    intro l
    refine C125_untouched ob hs h l ?_
    rintro h1 i x h2 rfl ⟨c, hcall, hk⟩
    exact hown h1 i x h2 rfl c (by simpa using hcall) l hk
  have hf : ∀ f, (s.run ob h).factNow ob f = s.factNow ob f := by intro f; simp [Session.factNow, hc]
  refine ⟨?_, ?_, ?_, ?_, hf, ?_, ?_, ?_, ?_⟩
  · intro c
    cases c <;> simp [ListCall.value, hc, hf, I.facts, I.elements, I.nets]
  · simp [Session.hasAnyErrors, hc]
  · intro uri; simp [Session.getComponent, Session.filingNow, hc]
  · simp [Session.getAllComponentUris, Session.filingNow, hc]
  · intro e; simp [Session.elementNow, hc]
  · intro n; simp [Session.getRoot, hc]
  · intro n; simp [Session.isLeaf, hc]
  · intro u; simp [Session.unitIsSimple, hc]

/-- C125. A list that was made for the user is the user's alone: it keeps the content it was made with, or got last, whatever other lists are
got or changed. -/
theorem C125_private (ob : Objects Obj) {s : Session Obj} (hs : Fresh s) (h1 h2 : List (UserStep Obj)) (c : ListCall Obj) (hk : ∀ l, ¬ KeptBy ob c l)
    (hno : ∀ y, UserStep.change (callsOf h1).length y ∉ h2) :
    (s.run ob (h1 ++ .call c :: h2)).userList (callsOf h1).length = some (c.value ob (s.run ob h1)) := by
  induction h2 using List.reverseRecOn with
  | nil =>
    have I := SharingInv.run (ob := ob) hs h1
    have : c.handsOut ob = none := by
      cases h : c.handsOut ob with
      | none => rfl
      | some l => exact absurd ((handsOut_iff ob c l).mp h) (hk l)
    rw [run_append]
    show ((s.run ob h1).step ob (.call c)).userList _ = _
    simp only [Session.step, this, Session.userList, ← I.length]
    simp [setCell]
  | append_singleton h2 x ih =>
    have ih := ih (fun y hy => hno y (by simp [hy]))
    have I := SharingInv.run (ob := ob) hs (h1 ++ .call c :: h2)
    set k := (callsOf h1).length with hkdef
    have hck : (callsOf (h1 ++ .call c :: h2))[k]? = some c := by
      rw [callsOf_append, show callsOf (.call c :: h2) = c :: callsOf h2 from rfl]; simp [hkdef]
    obtain ⟨n, hn, hlt, huniq⟩ := I.fresh k c hck hk
    rw [show h1 ++ UserStep.call c :: (h2 ++ [x]) = (h1 ++ .call c :: h2) ++ [x] by simp, run_append]
    set s' := s.run ob (h1 ++ .call c :: h2)
    show (s'.step ob x).userList k = _
    rw [← ih]
    cases x with
    | call c' =>
      simp only [Session.step]
      have hk' : ∀ z : Place, (s'.got ++ [z])[k]? = s'.got[k]? := by
        intro z; rw [hn]; exact (getElem?_append_one _ _ _ _).mpr (.inl hn)
      cases hh : c'.handsOut ob with
      | some l => simp only [Session.userList]; rw [hk']
      | none =>
        simp only [Session.userList]; rw [hk', hn]
        simp only [Option.map_some, Option.some.injEq]
        show setCell s'.heap (Place.later s'.next) _ (.later n) = _
        unfold setCell; rw [if_neg (by intro e; cases e; omega)]
    | change j y =>
      have hj : j ≠ k := by rintro rfl; exact hno y (by simp)
      simp only [Session.step]
      cases hg : s'.got[j]? with
      | none => rfl
      | some cell =>
        simp only [Session.userList]; rw [hn]
        simp only [Option.map_some, Option.some.injEq]
        unfold setCell; rw [if_neg]
        rintro rfl
        exact hj (huniq j hg)

/-- C125. At any moment the lists contain what the queries say of the present state. -/
theorem C125_values (ob : Objects Obj) (s : Session Obj) :
    (∀ v, ((ListCall.errorsBySeverity v).value ob s).map ob.error = errorsBySeverity ((ListCall.allErrors.value ob s).map ob.error) v) ∧
    (∀ a, ((ListCall.errorsByArea a).value ob s).map ob.error = errorsByArea ((ListCall.allErrors.value ob s).map ob.error) a) ∧
    (ListCall.allCoreFacts.value ob s).map (s.factNow ob) = ((ListCall.allFacts.value ob s).map (s.factNow ob)).filter Fact.isCore ∧
    (∀ q f, f ∈ (ListCall.factsWithConcept q).value ob s ↔ f ∈ ListCall.allFacts.value ob s ∧ ∃ c, (s.factNow ob f).getConcept = .ok c ∧ c.name = q) ∧
    (∀ k, ((ListCall.allOfKind k).value ob s).map (s.elementNow ob) = ((ListCall.allReportElements.value ob s).map (s.elementNow ob)).filter (fun e => e.kind = k)) ∧
    (∀ n, n ∈ ListCall.allPhysicalNetworks.value ob s ↔ n ∈ s.physicalAndOther ∧ ob.physical n = true) ∧
    s.getAllComponentUris ob = (ListCall.allComponents.value ob s).map (fun c => (ob.component c).uri) := by
  refine ⟨?_, ?_, ?_, ?_, ?_, ?_, ?_⟩
  · intro v; simp [ListCall.value, errorsBySeverity, List.filter_map, Function.comp_def]
  · intro v; simp [ListCall.value, errorsByArea, List.filter_map, Function.comp_def]
  · simp [ListCall.value, List.filter_map, Function.comp_def]
  · intro q f
    simp only [ListCall.value, List.mem_filter]
    refine and_congr_right (fun _ => ?_)
    cases h : (s.factNow ob f).getConcept with
    | ok c => simp
    | error e => simp
  · intro k; simp [ListCall.value, List.filter_map, Function.comp_def, Session.elementNow]; rfl
  · intro n; simp [ListCall.value, List.mem_filter]
  · simp [Session.getAllComponentUris, Session.filingNow, FilingData.getAllComponentUris, ListCall.value]

/-- C125 fails for components: a user who empties the list of components takes all of them away from the filing. -/
theorem C125_components_false (ob : Objects Obj) {s : Session Obj} (hs : Fresh s) {uri : String} {k : Component} (_hk : s.getComponent ob uri = .ok k) :
    let s' := s.run ob [.call .allComponents, .change 0 []]
    s'.getComponent ob uri = .error .valueError ∧ s'.getAllComponentUris ob = [] := by
  have : (s.run ob [.call .allComponents, .change 0 []]).content .components = [] :=
    C125_last_change ob hs [.call .allComponents] [] 0 [] .components ⟨.allComponents, rfl, .components⟩
      (by rintro h1 i x h2 e; simp at e)
  constructor
  · simp [Session.getComponent, Session.filingNow, this, FilingData.getComponent, firstMatch]
  · simp [Session.getAllComponentUris, Session.filingNow, this, FilingData.getAllComponentUris]

/-- C125 fails for errors: a user who empties the list of errors makes the filing one without errors. -/
theorem C125_errors_false (ob : Objects Obj) {s : Session Obj} (hs : Fresh s) (_he : s.hasAnyErrors ob = true) :
    let s' := s.run ob [.call .allErrors, .change 0 []]
    s'.hasAnyErrors ob = false ∧ ∀ v, (ListCall.errorsBySeverity v).value ob s' = [] := by
  have : (s.run ob [.call .allErrors, .change 0 []]).content .errors = [] :=
    C125_last_change ob hs [.call .allErrors] [] 0 [] .errors ⟨.allErrors, rfl, .errors⟩ (by rintro h1 i x h2 e; simp at e)
  constructor
  · simp [Session.hasAnyErrors, this, hasAnyErrors]
  · intro v; simp [ListCall.value, this]

/-- C125 fails for aspects: a fact with dimensions becomes a core fact when the list of its aspects is emptied, although it keeps its
characteristics. -/
theorem C125_aspects_false (ob : Objects Obj) {s : Session Obj} (hs : Fresh s) (f : Obj) (hf : f ∈ s.facts) (_hd : (s.factNow ob f).isCore = false) :
    let s' := s.run ob [.call (.aspectsOf f), .change 0 []]
    f ∈ ListCall.allCoreFacts.value ob s' ∧ ∀ a, (s'.factNow ob f).context.hasCharacteristic a = false ∧
      (s'.factNow ob f).context.getCharacteristic a = (s.factNow ob f).context.getCharacteristic a := by
  have h0 : (s.run ob [.call (.aspectsOf f), .change 0 []]).content (.aspects f) = [] :=
    C125_last_change ob hs [.call (.aspectsOf f)] [] 0 [] (.aspects f) ⟨.aspectsOf f, rfl, .aspects f⟩ (by rintro h1 i x h2 e; simp at e)
  have I := SharingInv.run (ob := ob) hs [.call (.aspectsOf f), .change 0 []]
  refine ⟨?_, fun a => ⟨?_, ?_⟩⟩
  · simp only [ListCall.value, I.facts, List.mem_filter]
    exact ⟨hf, by simp [Session.factNow, h0, Fact.isCore, Context.hasNoncoreDimensions]⟩
  · simp [Session.factNow, h0, Context.hasCharacteristic]
  · simp [Session.factNow, Context.getCharacteristic]

/-- C125 fails for units: a simple unit is no longer simple, for all facts that have it, when the numerators got from one of them are emptied. -/
theorem C125_units_false (ob : Objects Obj) {s : Session Obj} (hs : Fresh s) (u : Obj) (_hu : s.unitIsSimple u = true) :
    (s.run ob [.call (.numeratorsOf u), .change 0 []]).unitIsSimple u = false := by
  have h0 : (s.run ob [.call (.numeratorsOf u), .change 0 []]).content (.numerators u) = [] :=
    C125_last_change ob hs [.call (.numeratorsOf u)] [] 0 [] (.numerators u) ⟨.numeratorsOf u, rfl, .numerators u⟩ (by rintro h1 i x h2 e; simp at e)
  simp [Session.unitIsSimple, h0]

/-- C125 depends on the kind of network: emptying the children of a node makes it a leaf, unless it is a node of a calculation network. -/
theorem C125_children_false (ob : Objects Obj) {s : Session Obj} (hs : Fresh s) (n : Obj) :
    (s.run ob [.call (.childrenOf n), .change 0 []]).isLeaf n = (if ob.calculationNode n then s.isLeaf n else true) := by
  cases hn : ob.calculationNode n with
  | false =>
    have h0 : (s.run ob [.call (.childrenOf n), .change 0 []]).content (.children n) = [] :=
      C125_last_change ob hs [.call (.childrenOf n)] [] 0 [] (.children n) ⟨.childrenOf n, rfl, .children n hn⟩ (by rintro h1 i x h2 e; simp at e)
    simp [Session.isLeaf, h0]
  | true =>
    have := C125_own_lists_partial ob hs [.call (.childrenOf n), .change 0 []] (by
      rintro h1 i y h2 e c hc l hk
      match h1 with
      | [] => simp at e
      | [x] =>
        simp only [List.cons_append, List.nil_append, List.cons.injEq, UserStep.change.injEq] at e
        obtain ⟨rfl, ⟨rfl, rfl⟩, _⟩ := e
        simp only [callsOf, List.getElem?_cons_zero, Option.some.injEq] at hc
        subst hc
        cases hk with
        | children _ h => rw [hn] at h; cases h
      | x :: y :: t => simp at e)
    simpa using this.2.2.2.2.2.2.2.1 n

/-! ### An example -/

/-- Objects 0-9 by number: 0 a component, 1 an error, 2 and 3 facts, 4 an aspect of a dimension, 5 and 6 nodes, 7 a unit, 8 a network. -/
def exObjects : Objects Nat where
  component k := { uid := k, uri := "http://x/role", info := "" }
  error _ := { severity := .error, area := .xmlInstance, number := "1", message := [], xbrlCode := none }
  aspect _ := { name := "p:Dim", core := false }
  fact _ := { id := some "f", context := .new "c", value := "1" }
  element _ := { kind := .concept, name := ⟨"http://x", "p", "A"⟩ }
  label _ := { text := "", label := "", language := "en" }
  unit _ := "u"
  measure _ := ⟨"http://x", "p", "USD"⟩
  networks _ := [8]
  physical _ := true
  calculationNode k := k = 6

/-- Cells of the example: the kind of list and the object, paired. -/
def exCell : Slot Nat → Nat
  | .components => 0
  | .errors => 1
  | .aspects k => 6 * k + 2
  | .roots k => 6 * k + 3
  | .children k => 6 * k + 4
  | .labels k => 6 * k + 5
  | .numerators k => 6 * k + 6
  | .denominators k => 6 * k + 7

def exSession : Session Nat where
  facts := [2, 3]
  elements := [9]
  physicalAndOther := [8]
  cell := exCell
  heap
    | .opening 0 => [0]
    | .opening 1 => [1]
    | .opening 14 => [4]
    | .opening 51 => [5]
    | .opening 34 => [6]
    | .opening 40 => [5]
    | .opening 48 => [9]
    | _ => []

example : Fresh exSession := ⟨rfl, by intro l l' h; cases l <;> cases l' <;> simp [exSession, exCell] at h ⊢ <;> omega⟩

/-- The hypotheses of the theorems hold in the example. -/
example : exSession.hasAnyErrors exObjects = true ∧ (exSession.getComponent exObjects "http://x/role").isOk = true ∧
    (exSession.factNow exObjects 2).isCore = false ∧ (exSession.factNow exObjects 3).isCore = true ∧ exSession.unitIsSimple 7 = true ∧
    exSession.isLeaf 5 = false ∧ exSession.isLeaf 6 = false := by decide

/-- A user sorts, empties and extends lists made for them, and asks again. -/
example : OnlyOwnLists exObjects [.call .allFacts, .change 0 [], .call (.childrenOf 6), .call .allErrors, .change 1 [7, 7], .call .allFacts] := by
  rintro h1 i y h2 e c hc l hk
  match h1 with
  | [] => simp at e
  | [_] =>
    simp only [List.cons_append, List.nil_append, List.cons.injEq, UserStep.change.injEq] at e
    obtain ⟨rfl, ⟨rfl, rfl⟩, _⟩ := e
    simp [callsOf] at hc; subst hc; cases hk
  | [_, _] => simp at e
  | [_, _, _] => simp at e
  | [_, _, _, _] =>
    simp only [List.cons_append, List.nil_append, List.cons.injEq, UserStep.change.injEq] at e
    obtain ⟨rfl, rfl, rfl, rfl, ⟨rfl, rfl⟩, _⟩ := e
    simp [callsOf] at hc; subst hc
    cases hk with
    | children _ h => simp [exObjects] at h
  | [_, _, _, _, _] => simp at e
  | _ :: _ :: _ :: _ :: _ :: _ :: _ => simp at e

end Brel
