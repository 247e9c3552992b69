import Verif.Spec.Errors
import Verif.Model.ErrorTable
import Verif.Lemmas.Py

/-! C46: errors. -/

namespace Brel
open Spec

/-! ## Messages -/

theorem pyFormat_char (args : List (String × Option String)) (c : Char) (t : List Char) (h1 : c ≠ '{') (h2 : c ≠ '}') :
    pyFormat args none (c :: t) = (pyFormat args none t).map (c :: ·) := by
  rw [pyFormat.eq_def]
  split <;> simp_all

theorem pyFormat_open (args : List (String × Option String)) (d : Char) (t : List Char) (h : d ≠ '{') :
    pyFormat args none ('{' :: d :: t) = pyFormat args (some []) (d :: t) := by
  rw [pyFormat]
  intro t' hh
  cases hh
  exact h rfl

theorem pyFormat_field (args : List (String × Option String)) (n : List Char) : ∀ (acc t : List Char), (∀ c ∈ n, c ≠ '{' ∧ c ≠ '}') →
    pyFormat args (some acc) (n ++ '}' :: t) = match args.lookup (String.ofList (acc ++ n)) with
      | none => .error .keyError
      | some v => (pyFormat args none t).map (argText v ++ ·) := by
  induction n with
  | nil => intro acc t _; rw [List.nil_append, pyFormat, List.append_nil]; cases args.lookup (String.ofList acc) <;> rfl
  | cons c n ih =>
    intro acc t h
    have hc := h c (by simp)
    have : pyFormat args (some acc) (c :: (n ++ '}' :: t)) = pyFormat args (some (acc ++ [c])) (n ++ '}' :: t) := by
      rw [pyFormat.eq_def]
      split <;> simp_all
    rw [List.cons_append, this, ih _ _ (fun d hd => h d (by simp [hd]))]
    simp

/-- A template that reads as pieces. -/
theorem pyFormat_pieces (args : List (String × Option String)) (ps : List Piece) (hp : ∀ p ∈ ps, p.Plain) :
    pyFormat args none (ps.flatMap Piece.written) = match fillAll args ps with
      | some m => .ok m
      | none => .error .keyError := by
  induction ps with
  | nil => rfl
  | cons p ps ih =>
    have ih := ih (fun q hq => hp q (by simp [hq]))
    have hpl := hp p (by simp)
    rw [List.flatMap_cons]
    cases p with
    | char c =>
      rw [show Piece.written (.char c) ++ ps.flatMap Piece.written = c :: ps.flatMap Piece.written from rfl, pyFormat_char _ _ _ hpl.1 hpl.2, ih]
      simp only [fillAll, Piece.filled, Option.bind_some]
      cases fillAll args ps <;> rfl
    | openBrace =>
      rw [show Piece.written .openBrace ++ ps.flatMap Piece.written = '{' :: '{' :: ps.flatMap Piece.written from rfl, pyFormat, ih]
      simp only [fillAll, Piece.filled, Option.bind_some]
      cases fillAll args ps <;> rfl
    | closeBrace =>
      rw [show Piece.written .closeBrace ++ ps.flatMap Piece.written = '}' :: '}' :: ps.flatMap Piece.written from rfl, pyFormat, ih]
      simp only [fillAll, Piece.filled, Option.bind_some]
      cases fillAll args ps <;> rfl
    | field n =>
      have e1 : Piece.written (.field n) ++ ps.flatMap Piece.written = '{' :: (n ++ '}' :: ps.flatMap Piece.written) := by simp [Piece.written]
      have e2 : pyFormat args none ('{' :: (n ++ '}' :: ps.flatMap Piece.written)) = pyFormat args (some []) (n ++ '}' :: ps.flatMap Piece.written) := by
        cases n with
        | nil => rw [pyFormat.eq_def]; rfl
        | cons c n =>
          have := (hpl c (by simp)).1
          exact pyFormat_open _ _ _ this
      rw [e1, e2, pyFormat_field args n [] _ hpl, List.nil_append, ih]
      simp only [fillAll, Piece.filled]
      cases args.lookup (String.ofList n) with
      | none => rfl
      | some v =>
        cases v <;> cases fillAll args ps <;> rfl

theorem map_ok {ε α β : Type} {m : Except ε α} {f : α → β} {b : β} (h : m.map f = .ok b) : ∃ a, m = .ok a := by
  cases m with
  | error e => cases h
  | ok a => exact ⟨a, rfl⟩

theorem read_field (args : List (String × Option String)) (t : List Char) : ∀ (acc m : List Char), pyFormat args (some acc) t = .ok m →
    ∃ n t' m', t = n ++ '}' :: t' ∧ (∀ c ∈ n, c ≠ '{' ∧ c ≠ '}') ∧ pyFormat args none t' = .ok m' := by
  induction t with
  | nil => intro acc m h; cases h
  | cons c t ih =>
    intro acc m h
    by_cases h1 : c = '{'
    · subst h1; cases h
    · by_cases h2 : c = '}'
      · subst h2
        rw [pyFormat] at h
        split at h
        · cases h
        · obtain ⟨m', hm⟩ := map_ok h
          exact ⟨[], t, m', rfl, by simp, hm⟩
      · have : pyFormat args (some acc) (c :: t) = pyFormat args (some (acc ++ [c])) t := by
          rw [pyFormat.eq_def]
          split <;> simp_all
        rw [this] at h
        obtain ⟨n, t', m', e, hn, hm⟩ := ih _ _ h
        refine ⟨c :: n, t', m', by rw [e]; rfl, ?_, hm⟩
        intro d hd
        rcases List.mem_cons.1 hd with rfl | hd
        · exact ⟨h1, h2⟩
        · exact hn d hd

theorem reads_cons {p : Piece} {t : List Char} (hp : p.Plain) (h : ∃ ps, Reads t ps) : ∃ ps, Reads (p.written ++ t) ps := by
  obtain ⟨ps, h1, h2⟩ := h
  refine ⟨p :: ps, ?_, by rw [h2]; rfl⟩
  intro q hq
  rcases List.mem_cons.1 hq with rfl | hq
  · exact hp
  · exact h1 q hq

/-- A template that can be filled in reads as pieces. -/
theorem read_template (args : List (String × Option String)) : ∀ (k : Nat) (t m : List Char), t.length ≤ k → pyFormat args none t = .ok m → ∃ ps, Reads t ps := by
  intro k
  induction k with
  | zero =>
    intro t m hk h
    have : t = [] := List.length_eq_zero_iff.1 (Nat.le_zero.1 hk)
    exact ⟨[], (by intro p hp; cases hp), this⟩
  | succ k ih =>
    intro t m hk h
    match t, hk, h with
    | [], _, _ => exact ⟨[], (by intro p hp; cases hp), rfl⟩
    | [c], hk, h =>
      by_cases h1 : c = '{'
      · subst h1; cases h
      · by_cases h2 : c = '}'
        · subst h2; cases h
        · exact ⟨[.char c], by intro p hp; rw [List.mem_singleton.1 hp]; exact ⟨h1, h2⟩, rfl⟩
    | c :: d :: t, hk, h =>
      have hk' : (d :: t).length ≤ k := by simp only [List.length_cons] at hk ⊢; omega
      have hk2 : t.length ≤ k := by simp only [List.length_cons] at hk; omega
      by_cases h1 : c = '{'
      · subst h1
        by_cases h3 : d = '{'
        · subst h3
          rw [pyFormat] at h
          obtain ⟨m', hm⟩ := map_ok h
          exact reads_cons (p := .openBrace) trivial (ih _ _ hk2 hm)
        · rw [pyFormat_open _ _ _ h3] at h
          obtain ⟨n, t', m', e, hn, hm⟩ := read_field args _ _ _ h
          have hlen : t'.length ≤ k := by
            have := congrArg List.length e
            simp only [List.length_append, List.length_cons] at this hk
            omega
          have := reads_cons (p := .field n) hn (ih _ _ hlen hm)
          rw [e]
          simpa [Piece.written] using this
      · by_cases h2 : c = '}'
        · subst h2
          by_cases h4 : d = '}'
          · subst h4
            rw [pyFormat] at h
            obtain ⟨m', hm⟩ := map_ok h
            exact reads_cons (p := .closeBrace) trivial (ih _ _ hk2 hm)
          · have : pyFormat args none ('}' :: d :: t) = .error .valueError := by
              rw [pyFormat]
              intro t' hh
              cases hh
              exact h4 rfl
            rw [this] at h
            cases h
        · rw [pyFormat_char _ _ _ h1 h2] at h
          obtain ⟨m', hm⟩ := map_ok h
          exact reads_cons (p := .char c) ⟨h1, h2⟩ (ih _ _ hk' hm)

/-- The errors of `format`. -/
theorem pyFormat_errors (args : List (String × Option String)) : ∀ (st : Option (List Char)) (t : List Char) (e : PyErr),
    pyFormat args st t = .error e → e = .keyError ∨ e = .valueError := by
  have map_err : ∀ {m : Except PyErr (List Char)} {f : List Char → List Char} {e : PyErr}, m.map f = .error e → m = .error e := by
    intro m f e h
    cases m with
    | error e => cases h; rfl
    | ok a => cases h
  intro st t
  fun_induction pyFormat args st t <;> intro e h
  all_goals first
    | (cases h; done)
    | (cases h; simp; done)
    | (next ih => exact ih e (map_err h))
    | (next ih => exact ih e h)

/-- Filling in a template. -/
theorem pyFormat_iff (args : List (String × Option String)) (t m : List Char) : pyFormat args none t = .ok m ↔ ∃ ps, Reads t ps ∧ fillAll args ps = some m := by
  constructor
  · intro h
    obtain ⟨ps, hr⟩ := read_template args _ t m (Nat.le_refl _) h
    refine ⟨ps, hr, ?_⟩
    rw [hr.text, pyFormat_pieces args ps hr.plain] at h
    split at h
    · next hf => cases h; exact hf
    · cases h
  · rintro ⟨ps, hr, hf⟩
    rw [hr.text, pyFormat_pieces args ps hr.plain, hf]

/-- Python's registry: the dictionary of brel/errors/error_factory_registry.py. -/
def registry : Dict String ErrEntry := dictLiteral registryEntries

/-- C46: the error made for a code has the severity, area, number and standard code of the entry of that code, and its message is the template of
the entry with the arguments filled in. If the code has no entry, the template has an unmatched brace or a field has no argument, a `ValueError` is raised. -/
theorem C46_create (code : String) (args : List (String × Option String)) :
    (∀ e, createError registry code args = .ok e ↔
      ∃ entry, registry.get? code = some entry ∧ e.severity = entry.severity ∧ e.area = entry.area ∧ e.number = entry.number ∧ e.xbrlCode = entry.xbrlCode ∧
        ∃ ps, Reads entry.message ps ∧ fillAll args ps = some e.message) ∧
    (∀ err, createError registry code args = .error err → err = .valueError) := by
  unfold createError updateMessage
  cases registry.get? code with
  | none => exact ⟨fun e => by simp, fun err h => by cases h; rfl⟩
  | some entry =>
    dsimp only
    cases hf : pyFormat args none entry.message with
    | error er =>
      constructor
      · intro e
        constructor
        · intro h
          rcases pyFormat_errors _ _ _ _ hf with rfl | rfl <;> cases h
        · rintro ⟨en, hen, _, _, _, _, hps⟩
          cases hen
          rw [(pyFormat_iff _ _ _).2 hps] at hf
          cases hf
      · intro err h
        rcases pyFormat_errors _ _ _ _ hf with rfl | rfl <;> cases h <;> rfl
    | ok m =>
      constructor
      · intro e
        constructor
        · intro h
          cases h
          exact ⟨entry, rfl, rfl, rfl, rfl, rfl, (pyFormat_iff _ _ _).1 hf⟩
        · rintro ⟨en, hen, h1, h2, h3, h4, hps⟩
          cases hen
          rw [(pyFormat_iff _ _ _).2 hps] at hf
          cases hf
          cases e
          dsimp only at h1 h2 h3 h4
          subst h1 h2 h3 h4
          rfl
      · intro err h; cases h

/-! ## Codes -/

/-- The code under which the errors of an entry are shown. -/
def ErrEntry.fullCode (e : ErrEntry) : List Char := ErrorInstance.fullCode ⟨e.severity, e.area, e.number, [], e.xbrlCode⟩

attribute [local irreducible] registry

theorem registry_codes : (registry.map (fun p => p.2.fullCode)).Nodup := by decide +kernel

theorem get?_unique {α β : Type} [DecidableEq α] {γ : Type} {f : α × β → γ} {d : Dict α β} (h : (d.map f).Nodup) {a b : α} {x y : β}
    (ha : Dict.get? d a = some x) (hb : Dict.get? d b = some y) (hf : f (a, x) = f (b, y)) : a = b := by
  have := inj_on_of_nodup_map h (Dict.mem_get? d ha) (Dict.mem_get? d hb) hf
  exact (Prod.mk.inj this).1

/-- C46: two errors with the same full code were made for the same kind of error. -/
theorem C46_identifies {a b : String} {args args' : List (String × Option String)} {e e' : ErrorInstance} (h : createError registry a args = .ok e)
    (h' : createError registry b args' = .ok e') (hc : e.fullCode = e'.fullCode) : a = b := by
  obtain ⟨x, hx, h1, h2, h3, h4, _⟩ := ((C46_create a args).1 e).1 h
  obtain ⟨y, hy, h1', h2', h3', h4', _⟩ := ((C46_create b args').1 e').1 h'
  refine get?_unique (f := fun p => p.2.fullCode) registry_codes hx hy ?_
  show x.fullCode = y.fullCode
  unfold ErrEntry.fullCode
  unfold ErrorInstance.fullCode at hc ⊢
  dsimp only
  rw [← h1, ← h2, ← h3, ← h4, ← h1', ← h2', ← h3', ← h4']
  exact hc

/-- C46: the texts of severities and areas tell them apart. -/
theorem C46_areas : (∀ a b : Area, a.value = b.value → a = b) ∧ ∀ a b : Severity, a.value = b.value → a = b := by
  constructor
  · intro a b h
    cases a <;> cases b <;> first | rfl | (revert h; decide)
  · intro a b h
    cases a <;> cases b <;> first | rfl | (revert h; decide)

/-- The short form, severity, area and number, is enough. -/
theorem C46_short {a b : String} {x y : ErrEntry} (hx : registry.get? a = some x) (hy : registry.get? b = some y) (h : x.area = y.area ∧ x.number = y.number) : a = b := by
  have : (registry.map (fun p => (p.2.area, p.2.number))).Nodup := by decide +kernel
  exact get?_unique this hx hy (by show (x.area, x.number) = (y.area, y.number); rw [h.1, h.2])

/-! ## The places that make reports -/

theorem lookup_names (n : String) : ∀ (args args' : List (String × Option String)), args.map (·.1) = args'.map (·.1) → (args.lookup n).isSome = (args'.lookup n).isSome := by
  intro args
  induction args with
  | nil =>
    intro args' h
    cases args' with
    | nil => rfl
    | cons p ps => cases h
  | cons a as ih =>
    intro args' h
    cases args' with
    | nil => cases h
    | cons p ps =>
      rw [List.map_cons, List.map_cons] at h
      obtain ⟨h1, h2⟩ := List.cons.inj h
      obtain ⟨k, v⟩ := a
      obtain ⟨k', v'⟩ := p
      dsimp only at h1
      subst h1
      rw [List.lookup_cons, List.lookup_cons]
      cases n == k with
      | true => rfl
      | false => exact ih ps h2

theorem fillAll_names {args args' : List (String × Option String)} (h : args.map (·.1) = args'.map (·.1)) (ps : List Piece) : (fillAll args ps).isSome = (fillAll args' ps).isSome := by
  induction ps with
  | nil => rfl
  | cons p ps ih =>
    have hp : (p.filled args).isSome = (p.filled args').isSome := by
      cases p with
      | field n => simp only [Piece.filled, Option.isSome_map]; exact lookup_names _ _ _ h
      | _ => rfl
    simp only [fillAll]
    cases h1 : p.filled args <;> cases h2 : p.filled args' <;> rw [h1, h2] at hp <;> simp_all

/-- Whether a report can be made depends on the names of the arguments only. -/
theorem create_names {code : String} {args args' : List (String × Option String)} (h : args.map (·.1) = args'.map (·.1)) (hc : ∃ e, createError registry code args = .ok e) :
    ∃ e, createError registry code args' = .ok e := by
  obtain ⟨e, he⟩ := hc
  obtain ⟨x, hx, h1, h2, h3, h4, ps, hr, hf⟩ := ((C46_create code args).1 e).1 he
  have hs : (fillAll args' ps).isSome := by rw [← fillAll_names h ps, hf]; rfl
  obtain ⟨m, hm⟩ := Option.isSome_iff_exists.1 hs
  exact ⟨⟨x.severity, x.area, x.number, m, x.xbrlCode⟩, ((C46_create code args').1 _).2 ⟨x, hx, rfl, rfl, rfl, rfl, ps, hr, hm⟩⟩

/-- Whether a call can make its report. -/
def Site.works (s : Site) : Bool := match createError registry s.code (s.args.map (fun a => (a, none))) with
  | .ok _ => true
  | .error _ => false

theorem sites_table : ∀ s ∈ reportSites, s.works = !decide ((s.file, s.line) ∈ brokenSites) := by decide +kernel

/-- C46: of all calls in the code that make a report, whatever the values they pass, exactly eight raise a `ValueError` instead; all others
make it. -/
theorem C46_sites {s : Site} (hs : s ∈ reportSites) (args : List (String × Option String)) (ha : args.map (·.1) = s.args) :
    ((s.file, s.line) ∉ brokenSites → ∃ e, createError registry s.code args = .ok e) ∧
    ((s.file, s.line) ∈ brokenSites → createError registry s.code args = .error .valueError) := by
  have ht := sites_table s hs
  have hn : (s.args.map (fun a => (a, (none : Option String)))).map (·.1) = args.map (·.1) := by rw [ha, List.map_map]; exact List.map_id _
  unfold Site.works at ht
  constructor
  · intro hb
    rw [decide_eq_false hb] at ht
    split at ht
    · next e he => exact create_names hn ⟨e, he⟩
    · cases ht
  · intro hb
    rw [decide_eq_true hb] at ht
    cases hc : createError registry s.code args with
    | error e => rw [(C46_create s.code args).2 e hc]
    | ok e =>
      obtain ⟨e', he'⟩ := create_names hn.symm ⟨e, hc⟩
      rw [he'] at ht
      cases ht

theorem C46_eight : (reportSites.filter (fun s => (s.file, s.line) ∈ brokenSites)).length = 8 ∧ reportSites.length = 129 := by decide +kernel

/-- C46 fails: not every report the code makes can be made, so that some faults of a filing raise an exception instead of being recorded. -/
theorem C46_sites_false : ¬ ∀ s ∈ reportSites, ∀ args : List (String × Option String), args.map (·.1) = s.args → ∃ e, createError registry s.code args = .ok e := by
  intro h
  have hs : (⟨"brel/parsers/XML/xml_facts_parser.py", 136, "XML_INVALID_FACT_UNIT_ID", ["unit_id"]⟩ : Site) ∈ reportSites := by decide +kernel
  obtain ⟨e, he⟩ := h _ hs [("unit_id", some "u")] rfl
  rw [(C46_sites hs [("unit_id", some "u")] rfl).2 (by decide)] at he
  cases he

/-- C46 fails: a period without a start date is reported by a message that says the end date is missing, and the other way round. -/
theorem C46_messages_false : (createError registry "DURATION_PERIOD_MISSING_START_DATE" []).map (fun e => String.ofList e.str) = .ok "E-ING-004: End date is missing from the duration period." ∧
    (createError registry "DURATION_PERIOD_MISSING_END_DATE" []).map (fun e => String.ofList e.str) = .ok "E-ING-005: Start date is missing from the duration period." := by
  decide +kernel

example : (createError registry "INVALID_CATALOG_ROOT_NODE" []).map (fun e => String.ofList e.str) =
    .ok "E-TXP-000 [{http://xbrl.org/2016/taxonomy-package/errors}invalidCatalogFile]: The root node of the catalog should be a <{urn:oasis:names:tc:entity:xmlns:xml:catalog}catalog> element." := by
  decide +kernel

example : (createError registry "DURATION_PERIOD_START_AFTER_END" [("start_date", some "2021"), ("end_date", none)]).map (fun e => String.ofList e.str) =
    .ok "E-ING-006: Start date '2021' is after end date 'None'." := by
  decide +kernel

/-! ## The repository of errors -/

/-- Running steps on the repository. -/
def runErrs (ops : List ErrOp) : Except PyErr (List ErrorInstance) := ops.foldlM (ErrOp.apply registry) []

/-- A step that clears the repository. -/
def ErrOp.isClear : ErrOp → Bool
  | .clear => true
  | _ => false

/-- The errors recorded by a step. -/
def ErrOp.recorded : ErrOp → List ErrorInstance
  | .insert code args => (createError registry code args).toOption.toList
  | .insertPremade e => [e]
  | .upsertIf c e => if c then [e] else []
  | .clear => []

theorem apply_recorded {o : ErrOp} (ho : o.isClear = false) {s s' : List ErrorInstance} (h : o.apply registry s = .ok s') : s' = s ++ o.recorded := by
  cases o with
  | insert code args =>
    unfold ErrOp.apply at h
    unfold ErrOp.recorded
    dsimp only at h ⊢
    cases hc : createError registry code args with
    | error e => rw [hc] at h; cases h
    | ok e => rw [hc] at h; cases h; rfl
  | insertPremade e => cases h; rfl
  | upsertIf c e =>
    cases h
    unfold ErrOp.recorded
    cases c with
    | true => rfl
    | false => exact (List.append_nil s).symm
  | clear => cases ho

theorem run_recorded (ops : List ErrOp) (ho : ∀ o ∈ ops, o.isClear = false) : ∀ s s', ops.foldlM (ErrOp.apply registry) s = .ok s' → s' = s ++ ops.flatMap ErrOp.recorded := by
  induction ops with
  | nil => intro s s' h; cases h; exact (List.append_nil s).symm
  | cons o os ih =>
    intro s s' h
    rw [List.foldlM_cons] at h
    cases h1 : o.apply registry s with
    | error e => rw [h1] at h; cases h
    | ok t =>
      rw [h1] at h
      rw [ih (fun p hp => ho p (List.mem_cons_of_mem _ hp)) t s' h, apply_recorded (ho o List.mem_cons_self) h1, List.flatMap_cons, List.append_assoc]

/-- C46: after any history, the recorded errors are those of the steps since the last `clear`, in the order of the steps. -/
theorem C46_history (before ops : List ErrOp) (ho : ∀ o ∈ ops, o.isClear = false) (s : List ErrorInstance) :
    (runErrs ops = .ok s → s = ops.flatMap ErrOp.recorded) ∧ (runErrs (before ++ .clear :: ops) = .ok s → s = ops.flatMap ErrOp.recorded) := by
  constructor
  · intro h
    exact run_recorded ops ho [] s h
  · intro h
    unfold runErrs at h
    rw [List.foldlM_append] at h
    cases h1 : before.foldlM (ErrOp.apply registry) [] with
    | error e => rw [h1] at h; cases h
    | ok t => rw [h1] at h; exact run_recorded ops ho [] s h

theorem filter_count {α β : Type} [DecidableEq α] [DecidableEq β] (f : α → β) (l : List α) (b : β) (a : α) : (l.filter (fun x => f x = b)).count a = if f a = b then l.count a else 0 := by
  by_cases h : f a = b
  · rw [if_pos h, List.count_filter (by simpa using h)]
  · rw [if_neg h, List.count_eq_zero]
    intro hm
    exact h (by simpa using (List.mem_filter.1 hm).2)

/-- C46: filtering by severity or by area splits the recorded errors: an error is in the list of its own severity and of its own area as often as it
was recorded and in no other list, and the lists keep the order of the recorded errors. A filing has errors iff some severity has one. -/
theorem C46_partition (s : List ErrorInstance) :
    (∀ v e, (errorsBySeverity s v).count e = if e.severity = v then s.count e else 0) ∧ (∀ a e, (errorsByArea s a).count e = if e.area = a then s.count e else 0) ∧
    (∀ v, (errorsBySeverity s v).Sublist s) ∧ (∀ a, (errorsByArea s a).Sublist s) ∧
    (errorsBySeverity s .error ++ errorsBySeverity s .warning ++ errorsBySeverity s .info).Perm s ∧
    (hasAnyErrors s = true ↔ ∃ e, e ∈ s) := by
  have hs : ∀ v e, (errorsBySeverity s v).count e = if e.severity = v then s.count e else 0 := fun v e => filter_count ErrorInstance.severity s v e
  refine ⟨hs, fun a e => filter_count ErrorInstance.area s a e, fun v => List.filter_sublist, fun a => List.filter_sublist, ?_, ?_⟩
  · rw [List.perm_iff_count]
    intro e
    rw [List.count_append, List.count_append, hs, hs, hs]
    cases e.severity <;> simp
  · unfold hasAnyErrors
    rw [decide_eq_true_iff]
    exact List.length_pos_iff_exists_mem

example : runErrs [.insert "MISSING_LINK_ROLE" [], .clear, .insert "DURATION_PERIOD_MISSING_START_DATE" [], .insert "DURATION_PERIOD_MISSING_END_DATE" []] =
    runErrs [.insert "DURATION_PERIOD_MISSING_START_DATE" [], .insert "DURATION_PERIOD_MISSING_END_DATE" []] ∧
    ((runErrs [.insert "DURATION_PERIOD_MISSING_START_DATE" [], .insert "DURATION_PERIOD_MISSING_END_DATE" []]).map List.length) = .ok 2 := by
  decide +kernel

end Brel
