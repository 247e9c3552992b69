import Verif.Spec.Loader
import Verif.Lemmas.Loader

namespace Brel

/-! ## Loading -/

structure LoadInv (env : LoadEnv) (cache : Dict String String) (src : String → String) (U : List String) (s : LoadState) : Prop where
  files : ∀ u ∈ U, s.files.get? (fileName u) = cache.get? (fileName u) ∨ s.files.get? (fileName u) = some (src u)
  docs : ∀ k t, s.docs.get? k = some t → k ∈ U ∧ env.parse (src k) = .ok t
  nodup : s.docs.keys.Nodup
  fetched : s.fetched.Nodup
  fetchedDocs : ∀ u ∈ s.fetched, u ∈ s.docs.keys ∧ cache.get? (fileName u) = none

def missing (U : List String) (s : LoadState) : Nat := (U.filter (fun u => decide (u ∉ s.docs.keys))).length

/-- What a call that loads `u` adds. -/
structure Adds (env : LoadEnv) (src : String → String) (s s' : LoadState) (from_ : String → Prop) : Prop where
  keeps : ∀ k ∈ s.docs.keys, k ∈ s'.docs.keys
  all : ∀ u, from_ u → u ∈ s'.docs.keys
  only : ∀ k ∈ s'.docs.keys, k ∉ s.docs.keys → (∃ u, from_ u ∧ Reaches env src u k) ∧ ∀ v, RefersTo env src k v → v ∈ s'.docs.keys

theorem normalizeUri_plain {u : String} (h : '\\' ∉ u.toList) : normalizeUri u = u := by
  unfold normalizeUri
  split
  · rfl
  · have : u.toList.map (fun c => if c = '\\' then '/' else c) = u.toList := by
      exact (List.map_congr_left (f := fun c => if c = '\\' then '/' else c) (g := id) (fun c hc => if_neg (fun e => h (by rw [← e]; exact hc)))).trans (List.map_id _)
    rw [this, String.ofList_toList]

theorem missing_mono {U : List String} {s s' : LoadState} (h : ∀ k ∈ s.docs.keys, k ∈ s'.docs.keys) : missing U s' ≤ missing U s := by
  unfold missing
  induction U with
  | nil => exact Nat.le_refl _
  | cons u U ih =>
    rw [List.filter_cons, List.filter_cons]
    by_cases h1 : u ∈ s.docs.keys
    · rw [if_neg (by simpa using h u h1), if_neg (by simpa using h1)]; exact ih
    · rw [if_pos (show decide (u ∉ s.docs.keys) = true by simpa using h1)]
      split
      · simp only [List.length_cons]; omega
      · simp only [List.length_cons]; omega

theorem missing_lt {U : List String} {s s' : LoadState} {u : String} (hu : u ∈ U) (h : ∀ k ∈ s.docs.keys, k ∈ s'.docs.keys) (h1 : u ∉ s.docs.keys) (h2 : u ∈ s'.docs.keys) :
    missing U s' < missing U s := by
  induction U with
  | nil => cases hu
  | cons v U ih =>
    have hm : missing U s' ≤ missing U s := missing_mono h
    unfold missing at hm ih ⊢
    rw [List.filter_cons, List.filter_cons]
    by_cases hv : v = u
    · subst hv
      rw [if_neg (by simpa using h2), if_pos (by simpa using h1)]
      simp only [List.length_cons]; omega
    · have := ih ((List.mem_cons.1 hu).resolve_left (Ne.symm hv))
      by_cases h3 : v ∈ s.docs.keys
      · rw [if_neg (by simpa using h v h3), if_neg (by simpa using h3)]; exact this
      · rw [if_pos (show decide (v ∉ s.docs.keys) = true by simpa using h3)]
        split
        · simp only [List.length_cons]; omega
        · simp only [List.length_cons]; omega

theorem hasParser_of {u : String} (h : ∃ e ∈ [".xml", ".xsd", ".xhtml", ".htm", ".html"], e.toList <:+ u.toList) : hasParser u = true := by
  obtain ⟨e, he, hs⟩ := h
  unfold hasParser
  exact List.any_eq_true.2 ⟨e, he, (endsWith_iff _ _).2 hs⟩

variable {env : LoadEnv} {cache : Dict String String} {src : String → String} {U : List String}

theorem fetchFile_ok (hr : Readable env cache src U) {s : LoadState} (hs : LoadInv env cache src U s) {u referencing : String} (hu : u ∈ U) (hn : u ∉ s.docs.keys)
    (ha : Available env cache referencing u (src u)) :
    ∃ s1, fetchFile env s u (isHttp u || isHttp referencing) = .ok (src u, s1) ∧ s1.docs = s.docs ∧ s1.files.get? (fileName u) = some (src u) ∧
      (∀ v ∈ U, s1.files.get? (fileName v) = cache.get? (fileName v) ∨ s1.files.get? (fileName v) = some (src v)) ∧
      (s1.fetched = s.fetched ∨ s1.fetched = s.fetched ++ [u] ∧ cache.get? (fileName u) = none) := by
  unfold fetchFile
  cases hf : s.files.get? (fileName u) with
  | some c =>
    have hc : c = src u := by
      rcases hs.files u hu with h | h
      · rw [hf] at h
        unfold Available at ha
        rw [← h] at ha
        exact ha
      · rw [hf] at h; exact Option.some.inj h
    subst hc
    exact ⟨s, rfl, rfl, hf, hs.files, Or.inl rfl⟩
  | none =>
    have hcache : cache.get? (fileName u) = none := by
      rcases hs.files u hu with h | h
      · rw [← h, hf]
      · rw [hf] at h; cases h
    unfold Available at ha
    rw [hcache] at ha
    dsimp only at ha ⊢
    have hother : ∀ v ∈ U, (s.files.set (fileName u) (src u)).get? (fileName v) = cache.get? (fileName v) ∨ (s.files.set (fileName u) (src u)).get? (fileName v) = some (src v) := by
      intro v hv
      rw [Dict.get?_set]
      by_cases e : fileName u = fileName v
      · rw [if_pos e, hr.names u hu v hv e]; exact Or.inr rfl
      · rw [if_neg e]; exact hs.files v hv
    by_cases hrem : (isHttp u || isHttp referencing) = true
    · rw [if_pos (by simpa using hrem)] at ha
      rw [if_pos hrem, ha]
      refine ⟨_, rfl, rfl, ?_, hother, Or.inr ⟨rfl, hcache⟩⟩
      dsimp only
      rw [Dict.get?_set, if_pos rfl]
    · rw [if_neg (by simpa using hrem)] at ha
      rw [if_neg hrem, ha]
      have hp : fileName (env.urlPath u) = fileName u := hr.paths u hu (by intro h; rw [h] at hrem; exact hrem rfl)
      refine ⟨_, rfl, rfl, ?_, ?_, Or.inr ⟨rfl, hcache⟩⟩
      · dsimp only
        rw [hp, Dict.get?_set, if_pos rfl]
      · dsimp only
        rw [hp]
        exact hother

theorem loadDoc_spec (hr : Readable env cache src U) : ∀ (n : Nat) (s : LoadState) (uri referencing : String), LoadInv env cache src U s → resolveUri env referencing uri ∈ U →
    Available env cache referencing (resolveUri env referencing uri) (src (resolveUri env referencing uri)) → missing U s < n →
    ∃ s', loadDoc env n s uri referencing = .ok s' ∧ LoadInv env cache src U s' ∧ Adds env src s s' (fun u => u = resolveUri env referencing uri) := by
  intro n
  induction n with
  | zero => intro s uri referencing _ _ _ h; omega
  | succ n ih =>
    intro s uri referencing hs hu ha hm
    have hfold : ∀ (u : String) (l : List String) (s : LoadState), u ∈ U → (∀ r ∈ l, RefersTo env src u (resolveUri env u r)) → LoadInv env cache src U s → missing U s < n →
        ∃ s', l.foldlM (fun s r => loadDoc env n s r u) s = .ok s' ∧ LoadInv env cache src U s' ∧ Adds env src s s' (fun v => ∃ r ∈ l, v = resolveUri env u r) := by
      intro u l
      induction l with
      | nil =>
        intro s _ _ hs _
        exact ⟨s, rfl, hs, fun k hk => hk, (by rintro v ⟨r, hr, _⟩; cases hr), fun k hk hn => absurd hk hn⟩
      | cons r l ihl =>
        intro s hu hrefs hs hm
        obtain ⟨hv, hav⟩ := hr.closed u hu _ (hrefs r (by simp))
        obtain ⟨s1, e1, i1, a1⟩ := ih s r u hs hv hav hm
        obtain ⟨s2, e2, i2, a2⟩ := ihl s1 hu (fun r hr => hrefs r (by simp [hr])) i1 (Nat.lt_of_le_of_lt (missing_mono a1.keeps) hm)
        refine ⟨s2, ?_, i2, fun k hk => a2.keeps k (a1.keeps k hk), ?_, ?_⟩
        · rw [List.foldlM_cons, e1]; exact e2
        · rintro v ⟨r', hr', e⟩
          rcases List.mem_cons.1 hr' with h | h
          · subst h; exact a2.keeps v (a1.all v e)
          · exact a2.all v ⟨r', h, e⟩
        · intro k hk hn
          by_cases h1 : k ∈ s1.docs.keys
          · obtain ⟨⟨v, hv1, hv2⟩, hv3⟩ := a1.only k h1 hn
            exact ⟨⟨v, ⟨r, by simp, hv1⟩, hv2⟩, fun w hw => a2.keeps w (hv3 w hw)⟩
          · obtain ⟨⟨v, ⟨r', hr', hv1⟩, hv2⟩, hv3⟩ := a2.only k hk h1
            exact ⟨⟨v, ⟨r', by simp [hr'], hv1⟩, hv2⟩, hv3⟩
    generalize he : resolveUri env referencing uri = u at hu ha
    have hnorm := normalizeUri_plain (hr.plain u hu)
    have hstep : loadDoc env (n + 1) s uri referencing = (if s.docs.has u then .ok s
      else if !hasParser u then .error .valueError
      else (fetchFile env s u (isHttp u || isHttp referencing)).bind (fun p => (env.parse p.1).bind (fun tree =>
        match p.2.files.get? (fileName u) with
        | none => .error .fileNotFoundError
        | some text => (extractReferences text).bind (fun refs =>
            (env.so.strings refs).foldlM (fun s r => loadDoc env n s r u) { p.2 with docs := p.2.docs.set u tree })))) := by
      rw [loadDoc]
      simp only [he, hnorm]
      rfl
    rw [hstep]
    by_cases hin : s.docs.has u = true
    · rw [if_pos hin]
      refine ⟨s, rfl, hs, fun k hk => hk, ?_, fun k hk hn => absurd hk hn⟩
      rintro v rfl
      exact (Dict.has_iff_mem_keys _ _).1 hin
    · have hnk : u ∉ s.docs.keys := fun h => hin ((Dict.has_iff_mem_keys _ _).2 h)
      rw [if_neg hin, if_neg (by rw [hasParser_of (hr.suffix u hu)]; decide)]
      obtain ⟨s1, e1, d1, f1, f2, f3⟩ := fetchFile_ok hr hs hu hnk ha
      obtain ⟨t, ht⟩ := hr.tree u hu
      obtain ⟨rs, hrs⟩ := hr.refs u hu
      rw [e1]
      dsimp only [Except.bind]
      rw [ht]
      dsimp only
      rw [f1]
      dsimp only
      rw [hrs]
      dsimp only
      rw [d1]
      have hset : s.docs.set u t = s.docs ++ [(u, t)] := Dict.set_of_not_mem _ _ _ hnk
      have hkeys : (s.docs.set u t).keys = s.docs.keys ++ [u] := by
        rw [hset]; unfold Dict.keys; rw [List.map_append]; rfl
      have hinv : LoadInv env cache src U { s1 with docs := s.docs.set u t } := by
        refine ⟨f2, ?_, ?_, ?_, ?_⟩
        · intro k t' hk
          dsimp only at hk
          rw [Dict.get?_set] at hk
          by_cases e : u = k
          · rw [if_pos e] at hk; cases hk; subst e; exact ⟨hu, ht⟩
          · rw [if_neg e] at hk; exact hs.docs k t' hk
        · exact Dict.keys_set_nodup hs.nodup u t
        · dsimp only
          rcases f3 with h | ⟨h, _⟩
          · rw [h]; exact hs.fetched
          · rw [h]
            refine List.nodup_append.2 ⟨hs.fetched, by simp, ?_⟩
            rintro a ha' b hb rfl
            rw [List.mem_singleton] at hb
            rw [← hb] at hnk
            exact hnk (hs.fetchedDocs a ha').1
        · intro v hv
          dsimp only at hv ⊢
          rw [hkeys]
          rcases f3 with h | ⟨h, hc⟩
          · rw [h] at hv
            exact ⟨List.mem_append.2 (Or.inl (hs.fetchedDocs v hv).1), (hs.fetchedDocs v hv).2⟩
          · rw [h] at hv
            rcases List.mem_append.1 hv with h' | h'
            · exact ⟨List.mem_append.2 (Or.inl (hs.fetchedDocs v h').1), (hs.fetchedDocs v h').2⟩
            · rw [List.mem_singleton] at h'; subst h'
              exact ⟨by simp, hc⟩
      have hadd : ∀ k, k ∈ ({ s1 with docs := s.docs.set u t } : LoadState).docs.keys ↔ k ∈ s.docs.keys ∨ k = u := by
        intro k
        rw [show ({ s1 with docs := s.docs.set u t } : LoadState).docs.keys = s.docs.keys ++ [u] from hkeys]
        simp
      have hperm : ∀ r, r ∈ env.so.strings rs ↔ r ∈ rs := fun r => (env.so.strings_perm rs).mem_iff
      have hlt : missing U { s1 with docs := s.docs.set u t } < missing U s :=
        missing_lt hu (fun k hk => (hadd k).2 (Or.inl hk)) hnk ((hadd u).2 (Or.inr rfl))
      obtain ⟨s2, e2, i2, a2⟩ := hfold u (env.so.strings rs) { s1 with docs := s.docs.set u t } hu (fun r hr' => ⟨rs, r, hrs, (hperm r).1 hr', rfl⟩) hinv (by omega)
      refine ⟨s2, e2, i2, fun k hk => a2.keeps k ((hadd k).2 (Or.inl hk)), ?_, ?_⟩
      · rintro v rfl
        exact a2.keeps v ((hadd v).2 (Or.inr rfl))
      · intro k hk hn
        by_cases hk1 : k ∈ ({ s1 with docs := s.docs.set u t } : LoadState).docs.keys
        · have hku : k = u := ((hadd k).1 hk1).resolve_left hn
          subst hku
          refine ⟨⟨k, rfl, .refl⟩, ?_⟩
          rintro v ⟨rs', r, h1, h2, h3⟩
          rw [hrs] at h1
          cases h1
          exact a2.all v ⟨r, (hperm r).2 h2, h3⟩
        · obtain ⟨⟨v, ⟨r, hr1, hv⟩, hreach⟩, hcl⟩ := a2.only k hk hk1
          refine ⟨⟨u, rfl, ?_⟩, hcl⟩
          have h0 : Reaches env src u v := .step .refl ⟨rs, r, hrs, (hperm r).1 hr1, hv⟩
          clear hcl hk hn hk1
          induction hreach with
          | refl => exact h0
          | step _ h ih' => exact .step ih' h

/-- C26 (for documents whose names of cached files differ, see C25, and which reach finitely many URIs): loading the entry points loads exactly the documents that can be reached from them
over references, each once, with their contents; each is downloaded or copied at most once, and not at all if it is cached. Loading ends although references may lead back: the stack need
not be deeper than the number of documents. -/
theorem C26_loads_partial (entries : List String) (hr : Readable env cache src U) (he : ∀ e ∈ entries, resolveUri env "." e ∈ U ∧ Available env cache "." (resolveUri env "." e) (src (resolveUri env "." e)))
    (depth : Nat) (hd : U.length < depth) :
    ∃ s, loadAll env depth { files := cache } entries = .ok s ∧ s.docs.keys.Nodup ∧ s.fetched.Nodup ∧
      (∀ k, k ∈ s.docs.keys ↔ ∃ e ∈ entries, Reaches env src (resolveUri env "." e) k) ∧
      (∀ k t, s.docs.get? k = some t → env.parse (src k) = .ok t) ∧
      (∀ u ∈ s.fetched, u ∈ s.docs.keys ∧ cache.get? (fileName u) = none) := by
  have main : ∀ (l : List String) (s : LoadState), (∀ e ∈ l, resolveUri env "." e ∈ U ∧ Available env cache "." (resolveUri env "." e) (src (resolveUri env "." e))) →
      LoadInv env cache src U s → (∀ k ∈ s.docs.keys, ∀ v, RefersTo env src k v → v ∈ s.docs.keys) →
      ∃ s', loadAll env depth s l = .ok s' ∧ LoadInv env cache src U s' ∧ (∀ k ∈ s'.docs.keys, ∀ v, RefersTo env src k v → v ∈ s'.docs.keys) ∧ (∀ k ∈ s.docs.keys, k ∈ s'.docs.keys) ∧
        (∀ e ∈ l, resolveUri env "." e ∈ s'.docs.keys) ∧ (∀ k ∈ s'.docs.keys, k ∈ s.docs.keys ∨ ∃ e ∈ l, Reaches env src (resolveUri env "." e) k) := by
    intro l
    induction l with
    | nil => intro s _ hs hc; exact ⟨s, rfl, hs, hc, fun k hk => hk, (by intro e he; cases he), fun k hk => Or.inl hk⟩
    | cons e l ih =>
      intro s hl hs hc
      obtain ⟨h1, h2⟩ := hl e (by simp)
      have hm : missing U s < depth := Nat.lt_of_le_of_lt (List.length_filter_le _ _) hd
      obtain ⟨s1, e1, i1, a1⟩ := loadDoc_spec hr depth s e "." hs h1 h2 hm
      have hc1 : ∀ k ∈ s1.docs.keys, ∀ v, RefersTo env src k v → v ∈ s1.docs.keys := by
        intro k hk v hv
        by_cases hk0 : k ∈ s.docs.keys
        · exact a1.keeps v (hc k hk0 v hv)
        · exact (a1.only k hk hk0).2 v hv
      obtain ⟨s2, e2, i2, c2, k2, l2, o2⟩ := ih s1 (fun e he => hl e (by simp [he])) i1 hc1
      refine ⟨s2, ?_, i2, c2, fun k hk => k2 k (a1.keeps k hk), ?_, ?_⟩
      · unfold loadAll at e2 ⊢
        rw [List.foldlM_cons, e1]
        exact e2
      · intro x hx
        rcases List.mem_cons.1 hx with h | h
        · subst h; exact k2 _ (a1.all _ rfl)
        · exact l2 x h
      · intro k hk
        rcases o2 k hk with h | ⟨x, hx, hreach⟩
        · by_cases hk0 : k ∈ s.docs.keys
          · exact Or.inl hk0
          · obtain ⟨⟨v, hv, hreach⟩, _⟩ := a1.only k h hk0
            subst hv
            exact Or.inr ⟨e, by simp, hreach⟩
        · exact Or.inr ⟨x, by simp [hx], hreach⟩
  obtain ⟨s, e, i, c, _, l, o⟩ := main entries { files := cache } he
    ⟨fun u _ => Or.inl rfl, (by intro k t h; cases h), List.nodup_nil, List.nodup_nil, by intro u hu; cases hu⟩ (by intro k hk; cases hk)
  refine ⟨s, e, i.nodup, i.fetched, ?_, fun k t h => (i.docs k t h).2, i.fetchedDocs⟩
  intro k
  constructor
  · intro hk
    rcases o k hk with h | h
    · cases h
    · exact h
  · rintro ⟨x, hx, hreach⟩
    induction hreach with
    | refl => exact l x hx
    | step _ h ih => exact c _ ih _ h

/-! ## Names of cached files -/

/-- The name of the cached file of a local document is the last part of its path. -/
theorem fileName_local {d f : String} (h : ¬ isHttp (d ++ "/" ++ f) = true) (hb : '\\' ∉ f.toList) (hf : '/' ∉ f.toList) : fileName (d ++ "/" ++ f) = f := by
  have e : (d ++ "/" ++ f).toList = d.toList ++ '/' :: f.toList := by simp [String.toList_append]
  unfold isHttp at h
  rw [e] at h
  unfold fileName uriToFilename
  rw [e]
  dsimp only
  rw [if_pos (by simpa using h), List.map_append, List.map_cons]
  have hm : f.toList.map (fun c => if c = '\\' then '/' else c) = f.toList :=
    (List.map_congr_left (g := id) (fun c hc => if_neg (fun e => hb (by rw [← e]; exact hc)))).trans (List.map_id _)
  rw [hm, if_neg (by decide), splitAtChar_append, splitAtChar_none hf, List.getLast?_append]
  simp

/-- C25 fails: files of the same name in two folders share one cached file. -/
theorem C25_folders_false (d d' f : String) (h : ¬ isHttp (d ++ "/" ++ f) = true) (h' : ¬ isHttp (d' ++ "/" ++ f) = true) (hb : '\\' ∉ f.toList) (hf : '/' ∉ f.toList) :
    fileName (d ++ "/" ++ f) = fileName (d' ++ "/" ++ f) := by rw [fileName_local h hb hf, fileName_local h' hb hf]

/-- C25 for files of one folder. -/
theorem C25_folder_partial (d f g : String) (h : ¬ isHttp (d ++ "/" ++ f) = true) (h' : ¬ isHttp (d ++ "/" ++ g) = true) (hf : '\\' ∉ f.toList ∧ '/' ∉ f.toList)
    (hg : '\\' ∉ g.toList ∧ '/' ∉ g.toList) (e : fileName (d ++ "/" ++ f) = fileName (d ++ "/" ++ g)) : f = g := by
  rw [fileName_local h hf.1 hf.2, fileName_local h' hg.1 hg.2] at e
  exact e

theorem fileFormat_ext (a ext : List Char) (hne : ext ≠ []) (h : ∀ c ∈ ext, isAlnum c = true) : fileFormat (a ++ '.' :: ext) = '.' :: ext := by
  have hl : (a ++ '.' :: ext).getLast? ≠ some '\n' := by
    intro hl
    rw [List.getLast?_append, List.getLast?_cons, Option.some_or, Option.some.injEq] at hl
    have : ext.getLast?.getD '.' ∈ ext := by
      rw [List.getLast?_eq_some_getLast hne]; exact List.getLast_mem hne
    rw [hl] at this
    exact absurd (h _ this) (by decide)
  unfold fileFormat
  dsimp only
  rw [if_neg hl]
  have hr : (a ++ '.' :: ext).reverse = ext.reverse ++ '.' :: a.reverse := by simp
  have h1 : (ext.reverse ++ '.' :: a.reverse).takeWhile isAlnum = ext.reverse := by
    rw [List.takeWhile_append_of_pos (by intro c hc; exact h c (by simpa using hc)), List.takeWhile_cons_of_neg (by decide), List.append_nil]
  have h2 : (ext.reverse ++ '.' :: a.reverse).dropWhile isAlnum = '.' :: a.reverse := by
    rw [List.dropWhile_append_of_pos (by intro c hc; exact h c (by simpa using hc)), List.dropWhile_cons_of_neg (by decide)]
  rw [hr, h1, h2, List.reverse_reverse, if_pos ⟨hne, rfl⟩]

theorem infix_no_sep {w a b : List Char} {c : Char} (h : w <:+: a ++ c :: b) (hc : c ∉ w) : w <:+: a ∨ w <:+: b := by
  obtain ⟨l, r, e⟩ := h
  rw [List.append_assoc] at e
  rcases List.append_eq_append_iff.1 e with ⟨m, rfl, h2⟩ | ⟨m, rfl, h2⟩
  · rcases List.append_eq_append_iff.1 h2 with ⟨n, rfl, h3⟩ | ⟨n, rfl, h3⟩
    · exact Or.inl ⟨l, n, by simp⟩
    · cases n with
      | nil => exact Or.inl ⟨l, [], by simp⟩
      | cons d n =>
        rw [List.cons_append] at h3
        cases h3
        exact absurd (by simp) hc
  · cases m with
    | nil =>
      simp only [List.nil_append] at h2
      cases w with
      | nil => exact Or.inl ⟨[], a, by simp⟩
      | cons d w => cases h2; exact absurd (by simp) hc
    | cons d m =>
      rw [List.cons_append] at h2
      cases h2
      exact Or.inr ⟨m, r, by simp⟩

def cacheChar (c : Char) : Char := if c ∈ ['/', ':', '?', '.', '\\'] then '_' else c

/-- The cached file of an ordinary address: without scheme and without `www.`, all punctuation replaced. -/
theorem uriToFilename_remote (scheme a ext : List Char) (hs : scheme = "http://".toList ∨ scheme = "https://".toList) (hc : ':' ∉ a) (hd : ¬ ['.', '.'] <:+: a ++ '.' :: ext) (hne : ext ≠ [])
    (hext : ∀ c ∈ ext, isAlnum c = true) :
    uriToFilename (scheme ++ (a ++ '.' :: ext)) = (removeAll "www.".toList (a ++ '.' :: ext)).map cacheChar ++ '.' :: ext := by
  have hcolon : ':' ∉ a ++ '.' :: ext := by
    intro h
    rcases List.mem_append.1 h with h | h
    · exact hc h
    · rcases List.mem_cons.1 h with h | h
      · cases h
      · exact absurd (hext _ h) (by decide)
  have hf : fileFormat (scheme ++ (a ++ '.' :: ext)) = '.' :: ext := by
    rw [← List.append_assoc]; exact fileFormat_ext _ _ hne hext
  have hhttp : startsWith (scheme ++ (a ++ '.' :: ext)) "http".toList = true := by
    rcases hs with rfl | rfl <;> exact (startsWith_prefix _ _).2 ⟨_, rfl⟩
  have hfirst : removeAll ('.' :: '.' :: ext) (scheme ++ (a ++ '.' :: ext)) = scheme ++ (a ++ '.' :: ext) := by
    apply removeGo_none
    intro h
    have h2 : ['.', '.'] <:+: scheme ++ (a ++ '.' :: ext) := List.IsInfix.trans ⟨[], ext, by simp⟩ h
    have h3 : ∃ s0, scheme = s0 ++ ['/'] ∧ ¬ ['.', '.'] <:+: s0 := by
      rcases hs with rfl | rfl
      · refine ⟨"http:/".toList, by decide, fun h => ?_⟩
        obtain ⟨l, r, e⟩ := h
        have : '.' ∈ "http:/".toList := by rw [← e]; simp
        exact absurd this (by decide)
      · refine ⟨"https:/".toList, by decide, fun h => ?_⟩
        obtain ⟨l, r, e⟩ := h
        have : '.' ∈ "https:/".toList := by rw [← e]; simp
        exact absurd this (by decide)
    obtain ⟨s0, hs0, hn⟩ := h3
    rw [hs0, List.append_assoc, List.singleton_append] at h2
    exact (infix_no_sep h2 (by decide)).elim hn hd
  have hno : ∀ s : List Char, s = "http://".toList ∨ s = "https://".toList → ¬ s <:+: a ++ '.' :: ext := by
    rintro s hs ⟨l, r, e⟩
    apply hcolon
    rw [← e]
    rcases hs with rfl | rfl <;> simp
  have hmid : removeAll "https://".toList (removeAll "http://".toList (scheme ++ (a ++ '.' :: ext))) = a ++ '.' :: ext := by
    rcases hs with rfl | rfl
    · rw [removeAll_prefix _ _ (by decide) (hno _ (Or.inl rfl))]
      exact removeGo_none _ _ (hno _ (Or.inr rfl))
    · have h1 : removeAll "http://".toList ("https://".toList ++ (a ++ '.' :: ext)) = "https://".toList ++ (a ++ '.' :: ext) := by
        apply removeGo_none
        rintro ⟨l, r, e⟩
        have e1 : (l ++ "http".toList) ++ ':' :: ("//".toList ++ r) = "https".toList ++ ':' :: ("//".toList ++ (a ++ '.' :: ext)) := by
          simpa using e
        rcases List.append_eq_append_iff.1 e1 with ⟨k, h5, h6⟩ | ⟨k, h5, h6⟩
        · cases k with
          | nil =>
            rw [List.append_nil] at h5
            have hlen := congrArg List.length h5
            have : l.length = 1 := by simp at hlen; omega
            match l, this with
            | [x], _ => simp at h5
          | cons d k =>
            have hd' : d = ':' := (List.cons.inj h6).1.symm
            have : ':' ∈ "https".toList := by rw [h5, hd']; simp
            exact absurd this (by decide)
        · cases k with
          | nil =>
            rw [List.append_nil] at h5
            have hlen := congrArg List.length h5
            have : l.length = 1 := by simp at hlen; omega
            match l, this with
            | [x], _ => simp at h5
          | cons d k =>
            rw [List.cons_append, List.cons.injEq] at h6
            have : ':' ∈ "//".toList ++ (a ++ '.' :: ext) := by rw [h6.2]; simp
            rcases List.mem_append.1 this with h | h
            · exact absurd h (by decide)
            · exact hcolon h
      rw [h1, removeAll_prefix _ _ (by decide) (hno _ (Or.inr rfl))]
  have hin : isInfix "http".toList (scheme ++ (a ++ '.' :: ext)) = true := by
    unfold isInfix
    exact List.any_eq_true.2 ⟨0, by simp, hhttp⟩
  unfold uriToFilename
  dsimp only
  rw [hhttp, if_neg (by decide), hf, hfirst, hin, if_pos rfl, hmid]
  rfl

/-- An address whose path consists of letters, digits, hyphens and slashes. -/
structure PlainPath (p : String) : Prop where
  chars : ∀ c ∈ p.toList, isAlnum c = true ∨ c = '-' ∨ c = '/'
  noWww : ¬ "www".toList <:+ p.toList

/-- C25 for the files of one server whose paths consist of letters, digits, hyphens and slashes. -/
theorem C25_server_partial (scheme host p q ext ext' : String) (hs : scheme = "http://" ∨ scheme = "https://") (hc : ':' ∉ host.toList) (hd : ¬ "..".toList <:+: host.toList)
    (hne : ext ≠ "" ∧ ext' ≠ "") (hext : ∀ c ∈ ext.toList ++ ext'.toList, isAlnum c = true) (hp : PlainPath p) (hq : PlainPath q)
    (e : fileName (scheme ++ host ++ "/" ++ p ++ "." ++ ext) = fileName (scheme ++ host ++ "/" ++ q ++ "." ++ ext')) : p = q ∧ ext = ext' := by
  have hdot : ∀ p : String, PlainPath p → '.' ∉ p.toList := by
    intro p hp h
    rcases hp.chars _ h with h | h | h
    · exact absurd h (by decide)
    · cases h
    · cases h
  have hedot : ∀ ext : String, (∀ c ∈ ext.toList, isAlnum c = true) → '.' ∉ ext.toList := fun ext hext h => absurd (hext _ h) (by decide)
  have form : ∀ p ext : String, PlainPath p → ext ≠ "" → (∀ c ∈ ext.toList, isAlnum c = true) → (fileName (scheme ++ host ++ "/" ++ p ++ "." ++ ext)).toList =
      ((removeAll "www.".toList (host.toList ++ ['/'])).map cacheChar ++ p.toList.map cacheChar) ++ ('_' :: ext.toList.map cacheChar ++ '.' :: ext.toList) := by
    intro p ext hp hne hext
    have hedot := hedot ext hext
    have hl : (scheme ++ host ++ "/" ++ p ++ "." ++ ext).toList = scheme.toList ++ ((host.toList ++ '/' :: p.toList) ++ '.' :: ext.toList) := by
      simp [String.toList_append]
    unfold fileName
    rw [hl, String.toList_ofList, uriToFilename_remote scheme.toList _ ext.toList (by rcases hs with rfl | rfl <;> simp) ?_ ?_ ?_ hext]
    · have hr := removeGo_append (w := "www".toList) (z := '.') (hdot p hp) hedot (host.toList ++ ['/']) 0 (Nat.zero_le _) (by
        rintro ⟨t, ht⟩
        rw [List.append_assoc, List.singleton_append] at ht
        rcases List.append_eq_append_iff.1 ht with ⟨k, h5, h6⟩ | ⟨k, h5, h6⟩
        · have : '/' ∈ "www".toList := by rw [h6]; simp
          exact absurd this (by decide)
        · cases k with
          | nil =>
            have : '/' ∈ "www".toList := by rw [List.nil_append] at h6; rw [← h6]; simp
            exact absurd this (by decide)
          | cons d k => exact hp.noWww ⟨k, (List.cons.inj h6).2.symm⟩)
      unfold removeAll
      rw [show (host.toList ++ '/' :: p.toList) ++ '.' :: ext.toList = (host.toList ++ ['/']) ++ (p.toList ++ '.' :: ext.toList) by simp]
      rw [show "www.".toList = "www".toList ++ ['.'] from rfl, hr]
      simp [cacheChar]
    · intro h
      rcases List.mem_append.1 h with h | h
      · exact hc h
      · rcases List.mem_cons.1 h with h | h
        · cases h
        · rcases hp.chars _ h with h | h | h
          · exact absurd h (by decide)
          · cases h
          · cases h
    · intro h
      rw [List.append_assoc, List.cons_append] at h
      rcases infix_no_sep h (by decide) with h | h
      · exact hd h
      · obtain ⟨l, r, e⟩ := h
        have hcount := congrArg (List.count '.') e
        simp only [List.count_append, List.count_cons, List.count_nil] at hcount
        rw [List.count_eq_zero_of_not_mem (hdot p hp), List.count_eq_zero_of_not_mem hedot] at hcount
        simp at hcount
        omega
    · intro h
      exact hne (String.toList_inj.1 (by rw [h]; rfl))
  have h1 := congrArg String.toList e
  have hx1 : ∀ c ∈ ext.toList, isAlnum c = true := fun c hc => hext c (by simp [hc])
  have hx2 : ∀ c ∈ ext'.toList, isAlnum c = true := fun c hc => hext c (by simp [hc])
  rw [form p ext hp hne.1 hx1, form q ext' hq hne.2 hx2] at h1
  have hee : ext = ext' := by
    rw [← List.append_assoc, ← List.append_assoc] at h1
    apply String.toList_inj.1
    rcases List.append_eq_append_iff.1 h1 with ⟨k, _, h6⟩ | ⟨k, _, h6⟩
    · cases k with
      | nil => exact (List.cons.inj h6).2
      | cons d k => exact absurd (by rw [(List.cons.inj h6).2]; simp) (hedot ext hx1)
    · cases k with
      | nil => exact (List.cons.inj h6).2.symm
      | cons d k => exact absurd (by rw [(List.cons.inj h6).2]; simp) (hedot ext' hx2)
  subst hee
  refine ⟨?_, rfl⟩
  have h2 := List.append_inj_left' h1 rfl
  have h3 := List.append_inj_right h2 rfl
  apply String.toList_inj.1
  have inj : ∀ c d : Char, (isAlnum c = true ∨ c = '-' ∨ c = '/') → (isAlnum d = true ∨ d = '-' ∨ d = '/') → cacheChar c = cacheChar d → c = d := by
    have alnum : ∀ c : Char, isAlnum c = true → cacheChar c = c ∧ c ≠ '_' := by
      intro c hc
      refine ⟨?_, fun e => by rw [e] at hc; exact absurd hc (by decide)⟩
      unfold cacheChar
      rw [if_neg]
      intro hm
      have : ∀ x ∈ ['/', ':', '?', '.', '\\'], isAlnum x = false := by decide
      rw [this c hm] at hc
      cases hc
    intro c d h1 h2 h
    rcases h1 with h1 | rfl | rfl <;> rcases h2 with h2 | rfl | rfl
    · rw [(alnum c h1).1, (alnum d h2).1] at h; exact h
    · rw [(alnum c h1).1] at h; exact h
    · rw [(alnum c h1).1] at h; exact absurd h (alnum c h1).2
    · rw [(alnum d h2).1] at h; exact h
    · rfl
    · exact absurd h (by decide)
    · rw [(alnum d h2).1] at h; exact absurd h.symm (alnum d h2).2
    · exact absurd h (by decide)
    · rfl
  have lift : ∀ l m : List Char, (∀ c ∈ l, isAlnum c = true ∨ c = '-' ∨ c = '/') → (∀ c ∈ m, isAlnum c = true ∨ c = '-' ∨ c = '/') → l.map cacheChar = m.map cacheChar → l = m := by
    intro l
    induction l with
    | nil =>
      intro m _ _ h
      cases m with
      | nil => rfl
      | cons x m => cases h
    | cons c l ih =>
      intro m hl hm h
      cases m with
      | nil => cases h
      | cons d m =>
        rw [List.map_cons, List.map_cons, List.cons.injEq] at h
        rw [inj c d (hl c (by simp)) (hm d (by simp)) h.1, ih m (fun x hx => hl x (by simp [hx])) (fun x hx => hm x (by simp [hx])) h.2]
  exact lift _ _ hp.chars hq.chars h3

/-- C25 fails: an address and its secure form share one cached file. -/
theorem C25_scheme_false (a ext : String) (hc : ':' ∉ a.toList) (hd : ¬ "..".toList <:+: (a ++ "." ++ ext).toList) (hne : ext ≠ "") (hext : ∀ c ∈ ext.toList, isAlnum c = true) :
    fileName ("http://" ++ a ++ "." ++ ext) = fileName ("https://" ++ a ++ "." ++ ext) := by
  have e : ∀ s : String, (s ++ a ++ "." ++ ext).toList = s.toList ++ (a.toList ++ '.' :: ext.toList) := by intro s; simp [String.toList_append]
  have hd' : ¬ ['.', '.'] <:+: a.toList ++ '.' :: ext.toList := by
    rw [show a.toList ++ '.' :: ext.toList = (a ++ "." ++ ext).toList by simp [String.toList_append]]; exact hd
  have hne' : ext.toList ≠ [] := fun h => hne (String.toList_inj.1 (by rw [h]; rfl))
  unfold fileName
  rw [e, e, uriToFilename_remote _ _ _ (Or.inl rfl) hc hd' hne' hext, uriToFilename_remote _ _ _ (Or.inr rfl) hc hd' hne' hext]

/-- C25 fails: addresses that differ in punctuation only, or in a leading `www.`, share one cached file. -/
theorem C25_punctuation_false : fileName "http://x.org/a/b.xsd" = fileName "http://x.org/a_b.xsd" ∧ fileName "http://x.org/a.b.xsd" = fileName "http://x.org/a/b.xsd" ∧
    fileName "http://www.x.org/a.xsd" = fileName "http://x.org/a.xsd" := by decide +kernel

example : fileName "https://www.x.org/2024/a.xsd" = "x_org_2024_a_xsd.xsd" := by decide +kernel
example : PlainPath "2024/a" := ⟨by decide, by decide⟩

/-! ## What follows for loading -/

theorem loadDoc_plain (env : LoadEnv) (n : Nat) (s : LoadState) (uri referencing u : String) (he : resolveUri env referencing uri = u) (hp : '\\' ∉ u.toList) :
    loadDoc env (n + 1) s uri referencing = (if s.docs.has u then .ok s
      else if !hasParser u then .error .valueError
      else (fetchFile env s u (isHttp u || isHttp referencing)).bind (fun p => (env.parse p.1).bind (fun tree =>
        match p.2.files.get? (fileName u) with
        | none => .error .fileNotFoundError
        | some text => (extractReferences text).bind (fun refs =>
            (env.so.strings refs).foldlM (fun s r => loadDoc env n s r u) { p.2 with docs := p.2.docs.set u tree })))) := by
  rw [loadDoc]
  simp only [he, normalizeUri_plain hp]
  rfl

/-- C25 fails, with this effect: a file that has been read once is never read again. Whatever the disk and the web have now, the document is the one of the cached text. -/
theorem C25_outdated_false (env : LoadEnv) (depth : Nat) (cache : Dict String String) (u old : String) (t : XNode) (hu : resolveUri env "." u = u) (hp : '\\' ∉ u.toList)
    (hs : ∃ e ∈ [".xml", ".xsd", ".xhtml", ".htm", ".html"], e.toList <:+ u.toList) (hc : cache.get? (fileName u) = some old) (ht : env.parse old = .ok t) (hr : extractReferences old = .ok []) :
    loadAll env (depth + 1) { files := cache } [u] = .ok { files := cache, docs := [(u, t)], fetched := [] } := by
  unfold loadAll
  rw [List.foldlM_cons, loadDoc_plain env depth _ u "." u hu hp]
  rw [if_neg (by intro h; cases h), if_neg (by rw [hasParser_of hs]; decide)]
  unfold fetchFile
  rw [hc]
  dsimp only [Except.bind]
  rw [ht]
  dsimp only
  rw [hc]
  dsimp only
  rw [hr]
  dsimp only
  rw [List.perm_nil.1 (env.so.strings_perm [])]
  rfl

theorem resolveUri_entry (env : LoadEnv) (hrw : env.rewrites = []) {u : String} (h : ¬ isHttp u = true) (hp : '\\' ∉ u.toList) : resolveUri env "." u = u := by
  unfold resolveUri
  dsimp only
  rw [if_pos (by simp [h]; decide), if_neg (show ¬ '\\' ∈ ".".toList by decide), if_neg hp, hrw]
  rw [show (splitAtChar '/' ".".toList).dropLast = [] from rfl, List.nil_append, joinWith_split, String.ofList_toList]
  unfold Rewrites.rewrite
  rw [String.ofList_toList]

/-- A relative reference between local documents stands for a file in the folder of the referencing document. -/
theorem resolveUri_relative (env : LoadEnv) (hrw : env.rewrites = []) {d f r : String} (hr : ¬ isHttp r = true) (hd : ¬ isHttp (d ++ "/" ++ f) = true) (hp : '\\' ∉ (d ++ "/" ++ f).toList)
    (hpr : '\\' ∉ r.toList) (hf : '/' ∉ f.toList) : resolveUri env (d ++ "/" ++ f) r = d ++ "/" ++ r := by
  have e : (d ++ "/" ++ f).toList = d.toList ++ '/' :: f.toList := by simp [String.toList_append]
  unfold resolveUri
  dsimp only
  rw [if_pos (by simp [hr, hd]), if_neg hp, if_neg hpr, hrw, e, splitAtChar_append, splitAtChar_none hf, List.dropLast_concat, joinWith_splits]
  unfold Rewrites.rewrite
  rw [String.toList_ofList]
  apply String.toList_inj.1
  rw [String.toList_ofList]
  simp [String.toList_append]

/-- C25 fails, with this effect: of two local files with the same name in two folders, only the first is read, and both documents are the one of its text. -/
theorem C25_same_name_false (env : LoadEnv) (depth : Nat) (d d' f text : String) (t : XNode) (hrw : env.rewrites = []) (hpath : env.urlPath (d ++ "/" ++ f) = d ++ "/" ++ f)
    (hd : ¬ isHttp (d ++ "/" ++ f) = true) (hd' : ¬ isHttp (d' ++ "/" ++ f) = true) (hne : d ≠ d') (hp : '\\' ∉ (d ++ d' ++ f).toList) (hf : '/' ∉ f.toList)
    (hs : ∃ e ∈ [".xml", ".xsd", ".xhtml", ".htm", ".html"], e.toList <:+ f.toList) (hdisk : env.disk (d ++ "/" ++ f) = some text) (ht : env.parse text = .ok t) (hr : extractReferences text = .ok []) :
    loadAll env (depth + 1) {} [d ++ "/" ++ f, d' ++ "/" ++ f] = .ok { files := [(f, text)], docs := [(d ++ "/" ++ f, t), (d' ++ "/" ++ f, t)], fetched := [d ++ "/" ++ f] } := by
  have hpl : ∀ x : String, '\\' ∉ x.toList → '\\' ∉ (x ++ "/" ++ f).toList := by
    intro x hx h
    simp only [String.toList_append, List.mem_append, not_or] at h hp
    rcases h with (h | h) | h
    · exact hx h
    · exact absurd h (by decide)
    · exact hp.2 h
  have hp1 : '\\' ∉ d.toList ∧ '\\' ∉ d'.toList ∧ '\\' ∉ f.toList := by
    simp only [String.toList_append, List.mem_append, not_or] at hp
    exact ⟨hp.1.1, hp.1.2, hp.2⟩
  have hsx : ∀ x : String, hasParser (x ++ "/" ++ f) = true := by
    intro x
    obtain ⟨e, he, hsuf⟩ := hs
    exact hasParser_of ⟨e, he, hsuf.trans (by rw [String.toList_append]; exact List.suffix_append _ _)⟩
  have hn1 := fileName_local hd hp1.2.2 hf
  have hn2 := fileName_local hd' hp1.2.2 hf
  have hdiff : (d ++ "/" ++ f) ≠ (d' ++ "/" ++ f) := by
    intro e
    apply hne
    have h1 := congrArg String.toList e
    simp only [String.toList_append] at h1
    exact String.toList_inj.1 (List.append_cancel_right (List.append_cancel_right h1))
  unfold loadAll
  rw [List.foldlM_cons, loadDoc_plain env depth _ _ "." _ (resolveUri_entry env hrw hd (hpl d hp1.1)) (hpl d hp1.1)]
  rw [if_neg (by intro h; cases h), if_neg (by rw [hsx]; decide)]
  have h1 : (isHttp (d ++ "/" ++ f) || isHttp ".") = false := by rw [Bool.not_eq_true] at hd; rw [hd]; decide
  have h2 : (isHttp (d' ++ "/" ++ f) || isHttp ".") = false := by rw [Bool.not_eq_true] at hd'; rw [hd']; decide
  have hfetch : fetchFile env {} (d ++ "/" ++ f) (isHttp (d ++ "/" ++ f) || isHttp ".") = .ok (text, { files := [(f, text)], docs := [], fetched := [d ++ "/" ++ f] }) := by
    unfold fetchFile
    rw [h1, hpath, hdisk, hn1]
    rfl
  rw [hfetch]
  have hget : Dict.get? [(f, text)] f = some text := by simp [Dict.get?]
  dsimp only [Except.bind]
  rw [ht]
  dsimp only
  rw [hn1, hget]
  dsimp only
  rw [hr]
  dsimp only
  rw [List.perm_nil.1 (env.so.strings_perm [])]
  rw [List.foldlM_nil]
  dsimp only [bind, Except.bind, pure, Except.pure]
  rw [List.foldlM_cons, loadDoc_plain env depth _ _ "." _ (resolveUri_entry env hrw hd' (hpl d' hp1.2.1)) (hpl d' hp1.2.1)]
  rw [if_neg (by simp [Dict.has, Dict.set, hdiff]), if_neg (by rw [hsx]; decide)]
  unfold fetchFile
  dsimp only
  rw [hn2, hget]
  dsimp only [Except.bind]
  rw [ht]
  dsimp only
  rw [hget]
  dsimp only
  rw [hr]
  dsimp only
  rw [List.perm_nil.1 (env.so.strings_perm [])]
  simp [Dict.set, hdiff]
  rfl

/-! ## Cycles -/

namespace LoaderExample

def textX : String := "<xs:import schemaLocation=\"../b/y.xsd\"/>"
def textY : String := "<xs:import schemaLocation=\"../a/x.xsd\"/>"
def someTree : XNode := .mk (some "{http://www.w3.org/2001/XMLSchema}schema") [] none [] []
/-- A disk on which the two files refer to each other, under any path that leads to them. -/
def cyclic : LoadEnv where
  web := fun _ => none
  disk := fun p => if endsWith p.toList "a/x.xsd".toList then some textX else if endsWith p.toList "b/y.xsd".toList then some textY else none
  parse := fun _ => .ok someTree
  join := fun _ u => u
  urlPath := id
  rewrites := []
  so := .insertion

theorem refsX : extractReferences textX = .ok ["../b/y.xsd"] := by decide +kernel
theorem refsY : extractReferences textY = .ok ["../a/x.xsd"] := by decide +kernel

/-- The cached files are those of the disk. -/
def CacheOk (s : LoadState) : Prop :=
  (s.files.get? "x.xsd" = none ∨ s.files.get? "x.xsd" = some textX) ∧ (s.files.get? "y.xsd" = none ∨ s.files.get? "y.xsd" = some textY)

/-- Loading one of the two files, whatever its path is, comes to loading the other one with less room on the stack. -/
theorem cycle_step (n : Nat) (s : LoadState) (uri referencing d name text back : String) (hu : resolveUri cyclic referencing uri = d ++ "/" ++ name) (hr : ¬ isHttp referencing = true)
    (hd : ¬ isHttp (d ++ "/" ++ name) = true) (hp : '\\' ∉ (d ++ "/" ++ name).toList) (hf : '/' ∉ name.toList) (hs : ".xsd".toList <:+ name.toList) (hdisk : cyclic.disk (d ++ "/" ++ name) = some text)
    (hrefs : extractReferences text = .ok [back]) (hc : s.files.get? name = none ∨ s.files.get? name = some text) (hk : ¬ s.docs.has (d ++ "/" ++ name) = true) :
    ∃ s', (s'.files = s.files ∨ s'.files = s.files.set name text) ∧ s'.docs = s.docs.set (d ++ "/" ++ name) someTree ∧
      loadDoc cyclic (n + 1) s uri referencing = loadDoc cyclic n s' back (d ++ "/" ++ name) := by
  have hpar : hasParser (d ++ "/" ++ name) = true := hasParser_of ⟨".xsd", by simp, hs.trans (by rw [String.toList_append]; exact List.suffix_append _ _)⟩
  have hname : fileName (d ++ "/" ++ name) = name := fileName_local hd (fun h => hp (by rw [String.toList_append]; exact List.mem_append.2 (Or.inr h))) hf
  have hloc : (isHttp (d ++ "/" ++ name) || isHttp referencing) = false := by
    rw [Bool.not_eq_true] at hd hr
    rw [hd, hr]; rfl
  have hfetch : ∃ s1, fetchFile cyclic s (d ++ "/" ++ name) false = .ok (text, s1) ∧ s1.docs = s.docs ∧ s1.files.get? name = some text ∧ (s1.files = s.files ∨ s1.files = s.files.set name text) := by
    unfold fetchFile
    rw [hname]
    rcases hc with h | h
    · rw [h]
      dsimp only
      rw [if_neg (by decide), show cyclic.urlPath (d ++ "/" ++ name) = d ++ "/" ++ name from rfl, hdisk, hname]
      refine ⟨_, rfl, rfl, ?_, Or.inr rfl⟩
      dsimp only
      rw [Dict.get?_set, if_pos rfl]
    · rw [h]
      exact ⟨s, rfl, rfl, h, Or.inl rfl⟩
  obtain ⟨s1, e1, d1, f1, f2⟩ := hfetch
  refine ⟨{ s1 with docs := s1.docs.set (d ++ "/" ++ name) someTree }, f2, by rw [d1], ?_⟩
  rw [loadDoc_plain cyclic n s uri referencing _ hu hp, if_neg hk, if_neg (by rw [hpar]; decide), hloc, e1]
  dsimp only [Except.bind]
  rw [show cyclic.parse text = .ok someTree from rfl]
  dsimp only
  rw [hname, f1]
  dsimp only
  rw [hrefs]
  dsimp only
  rw [show cyclic.so.strings [back] = [back] from rfl, List.foldlM_cons]
  cases loadDoc cyclic n { s1 with docs := s1.docs.set (d ++ "/" ++ name) someTree } back (d ++ "/" ++ name) <;> rfl

theorem cacheOk_of {s s' : LoadState} (hs : CacheOk s) (h : s'.files = s.files ∨ s'.files = s.files.set "x.xsd" textX ∨ s'.files = s.files.set "y.xsd" textY) : CacheOk s' := by
  unfold CacheOk at hs ⊢
  rcases h with h | h | h
  · rw [h]; exact hs
  · rw [h, Dict.get?_set, Dict.get?_set, if_pos rfl, if_neg (by decide)]; exact ⟨Or.inr rfl, hs.2⟩
  · rw [h, Dict.get?_set, Dict.get?_set, if_pos rfl, if_neg (by decide)]; exact ⟨hs.1, Or.inr rfl⟩

/-- Paths that begin with `a` are local. -/
theorem local_a (e : String) : ¬ isHttp ("a" ++ e) = true := by
  unfold isHttp
  rw [String.toList_append]
  simp [startsWith]

theorem notMem_append {c : Char} {a b : String} (ha : c ∉ a.toList) (hb : c ∉ b.toList) : c ∉ (a ++ b).toList := by
  rw [String.toList_append]
  intro h
  rcases List.mem_append.1 h with h | h
  · exact ha h
  · exact hb h

theorem cycle_half (n : Nat) (s : LoadState) (e here there folder back ref text : String) (he : '\\' ∉ e.toList) (hk : ∀ k ∈ s.docs.keys, k.length < ("a" ++ e).length + 11)
    (href : "/" ++ ref = folder ++ "/" ++ there) (h1 : '\\' ∉ here.toList) (h2 : '/' ∉ here.toList) (h3 : '\\' ∉ there.toList) (h4 : '/' ∉ there.toList) (h5 : '\\' ∉ ref.toList) (h6 : ¬ isHttp ref = true)
    (h7 : '\\' ∉ folder.toList) (h8 : ".xsd".toList <:+ there.toList) (h9 : cyclic.disk ("a" ++ (e ++ folder) ++ "/" ++ there) = some text) (h10 : extractReferences text = .ok [back])
    (h11 : s.files.get? there = none ∨ s.files.get? there = some text) (h12 : ref.length = 10) (h13 : folder.length = 5) :
    ∃ s', (s'.files = s.files ∨ s'.files = s.files.set there text) ∧ (∀ k ∈ s'.docs.keys, k.length < ("a" ++ (e ++ folder)).length + 11) ∧
      loadDoc cyclic (n + 1) s ref ("a" ++ e ++ "/" ++ here) = loadDoc cyclic n s' back ("a" ++ (e ++ folder) ++ "/" ++ there) := by
  have hl : ("a" ++ (e ++ folder) ++ "/" ++ there).length = ("a" ++ e).length + 11 := by
    have : "a" ++ (e ++ folder) ++ "/" ++ there = "a" ++ e ++ ("/" ++ ref) := by rw [href]; simp [String.append_assoc]
    rw [this, String.length_append, String.length_append "/", h12]
    rfl
  have hres : resolveUri cyclic ("a" ++ e ++ "/" ++ here) ref = "a" ++ (e ++ folder) ++ "/" ++ there := by
    rw [resolveUri_relative cyclic rfl h6 _ _ h5 h2]
    · rw [String.append_assoc, href]; simp [String.append_assoc]
    · rw [String.append_assoc, String.append_assoc]; exact local_a _
    · exact notMem_append (notMem_append (notMem_append (by decide) he) (by decide)) h1
  obtain ⟨s', f, d, e'⟩ := cycle_step n s ref ("a" ++ e ++ "/" ++ here) ("a" ++ (e ++ folder)) there text back hres (by rw [String.append_assoc, String.append_assoc]; exact local_a _)
    (by rw [String.append_assoc, String.append_assoc]; exact local_a _) (notMem_append (notMem_append (notMem_append (by decide) (notMem_append he h7)) (by decide)) h3) h4 h8 h9 h10 h11
    (by
      intro h
      have := hk _ ((Dict.has_iff_mem_keys _ _).1 h)
      rw [hl] at this
      exact Nat.lt_irrefl _ this)
  refine ⟨s', f, ?_, e'⟩
  intro k h
  have hlen : ("a" ++ (e ++ folder)).length = ("a" ++ e).length + 5 := by
    simp only [String.length_append, h13]
    omega
  rw [hlen]
  rw [d, Dict.keys_set] at h
  have : k ∈ s.docs.keys ∨ k = "a" ++ (e ++ folder) ++ "/" ++ there := by
    revert h
    unfold appendNew
    split
    · exact Or.inl
    · intro h
      rcases List.mem_append.1 h with h | h
      · exact Or.inl h
      · exact Or.inr (List.mem_singleton.1 h)
  rcases this with h | h
  · have := hk k h; omega
  · rw [h, hl]; omega

theorem cycle_run : ∀ (n : Nat) (s : LoadState) (e : String), CacheOk s → '\\' ∉ e.toList → (∀ k ∈ s.docs.keys, k.length < ("a" ++ e).length + 11) →
    loadDoc cyclic n s "../b/y.xsd" ("a" ++ e ++ "/" ++ "x.xsd") = .error .recursionError ∧ loadDoc cyclic n s "../a/x.xsd" ("a" ++ e ++ "/" ++ "y.xsd") = .error .recursionError := by
  intro n
  induction n with
  | zero => intros; exact ⟨rfl, rfl⟩
  | succ n ih =>
    intro s e hs he hk
    have hdx : cyclic.disk ("a" ++ (e ++ "/../a") ++ "/" ++ "x.xsd") = some textX := by
      have : endsWith ("a" ++ (e ++ "/../a") ++ "/" ++ "x.xsd").toList "a/x.xsd".toList = true := by
        rw [endsWith_iff]
        exact ⟨("a" ++ e ++ "/../").toList, by simp [String.toList_append]⟩
      unfold cyclic
      dsimp only
      rw [if_pos this]
    have hdy : cyclic.disk ("a" ++ (e ++ "/../b") ++ "/" ++ "y.xsd") = some textY := by
      have h1 : endsWith ("a" ++ (e ++ "/../b") ++ "/" ++ "y.xsd").toList "b/y.xsd".toList = true := by
        rw [endsWith_iff]
        exact ⟨("a" ++ e ++ "/../").toList, by simp [String.toList_append]⟩
      have h2 : ¬ endsWith ("a" ++ (e ++ "/../b") ++ "/" ++ "y.xsd").toList "a/x.xsd".toList = true := by
        rw [endsWith_iff]
        rintro ⟨p, hp⟩
        have h3 : ("a" ++ (e ++ "/../b") ++ "/" ++ "y.xsd").toList = ("a" ++ e ++ "/../").toList ++ "b/y.xsd".toList := by simp [String.toList_append]
        rw [h3] at hp
        have := (List.append_inj' hp (by decide)).2
        exact absurd this (by decide)
      unfold cyclic
      dsimp only
      rw [if_neg h2, if_pos h1]
    constructor
    · obtain ⟨s', f, k, e'⟩ := cycle_half n s e "x.xsd" "y.xsd" "/../b" "../a/x.xsd" "../b/y.xsd" textY he hk (by decide) (by decide) (by decide) (by decide) (by decide) (by decide) (by decide) (by decide)
        ⟨['y'], rfl⟩ hdy refsY hs.2 rfl rfl
      rw [e']
      exact (ih s' (e ++ "/../b") (cacheOk_of hs (by rcases f with f | f <;> simp [f])) (notMem_append he (by decide)) k).2
    · obtain ⟨s', f, k, e'⟩ := cycle_half n s e "y.xsd" "x.xsd" "/../a" "../b/y.xsd" "../a/x.xsd" textX he hk (by decide) (by decide) (by decide) (by decide) (by decide) (by decide) (by decide) (by decide)
        ⟨['x'], rfl⟩ hdx refsX hs.1 rfl rfl
      rw [e']
      exact (ih s' (e ++ "/../a") (cacheOk_of hs (by rcases f with f | f <;> simp [f])) (notMem_append he (by decide)) k).1

/-! Two files in one folder that refer to each other, without `..`: they can be read. -/

def ringText (u : String) : String := if u = "f/a.xsd" then "<xs:include schemaLocation='b.xsd'/>" else "<xs:include schemaLocation='a.xsd'/><link:loc xlink:href='#here'/>"
def ring : LoadEnv where
  web := fun _ => none
  disk := fun p => if p = "f/a.xsd" ∨ p = "f/b.xsd" then some (ringText p) else none
  parse := fun _ => .ok someTree
  join := fun _ u => u
  urlPath := id
  rewrites := []
  so := .insertion

theorem ring_available {u v : String} (h : ¬ (isHttp v = true ∨ isHttp u = true)) (hv : v = "f/a.xsd" ∨ v = "f/b.xsd") : Available ring [] u v (ringText v) := by
  unfold Available
  rw [show Dict.get? ([] : Dict String String) (fileName v) = none from rfl]
  dsimp only
  rw [if_neg h]
  unfold ring
  dsimp only [id]
  rw [if_pos hv]

example : Readable ring [] ringText ["f/a.xsd", "f/b.xsd"] where
  plain := by decide
  suffix := by
    intro u hu
    refine ⟨".xsd", by simp, ?_⟩
    rcases List.mem_cons.1 hu with h | h
    · rw [h]; exact ⟨"f/a".toList, rfl⟩
    · rw [List.mem_singleton.1 h]; exact ⟨"f/b".toList, rfl⟩
  tree := fun u _ => ⟨someTree, rfl⟩
  refs := by
    intro u hu
    rcases List.mem_cons.1 hu with h | h
    · rw [h]; exact ⟨["b.xsd"], by decide +kernel⟩
    · rw [List.mem_singleton.1 h]; exact ⟨["a.xsd"], by decide +kernel⟩
  closed := by
    intro u hu v hv
    obtain ⟨rs, r, h1, h2, rfl⟩ := hv
    rcases List.mem_cons.1 hu with h | h
    · subst h
      rw [show extractReferences (ringText "f/a.xsd") = .ok ["b.xsd"] by decide +kernel] at h1
      cases h1
      rw [List.mem_singleton.1 h2, show resolveUri ring "f/a.xsd" "b.xsd" = "f/b.xsd" by decide +kernel]
      exact ⟨by simp, ring_available (by decide) (Or.inr rfl)⟩
    · rw [List.mem_singleton.1 h] at h1 ⊢
      rw [show extractReferences (ringText "f/b.xsd") = .ok ["a.xsd"] by decide +kernel] at h1
      cases h1
      rw [List.mem_singleton.1 h2, show resolveUri ring "f/b.xsd" "a.xsd" = "f/a.xsd" by decide +kernel]
      exact ⟨by simp, ring_available (by decide) (Or.inl rfl)⟩
  names := by decide +kernel
  paths := fun _ _ _ => rfl

example : (loadAll ring 3 {} ["f/a.xsd"]).toOption.map (fun s => s.docs.keys) = some ["f/a.xsd", "f/b.xsd"] := by decide +kernel

end LoaderExample

open LoaderExample in
/-- C26 fails: two local files that refer to each other with `..` are loaded again and again under longer and longer paths, so loading never ends by itself. -/
theorem C26_cycle_false (depth : Nat) : loadAll cyclic depth {} ["a/x.xsd"] = .error .recursionError := by
  cases depth with
  | zero => rfl
  | succ n =>
    obtain ⟨s', f, d, e⟩ := cycle_step n {} "a/x.xsd" "." "a" "x.xsd" textX "../b/y.xsd" (resolveUri_entry cyclic rfl (by decide) (by decide)) (by decide) (by decide) (by decide) (by decide) ⟨['x'], rfl⟩
      (by decide +kernel) refsX (Or.inl rfl) (by decide)
    unfold loadAll
    rw [List.foldlM_cons, e]
    have := (cycle_run n s' "" (cacheOk_of (s := {}) ⟨Or.inl rfl, Or.inl rfl⟩ (by rcases f with f | f <;> simp [f])) (by decide) (by
      intro k hk
      rw [d] at hk
      have : k = "a/x.xsd" := List.mem_singleton.1 hk
      rw [this]
      decide)).1
    rw [show "a" ++ "/" ++ "x.xsd" = "a" ++ "" ++ "/" ++ "x.xsd" from rfl, this]
    rfl

end Brel
