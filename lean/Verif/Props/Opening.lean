import Verif.Props.Loader

/-! Catalogs (C88), the choice of a parser (C49), and the files that a path stands for (C89). -/

namespace Brel

/-! ## Kinds of parsers -/

theorem any_endsWith (f : String) (l : List String) : (l.any (fun e => endsWith f.toList e.toList)) = true ↔ EndsWithAny l f := by
  rw [List.any_eq_true]
  unfold EndsWithAny
  simp only [endsWith_iff]

theorem all_endsWith (files l : List String) : (files.all (fun f => l.any (fun e => endsWith f.toList e.toList))) = true ↔ ∀ f ∈ files, EndsWithAny l f := by
  rw [List.all_eq_true]
  simp only [any_endsWith]

theorem xml_supported {f : String} (h : EndsWithAny [".xml", ".xsd"] f) : EndsWithAny [".xml", ".xsd", ".htm", ".html", ".xhtml"] f := by
  obtain ⟨e, he, hs⟩ := h
  exact ⟨e, by simp only [List.mem_cons, List.not_mem_nil, or_false] at he ⊢; rcases he with h | h <;> simp [h], hs⟩

/-- C49: the XML parser is chosen exactly if all files are `.xml` or `.xsd`, the parser of inline XBRL exactly if all are supported and some is inline, and otherwise there is an error. -/
theorem C49_kinds (files : List String) :
    (parserKind files = .ok .xml ↔ KindFor files (some .xml)) ∧ (parserKind files = .ok .xhtml ↔ KindFor files (some .xhtml)) ∧ (parserKind files = .error .valueError ↔ KindFor files none) := by
  unfold parserKind KindFor
  dsimp only
  by_cases h1 : ∀ f ∈ files, EndsWithAny [".xml", ".xsd"] f
  · rw [if_pos ((all_endsWith _ _).2 h1)]
    refine ⟨⟨fun _ => h1, fun _ => rfl⟩, ⟨fun h => (by cases h), ?_⟩, ⟨fun h => (by cases h), ?_⟩⟩
    · rintro ⟨_, f, hf, e, he, hs⟩
      exfalso
      obtain ⟨e', he', hs'⟩ := h1 f hf
      have hle : e'.toList.length ≤ e.toList.length := by
        simp only [List.mem_cons, List.not_mem_nil, or_false] at he he'
        rcases he with rfl | rfl | rfl <;> rcases he' with rfl | rfl <;> decide
      have := (endsWith_iff _ _).2 (List.suffix_of_suffix_length_le hs' hs hle)
      simp only [List.mem_cons, List.not_mem_nil, or_false] at he he'
      rcases he with rfl | rfl | rfl <;> rcases he' with rfl | rfl <;> exact absurd this (by decide)
    · rintro ⟨f, hf, h⟩
      exact absurd (xml_supported (h1 f hf)) h
  · rw [if_neg (fun h => h1 ((all_endsWith _ _).1 h))]
    have hsome : (∀ f ∈ files, EndsWithAny [".xml", ".xsd", ".htm", ".html", ".xhtml"] f) → ∃ f ∈ files, EndsWithAny [".htm", ".html", ".xhtml"] f := by
      intro h
      obtain ⟨f, hf, hn⟩ : ∃ f ∈ files, ¬ EndsWithAny [".xml", ".xsd"] f := by
        simpa only [Classical.not_forall, exists_prop] using h1
      refine ⟨f, hf, ?_⟩
      obtain ⟨e, he, hs⟩ := h f hf
      refine ⟨e, ?_, hs⟩
      simp only [List.mem_cons, List.not_mem_nil, or_false] at he ⊢
      rcases he with rfl | rfl | he
      · exact absurd ⟨_, by simp, hs⟩ hn
      · exact absurd ⟨_, by simp, hs⟩ hn
      · exact he
    by_cases h2 : ∀ f ∈ files, EndsWithAny [".xml", ".xsd", ".htm", ".html", ".xhtml"] f
    · rw [if_pos ((all_endsWith _ _).2 h2)]
      refine ⟨⟨fun h => (by cases h), fun h => absurd h h1⟩, ⟨fun _ => ⟨h2, hsome h2⟩, fun _ => rfl⟩, ⟨fun h => (by cases h), ?_⟩⟩
      rintro ⟨f, hf, h⟩
      exact absurd (h2 f hf) h
    · rw [if_neg (fun h => h2 ((all_endsWith _ _).1 h))]
      refine ⟨⟨fun h => (by cases h), fun h => absurd h h1⟩, ⟨fun h => (by cases h), fun h => absurd h.1 h2⟩, ⟨fun _ => ?_, fun _ => rfl⟩⟩
      simpa only [Classical.not_forall, exists_prop] using h2

/-! ## Catalogs -/

theorem head_sorted (l : List String) :
    match (sortBy (fun a b => decide (a.length ≤ b.length)) l).head? with
    | none => l = []
    | some c => ∃ pre post, l = pre ++ c :: post ∧ (∀ p ∈ pre, c.length < p.length) ∧ (∀ p ∈ post, c.length ≤ p.length) := by
  induction l with
  | nil => rfl
  | cons x l ih =>
    unfold sortBy
    cases h : sortBy (fun a b => decide (a.length ≤ b.length)) l with
    | nil =>
      rw [h] at ih
      have ih : l = [] := ih
      exact ⟨[], l, rfl, (by intro p hp; cases hp), (by intro p hp; rw [ih] at hp; cases hp)⟩
    | cons y ys =>
      rw [h] at ih
      have ih : ∃ pre post, l = pre ++ y :: post ∧ (∀ p ∈ pre, y.length < p.length) ∧ (∀ p ∈ post, y.length ≤ p.length) := ih
      obtain ⟨pre, post, e, h1, h2⟩ := ih
      unfold insertBy
      by_cases hxy : x.length ≤ y.length
      · rw [if_pos (decide_eq_true hxy)]
        refine ⟨[], l, rfl, (by intro p hp; cases hp), ?_⟩
        intro p hp
        rw [e] at hp
        rcases List.mem_append.1 hp with hp | hp
        · exact Nat.le_of_lt (Nat.lt_of_le_of_lt hxy (h1 p hp))
        · rcases List.mem_cons.1 hp with rfl | hp
          · exact hxy
          · exact Nat.le_trans hxy (h2 p hp)
      · rw [if_neg (by simpa using hxy)]
        refine ⟨x :: pre, post, by rw [e]; rfl, List.forall_mem_cons.2 ⟨by omega, h1⟩, h2⟩

/-- C88: the catalog is the one with the shortest path, the first of them if there are several; there is none exactly if no path is that of a catalog. -/
theorem C88_chosen (paths : List String) :
    match catalogPath paths with
    | some c => ShortestCatalog paths c
    | none => ∀ p ∈ paths, ¬ IsCatalog p := by
  have h := head_sorted (paths.filter (fun p => endsWith p.toList "META-INF/catalog.xml".toList))
  unfold catalogPath
  revert h
  cases (sortBy (fun a b => decide (a.length ≤ b.length)) (paths.filter (fun p => endsWith p.toList "META-INF/catalog.xml".toList))).head? with
  | none =>
    intro h p hp hc
    have h : paths.filter _ = [] := h
    exact List.filter_eq_nil_iff.1 h p hp ((endsWith_iff _ _).2 hc)
  | some c =>
    rintro ⟨pre, post, e, h1, h2⟩
    obtain ⟨l1, l2, rfl, e1, e2⟩ := List.filter_eq_append_iff.1 e
    obtain ⟨l3, l4, rfl, e3, hc, e4⟩ := List.filter_eq_cons_iff.1 e2
    refine ⟨l1 ++ l3, l4, by simp, (endsWith_iff _ _).1 hc, ?_, ?_⟩
    · intro p hp hcat
      have hcat := (endsWith_iff _ _).2 hcat
      rcases List.mem_append.1 hp with hp | hp
      · exact h1 p (by rw [← e1]; exact List.mem_filter.2 ⟨hp, hcat⟩)
      · exact absurd hcat (e3 p hp)
    · intro p hp hcat
      exact h2 p (by rw [← e4]; exact List.mem_filter.2 ⟨hp, (endsWith_iff _ _).2 hcat⟩)

example : catalogPath ["p/deep/META-INF/catalog.xml", "p/META-INF/catalog.xml", "p/a.xsd", "q/META-INF/catalog.xml"] = some "p/META-INF/catalog.xml" := by decide +kernel

theorem catalogChild_spec (folder : List Char) (pieces : List (List Char)) (hp : pieces.dropLast = splitAtChar '/' folder) (rw' : Rewrites) (errs : List String) (x : XNode) :
    catalogChild pieces (rw', errs) x =
      if CompleteRule x then
        if rw'.has (ruleSays folder x).1 = true then .error .valueError else .ok (rw'.set (ruleSays folder x).1 (ruleSays folder x).2, errs)
      else .ok (rw', errs ++ ["REWRITE_URI_MISSING_ATTRIBUTE"]) := by
  have hcr : CompleteRule x ↔ x.attr? "uriStartString" ∉ [none, some ""] ∧ x.attr? "rewritePrefix" ∉ [none, some ""] := Iff.rfl
  unfold catalogChild ruleSays
  cases h1 : x.attr? "uriStartString" with
  | none => rw [if_neg (by rw [hcr, h1]; simp)]
  | some o =>
    cases h2 : x.attr? "rewritePrefix" with
    | none => rw [if_neg (by rw [hcr, h2]; simp)]
    | some r =>
      dsimp only
      rw [h1, h2] at hcr
      by_cases he : o = "" ∨ r = ""
      · rw [if_pos he, if_neg (by rw [hcr]; simp; intro h; exact he.resolve_left h)]
      · rw [if_neg he, if_pos (show CompleteRule x by rw [hcr]; simpa using he), hp, joinWith_splits]
        rfl

theorem catalog_fold (folder : List Char) (pieces : List (List Char)) (hp : pieces.dropLast = splitAtChar '/' folder) (l : List XNode) : ∀ (rw' : Rewrites) (errs : List String), rw'.keys.Nodup →
    match l.foldlM (catalogChild pieces) (rw', errs) with
    | .ok (r, es) => r = rw' ++ (l.filter (fun x => decide (CompleteRule x))).map (ruleSays folder) ∧ r.keys.Nodup ∧
        es = errs ++ (l.filter (fun x => decide (¬ CompleteRule x))).map (fun _ => "REWRITE_URI_MISSING_ATTRIBUTE")
    | .error e => e = .valueError ∧ ¬ (rw'.keys ++ ((l.filter (fun x => decide (CompleteRule x))).map (ruleSays folder)).map (·.1)).Nodup := by
  induction l with
  | nil => intro rw' errs h; exact ⟨by simp, h, by simp⟩
  | cons x l ih =>
    intro rw' errs h
    rw [List.foldlM_cons, catalogChild_spec folder pieces hp]
    by_cases hc : CompleteRule x
    · rw [if_pos hc]
      have f1 : (x :: l).filter (fun x => decide (CompleteRule x)) = x :: l.filter (fun x => decide (CompleteRule x)) := List.filter_cons_of_pos (by simpa using hc)
      have f2 : (x :: l).filter (fun x => decide (¬ CompleteRule x)) = l.filter (fun x => decide (¬ CompleteRule x)) := List.filter_cons_of_neg (by simpa using hc)
      rw [f1, f2]
      by_cases hh : rw'.has (ruleSays folder x).1 = true
      · rw [if_pos hh]
        refine ⟨rfl, ?_⟩
        intro hn
        have := (List.nodup_append.1 hn).2.2 _ ((Dict.has_iff_mem_keys _ _).1 hh) (ruleSays folder x).1 (by simp)
        exact this rfl
      · rw [if_neg hh]
        have hnk : (ruleSays folder x).1 ∉ rw'.keys := fun hm => hh ((Dict.has_iff_mem_keys _ _).2 hm)
        have hset : rw'.set (ruleSays folder x).1 (ruleSays folder x).2 = rw' ++ [ruleSays folder x] := Dict.set_of_not_mem _ _ _ hnk
        have hkeys : Dict.keys (rw' ++ [ruleSays folder x] : Rewrites) = rw'.keys ++ [(ruleSays folder x).1] := by unfold Dict.keys; rw [List.map_append]; rfl
        have := ih (rw'.set (ruleSays folder x).1 (ruleSays folder x).2) errs (Dict.keys_set_nodup h _ _)
        rw [hset, hkeys] at this
        rw [hset]
        dsimp only [bind, Except.bind]
        revert this
        cases l.foldlM (catalogChild pieces) (rw' ++ [ruleSays folder x], errs) with
        | error e => rintro ⟨h1, h2⟩; exact ⟨h1, by simpa using h2⟩
        | ok p => obtain ⟨r, es⟩ := p; rintro ⟨h1, h2, h3⟩; exact ⟨by simpa using h1, h2, h3⟩
    · rw [if_neg hc]
      have f1 : (x :: l).filter (fun x => decide (CompleteRule x)) = l.filter (fun x => decide (CompleteRule x)) := List.filter_cons_of_neg (by simpa using hc)
      have f2 : (x :: l).filter (fun x => decide (¬ CompleteRule x)) = x :: l.filter (fun x => decide (¬ CompleteRule x)) := List.filter_cons_of_pos (by simpa using hc)
      rw [f1, f2]
      have := ih rw' (errs ++ ["REWRITE_URI_MISSING_ATTRIBUTE"]) h
      dsimp only [bind, Except.bind]
      revert this
      cases l.foldlM (catalogChild pieces) (rw', errs ++ ["REWRITE_URI_MISSING_ATTRIBUTE"]) with
      | error e => exact id
      | ok p => obtain ⟨r, es⟩ := p; rintro ⟨h1, h2, h3⟩; exact ⟨h1, h2, by simpa using h3⟩

/-- C88: the rewritings are those of the complete rules of the catalog, in order; another root and each incomplete rule are reported. A repeated start text, which should be reported, makes
the opening fail, and nothing else does. -/
theorem C88_rules (folder : String) (root : XNode) :
    let said := ((rules root).filter (fun x => decide (CompleteRule x))).map (ruleSays folder.toList)
    match parseCatalog (folder ++ "/catalog.xml") root with
    | .ok (rewrites, reports) => (said.map (·.1)).Nodup ∧ rewrites = said ∧
        reports = (if root.tag = some "{urn:oasis:names:tc:entity:xmlns:xml:catalog}catalog" then [] else ["INVALID_CATALOG_ROOT_NODE"]) ++
          ((rules root).filter (fun x => decide (¬ CompleteRule x))).map (fun _ => "REWRITE_URI_MISSING_ATTRIBUTE")
    | .error e => ¬ (said.map (·.1)).Nodup ∧ e = .valueError := by
  have hp : (splitAtChar '/' (folder ++ "/catalog.xml").toList).dropLast = splitAtChar '/' folder.toList := by
    have e : (folder ++ "/catalog.xml").toList = folder.toList ++ '/' :: "catalog.xml".toList := by rw [String.toList_append]; rfl
    rw [e, splitAtChar_append, splitAtChar_none (c := '/') (a := "catalog.xml".toList) (by decide), List.dropLast_concat]
  have hr : root.children.filter (fun x => decide (x.tag = some ("{" ++ oasisNs ++ "}rewriteURI"))) = rules root := by
    rw [show "{" ++ oasisNs ++ "}rewriteURI" = "{urn:oasis:names:tc:entity:xmlns:xml:catalog}rewriteURI" by decide]
    rfl
  unfold parseCatalog
  dsimp only
  rw [hr]
  have := catalog_fold folder.toList _ hp (rules root) [] (if root.tag ≠ some ("{" ++ oasisNs ++ "}catalog") then ["INVALID_CATALOG_ROOT_NODE"] else []) List.nodup_nil
  revert this
  cases (rules root).foldlM (catalogChild (splitAtChar '/' (folder ++ "/catalog.xml").toList)) ([], if root.tag ≠ some ("{" ++ oasisNs ++ "}catalog") then ["INVALID_CATALOG_ROOT_NODE"] else []) with
  | error e => rintro ⟨h1, h2⟩; exact ⟨h2, h1⟩
  | ok p =>
    obtain ⟨r, es⟩ := p
    rintro ⟨h1, h2, h3⟩
    rw [List.nil_append] at h1
    refine ⟨?_, h1, ?_⟩
    · rw [h1] at h2; exact h2
    · rw [h3, show "{" ++ oasisNs ++ "}catalog" = "{urn:oasis:names:tc:entity:xmlns:xml:catalog}catalog" by decide]
      by_cases h : root.tag = some "{urn:oasis:names:tc:entity:xmlns:xml:catalog}catalog"
      · rw [if_pos h, if_neg (fun hn => hn h)]
      · rw [if_neg h, if_pos h]

/-- Every catalog is in a folder. -/
theorem catalog_folder {c : String} (h : IsCatalog c) : ∃ folder, c = folder ++ "/catalog.xml" := by
  obtain ⟨p, hp⟩ := h
  refine ⟨String.ofList (p ++ "META-INF".toList), String.toList_inj.1 ?_⟩
  rw [String.toList_append, String.toList_ofList, List.append_assoc, ← hp]
  rfl

namespace CatalogExample

def rule (o r : String) : XNode := .mk (some "{urn:oasis:names:tc:entity:xmlns:xml:catalog}rewriteURI") [("uriStartString", o), ("rewritePrefix", r)] none [] []
def incomplete : XNode := .mk (some "{urn:oasis:names:tc:entity:xmlns:xml:catalog}rewriteURI") [("uriStartString", "http://b/")] none [] []
def catalog (l : List XNode) : XNode := .mk (some "{urn:oasis:names:tc:entity:xmlns:xml:catalog}catalog") [] none [] l

example : (parseCatalog "p/META-INF/catalog.xml" (catalog [rule "http://a/" "../a/", incomplete])).toOption =
    some ([("http://a/".toList, "p/META-INF/../a/".toList)], ["REWRITE_URI_MISSING_ATTRIBUTE"]) := by decide +kernel

end CatalogExample

open CatalogExample in
/-- C88 fails for a repeated start text: there is no report, the opening fails. -/
theorem C88_repeated_false : (parseCatalog "p/META-INF/catalog.xml" (catalog [rule "http://a/" "../a/", rule "http://a/" "../a/"])).toOption = none := by decide +kernel

/-! ## Parsers of filings -/

theorem kindFor_erase {files : List String} {c : String} (hc : c ∈ files) (hx : EndsWithAny [".xml"] c) (k : ParserKind) : KindFor (files.erase c) (some k) → KindFor files (some k) := by
  have hcx : EndsWithAny [".xml", ".xsd"] c := by
    obtain ⟨e, he, hs⟩ := hx
    exact ⟨e, by simp [List.mem_singleton.1 he], hs⟩
  cases k with
  | xml =>
    intro h f hf
    by_cases e : f = c
    · rw [e]; exact hcx
    · exact h f ((List.mem_erase_of_ne e).2 hf)
  | xhtml =>
    rintro ⟨h, f, hf, hs⟩
    refine ⟨?_, f, List.mem_of_mem_erase hf, hs⟩
    intro f hf
    by_cases e : f = c
    · rw [e]; exact xml_supported hcx
    · exact h f ((List.mem_erase_of_ne e).2 hf)

/-- C49: the parser of a filing that can be opened is the one for all its files, the catalog among them. -/
theorem C49_created (env : LoadEnv) (depth : Nat) (cache : Dict String String) (files : List String) (k : ParserKind) (s : LoadState) (reports : List String)
    (h : createParser env depth cache files = .ok (k, s, reports)) : files ≠ [] ∧ KindFor files (some k) := by
  unfold createParser at h
  by_cases hf : files = []
  · rw [if_pos hf] at h; cases h
  · rw [if_neg hf] at h
    refine ⟨hf, ?_⟩
    have hk : ∀ (rest : List String) (r : Rewrites) (es : List String),
        (do
          let s ← loadAll { env with rewrites := r } depth { files := cache } rest
          let k ← parserKind rest
          return (k, s, es) : Except PyErr (ParserKind × LoadState × List String)) = .ok (k, s, reports) → KindFor rest (some k) := by
      intro rest r es h
      cases hl : loadAll { env with rewrites := r } depth { files := cache } rest with
      | error e => rw [hl] at h; cases h
      | ok s' =>
        rw [hl] at h
        cases hp : parserKind rest with
        | error e =>
          dsimp only [bind, Except.bind] at h
          rw [hp] at h
          cases h
        | ok k' =>
          dsimp only [bind, Except.bind] at h
          rw [hp] at h
          cases h
          cases k with
          | xml => exact (C49_kinds rest).1.1 hp
          | xhtml => exact (C49_kinds rest).2.1.1 hp
    have hcat := C88_chosen files
    cases hc : catalogPath files with
    | none =>
      rw [hc] at h
      exact hk files [] [] h
    | some c =>
      rw [hc] at h hcat
      obtain ⟨pre, post, e, hcc, _⟩ := hcat
      have hmem : c ∈ files := by rw [e]; simp
      apply kindFor_erase hmem ⟨".xml", by simp, List.IsSuffix.trans (by exact ⟨"META-INF/catalog".toList, by decide⟩) hcc⟩
      dsimp only at h
      cases hd : env.disk c with
      | none => rw [hd] at h; cases h
      | some text =>
        rw [hd] at h
        dsimp only at h
        cases hp : env.parse text with
        | error e => rw [hp] at h; cases h
        | ok root =>
          rw [hp] at h
          cases hpc : parseCatalog c root with
          | error e =>
            dsimp only [bind, Except.bind] at h
            rw [hpc] at h
            cases h
          | ok p =>
            dsimp only [bind, Except.bind] at h
            rw [hpc] at h
            exact hk _ _ _ h

/-- C49: without files, or with a file of another suffix, no parser is created. -/
theorem C49_refused (env : LoadEnv) (depth : Nat) (cache : Dict String String) (files : List String) (h : files = [] ∨ KindFor files none) : ∃ e, createParser env depth cache files = .error e := by
  cases hc : createParser env depth cache files with
  | error e => exact ⟨e, rfl⟩
  | ok p =>
    obtain ⟨k, s, reports⟩ := p
    obtain ⟨h1, h2⟩ := C49_created env depth cache files k s reports hc
    rcases h with h | ⟨f, hf, hn⟩
    · exact absurd h h1
    · cases k with
      | xml => exact absurd (xml_supported (h2 f hf)) hn
      | xhtml => exact absurd (h2.1 f hf) hn

/-! ## Paths -/

theorem suffix_name {e : List Char} (he : '/' ∉ e) (a n : List Char) : e <:+ a ++ '/' :: n ↔ e <:+ n := by
  constructor
  · rintro ⟨p, hp⟩
    rcases List.append_eq_append_iff.1 hp with ⟨m, h1, h2⟩ | ⟨m, h1, h2⟩
    · cases m with
      | nil => exact absurd (by rw [List.nil_append] at h2; rw [h2]; simp) he
      | cons x m => exact absurd (by rw [h2]; simp) he
    · cases m with
      | nil => exact absurd (by rw [List.nil_append] at h2; rw [← h2]; simp) he
      | cons x m => exact ⟨m, (List.cons.inj h2).2.symm⟩
  · intro h
    exact h.trans ⟨a ++ ['/'], by simp⟩

theorem folderSuffix_iff (path n : String) : folderSuffix (path ++ "/" ++ n) = true ↔ EndsWithAny [".xml", ".xhtml", ".htm", "html", ".xsd"] n := by
  unfold folderSuffix
  rw [any_endsWith]
  have e : (path ++ "/" ++ n).toList = path.toList ++ '/' :: n.toList := by simp [String.toList_append]
  unfold EndsWithAny
  rw [e]
  constructor
  · rintro ⟨s, hs, h⟩
    refine ⟨s, hs, (suffix_name ?_ _ _).1 h⟩
    exact (show ∀ s ∈ [".xml", ".xhtml", ".htm", "html", ".xsd"], '/' ∉ s.toList by decide) s hs
  · rintro ⟨s, hs, h⟩
    refine ⟨s, hs, (suffix_name ?_ _ _).2 h⟩
    exact (show ∀ s ∈ [".xml", ".xhtml", ".htm", "html", ".xsd"], '/' ∉ s.toList by decide) s hs

mutual
theorem mem_load (path p : String) : ∀ f : Folder, p ∈ f.load path ↔ ∃ ds n, Contains f ds n ∧ p = pathTo path ds n ∧ EndsWithAny [".xml", ".xhtml", ".htm", "html", ".xsd"] n
  | .mk files folders => by
    rw [Folder.load, List.mem_append, mem_loadFolders path p folders]
    constructor
    · rintro (h | ⟨d, f, hd, ds, n, h1, h2, h3⟩)
      · obtain ⟨h1, h2⟩ := List.mem_filter.1 h
        obtain ⟨n, hn, rfl⟩ := List.mem_map.1 h1
        exact ⟨[], n, .here hn, rfl, (folderSuffix_iff path n).1 h2⟩
      · exact ⟨d :: ds, n, .inner hd h1, h2, h3⟩
    · rintro ⟨ds, n, h1, h2, h3⟩
      cases h1 with
      | here hn => exact Or.inl (List.mem_filter.2 ⟨List.mem_map.2 ⟨n, hn, h2.symm⟩, by rw [h2]; exact (folderSuffix_iff path n).2 h3⟩)
      | inner hd h1 => exact Or.inr ⟨_, _, hd, _, n, h1, h2, h3⟩
theorem mem_loadFolders (path p : String) : ∀ l : List (String × Folder), p ∈ loadFolders path l ↔
    ∃ d f, (d, f) ∈ l ∧ ∃ ds n, Contains f ds n ∧ p = pathTo path (d :: ds) n ∧ EndsWithAny [".xml", ".xhtml", ".htm", "html", ".xsd"] n
  | [] => by
    rw [loadFolders]
    constructor
    · intro h; cases h
    · rintro ⟨d, f, h, _⟩; cases h
  | (d, f) :: l => by
    rw [loadFolders, List.mem_append, mem_load (path ++ "/" ++ d) p f, mem_loadFolders path p l]
    constructor
    · rintro (⟨ds, n, h1, h2, h3⟩ | ⟨d', f', hd, h⟩)
      · exact ⟨d, f, by simp, ds, n, h1, h2, h3⟩
      · exact ⟨d', f', by simp [hd], h⟩
    · rintro ⟨d', f', hd, ds, n, h1, h2, h3⟩
      rcases List.mem_cons.1 hd with h | h
      · cases h; exact Or.inl ⟨ds, n, h1, h2, h3⟩
      · exact Or.inr ⟨d', f', h, ds, n, h1, h2, h3⟩
end

theorem pathTo_prefix (path : String) (ds : List String) (n : String) : ∃ r, (pathTo path ds n).toList = path.toList ++ '/' :: r := by
  induction ds generalizing path with
  | nil => exact ⟨n.toList, by simp [pathTo, String.toList_append]⟩
  | cons d ds ih =>
    obtain ⟨r, hr⟩ := ih (path ++ "/" ++ d)
    exact ⟨d.toList ++ '/' :: r, by rw [pathTo, hr]; simp [String.toList_append]⟩

theorem pathTo_below (path d : String) (ds : List String) (n : String) : ∃ r, (pathTo path (d :: ds) n).toList = path.toList ++ '/' :: (d.toList ++ '/' :: r) := by
  obtain ⟨r, hr⟩ := pathTo_prefix (path ++ "/" ++ d) ds n
  exact ⟨r, by rw [pathTo, hr]; simp [String.toList_append]⟩

theorem append_slash {a a' b b' : List Char} (h : '/' ∉ a) (h' : '/' ∉ a') (e : a ++ '/' :: b = a' ++ '/' :: b') : a = a' := by
  induction a generalizing a' with
  | nil =>
    cases a' with
    | nil => rfl
    | cons c a' =>
      rw [List.nil_append, List.cons_append] at e
      exact absurd (by rw [← (List.cons.inj e).1]; simp) h'
  | cons c a ih =>
    cases a' with
    | nil =>
      rw [List.nil_append, List.cons_append] at e
      exact absurd (by rw [(List.cons.inj e).1]; simp) h
    | cons c' a' =>
      rw [List.cons_append, List.cons_append] at e
      obtain ⟨rfl, e2⟩ := List.cons.inj e
      rw [ih (fun hm => h (by simp [hm])) (fun hm => h' (by simp [hm])) e2]

mutual
theorem load_nodup (path : String) : ∀ f : Folder, ProperFolder f → (f.load path).Nodup
  | .mk files folders, h => by
    cases h with
    | mk h1 h2 h3 =>
      rw [Folder.load]
      have hn := List.nodup_append.1 h1
      refine List.nodup_append.2 ⟨List.Pairwise.filter _ ?_, loadFolders_nodup path folders hn.2.1 (fun d hd => h2 d (by simp [hd])) h3, ?_⟩
      · rw [List.pairwise_map]
        refine List.Pairwise.imp ?_ hn.1
        intro a b hab e
        apply hab
        have e1 : (path ++ "/" ++ a).toList = path.toList ++ '/' :: a.toList := by simp [String.toList_append]
        have e2 : (path ++ "/" ++ b).toList = path.toList ++ '/' :: b.toList := by simp [String.toList_append]
        rw [e, e2] at e1
        exact String.toList_inj.1 (List.cons.inj (List.append_cancel_left e1)).2.symm
      · rintro x hx y hy rfl
        obtain ⟨n, hn, rfl⟩ := List.mem_map.1 (List.mem_filter.1 hx).1
        obtain ⟨d, f, hd, ds, m, _, e, _⟩ := (mem_loadFolders path _ folders).1 hy
        obtain ⟨r, hr⟩ := pathTo_below path d ds m
        rw [← e, show (path ++ "/" ++ n).toList = path.toList ++ '/' :: n.toList by simp [String.toList_append]] at hr
        have := (List.cons.inj (List.append_cancel_left hr)).2
        exact h2 n (by simp [hn]) (by rw [this]; simp)
theorem loadFolders_nodup (path : String) : ∀ l : List (String × Folder), (l.map (·.1)).Nodup → (∀ d ∈ l.map (·.1), '/' ∉ d.toList) → (∀ e ∈ l, ProperFolder e.2) → (loadFolders path l).Nodup
  | [], _, _, _ => by rw [loadFolders]; exact List.nodup_nil
  | (d, f) :: l, h1, h2, h3 => by
    rw [loadFolders]
    rw [List.map_cons, List.nodup_cons] at h1
    refine List.nodup_append.2 ⟨load_nodup _ f (h3 (d, f) (by simp)), loadFolders_nodup path l h1.2 (fun d hd => h2 d (by simp [hd])) (fun e he => h3 e (by simp [he])), ?_⟩
    rintro x hx y hy rfl
    obtain ⟨ds, n, _, e, _⟩ := (mem_load _ x f).1 hx
    obtain ⟨d', f', hd', ds', m, _, e', _⟩ := (mem_loadFolders path x l).1 hy
    obtain ⟨r, hr⟩ := pathTo_below path d ds n
    obtain ⟨r', hr'⟩ := pathTo_below path d' ds' m
    rw [← e'] at hr'
    rw [show pathTo path (d :: ds) n = pathTo (path ++ "/" ++ d) ds n from rfl, ← e, hr'] at hr
    have hmem : d' ∈ l.map (·.1) := List.mem_map.2 ⟨(d', f'), hd', rfl⟩
    have := append_slash (h2 d' (by simp only [List.map_cons, List.mem_cons]; exact Or.inr hmem)) (h2 d (by simp)) (List.cons.inj (List.append_cancel_left hr)).2
    rw [String.toList_inj.1 this] at hmem
    exact h1.1 hmem
end

theorem xml_or_xhtml (p : String) : (endsWith p.toList ".xml".toList || endsWith p.toList ".xhtml".toList) = true ↔ EndsWithAny [".xml", ".xhtml"] p := by
  rw [← any_endsWith]
  simp

theorem not_http_prefix {p : String} (h : ¬ isHttp p = true) : startsWith p.toList "http://".toList = false ∧ startsWith p.toList "https://".toList = false := by
  constructor
  · rw [← Bool.not_eq_true, startsWith_prefix]
    intro hp
    exact h ((startsWith_prefix _ _).2 (List.IsPrefix.trans ⟨"://".toList, rfl⟩ hp))
  · rw [← Bool.not_eq_true, startsWith_prefix]
    intro hp
    exact h ((startsWith_prefix _ _).2 (List.IsPrefix.trans ⟨"s://".toList, rfl⟩ hp))

/-- C89: opening a folder takes exactly the files at any depth whose names have one of the suffixes, each once. -/
theorem C89_folder (path : String) (f : Folder) (zip : List String) (h : ¬ isHttp path = true) :
    ∃ files, pathFiles (.folder f) zip path = .ok files ∧ (∀ p, p ∈ files ↔ ∃ ds n, Contains f ds n ∧ p = pathTo path ds n ∧ EndsWithAny [".xml", ".xhtml", ".htm", "html", ".xsd"] n) ∧
      (ProperFolder f → files.Nodup) := by
  refine ⟨f.load path, ?_, fun p => mem_load path p f, load_nodup path f⟩
  unfold pathFiles
  dsimp only
  rw [(not_http_prefix h).1, (not_http_prefix h).2]
  simp

/-- C89: a single file, or a web address, with the suffix `.xml` or `.xhtml` is taken; other files are refused, unless they are archives, of which the names with these suffixes are taken. -/
theorem C89_file (path : String) (zip : List String) :
    (EndsWithAny [".xml", ".xhtml"] path → pathFiles .file zip path = .ok [path] ∧ ("http://".toList <+: path.toList ∨ "https://".toList <+: path.toList → pathFiles .other zip path = .ok [path])) ∧
    (¬ EndsWithAny [".xml", ".xhtml"] path → ∀ kind ∈ [PathKind.file, .other], pathFiles kind zip path =
      if endsWith path.toList ".zip".toList = true then .ok (zip.filter (fun n => endsWith n.toList ".xml".toList || endsWith n.toList ".xhtml".toList)) else .error .valueError) := by
  rw [← xml_or_xhtml]
  constructor
  · intro h
    unfold pathFiles
    dsimp only
    rw [h]
    refine ⟨by simp, ?_⟩
    rintro (hp | hp)
    · rw [(startsWith_prefix _ _).2 hp]; simp
    · rw [(startsWith_prefix _ _).2 hp]; simp
  · intro h kind hk
    rw [Bool.not_eq_true] at h
    unfold pathFiles
    dsimp only
    rw [h]
    simp only [List.mem_cons, List.not_mem_nil, or_false] at hk
    rcases hk with rfl | rfl <;> simp

/-- C89 fails for inline filings in a single file `.htm` or `.html`: it is refused, although it is taken in a folder. -/
theorem C89_htm_false (path : String) (zip : List String) (h : EndsWithAny [".htm", ".html"] path) (hn : ¬ EndsWithAny [".xml", ".xhtml", ".zip"] path) :
    pathFiles .file zip path = .error .valueError := by
  have h1 : ¬ EndsWithAny [".xml", ".xhtml"] path := fun ⟨e, he, hs⟩ => hn ⟨e, by simp only [List.mem_cons, List.not_mem_nil, or_false] at he ⊢; rcases he with h | h <;> simp [h], hs⟩
  rw [(C89_file path zip).2 h1 .file (by simp), if_neg]
  intro hz
  exact hn ⟨".zip", by simp, (endsWith_iff _ _).1 hz⟩

example : EndsWithAny [".htm", ".html"] "report.htm" ∧ ¬ EndsWithAny [".xml", ".xhtml", ".zip"] "report.htm" := by
  rw [← any_endsWith, ← any_endsWith]
  decide

theorem loadDoc_absent (env : LoadEnv) (depth : Nat) (s : LoadState) (n : String) (hrw : env.rewrites = []) (hh : ¬ isHttp n = true) (hb : '\\' ∉ n.toList) (hs : EndsWithAny [".xml", ".xhtml"] n)
    (hdocs : s.docs = []) (hc : s.files.get? (fileName n) = none) (hd : env.disk (env.urlPath n) = none) : loadDoc env (depth + 1) s n "." = .error .fileNotFoundError := by
  have hp : hasParser n = true := by
    obtain ⟨e, he, hs⟩ := hs
    exact hasParser_of ⟨e, by simp only [List.mem_cons, List.not_mem_nil, or_false] at he ⊢; rcases he with h | h <;> simp [h], hs⟩
  have hl : (isHttp n || isHttp ".") = false := by
    rw [Bool.not_eq_true] at hh
    rw [hh]; decide
  rw [loadDoc_plain env depth s n "." n (resolveUri_entry env hrw hh hb) hb, if_neg (by rw [hdocs]; intro h; cases h), if_neg (by rw [hp]; decide), hl]
  unfold fetchFile
  rw [hc]
  dsimp only
  rw [if_neg (by decide), hd]
  rfl

/-- C89 fails for archives: the names in the archive are looked up on the disk, where they are not, so an archive cannot be opened. -/
theorem C89_zip_false (env : LoadEnv) (depth : Nat) (cache : Dict String String) (path : String) (zip files : List String) (hf : pathFiles .file zip path = .ok files) (hz : endsWith path.toList ".zip".toList = true)
    (hx : ¬ EndsWithAny [".xml", ".xhtml"] path) (hne : files ≠ []) (hh : ∀ n ∈ zip, ¬ isHttp n = true ∧ '\\' ∉ n.toList) (hd : ∀ n ∈ zip, env.disk n = none ∧ env.disk (env.urlPath n) = none)
    (hc : ∀ n ∈ zip, cache.get? (fileName n) = none) : createParser env (depth + 1) cache files = .error .fileNotFoundError := by
  rw [(C89_file path zip).2 hx .file (by simp), if_pos hz] at hf
  have hf : zip.filter (fun n => endsWith n.toList ".xml".toList || endsWith n.toList ".xhtml".toList) = files := by cases hf; rfl
  have hsub : ∀ n ∈ files, n ∈ zip ∧ EndsWithAny [".xml", ".xhtml"] n := by
    intro n hn
    rw [← hf] at hn
    obtain ⟨h1, h2⟩ := List.mem_filter.1 hn
    exact ⟨h1, (xml_or_xhtml n).1 h2⟩
  unfold createParser
  rw [if_neg hne]
  have hcat := C88_chosen files
  cases hcp : catalogPath files with
  | some c =>
    rw [hcp] at hcat
    obtain ⟨pre, post, e, _⟩ := hcat
    dsimp only
    rw [(hd c (hsub c (by rw [e]; simp)).1).1]
    rfl
  | none =>
    obtain ⟨n, rest, rfl⟩ := List.exists_cons_of_ne_nil hne
    obtain ⟨hz1, hs1⟩ := hsub n (by simp)
    have : loadAll { env with rewrites := [] } (depth + 1) { files := cache } (n :: rest) = .error .fileNotFoundError := by
      unfold loadAll
      rw [List.foldlM_cons, loadDoc_absent { env with rewrites := [] } depth { files := cache } n rfl (hh n hz1).1 (hh n hz1).2 hs1 rfl (hc n hz1) (hd n hz1).2]
      rfl
    dsimp only [bind, Except.bind]
    rw [this]

/-- C89 fails for names that end with `html` without a dot: such a file is taken from a folder, and then nothing can be opened. -/
theorem C89_dot_false (env : LoadEnv) (depth : Nat) (cache : Dict String String) :
    pathFiles (.folder (.mk ["a.xml", "README-html"] [])) [] "d" = .ok ["d/a.xml", "d/README-html"] ∧ ∃ e, createParser env depth cache ["d/a.xml", "d/README-html"] = .error e := by
  refine ⟨by rfl, C49_refused env depth cache _ (Or.inr ⟨"d/README-html", by simp, ?_⟩)⟩
  rw [← any_endsWith]
  decide

namespace FolderExample

def sub : Folder := .mk ["b.xsd", "notes.txt"] []
def top : Folder := .mk ["a.xml", "c.htm"] [("s", sub), ("t", .mk [] [])]

example : top.load "d" = ["d/a.xml", "d/c.htm", "d/s/b.xsd"] := by decide +kernel
example : Contains top ["s"] "b.xsd" ∧ ProperFolder top := by
  refine ⟨.inner (List.mem_cons_self ..) (.here (List.mem_cons_self ..)), .mk (by decide) (by decide) ?_⟩
  intro e he
  rcases List.mem_cons.1 he with rfl | he
  · exact .mk (by decide) (by decide) (by intro e he; cases he)
  · rw [List.mem_singleton.1 he]
    exact .mk (by decide) (by decide) (by intro e he; cases he)

end FolderExample

end Brel
