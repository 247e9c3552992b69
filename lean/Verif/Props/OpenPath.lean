import Verif.Spec.OpenPath
import Verif.Props.Loader
import Verif.Props.Opening
import Verif.Props.Open
import Verif.Props.OpenInline

/-! C111: opening a filing by a path. -/

namespace Brel
open Spec

theorem shortest_unique {files : List String} {c d : String} (hc : ShortestCatalog files c) (hd : ShortestCatalog files d) : c = d := by
  obtain ⟨pre, post, e1, c1, c2, c3⟩ := hc
  obtain ⟨pre', post', e2, d1, d2, d3⟩ := hd
  rw [e1] at e2
  rcases List.append_eq_append_iff.1 e2 with ⟨l, h1, h2⟩ | ⟨l, h1, h2⟩
  · cases l with
    | nil => rw [List.nil_append, List.cons.injEq] at h2; exact h2.1
    | cons x l =>
      rw [List.cons_append, List.cons.injEq] at h2
      have ha := d2 c (by rw [h1, h2.1]; simp) c1
      have hb := c3 d (by rw [h2.2]; simp) d1
      omega
  · cases l with
    | nil => rw [List.nil_append, List.cons.injEq] at h2; exact h2.1.symm
    | cons x l =>
      rw [List.cons_append, List.cons.injEq] at h2
      have ha := c2 d (by rw [h1, h2.1]; simp) d1
      have hb := d3 c (by rw [h2.2]; simp) c1
      omega

theorem catalogPath_of {files : List String} {c : String} (h : ShortestCatalog files c) : catalogPath files = some c := by
  have := C88_chosen files
  cases hp : catalogPath files with
  | some d => rw [hp] at this; rw [shortest_unique this h]
  | none =>
    rw [hp] at this
    obtain ⟨pre, post, e, hc, _⟩ := h
    exact absurd hc (this c (by rw [e]; simp))

theorem parseCatalog_of {folder : String} {root : XNode} (ht : root.tag = some "{urn:oasis:names:tc:entity:xmlns:xml:catalog}catalog") (hr : ∀ x ∈ rules root, CompleteRule x)
    (hn : ((rules root).map (fun x => x.attr? "uriStartString")).Nodup) : parseCatalog (folder ++ "/catalog.xml") root = .ok ((rules root).map (ruleSays folder.toList), []) := by
  have h := C88_rules folder root
  have e1 : (rules root).filter (fun x => decide (CompleteRule x)) = rules root := List.filter_eq_self.2 (fun x hx => decide_eq_true (hr x hx))
  have e2 : (rules root).filter (fun x => decide (¬ CompleteRule x)) = [] := List.filter_eq_nil_iff.2 (fun x hx => by simpa using hr x hx)
  dsimp only at h
  rw [e1, e2, if_pos ht] at h
  cases hp : parseCatalog (folder ++ "/catalog.xml") root with
  | ok r =>
    rw [hp] at h
    obtain ⟨_, h1, h2⟩ := h
    rw [← h1]
    exact congrArg _ (Prod.ext rfl h2)
  | error e =>
    rw [hp] at h
    refine absurd ?_ h.1
    rw [List.map_map]
    refine List.pairwise_map.2 ((List.pairwise_map.1 hn).imp_of_mem ?_)
    intro a b ha hb hab e
    apply hab
    have e := String.toList_injective e
    have some_of : ∀ x ∈ rules root, x.attr? "uriStartString" = some ((x.attr? "uriStartString").getD "") := by
      intro x hx
      have := (hr x hx).1
      cases h : x.attr? "uriStartString" with
      | none => rw [h] at this; simp at this
      | some _ => rfl
    rw [some_of a ha, some_of b hb, e]

/-- The parser is created, with exactly the documents reached. -/
theorem createParser_reached {env : LoadEnv} {depth : Nat} {cache : Dict String String} {files entries U : List String} {rewrites : Rewrites} {src : String → String} {k : ParserKind}
    (hne : files ≠ []) (hc : CatalogOf env files entries rewrites) (hk : KindFor entries (some k)) (hr : EntriesReadable { env with rewrites := rewrites } cache src U entries) (hd : U.length < depth) :
    ∃ s, createParser env depth cache files = .ok (k, s, []) ∧ ReachedDocs { env with rewrites := rewrites } src entries s.documents := by
  obtain ⟨s, h1, h2, _, h4, h5, _⟩ := C26_loads_partial entries hr.documents hr.entries depth hd
  refine ⟨s, ?_, ?_, ?_⟩
  · have hpk : parserKind entries = .ok k := by
      cases k with
      | xml => exact (C49_kinds entries).1.2 hk
      | xhtml => exact (C49_kinds entries).2.1.2 hk
    unfold createParser
    rw [if_neg hne]
    cases hc with
    | none hn =>
      have : catalogPath files = none := by
        have := C88_chosen files
        cases hp : catalogPath files with
        | none => rfl
        | some c =>
          rw [hp] at this
          obtain ⟨pre, post, e, hcc, _⟩ := this
          exact absurd hcc (hn c (by rw [e]; simp))
      rw [this]
      simp only [bind, Except.bind, h1, hpk, pure, Except.pure]
    | some hs hdisk hparse ht hcr hn =>
      rw [catalogPath_of hs]
      dsimp only
      rw [hdisk]
      simp only [bind, Except.bind, hparse, parseCatalog_of ht hcr hn, h1, hpk, pure, Except.pure]
  · unfold LoadState.documents
    rw [List.map_map]
    exact h2
  · intro d
    have hmem : d ∈ s.documents ↔ s.docs.get? d.uri = some d.root := by
      unfold LoadState.documents
      rw [List.mem_map]
      constructor
      · rintro ⟨p, hp, rfl⟩
        exact Dict.get?_of_mem _ h2 hp
      · intro h
        exact ⟨(d.uri, d.root), Dict.mem_get? _ h, rfl⟩
    rw [hmem, ← h4]
    constructor
    · intro h
      exact ⟨List.mem_map.2 ⟨_, Dict.mem_get? _ h, rfl⟩, h5 _ _ h⟩
    · rintro ⟨h, hp⟩
      obtain ⟨p, hp1, hp2⟩ := List.mem_map.1 h
      have hg := Dict.get?_of_mem _ h2 hp1
      have hq := h5 _ _ hg
      dsimp only at hp hq hp2
      rw [hp2] at hq hg
      rw [hq] at hp
      rw [hg, Except.ok.inj hp]

/-- C111 (XML filings; for documents as in C26): opening a path whose files lead to valid documents succeeds without a report, and the filing shows what exactly these documents say. -/
theorem C111_xml_partial {env : OpenEnv} {depth fuel : Nat} {cache : Dict String String} {kind : PathKind} {zip files entries U : List String} {path : String} {rewrites : Rewrites}
    {src : String → String} (hp : pathFiles kind zip path = .ok files) (hne : files ≠ []) (hc : CatalogOf env.load files entries rewrites) (hk : KindFor entries (some .xml))
    (hr : EntriesReadable { env.load with rewrites := rewrites } cache src U entries) (hd : U.length < depth)
    (hv : ∀ docs, ReachedDocs { env.load with rewrites := rewrites } src entries docs → ValidFiling env.dateOf env.float docs) :
    ∃ docs steps o, ReachedDocs { env.load with rewrites := rewrites } src entries docs ∧ (∀ j, openPath env depth fuel (steps + j) cache kind zip path = some (.ok (.xml [] o))) ∧ o.Silent ∧
      ShowsDocuments env.dateOf docs o := by
  obtain ⟨s, h1, h2⟩ := createParser_reached hne hc hk hr hd
  obtain ⟨steps, o, h3, h4, h5⟩ := C105_opens (str := env.str) (so := env.load.so) (hv _ h2)
  refine ⟨_, steps, o, h2, ?_, h4, h5⟩
  intro j
  unfold openPath
  rw [hp]
  dsimp only
  rw [h1]
  dsimp only
  rw [h3 j]
  rfl

/-- C111 (inline filings; for documents as in C26 and C110) -/
theorem C111_inline_partial {env : OpenEnv} {depth fuel : Nat} {cache : Dict String String} {kind : PathKind} {zip files entries U : List String} {path : String} {rewrites : Rewrites}
    {src : String → String} (hp : pathFiles kind zip path = .ok files) (hne : files ≠ []) (hc : CatalogOf env.load files entries rewrites) (hk : KindFor entries (some .xhtml))
    (hr : EntriesReadable { env.load with rewrites := rewrites } cache src U entries) (hd : U.length < depth)
    (hv : ∀ docs, ReachedDocs { env.load with rewrites := rewrites } src entries docs →
      ValidInlineFiling env.dateOf env.dig env.flt env.validUri env.float (docs.map (fun d => ⟨d, env.view d⟩)) ∧ (inlineConts (inlineDocs (docs.map (fun d => ⟨d, env.view d⟩)))).length < fuel) :
    ∃ docs steps o, ReachedDocs { env.load with rewrites := rewrites } src entries docs ∧ (∀ j, openPath env depth fuel (steps + j) cache kind zip path = some (.ok (.xhtml [] o))) ∧
      o.Reports (docs.map (fun d => ⟨d, env.view d⟩)) ∧ ShowsInline env.dateOf env.dig env.flt (docs.map (fun d => ⟨d, env.view d⟩)) o := by
  obtain ⟨s, h1, h2⟩ := createParser_reached hne hc hk hr hd
  obtain ⟨steps, o, h3, h4, h5⟩ := C110_opens_partial (str := env.str) (so := env.load.so) (hv _ h2).1 (hv _ h2).2
  refine ⟨_, steps, o, h2, ?_, h4, h5⟩
  intro j
  unfold openPath
  rw [hp]
  dsimp only
  rw [h1]
  dsimp only
  rw [h3 j]
  rfl

/-- C111: without files, or with a file that is no document, opening fails. -/
theorem C111_refused (env : OpenEnv) (depth fuel steps : Nat) (cache : Dict String String) (kind : PathKind) (zip : List String) (path : String)
    (h : ∀ files, pathFiles kind zip path = .ok files → files = [] ∨ KindFor files none) : ∃ e, openPath env depth fuel steps cache kind zip path = some (.error e) := by
  unfold openPath
  cases hp : pathFiles kind zip path with
  | error e => exact ⟨e, rfl⟩
  | ok files =>
    obtain ⟨e, he⟩ := C49_refused env.load depth cache files (h files hp)
    refine ⟨e, ?_⟩
    dsimp only
    rw [he]

end Brel
