import Verif.Props.Rearranged
import Verif.Props.OpenPathExample
import Verif.Props.RearrangedExample

/-! C126 for paths: the order in which a folder or an archive lists its files, and what is in the directory of cached files. -/

namespace Brel
open Spec

/-- The documents that are reached do not depend on the order of the files and of sets. -/
theorem reached_perm {env : LoadEnv} {so' : SetOrder} {src : String → String} {entries entries' : List String} {docs docs' : List SchemaDoc} (he : entries.Perm entries')
    (h : ReachedDocs env src entries docs) (h' : ReachedDocs { env with so := so' } src entries' docs') : docs.Perm docs' := by
  refine (List.perm_ext_iff_of_nodup ((List.pairwise_map.1 h.once).imp (fun hne e => hne (by rw [e]))) ((List.pairwise_map.1 h'.once).imp (fun hne e => hne (by rw [e])))).2 (fun d => ?_)
  have hr : ∀ u v, Reaches env src u v ↔ Reaches { env with so := so' } src u v := by
    intro u v
    constructor
    · intro g
      induction g with
      | refl => exact .refl
      | step _ hs ih => exact .step ih hs
    · intro g
      induction g with
      | refl => exact .refl
      | step _ hs ih => exact .step ih hs
  rw [h.members, h'.members]
  refine and_congr ?_ Iff.rfl
  constructor
  · rintro ⟨e, h1, h2⟩
    exact ⟨e, he.mem_iff.1 h1, (hr _ _).1 h2⟩
  · rintro ⟨e, h1, h2⟩
    exact ⟨e, he.mem_iff.2 h1, (hr _ _).2 h2⟩

/-- The same catalog is chosen. -/
theorem shortest_perm {files files' : List String} {c : String} (hp : files.Perm files') (hl : ∀ c ∈ files, ∀ d ∈ files, IsCatalog c → IsCatalog d → c.length = d.length → c = d)
    (h : ShortestCatalog files c) : ShortestCatalog files' c := by
  have hc := C88_chosen files'
  obtain ⟨pre, post, e, g1, g2, g3⟩ := h
  have hmem : c ∈ files := by rw [e]; simp
  cases hp' : catalogPath files' with
  | none =>
    rw [hp'] at hc
    exact absurd g1 (hc c (hp.mem_iff.1 hmem))
  | some d =>
    rw [hp'] at hc
    have hd := hc
    obtain ⟨pre', post', e', k1, k2, k3⟩ := hd
    have hdm : d ∈ files := hp.mem_iff.2 (by rw [e']; simp)
    have l1 : c.length ≤ d.length := by
      have := hdm
      rw [e, List.mem_append, List.mem_cons] at this
      rcases this with h1 | rfl | h1
      · exact Nat.le_of_lt (g2 _ h1 k1)
      · exact Nat.le_refl _
      · exact g3 _ h1 k1
    have l2 : d.length ≤ c.length := by
      have := hp.mem_iff.1 hmem
      rw [e', List.mem_append, List.mem_cons] at this
      rcases this with h1 | rfl | h1
      · exact Nat.le_of_lt (k2 _ h1 g1)
      · exact Nat.le_refl _
      · exact k3 _ h1 g1
    rw [hl c hmem d hdm g1 k1 (Nat.le_antisymm l1 l2)]
    exact hc

theorem catalog_perm {env : LoadEnv} {so' : SetOrder} {files files' entries : List String} {rewrites : Rewrites} (hp : files.Perm files')
    (hl : ∀ c ∈ files, ∀ d ∈ files, IsCatalog c → IsCatalog d → c.length = d.length → c = d) (h : CatalogOf env files entries rewrites) :
    ∃ entries', entries.Perm entries' ∧ CatalogOf { env with so := so' } files' entries' rewrites := by
  cases h with
  | none hn => exact ⟨files', hp, .none (fun f hf => hn f (hp.mem_iff.2 hf))⟩
  | some h1 h2 h3 h4 h5 h6 => exact ⟨_, hp.erase _, .some (shortest_perm hp hl h1) h2 h3 h4 h5 h6⟩

/-- C126 (XML filings; for documents as in C26, and no two catalogs with paths of the same length): opening a path again - from a folder or an archive that lists the same files in another order, in another
run of Python, with a larger stack and with other files in the directory of cached files, as long as none of them is out of date - gives the same filing. -/
theorem C126_path_partial {env env' : OpenEnv} {so' : SetOrder} {depth depth' fuel fuel' : Nat} {cache cache' : Dict String String} {kind kind' : PathKind} {zip zip' files files' entries U : List String}
    {path path' : String} {rewrites : Rewrites} {src : String → String} (hload : env'.load = { env.load with so := so' }) (hdate : env'.dateOf = env.dateOf) (hfloat : env'.float = env.float)
    (hp : pathFiles kind zip path = .ok files) (hp' : pathFiles kind' zip' path' = .ok files') (hf : files.Perm files') (hne : files ≠ [])
    (hl : ∀ c ∈ files, ∀ d ∈ files, IsCatalog c → IsCatalog d → c.length = d.length → c = d) (hc : CatalogOf env.load files entries rewrites) (hk : KindFor entries (some .xml))
    (hr : EntriesReadable { env.load with rewrites := rewrites } cache src U entries) (hr' : EntriesReadable { env.load with rewrites := rewrites } cache' src U entries)
    (hd : U.length < depth) (hd' : U.length < depth')
    (hv : ∀ docs, ReachedDocs { env.load with rewrites := rewrites } src entries docs → ValidFiling env.dateOf env.float docs ∧ ToldApart docs) :
    ∃ steps o o', (∀ j, openPath env depth fuel (steps + j) cache kind zip path = some (.ok (.xml [] o))) ∧
      (∀ j, openPath env' depth' fuel' (steps + j) cache' kind' zip' path' = some (.ok (.xml [] o'))) ∧ SameFiling o o' ∧ o.Silent ∧ o'.Silent := by
  have hne' : files' ≠ [] := by
    rintro rfl
    exact hne hf.eq_nil
  obtain ⟨entries', he, hc'⟩ := catalog_perm (so' := so') hf hl hc
  have hk' : KindFor entries' (some .xml) := fun f h => hk f (he.mem_iff.2 h)
  have hrs : EntriesReadable { { env.load with so := so' } with rewrites := rewrites } cache' src U entries' := by
    obtain ⟨⟨a1, a2, a3, a4, a5, a6, a7⟩, b⟩ := hr'
    exact ⟨⟨a1, a2, a3, a4, a5, a6, a7⟩, fun e h => b e (he.mem_iff.2 h)⟩
  obtain ⟨s, h1, h2⟩ := createParser_reached hne hc hk hr hd
  obtain ⟨s', h1', h2'⟩ := createParser_reached hne' hc' hk' hrs hd'
  have hpd : s.documents.Perm s'.documents := reached_perm he h2 h2'
  obtain ⟨hvd, hta⟩ := hv _ h2
  have hvd' := C126_valid hpd hta hvd
  obtain ⟨n, o, h3, -, -⟩ := C105_opens (str := env.str) (so := env.load.so) hvd
  obtain ⟨n', o', h3', -, -⟩ := C105_opens (str := env'.str) (so := so') hvd'
  refine ⟨n + n', o, o', ?_, ?_, C126_same_partial hpd hta hvd (h3 0) (h3' 0)⟩
  · intro j
    unfold openPath
    rw [hp]
    dsimp only
    rw [h1]
    dsimp only
    rw [Nat.add_assoc, h3]
    rfl
  · intro j
    unfold openPath
    rw [hp']
    dsimp only
    rw [hload, h1']
    dsimp only
    rw [hdate, hfloat, Nat.add_comm n, Nat.add_assoc, h3']
    rfl

namespace PathExample

theorem xml_apart {docs : List SchemaDoc} (h : ReachedDocs server textOf ["http://ex/i.xml"] docs) : ToldApart docs := by
  refine ⟨h.once, ?_, ?_⟩ <;> rcases two_docs (Or.inl rfl) (t := OpenExample.report.write) rfl h with rfl | rfl <;> decide +kernel

/-- The sample documents, opened with sets iterated in insertion order and in reverse order. -/
example : ∃ steps o o', (∀ j, openPath opener 3 0 (steps + j) [] .other [] "http://ex/i.xml" = some (.ok (.xml [] o))) ∧
    (∀ j, openPath { opener with load := { server with so := .reversed } } 8 1 (steps + j) [] .other [] "http://ex/i.xml" = some (.ok (.xml [] o'))) ∧ SameFiling o o' ∧ o.Silent ∧ o'.Silent := by
  have hn : ∀ f ∈ ["http://ex/i.xml"], ¬ IsCatalog f := by
    intro f hf
    rw [List.mem_singleton.1 hf]
    intro hc
    have := (endsWith_iff _ _).2 hc
    revert this
    decide
  exact C126_path_partial (env := opener) (files := ["http://ex/i.xml"]) (files' := ["http://ex/i.xml"]) rfl rfl rfl (by rfl) (by rfl) (.refl _) (by simp) (fun c hc _ _ h => absurd h (hn c hc)) (.none hn)
    (by intro f hf; rw [List.mem_singleton.1 hf]; exact ⟨".xml", by simp, ⟨"http://ex/i".toList, by decide⟩⟩) (readable (Or.inl rfl)) (readable (Or.inl rfl)) (by decide) (by decide)
    (fun _ h => ⟨xml_docs h, xml_apart h⟩)

/-- The same catalog, whichever way the files are listed. -/
example {c : String} (h : ShortestCatalog ["p/a.xml", "p/META-INF/catalog.xml", "p/q/META-INF/catalog.xml"] c) : ShortestCatalog ["p/q/META-INF/catalog.xml", "p/META-INF/catalog.xml", "p/a.xml"] c :=
  shortest_perm (List.reverse_perm ["p/q/META-INF/catalog.xml", "p/META-INF/catalog.xml", "p/a.xml"]) (by
    intro c hc d hd h1 h2 hl
    have : ∀ c ∈ ["p/a.xml", "p/META-INF/catalog.xml", "p/q/META-INF/catalog.xml"], ∀ d ∈ ["p/a.xml", "p/META-INF/catalog.xml", "p/q/META-INF/catalog.xml"], c.length = d.length → c = d := by
      decide +kernel
    exact this c hc d hd hl) h

end PathExample

/-- C126 is false for two catalogs whose paths have the same length: the one listed first is used, and the rewritings of the other are ignored. -/
theorem C126_catalog_false : ¬ ∀ files files' : List String, files.Perm files' → catalogPath files = catalogPath files' := by
  intro h
  exact absurd (h ["p/a/META-INF/catalog.xml", "p/b/META-INF/catalog.xml"] ["p/b/META-INF/catalog.xml", "p/a/META-INF/catalog.xml"] (.swap _ _ _)) (by decide +kernel)

end Brel
