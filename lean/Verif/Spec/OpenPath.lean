import Verif.Model.OpenPath
import Verif.Spec.Loader
import Verif.Spec.Open
import Verif.Spec.OpenInline

/-! Opening by a path: the catalog among the files, and the documents the files lead to. -/

namespace Brel

/-- What the files of a filing are used for: if there is a catalog, it gives the rewritings, and the other files are the entry points. -/
inductive CatalogOf (env : LoadEnv) : List String → List String → Rewrites → Prop where
  | none {files} : (∀ f ∈ files, ¬ IsCatalog f) → CatalogOf env files files []
  | some {files folder text root} : ShortestCatalog files (folder ++ "/catalog.xml") → env.disk (folder ++ "/catalog.xml") = some text → env.parse text = .ok root →
      root.tag = some "{urn:oasis:names:tc:entity:xmlns:xml:catalog}catalog" → (∀ x ∈ rules root, CompleteRule x) → ((rules root).map (fun x => x.attr? "uriStartString")).Nodup →
      CatalogOf env files (files.erase (folder ++ "/catalog.xml")) ((rules root).map (ruleSays folder.toList))

/-- The documents that can be reached from the entry points, each once. -/
structure ReachedDocs (env : LoadEnv) (src : String → String) (entries : List String) (docs : List SchemaDoc) : Prop where
  once : (docs.map (·.uri)).Nodup
  members : ∀ d, d ∈ docs ↔ (∃ e ∈ entries, Reaches env src (resolveUri env "." e) d.uri) ∧ env.parse (src d.uri) = .ok d.root

/-- The documents reached from the entry points are available. -/
structure EntriesReadable (env : LoadEnv) (cache : Dict String String) (src : String → String) (U entries : List String) : Prop where
  documents : Readable env cache src U
  entries : ∀ e ∈ entries, resolveUri env "." e ∈ U ∧ Available env cache "." (resolveUri env "." e) (src (resolveUri env "." e))

end Brel
