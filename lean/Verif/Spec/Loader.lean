import Verif.Model.Loader

/-! What loading should do (C25, C26, C49, C87, C88, C89). -/

namespace Brel

/-! ## Reachable documents -/

/-- The content of the document `u`, referenced from `referencing`, is `c`: it is the cached file, or the web or the disk has it. -/
def Available (env : LoadEnv) (cache : Dict String String) (referencing u c : String) : Prop :=
  match cache.get? (fileName u) with
  | some c' => c' = c
  | none => if isHttp u = true ∨ isHttp referencing = true then env.web u = some c else env.disk (env.urlPath u) = some c

/-- The document `u` with the content `src u` has a reference to `v`. -/
def RefersTo (env : LoadEnv) (src : String → String) (u v : String) : Prop :=
  ∃ refs r, extractReferences (src u) = .ok refs ∧ r ∈ refs ∧ v = resolveUri env u r

/-- `v` can be reached from `u` over references. -/
inductive Reaches (env : LoadEnv) (src : String → String) (u : String) : String → Prop where
  | refl : Reaches env src u u
  | step {v w} : Reaches env src u v → RefersTo env src v w → Reaches env src u w

/-- The documents `U` have the contents `src`; each is well-formed, all references from one lead to another one that is available, and no two share the name of the cached file. -/
structure Readable (env : LoadEnv) (cache : Dict String String) (src : String → String) (U : List String) : Prop where
  plain : ∀ u ∈ U, '\\' ∉ u.toList
  suffix : ∀ u ∈ U, ∃ e ∈ [".xml", ".xsd", ".xhtml", ".htm", ".html"], e.toList <:+ u.toList
  tree : ∀ u ∈ U, ∃ t, env.parse (src u) = .ok t
  refs : ∀ u ∈ U, ∃ rs, extractReferences (src u) = .ok rs
  closed : ∀ u ∈ U, ∀ v, RefersTo env src u v → v ∈ U ∧ Available env cache u v (src v)
  names : ∀ u ∈ U, ∀ v ∈ U, fileName u = fileName v → u = v
  paths : ∀ u ∈ U, ¬ isHttp u = true → fileName (env.urlPath u) = fileName u

/-! ## References -/

/-- The two ways to refer to another document: an attribute `href` with a prefix, and `schemaLocation`. -/
inductive RefKind where
  | href
  | location
  deriving DecidableEq

/-- What is written before the quoted value. -/
def RefKind.text : RefKind → List Char
  | .href => ":href=".toList
  | .location => "schemaLocation=".toList

/-- A reference as it is written: not empty, without quotes inside, in quotes. -/
structure Written where
  kind : RefKind
  opening : Char
  value : List Char
  closing : Char
  quotes : opening ∈ ['\'', '"'] ∧ closing ∈ ['\'', '"']
  filled : value ≠ []
  inside : '\'' ∉ value ∧ '"' ∉ value

/-- The text of a reference. -/
def Written.text (w : Written) : List Char := w.kind.text ++ w.opening :: (w.value ++ [w.closing])

/-- No quoted reference is left open at the end of the text. -/
def Closed (a : List Char) : Prop := ∀ (p : List Char) (k : RefKind) (q : Char) (w : List Char), q ∈ ['\'', '"'] → a = p ++ (k.text ++ q :: w) → '\'' ∈ w ∨ '"' ∈ w

/-- The document that a reference names: an `href` up to `#`, if there is one and something before it; the last word of a `schemaLocation`. -/
def Written.names (w : Written) (r : String) : Prop :=
  match w.kind with
  | .href => ('#' ∉ w.value ∧ r.toList = w.value) ∨ ∃ frag, w.value = r.toList ++ '#' :: frag ∧ '#' ∉ r.toList ∧ '#' ∉ frag ∧ r ≠ ""
  | .location => LastWord w.value r.toList
where
  /-- The last of the words that are separated by spaces. -/
  LastWord (v r : List Char) : Prop := ∃ pre post, v = pre ++ r ++ post ∧ (∀ c ∈ post, pySpace c = true) ∧ r ≠ [] ∧ (∀ c ∈ r, pySpace c = false) ∧ (∀ c ∈ pre.getLast?, pySpace c = true)

/-- The reference makes the reading fail: a second `#`, or only spaces. -/
def Written.faulty (w : Written) (e : PyErr) : Prop :=
  match w.kind with
  | .href => e = .valueError ∧ ∃ a b c, w.value = a ++ '#' :: b ++ '#' :: c
  | .location => e = .indexError ∧ ∀ c ∈ w.value, pySpace c = true

/-! ## Opening -/

/-- The name ends with one of the suffixes. -/
def EndsWithAny (suffixes : List String) (name : String) : Prop := ∃ e ∈ suffixes, e.toList <:+ name.toList

/-- The kind of parser for a list of files, none if there is none. -/
def KindFor (files : List String) : Option ParserKind → Prop
  | some .xml => ∀ f ∈ files, EndsWithAny [".xml", ".xsd"] f
  | some .xhtml => (∀ f ∈ files, EndsWithAny [".xml", ".xsd", ".htm", ".html", ".xhtml"] f) ∧ ∃ f ∈ files, EndsWithAny [".htm", ".html", ".xhtml"] f
  | none => ∃ f ∈ files, ¬ EndsWithAny [".xml", ".xsd", ".htm", ".html", ".xhtml"] f

/-- The file named `n` is in the folder, below the folders `ds`. -/
inductive Contains : Folder → List String → String → Prop where
  | here {files folders n} : n ∈ files → Contains (.mk files folders) [] n
  | inner {files folders d f ds n} : (d, f) ∈ folders → Contains f ds n → Contains (.mk files folders) (d :: ds) n

/-- The path of a file below folders. -/
def pathTo (path : String) : List String → String → String
  | [], n => path ++ "/" ++ n
  | d :: ds, n => pathTo (path ++ "/" ++ d) ds n

/-- Names in a folder are distinct and have no `/`. -/
inductive ProperFolder : Folder → Prop where
  | mk {files folders} : (files ++ folders.map (·.1)).Nodup → (∀ n ∈ files ++ folders.map (·.1), '/' ∉ n.toList) → (∀ e ∈ folders, ProperFolder e.2) → ProperFolder (.mk files folders)

/-! ## Catalogs -/

/-- The path is that of a catalog. -/
def IsCatalog (path : String) : Prop := "META-INF/catalog.xml".toList <:+ path.toList

/-- The catalog is the first of the shortest ones. -/
def ShortestCatalog (paths : List String) (c : String) : Prop :=
  ∃ pre post, paths = pre ++ c :: post ∧ IsCatalog c ∧ (∀ p ∈ pre, IsCatalog p → c.length < p.length) ∧ (∀ p ∈ post, IsCatalog p → c.length ≤ p.length)

/-- The rules of a catalog: those children `rewriteURI` of the root. -/
def rules (root : XNode) : List XNode := root.children.filter (fun x => decide (x.tag = some "{urn:oasis:names:tc:entity:xmlns:xml:catalog}rewriteURI"))

/-- A rule has both attributes, with values. -/
def CompleteRule (x : XNode) : Prop := x.attr? "uriStartString" ∉ [none, some ""] ∧ x.attr? "rewritePrefix" ∉ [none, some ""]

instance (x : XNode) : Decidable (CompleteRule x) := inferInstanceAs (Decidable (_ ∧ _))

/-- What a complete rule says: URIs that begin with the first text begin, after rewriting, with the second one, relative to the folder of the catalog. -/
def ruleSays (folder : List Char) (x : XNode) : List Char × List Char :=
  (((x.attr? "uriStartString").getD "").toList, folder ++ '/' :: ((x.attr? "rewritePrefix").getD "").toList)

end Brel
