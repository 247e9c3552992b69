import Verif.Model.Schema
import Verif.Model.Repos
import Verif.Model.Link

/-!
Model of the loading of documents: `brel/parsers/utils/file_utils.py`, `brel/data/file/pyfs_file_repository.py`, `brel/services/file/file_service.py`,
`brel/services/xml/xml_service.py`, `brel/services/xml/xml_file_parser_resolver.py`, `brel/parsers/XML/xml_parse_catalog.py`, `brel/contexts/factory.py`,
`brel/parsers/filing_parser_factory.py` and `brel/parsers/path_loaders/`.
-/

namespace Brel

/-! ## Names of cached files -/

/-- `s.replace(pat, "")` for a non-empty `pat`: occurrences are found from the left and do not overlap. The second argument counts characters still to be skipped. -/
def removeGo (pat : List Char) : List Char → Nat → List Char
  | [], _ => []
  | _ :: s, n + 1 => removeGo pat s n
  | c :: s, 0 => if startsWith (c :: s) pat then removeGo pat s (pat.length - 1) else c :: removeGo pat s 0
/-- `s.replace(pat, "")` -/
def removeAll (pat s : List Char) : List Char := removeGo pat s 0

/-- `s.split(c)` for one character. -/
def splitAtChar (c : Char) : List Char → List (List Char)
  | [] => [[]]
  | x :: s => if x = c then [] :: splitAtChar c s else
    match splitAtChar c s with
    | [] => [[x]]
    | p :: ps => (x :: p) :: ps

/-- `c.join(parts)` for one character. -/
def joinWith (c : Char) (parts : List (List Char)) : List Char := List.intercalate [c] parts

/-- `[a-zA-Z0-9]` -/
def isAlnum (c : Char) : Bool := ('a' ≤ c && c ≤ 'z') || ('A' ≤ c && c ≤ 'Z') || ('0' ≤ c && c ≤ '9')

/-- file_utils.py 22-23: the match of `\.([a-zA-Z0-9]+)$` with its dot, empty if there is none. `$` also matches before a line break at the end. -/
def fileFormat (uri : List Char) : List Char :=
  let s := if uri.getLast? = some '\n' then uri.dropLast else uri
  let ext := (s.reverse.takeWhile isAlnum).reverse
  if ext ≠ [] ∧ (s.reverse.dropWhile isAlnum).head? = some '.' then '.' :: ext else []

/-- file_utils.py 14-57 (`uri_to_filename`) -/
def uriToFilename (uri : List Char) : List Char :=
  let format := fileFormat uri
  if !startsWith uri "http".toList then
    ((splitAtChar '/' (uri.map (fun c => if c = '\\' then '/' else c))).getLast?).getD []
  else
    let uri := removeAll ('.' :: format) uri
    let uri := if isInfix "http".toList uri then removeAll "www.".toList (removeAll "https://".toList (removeAll "http://".toList uri)) else uri
    uri.map (fun c => if c ∈ ['/', ':', '?', '.', '\\'] then '_' else c) ++ format

/-- The name as text. -/
def fileName (uri : String) : String := String.ofList (uriToFilename uri.toList)

/-! ## References -/

/-- `s.split()[-1]`: an `IndexError` if there is no word. -/
def lastWord (s : List Char) : Except PyErr (List Char) :=
  let w := (s.reverse.dropWhile pySpace).takeWhile (fun c => !pySpace c)
  if w = [] then .error .indexError else .ok w.reverse

def isQuote (c : Char) : Bool := c = '\'' || c = '"'

/-- `['\"]([^'\"]+)['\"]` at the beginning of the text: the group. -/
def matchQuoted : List Char → Option (List Char)
  | q :: s =>
    if isQuote q then
      let v := s.takeWhile (fun c => !isQuote c)
      if v ≠ [] ∧ s.dropWhile (fun c => !isQuote c) ≠ [] then some v else none
    else none
  | [] => none

/-- The regular expression of xml_service.py 84-86 at the beginning of the text: which of the two groups matched, and the group. -/
def matchReference (s : List Char) : Option (Bool × List Char) :=
  if startsWith s ":href=".toList then (matchQuoted (s.drop 6)).map (fun v => (true, v))
  else if startsWith s "schemaLocation=".toList then (matchQuoted (s.drop 15)).map (fun v => (false, v))
  else none

/-- The length of a match. -/
def matchLength (m : Bool × List Char) : Nat := (if m.1 then 6 else 15) + m.2.length + 2

/-- `reference_pattern.finditer(content)`, xml_service.py 88: matches from the left that do not overlap. -/
def findReferences : List Char → Nat → List (Bool × List Char)
  | [], _ => []
  | _ :: s, n + 1 => findReferences s n
  | c :: s, 0 =>
    match matchReference (c :: s) with
    | some m => m :: findReferences s (matchLength m - 1)
    | none => findReferences s 0

/-- xml_service.py 89-103: the reference of a match, `none` if there is none. -/
def referenceOf (m : Bool × List Char) : Except PyErr (Option String) :=
  if m.1 then
    if '#' ∈ m.2 then do
      let (uri, _) ← splitHash (String.ofList m.2)
      return if uri = "" then none else some uri
    else .ok (some (String.ofList m.2))
  else do
    let w ← lastWord m.2
    return some (String.ofList w)

/-- xml_service.py 82-105 (`__extract_references`), the set in order of insertion. The content is the decoded text. -/
def extractReferences (content : String) : Except PyErr (List String) :=
  (findReferences content.toList 0).foldlM (fun l m => do
    match ← referenceOf m with
    | some r => return appendNew l r
    | none => return l) []

/-! ## Loading -/

/-- What loading depends on: the contents of the web and the disk (`none`: an exception; `requests` and `fs` have exceptions of their own, which the model does not tell apart),
the XML parser, `urllib.parse.urljoin` and the path of `urlparse`, the rewriting of URIs, and the order of sets. -/
structure LoadEnv where
  web : String → Option String
  disk : String → Option String
  parse : String → Except PyErr XNode
  join : String → String → String
  urlPath : String → String
  rewrites : Rewrites
  so : SetOrder

/-- The directory of cached files, the loaded documents (xml_repository.py 21), and the downloads and copies made. -/
structure LoadState where
  files : Dict String String := []
  docs : Dict String XNode := []
  fetched : List String := []

def isHttp (uri : String) : Bool := startsWith uri.toList "http".toList

/-- xml_service.py 47-60: the URI that a reference from a document stands for. -/
def resolveUri (env : LoadEnv) (referencing uri : String) : String :=
  let full :=
    if !(isHttp uri || isHttp referencing) then
      let rc := if '\\' ∈ referencing.toList then '\\' else '/'
      let uc := if '\\' ∈ uri.toList then '\\' else '/'
      String.ofList (joinWith uc ((splitAtChar rc referencing.toList).dropLast ++ splitAtChar uc uri.toList))
    else env.join referencing uri
  String.ofList (env.rewrites.rewrite full.toList)

/-- xml_file_parser_resolver.py 28-32: the suffixes for which there is a parser. Both parsers are `lxml.etree.parse` (services/factory.py 54-56). -/
def hasParser (uri : String) : Bool := [".xml", ".xsd", ".xhtml", ".htm", ".html"].any (fun e => endsWith uri.toList e.toList)

/-- xml_service.py 69-78 with file_service.py 40-68: the content and the new state. A download that fails is reported and raises right afterwards, as there is no file. -/
def fetchFile (env : LoadEnv) (s : LoadState) (uri : String) (remote : Bool) : Except PyErr (String × LoadState) :=
  match s.files.get? (fileName uri) with
  | some c => .ok (c, s)
  | none =>
    if remote then
      match env.web uri with
      | some c => .ok (c, { s with files := s.files.set (fileName uri) c, fetched := s.fetched ++ [uri] })
      | none => .error .fileNotFoundError
    else
      match env.disk (env.urlPath uri) with
      | some c => .ok (c, { s with files := s.files.set (fileName (env.urlPath uri)) c, fetched := s.fetched ++ [uri] })
      | none => .error .fileNotFoundError

/-- xml_service.py 38-80 (`add_etree_recursive`). The first argument is the number of nested calls that Python's stack still has room for. -/
def loadDoc (env : LoadEnv) : Nat → LoadState → String → String → Except PyErr LoadState
  | 0, _, _, _ => .error .recursionError
  | n + 1, s, uri, referencing => do
    let u := resolveUri env referencing uri
    if s.docs.has (normalizeUri u) then return s
    else if !hasParser u then .error .valueError
    else
      let (content, s) ← fetchFile env s u (isHttp u || isHttp referencing)
      let tree ← env.parse content
      let s := { s with docs := s.docs.set (normalizeUri u) tree }
      match s.files.get? (fileName u) with
      | none => .error .fileNotFoundError
      | some text =>
        let refs ← extractReferences text
        (env.so.strings refs).foldlM (fun s r => loadDoc env n s r u) s

/-- contexts/factory.py 53-55: all entry points. -/
def loadAll (env : LoadEnv) (depth : Nat) (s : LoadState) (entries : List String) : Except PyErr LoadState :=
  entries.foldlM (fun s e => loadDoc env depth s e ".") s

/-! ## Catalogs -/

/-- contexts/factory.py 19-32 (`get_catalog_filepath`) -/
def catalogPath (paths : List String) : Option String :=
  (sortBy (fun a b => decide (a.length ≤ b.length)) (paths.filter (fun p => endsWith p.toList "META-INF/catalog.xml".toList))).head?

def oasisNs : String := "urn:oasis:names:tc:entity:xmlns:xml:catalog"

/-- xml_parse_catalog.py 22-48: one child. The report of line 34-38 lacks an argument of its message and raises a `ValueError` (C46). -/
def catalogChild (pieces : List (List Char)) (s : Rewrites × List String) (x : XNode) : Except PyErr (Rewrites × List String) :=
  match x.attr? "uriStartString", x.attr? "rewritePrefix" with
  | some o, some r =>
    if o = "" ∨ r = "" then .ok (s.1, s.2 ++ ["REWRITE_URI_MISSING_ATTRIBUTE"])
    else if s.1.has o.toList then .error .valueError
    else .ok (s.1.set o.toList (joinWith '/' (pieces.dropLast ++ splitAtChar '/' r.toList)), s.2)
  | _, _ => .ok (s.1, s.2 ++ ["REWRITE_URI_MISSING_ATTRIBUTE"])

/-- xml_parse_catalog.py 10-48 (`parse_catalog_xml`), with an empty repository: the rewritings and the reports. The set `original_strings` is that of the keys of the repository. -/
def parseCatalog (path : String) (root : XNode) : Except PyErr (Rewrites × List String) :=
  let errs := if root.tag ≠ some ("{" ++ oasisNs ++ "}catalog") then ["INVALID_CATALOG_ROOT_NODE"] else []
  (root.children.filter (fun x => decide (x.tag = some ("{" ++ oasisNs ++ "}rewriteURI")))).foldlM (catalogChild (splitAtChar '/' path.toList)) ([], errs)

/-! ## Opening -/

/-- A folder: its files and the folders in it, in the order of `os.listdir`. -/
inductive Folder where
  | mk (files : List String) (folders : List (String × Folder))

/-- folder_path_loader.py 46-50: the suffixes of the files of a folder that are used. -/
def folderSuffix (f : String) : Bool := [".xml", ".xhtml", ".htm", "html", ".xsd"].any (fun e => endsWith f.toList e.toList)

mutual
/-- folder_path_loader.py 27-63 (`FolderPathLoader.load`) for a path separated by `/`. -/
def Folder.load (path : String) : Folder → List String
  | .mk files folders => ((files.map (fun f => path ++ "/" ++ f)).filter folderSuffix) ++ loadFolders path folders
/-- folder_path_loader.py 52-61 -/
def loadFolders (path : String) : List (String × Folder) → List String
  | [] => []
  | (n, f) :: fs => f.load (path ++ "/" ++ n) ++ loadFolders path fs
end

/-- What a path is: a file, a folder, or neither (for example a web address). -/
inductive PathKind where
  | file
  | folder (f : Folder)
  | other

/-- path_loader_resolver.py 18-23, path_loaders/factory.py 7-8 with file_path_loader.py 15-39, folder_path_loader.py 17-25 and zip_path_loader.py 14-24: the files, where `zip` lists the
names in an archive. -/
def pathFiles (kind : PathKind) (zip : List String) (path : String) : Except PyErr (List String) :=
  let p := path.toList
  let isFile := match kind with | .file => true | _ => false
  if (endsWith p ".xml".toList || endsWith p ".xhtml".toList) && (isFile || startsWith p "http://".toList || startsWith p "https://".toList) then .ok [path]
  else match kind with
    | .folder f => .ok (f.load path)
    | _ => if endsWith p ".zip".toList then .ok (zip.filter (fun f => endsWith f.toList ".xml".toList || endsWith f.toList ".xhtml".toList)) else .error .valueError

/-- The two parsers of filings. -/
inductive ParserKind where
  | xml
  | xhtml
  deriving DecidableEq, Repr

/-- filing_parser_factory.py 36-48: the parser for the files that are left. -/
def parserKind (files : List String) : Except PyErr ParserKind :=
  let ends (f : String) (l : List String) : Bool := l.any (fun e => endsWith f.toList e.toList)
  if files.all (fun f => ends f [".xml", ".xsd"]) then .ok .xml
  else if files.all (fun f => ends f [".xml", ".xsd", ".htm", ".html", ".xhtml"]) then .ok .xhtml
  else .error .valueError

/-- filing_parser_factory.py 20-48 (`create_parser`) with contexts/factory.py 35-56: the kind of parser, the loaded documents and the reports about the catalog. The catalog is removed
from the list of files; `parse` of a missing catalog raises. -/
def createParser (env : LoadEnv) (depth : Nat) (cache : Dict String String) (files : List String) : Except PyErr (ParserKind × LoadState × List String) := do
  if files = [] then .error .valueError
  else
    let (rest, rewrites, errs) ← (match catalogPath files with
      | none => .ok (files, [], [])
      | some c => match env.disk c with
        | none => .error .fileNotFoundError
        | some text => do
          let root ← env.parse text
          let (rw, errs) ← parseCatalog c root
          return (files.erase c, rw, errs) : Except PyErr (List String × Rewrites × List String))
    let s ← loadAll { env with rewrites := rewrites } depth { files := cache } rest
    let k ← parserKind rest
    return (k, s, errs)

end Brel
