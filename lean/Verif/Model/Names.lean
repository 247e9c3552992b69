import Verif.Py

/-!
Model of `brel/qnames/`.
Simplification: Python `str` is Lean `String`; a namespace scope (`lxml` element `nsmap`) is a `Dict` whose key `none` is the
default namespace (lxml's `None` prefix).
-/

namespace Brel

/-- brel/qnames/qname.py 14-18 (`QName`, a frozen dataclass with structural equality). -/
structure QName where
  uri : String
  pfx : String
  localName : String
  deriving DecidableEq, Repr

/-- brel/qnames/qname.py 29-33 -/
def QName.clark (q : QName) : String := "{" ++ q.uri ++ "}" ++ q.localName

/-- brel/qnames/qname.py 35-39 (also `__str__`, 41-45) -/
def QName.prefixLocal (q : QName) : String := q.pfx ++ ":" ++ q.localName

/-- An element's namespace scope (lxml `_Element.nsmap`). -/
abbrev NsMap := Dict (Option String) String

/-- The namespace URI of the reserved prefix `xml`, qname_utils.py 62 and 119. -/
def xmlNs : String := "http://www.w3.org/XML/1998/namespace"

/-- The regular expression `^\{([^\}]+)\}([^\{]+)$` of qname_utils.py 41 and 54, returning both groups.
The groups may contain newlines and the second is greedy, so `$` matches at the very end only. -/
def matchClark (s : String) : Option (String × String) :=
  match s.toList with
  | '{' :: rest =>
    let u := rest.takeWhile (· ≠ '}')
    match rest.dropWhile (· ≠ '}') with
    | '}' :: l => if u ≠ [] ∧ l ≠ [] ∧ '{' ∉ l then some (String.ofList u, String.ofList l) else none
    | _ => none
  | _ => none

/-- The regular expression `^([^\:]+)\:([^\:]+)$` of qname_utils.py 92 and 110 and qname_search_params.py 26, 35, 52, 63. -/
def matchColon (s : String) : Option (String × String) :=
  let p := s.toList.takeWhile (· ≠ ':')
  match s.toList.dropWhile (· ≠ ':') with
  | ':' :: l => if p ≠ [] ∧ l ≠ [] ∧ ':' ∉ l then some (String.ofList p, String.ofList l) else none
  | _ => none

/-- brel/qnames/qname_utils.py 61: `{v: k for k, v in nsmap.items()}`, the last prefix of a URI wins. -/
def invertNs (ns : NsMap) : Dict String (Option String) :=
  ns.foldl (fun d e => d.set e.2 e.1) []

/-- Python `str(x)` of an optional string: `None` becomes `"None"`. -/
def strOpt : Option String → String
  | none => "None"
  | some s => s

/-- brel/qnames/qname_utils.py 46-73 (`qname_from_clark_notation`). -/
def qnameFromClark (s : String) (ns : NsMap) : Except PyErr QName :=
  match matchClark s with
  | none => .error .valueError
  | some (uri, loc) =>
    let inv := (invertNs ns).set xmlNs (some "xml")
    .ok ⟨uri, strOpt (inv.get? uri).join, loc⟩

/-- brel/qnames/qname_utils.py 97-130 (`qname_from_namespace_localname_notation`).
lxml's `nsmap` property returns a fresh dict, so the assignment of `xml` is local to this call. -/
def qnameFromPrefixLocal (s : String) (ns : NsMap) : Except PyErr QName :=
  match matchColon s with
  | none => .error .valueError
  | some (p, loc) =>
    .ok ⟨strOpt ((ns.set (some "xml") xmlNs).get? (some p)), p, loc⟩

/-- brel/qnames/qname_utils.py 143-161 (`qname_from_local_name_only`). -/
def qnameFromLocal (s : String) (ns : NsMap) : QName := ⟨strOpt (ns.get? none), "", s⟩

/-- brel/qnames/qname_utils.py 16-32 (`qname_from_str`). -/
def qnameFromStr (s : String) (ns : NsMap) : Except PyErr QName :=
  if (matchClark s).isSome then qnameFromClark s ns
  else if (matchColon s).isSome then qnameFromPrefixLocal s ns
  else .ok (qnameFromLocal s ns)

/-- brel/qnames/qname_search_params.py 14-18 -/
structure SearchParams where
  localName : String
  uri : Option String := none
  pfx : Option String := none
  deriving DecidableEq, Repr

/-- brel/qnames/qname_search_params.py 20-28 and 47-54: both predicates use the same `prefix:local` expression. -/
def SearchParams.isPrefixLocal (s : String) : Bool := (matchColon s).isSome

/-- brel/qnames/qname_search_params.py 30-45 and 56-72: both constructors have the same body. -/
def SearchParams.fromPrefixLocal (s : String) : Except PyErr SearchParams :=
  match matchColon s with
  | none => .error .valueError
  | some (p, l) => .ok { localName := l, uri := none, pfx := some p }

/-- brel/qnames/qname_search_params.py 74-84 (`from_string`); `is_clark_notation` is tested first but is the same test. -/
def SearchParams.fromString (s : String) : Except PyErr SearchParams :=
  if SearchParams.isPrefixLocal s then SearchParams.fromPrefixLocal s
  else if SearchParams.isPrefixLocal s then SearchParams.fromPrefixLocal s
  else .ok { localName := s, uri := none, pfx := none }

end Brel
