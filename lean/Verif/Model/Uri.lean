/-!
# `is_valid_uri` and the `urllib.parse` functions it calls

Texts are lists of characters. The functions of Python's standard library (`urllib/parse.py` of Python 3.11) are modelled line by line, because the check of brel consists of nothing else.
-/
namespace Brel

/-- `_WHATWG_C0_CONTROL_OR_SPACE`: the characters U+0000 to U+0020. -/
def c0OrSpace (c : Char) : Bool := c.toNat ≤ 32

/-- `_UNSAFE_URL_BYTES_TO_REMOVE`: tab, carriage return and line feed. -/
def unsafeChar (c : Char) : Bool := c == '\t' || c == '\r' || c == '\n'

/-- The ASCII letters: `c.isascii() and c.isalpha()`. -/
def asciiLetter (c : Char) : Bool := ('a' ≤ c && c ≤ 'z') || ('A' ≤ c && c ≤ 'Z')

/-- `scheme_chars`: ASCII letters and digits, plus, minus and dot. -/
def schemeChar (c : Char) : Bool := asciiLetter c || ('0' ≤ c && c ≤ '9') || c == '+' || c == '-' || c == '.'

/-- The first two steps of `urlsplit`: strip controls and spaces on the left, drop tabs and line ends everywhere. -/
def urlClean (s : List Char) : List Char := (s.dropWhile c0OrSpace).filter (fun c => !unsafeChar c)

/-- The scheme step of `urlsplit`: the text before the first colon, if there is one, it is not empty, it begins with an ASCII letter and has only characters of schemes. -/
def splitScheme (s : List Char) : List Char × List Char :=
  let pre := s.takeWhile (· ≠ ':')
  if ':' ∈ s ∧ (pre.head?.map asciiLetter) = some true ∧ pre.all schemeChar then (pre.map Char.toLower, s.drop (pre.length + 1)) else ([], s)

/-- `_splitnetloc`'s delimiters. -/
def notDelim (c : Char) : Bool := c ≠ '/' && c ≠ '?' && c ≠ '#'

/-- The authority step of `urlsplit`: after two slashes, up to the next delimiter. -/
def splitNetloc : List Char → List Char × List Char
  | '/' :: '/' :: r => (r.takeWhile notDelim, r.dropWhile notDelim)
  | s => ([], s)

/-- The result of `urlsplit`, without its query and fragment (nothing in brel looks at them). -/
structure UrlSplit where
  scheme : List Char
  netloc : List Char
  path : List Char
  deriving DecidableEq, Repr

/-- One bracket without the other in the authority: `urlsplit` raises a ValueError. -/
def lonelyBracket (netloc : List Char) : Bool := netloc.contains '[' != netloc.contains ']'

/-- `urlsplit`. `badNetloc` says for which authorities `_check_bracketed_host` or `_checknetloc` raise (a bracketed host that is no IP address, a host whose NFKC form has a delimiter). `none`: a ValueError was raised. -/
def urlSplit (badNetloc : List Char → Bool) (s : List Char) : Option UrlSplit :=
  let a := splitScheme (urlClean s)
  let b := splitNetloc a.2
  if lonelyBracket b.1 || badNetloc b.1 then none
  else some ⟨a.1, b.1, (b.2.takeWhile (· ≠ '#')).takeWhile (· ≠ '?')⟩

/-- `uses_params` of `urllib.parse`. -/
def usesParams : List (List Char) :=
  ["", "ftp", "hdl", "prospero", "http", "imap", "https", "shttp", "rtsp", "rtsps", "rtspu", "sip", "sips", "mms", "sftp", "tel"].map String.toList

/-- `_splitparams`, its first result: what stands before the first semicolon of the last segment. -/
def splitParams (url : List Char) : List Char :=
  let seg := (url.reverse.takeWhile (· ≠ '/')).reverse
  url.take (url.length - seg.length) ++ seg.takeWhile (· ≠ ';')

/-- `urlparse(url).path`. -/
def parsePath (u : UrlSplit) : List Char := if u.scheme ∈ usesParams ∧ ';' ∈ u.path then splitParams u.path else u.path

/-- `is_valid_uri` (brel/parsers/utils/url_utils.py 4-14). `and` binds tighter than `or`; any exception gives False. -/
def isValidUri (badNetloc : List Char → Bool) (s : String) : Bool :=
  match urlSplit badNetloc s.toList with
  | none => false
  | some u => parsePath u ≠ [] || (u.scheme ≠ [] && u.netloc ≠ [])

end Brel
