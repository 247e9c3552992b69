import Verif.Model.FactValue
import Verif.Model.Link

/-!
Model of `brel/parsers/XML/xml_namespace_normalizer.py`. The table of decimal digits that `\d` and `int` know is the parameter `dig`, the order of sets is `so`.
-/

namespace Brel

/-! ## Default prefixes -/

/-- What the regular expressions of the configuration are made of: a character, any character but a line break, a decimal digit, a character that may be missing. -/
inductive UriTok where
  | lit (c : Char)
  | dot
  | digit
  | opt (c : Char)
  deriving DecidableEq, Repr

/-- The parts of a regular expression of the configuration: `\d{4}` and `\d{2}` are four and two digits, `s?` may be missing, `.` is any character. -/
def uriToks : List Char → List UriTok
  | '\\' :: 'd' :: '{' :: '4' :: '}' :: s => [.digit, .digit, .digit, .digit] ++ uriToks s
  | '\\' :: 'd' :: '{' :: '2' :: '}' :: s => [.digit, .digit] ++ uriToks s
  | 's' :: '?' :: s => .opt 's' :: uriToks s
  | '.' :: s => .dot :: uriToks s
  | c :: s => .lit c :: uriToks s
  | [] => []

/-- `re.match`: the expression matches at the beginning. -/
def matchToks (dig : Char → Option Nat) : List UriTok → List Char → Bool
  | [], _ => true
  | .lit c :: ts, x :: s => x = c && matchToks dig ts s
  | .dot :: ts, x :: s => x ≠ '\n' && matchToks dig ts s
  | .digit :: ts, x :: s => (dig x).isSome && matchToks dig ts s
  | .opt c :: ts, x :: s => (x = c && matchToks dig ts s) || matchToks dig ts (x :: s)
  | .opt _ :: ts, [] => matchToks dig ts []
  | _ :: _, [] => false

/-- brel/config/nsconfig.json with lines 48-53: regular expressions and prefixes. -/
def defaultMappings : List (String × String) := [
  ("https?://www.w3.org/XML/\\d{4}/namespace", "xml"),
  ("https?://www.w3.org/\\d{4}/xlink", "xlink"),
  ("https?://www.w3.org/\\d{4}/XMLSchema", "xs"),
  ("https?://www.w3.org/\\d{4}/XMLSchema-instance", "xsi"),
  ("https?://www.xbrl.org/\\d{4}/instance", "xbrli"),
  ("https?://xbrl.org/\\d{4}/xbrldi", "xbrldi"),
  ("https?://xbrl.org/\\d{4}/xbrldt", "xbrldt"),
  ("https?://www.xbrl.org/\\d{4}/linkbase", "link"),
  ("https?://www.xbrl.org/\\d{4}/XLink", "xl"),
  ("https?://www.xbrl.org/\\d{4}/iso4217", "iso4217"),
  ("https?://www.xbrl.org/\\d{4}/utr", "utr"),
  ("https?://www.xbrl.org/dtr/type/non-numeric", "nonnum"),
  ("https?://www.xbrl.org/dtr/type/numeric", "num"),
  ("https?://www.xbrl.org/\\d{4}/extensible-enumerations", "enum"),
  ("https?://www.xbrl.org/PR/\\d{4}-\\d{2}-\\d{2}/extensible-enumerations-2.0", "enum2"),
  ("https?://www.xbrl.org/\\d{4}/formula", "formula"),
  ("https?://www.xbrl.org/\\d{4}/generic", "gen"),
  ("https?://www.xbrl.org/\\d{4}/table", "table"),
  ("https?://xbrl.org/\\d{4}/filter/concept", "cf"),
  ("https?://xbrl.org/\\d{4}/filter/dimension", "df"),
  ("https?://xbrl.org/\\d{4}/filter/entity", "ef"),
  ("https?://xbrl.org/\\d{4}/filter/period", "pf"),
  ("https?://xbrl.org/\\d{4}/filter/unit", "uf"),
  ("https?://www.xbrl.org/\\d{4}/inlineXBRL", "ix"),
  ("https?://www.xbrl.org/inlineXBRL/transformation/\\d{4}-\\d{2}-\\d{2}", "ixt"),
  ("https?://www.xbrl.org/entities", "entities")]

/-- Lines 57-87 (`get_default_prefix_from_uri`): of the matching expressions the longest, the first of them. -/
def defaultPrefix (dig : Char → Option Nat) (uri : String) : Option String :=
  ((defaultMappings.filter (fun e => matchToks dig (uriToks e.1.toList) uri.toList)).foldl
    (fun best e => if (best.map (fun b => b.1.length)).getD 0 < e.1.length then some e else best) none).map (·.2)

/-! ## Versions and prefixes -/

/-- Lines 90-106 (`generate_alternative_prefixes`). Prefixes have no line breaks. A number with too many digits is a `ValueError` of `int` or `str`. -/
def alternativePrefix (dig : Char → Option Nat) (p : String) : Except PyErr String :=
  let digits := (p.toList.reverse.takeWhile (fun c => (dig c).isSome)).reverse
  let base := (p.toList.reverse.dropWhile (fun c => (dig c).isSome)).reverse
  if digits = [] then .ok (p ++ "1")
  else if digits.length > maxStrDigits then .error .valueError
  else
    let n := toString (digitsVal (digits.filterMap dig) + 1)
    if n.length > maxStrDigits then .error .valueError else .ok (String.ofList base ++ n)

/-- Lines 109-117 (`url_remove_version`) -/
def removeVersion (dig : Char → Option Nat) (uri : String) : String :=
  String.ofList (uri.toList.filter (fun c => !((dig c).isSome || c = '-' || c = '_' || c = '.')))

/-- Lines 120-151 (`are_urls_versions`) -/
def areVersions (dig : Char → Option Nat) : List String → Bool
  | a :: b :: l => removeVersion dig a = removeVersion dig b && areVersions dig (b :: l)
  | _ => true

/-- `re.findall(r"\d+", url)`: the maximal runs of digits. -/
def digitRuns (dig : Char → Option Nat) : List Char → List (List Nat)
  | [] => []
  | c :: s =>
    match dig c with
    | none => digitRuns dig s
    | some d =>
      match s.head?.bind dig, digitRuns dig s with
      | some _, r :: rs => (d :: r) :: rs
      | _, rs => [d] :: rs

/-- Lines 163-172 (`url_to_value`): the sum of all numbers; `int` refuses too many digits. -/
def uriValue (dig : Char → Option Nat) (uri : String) : Except PyErr Nat :=
  (digitRuns dig uri.toList).foldlM (fun n r => if r.length ≤ maxStrDigits then .ok (n + digitsVal r) else .error .valueError) 0

/-- `max` or `min` by a key that may raise: the first element whose key no other one beats. -/
def firstBest {α : Type} (key : α → Except PyErr Nat) (beats : Nat → Nat → Bool) : List α → Except PyErr α
  | [] => .error .valueError
  | x :: xs => do
    let k ← key x
    let r ← xs.foldlM (fun (b : α × Nat) y => do
      let k ← key y
      return if beats k b.2 then (y, k) else b) (x, k)
    return r.1

/-- Lines 154-180 (`get_latest_url_version`) -/
def latestUri (dig : Char → Option Nat) (uris : List String) : Except PyErr String := firstBest (uriValue dig) (fun a b => decide (b < a)) uris

/-- Lines 183-206 (`get_best_prefix`) -/
def bestPrefix (prefixes : List String) : Except PyErr String := firstBest (fun p => .ok p.length) (fun a b => decide (a < b)) prefixes

/-- Lines 238-249: the prefix that stands for a group. -/
def mainPrefix (dig : Char → Option Nat) (uri : String) (prefixes : List String) : Except PyErr String :=
  match defaultPrefix dig uri with
  | some d => .ok d
  | none => bestPrefix prefixes

/-- Lines 209-262 (`__component_to_nsmap`): prefix, URI and redirected prefixes of a group. -/
def groupToNsmap (dig : Char → Option Nat) (uris prefixes : List String) : Except PyErr (String × String × List String) :=
  if uris = [] ∨ prefixes = [] then .error .valueError
  else if !areVersions dig uris then .error .valueError
  else do
    let uri ← latestUri dig uris
    let p ← mainPrefix dig uri prefixes
    return (p, uri, prefixes.filter (fun q => q ≠ p))

/-! ## Normalisation -/

/-- Lines 282-287: one binding added to the groups. -/
def addBinding (dig : Char → Option Nat) (groups : Dict String (List String × List String)) (b : String × String) : Dict String (List String × List String) :=
  let k := removeVersion dig b.2
  let g := (groups.get? k).getD ([], [])
  groups.set k (appendNew g.1 b.2, appendNew g.2 b.1)

/-- The result: `nsmap`, `redirects` and `renames`. -/
structure NsResult where
  nsmap : Dict String String := []
  redirects : Dict String String := []
  renames : Dict String String := []

/-- Lines 300-320: one group. -/
def addGroup (dig : Char → Option Nat) (so : SetOrder) (r : NsResult) (g : List String × List String) : Except PyErr NsResult := do
  let (p, uri, others) ← groupToNsmap dig (so.strings g.1) (so.strings g.2)
  if r.nsmap.has p then
    let q ← alternativePrefix dig p
    return { nsmap := r.nsmap.set q uri, redirects := others.foldl (fun d o => d.set o q) r.redirects, renames := r.renames.set uri q }
  else
    return { nsmap := r.nsmap.set p uri, redirects := others.foldl (fun d o => d.set o p) r.redirects, renames := r.renames }

/-- Lines 265-325 (`normalize_nsmap`). Maps have prefixes, `None` for the default name space, and URIs. -/
def normalizeNsmap (dig : Char → Option Nat) (so : SetOrder) (maps : List (Dict (Option String) String)) : Except PyErr NsResult :=
  let bindings := maps.flatMap (fun m => m.filterMap (fun e => e.1.map (fun p => (p, e.2))))
  ((bindings.foldl (addBinding dig) []).map (·.2)).foldlM (addGroup dig so) {}

end Brel
