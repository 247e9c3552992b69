import Verif.Model.FactValue

/-! Choosing a filing of the SEC EDGAR database: `brel/utils/edgar.py`. -/

namespace Brel

/-- `SUPPORTED_FILING_TYPES`, edgar.py 11 -/
def edgarTypes : List String := ["10-K", "10-Q", "8-K"]

/-- The parallel lists under `metadata["filings"]["recent"]`, edgar.py 126; a value that is no text is given by its `str`. -/
structure Recent where
  form : List String
  isXBRL : List String
  reportDate : List String
  accessionNumber : List String
  primaryDocument : List String

/-- `l[i]` for `i ≥ 0` -/
def pyIndex {α : Type} (l : List α) (i : Nat) : Except PyErr α :=
  match l[i]? with
  | some x => .ok x
  | none => .error .indexError

/-- edgar.py 128-132 (`report_fits`) -/
def reportFits (r : Recent) (type : String) (date : Option String) (i : Nat) : Except PyErr Bool := do
  let form ← pyIndex r.form i
  let xbrl ← pyIndex r.isXBRL i
  match date with
  | none => return decide (form = type) && decide (xbrl = "1")
  | some d => do
    let rd ← pyIndex r.reportDate i
    return decide (form = type) && decide (xbrl = "1") && decide (rd = d)

/-- edgar.py 134: the list comprehension. -/
def rightIndices (r : Recent) (type : String) (date : Option String) : List Nat → Except PyErr (List Nat)
  | [] => .ok []
  | i :: is => do
    let b ← reportFits r type date i
    let rest ← rightIndices r type date is
    return if b then i :: rest else rest

/-- The sort key of edgar.py 137: `int(recent["reportDate"][i].replace("-", ""))`. -/
def reportKey (dig : Char → Option Nat) (r : Recent) (i : Nat) : Except PyErr Int := do
  let d ← pyIndex r.reportDate i
  match pyInt dig (d.toList.filter (· ≠ '-')) with
  | some n => return n
  | none => throw .valueError

/-- edgar.py 134-145: the fitting filings by descending report date, the earlier listed one first among equal ones; the first of them. -/
def chooseReport (dig : Char → Option Nat) (r : Recent) (type : String) (date : Option String) : Except PyErr Nat := do
  let is ← rightIndices r type date (List.range r.form.length)
  let keys ← is.mapM (reportKey dig r)
  match sortBy (fun a b => decide (b.1 ≤ a.1)) (keys.zip is) with
  | [] => throw .valueError
  | x :: _ => return x.2

/-- `s.zfill(n)` for texts that do not begin with a sign -/
def zfill (n : Nat) (s : List Char) : List Char := List.replicate (n - s.length) '0' ++ s

/-- `s.replace(p, r)` for a `p` that is not empty: occurrences from left to right. The number counts the characters of an occurrence still to be skipped. -/
def replaceText (p r : List Char) : Nat → List Char → List Char
  | _, [] => []
  | k + 1, _ :: s => replaceText p r k s
  | 0, c :: s => if startsWith (c :: s) p then r ++ replaceText p r (p.length - 1) s else c :: replaceText p r 0 s

/-- edgar.py 150 -/
def edgarUri (cik accession doc : String) : String :=
  "https://www.sec.gov/Archives/edgar/data/" ++ String.ofList (zfill 10 cik.toList) ++ "/" ++ String.ofList (accession.toList.filter (· ≠ '-')) ++ "/" ++ doc

/-- What the outside world contributes: which texts `strptime(·, "%Y-%m-%d")` accepts, the cached metadata with their age in seconds, the metadata the server sends (if it does)
and whether the server answers a request. -/
structure EdgarWorld where
  isDate : String → Bool
  cached : Option (Nat × Recent)
  fetch : Option Recent
  answers : String → Bool

/-- edgar.py 22-48 and 107-123: cached metadata are used unless their age is more than one in whole days. -/
def EdgarWorld.metadata (w : EdgarWorld) : Except PyErr Recent :=
  match w.cached with
  | none => match w.fetch with
    | some m => .ok m
    | none => .error .valueError
  | some (age, m) =>
    if age / 86400 > 1 then match w.fetch with
      | some m' => .ok m'
      | none => .error .valueError
    else .ok m

/-- edgar.py 51-169 (`open_edgar`): the URI passed to `Filing.open`. Arguments are texts here; the message printed before opening is left out. -/
def openEdgar (dig : Char → Option Nat) (w : EdgarWorld) (cik type : String) (date : Option String) : Except PyErr String :=
  if date.any (fun d => !w.isDate d) then .error .valueError
  else if cik.length > 10 then .error .valueError
  else if type ∉ edgarTypes then .error .valueError
  else do
    let m ← w.metadata
    let i ← chooseReport dig m type date
    let accession ← pyIndex m.accessionNumber i
    let doc ← pyIndex m.primaryDocument i
    let uri := edgarUri cik accession doc
    if endsWith uri.toList ".htm".toList then
      let uri' := String.ofList (replaceText ".htm".toList "_htm.xml".toList 0 uri.toList)
      if w.answers uri' then return uri' else throw .valueError
    else return uri

end Brel
