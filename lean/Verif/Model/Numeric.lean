import Verif.Model.FormatTables
import Verif.Model.FactValue

/-!
Model of the numeric half of `brel/parsers/XHMTL/xhtml_parse_transformation_registry.py` (849-1040) and of
`brel/parsers/XHMTL/elements/parse_non_fraction.py`.
Simplifications: texts are character lists; an error that is reported is the name of its `ErrorCode` member, without the
element and the message arguments; the functions return the reported errors instead of inserting them in a repository.
-/

namespace Brel

/-- Names of the `ErrorCode` members reported, in order. -/
abbrev ErrNames := List String

/-- `l[i:]` for a Python index. -/
def pyFrom {α : Type} (l : List α) (i : Int) : List α := if i < 0 then l.drop (l.length - i.natAbs) else l.drop i.natAbs

/-- `l[:i]` for a Python index. -/
def pyUpto {α : Type} (l : List α) (i : Int) : List α := if i < 0 then l.take (l.length - i.natAbs) else l.take i.natAbs

/-- xhtml_parse_transformation_registry.py 874-900 (`normalize_digits_in_string`), on one character. -/
def normalizeDigit (c : Char) : Char :=
  match c with
  | '０' => '0' | '１' => '1' | '２' => '2' | '３' => '3' | '４' => '4'
  | '５' => '5' | '６' => '6' | '７' => '7' | '８' => '8' | '９' => '9'
  | '०' => '0' | '१' => '1' | '२' => '2' | '३' => '3' | '४' => '4'
  | '५' => '5' | '६' => '6' | '७' => '7' | '८' => '8' | '९' => '9'
  | c => c

/-- xhtml_parse_transformation_registry.py 874-900 (`normalize_digits_in_string`) -/
def normalizeDigits (s : List Char) : List Char := s.map normalizeDigit

/-- xhtml_parse_transformation_registry.py 903-929 (`match_regex_numerical_fact_value`) -/
def matchNumeric (text : List Char) (format : String) : Option Caps × ErrNames :=
  match numberFormats.get? format with
  | none => (none, ["UNSUPPORTED_NON_FRACTION_FACT_FORMAT"])
  | some r =>
    match r.fullMatch text with
    | none => (none, ["NUMBER_DOES_NOT_MATCH_EXPECTED_FORMAT"])
    | some m => (some m, [])

/-- xhtml_parse_transformation_registry.py 932-946 (`apply_scale`) -/
def applyScale (whole decimal : List Char) (scale : Int) : List Char × List Char :=
  if scale < 0 then
    let whole := if (whole.length : Int) < -scale then List.replicate ((-scale) - whole.length).toNat '0' ++ whole else whole
    (pyUpto whole scale, pyFrom whole scale ++ decimal)
  else
    let decimal := if (decimal.length : Int) < scale then decimal ++ List.replicate (scale - decimal.length).toNat '0' else decimal
    (whole ++ pyUpto decimal scale, pyFrom decimal scale)

/-- xhtml_parse_transformation_registry.py 950: the characters that `process_number_part` removes. -/
def separators : List Char := [' ', '.', ',', '，', '\'', '`', '´', '’', '′', '＇']

/-- xhtml_parse_transformation_registry.py 949-957 (`process_number_part`); `none` is Python's `None`. -/
def processNumberPart (part : Option (List Char)) : List Char :=
  let p := match part with
    | none => ['0']
    | some [] => ['0']
    | some s => s
  separators.foldl (fun s sep => s.filter (· ≠ sep)) p

/-- xhtml_parse_transformation_registry.py 960-982 (`process_numerical_fact_value`) -/
def processNumeric (dig : Char → Option Nat) (m : Caps) (scale : List Char) : List Char × ErrNames :=
  let whole := processNumberPart (m.group 1)
  let decimal := processNumberPart (m.group 2)
  let (sc, errs) := match pyInt dig scale with
    | some n => (n, [])
    | none => (0, ["INVALID_SCALE_ATTRIBUTE_VALUE"])
  let (w, d) := applyScale whole decimal sc
  (w ++ '.' :: d, errs)

/-- `s.rstrip("0")` -/
def rstripZeros (s : List Char) : List Char := (s.reverse.dropWhile (· = '0')).reverse

/-- `s.lstrip("0")` -/
def lstripZeros (s : List Char) : List Char := s.dropWhile (· = '0')

/-- xhtml_parse_transformation_registry.py 985-1000 (`normalize_numerical_fact_value`) -/
def normalizeNumeric (s : List Char) : List Char :=
  let s := rstripZeros (normalizeDigits s)
  let s := if endsWith s ['.'] then s.dropLast else s
  let s := lstripZeros s
  if startsWith s ['.'] then '0' :: s else s

/-- xhtml_parse_transformation_registry.py 1003-1040 (`parse_numerical_fact_value`) -/
def parseNumeric (dig : Char → Option Nat) (text : List Char) (format : String) (scale : List Char) : List Char × ErrNames :=
  if format = "ixt:fixed-zero" then (['0'], [])
  else
    let format := (legacyFormats.get? format).getD format
    let text := pyStrip text
    match matchNumeric text format with
    | (none, errs) => (text, errs)
    | (some m, _) =>
      let r := processNumeric dig m scale
      (normalizeNumeric r.1, r.2)

/-- What `process_non_fraction_value` reads from the element (parse_non_fraction.py 87-99): attributes and text. -/
structure NonFraction where
  format : Option String
  scale : Option String
  sign : Option String
  text : Option String
  deriving DecidableEq, Repr

/-- Truthiness of an optional string: `None` and `""` are false. -/
def truthy : Option String → Option String
  | some "" => none
  | x => x

/-- parse_non_fraction.py 84-137 (`process_non_fraction_value`).
`flt s` is `none` when Python's `float(s)` raises, and else tells whether `float(s) < 0`. -/
def processNonFraction (dig : Char → Option Nat) (flt : String → Option Bool) (e : NonFraction) : String × ErrNames :=
  let signErr : ErrNames := match truthy e.sign with
    | some s => if s ≠ "-" then ["IXBRL_INVALID_SIGN_ATTRIBUTE_VALUE"] else []
    | none => []
  let text := e.text.getD ""
  let go (format : String) : String × ErrNames :=
    let r := parseNumeric dig text.toList format ((truthy e.scale).getD "0").toList
    (String.ofList (if e.sign = some "-" then '-' :: r.1 else r.1), signErr ++ r.2)
  match truthy e.format with
  | some f => go f
  | none =>
    match flt text with
    | none => ("", signErr ++ ["IXBRL_NON_NUMERICAL_NON_FRACTION_FACT_VALUE"])
    | some true => ("", signErr ++ ["IXBRL_NEGATIVE_NON_FRACTION_FACT_VALUE"])
    | some false => go "ixt:num-dot-decimal"

/-- parse_non_fraction.py 20-36 (`parse_decimals_or_precision`): `none` is `None`, otherwise an integer or infinity (`none`). -/
def parseDecimals (dig : Char → Option Nat) : Option String → Except PyErr (Option (Option Int))
  | none => .ok none
  | some s =>
    match pyInt dig s.toList with
    | some n => .ok (some (some n))
    | none => if s = "INF" then .ok (some none) else .error .valueError

/-- A child element of an inline fact: prefixed tag, its text after it (`tail`), and its serialisation (`etree.tostring`). -/
structure InlineChild where
  tag : String
  tail : Option String
  xml : String
  deriving DecidableEq, Repr

/-- The attributes of the parent element that parse_non_fraction.py 39-81 reads. -/
structure InlineParent where
  tag : String
  format : Option String
  scale : Option String
  unitRef : Option String
  deriving DecidableEq, Repr

/-- What `parse_non_fraction_fact_element` reads from an `ix:nonFraction` element. -/
structure NonFractionElem where
  value : NonFraction
  id : Option String
  decimals : Option String
  precision : Option String
  nil : Option String
  unitRef : Option String
  children : List InlineChild
  parent : Option InlineParent
  deriving DecidableEq, Repr

/-- parse_non_fraction.py 58-81: whether a nested element differs from its parent in format, scale or unit. Then the report of lines
70-81 is made, whose message is malformed (an unmatched brace, error_factory_registry.py,
`IXBRL_DIFFERING_FORMAT_SCALE_OR_UNIT_FOR_NON_FRACTION_CHILD`), so that making it raises a `ValueError`. -/
def NonFractionElem.differs (e : NonFractionElem) : Bool :=
  match e.parent with
  | none => false
  | some p => decide (p.tag = "ix:nonFraction") && decide (e.value.format ≠ p.format ∨ e.value.scale ≠ p.scale ∨ e.unitRef ≠ p.unitRef)

/-- parse_non_fraction.py 39-57 (the first check of `validate_descendant_non_fraction_rules`) -/
def validateDescendant (e : NonFractionElem) : ErrNames :=
  match e.parent with
  | none => []
  | some p =>
    if p.tag ≠ "ix:nonFraction" then []
    else
      (if e.nil = some "true" then ["IXBRL_NIL_ATTRIBUTE_IN_NON_FRACTION_CHILD"] else [])

/-- The result of `parse_non_fraction_fact_element`: the fields of the `Fact` it returns besides the context. -/
structure InlineFact where
  value : String
  id : Option String
  decimals : Option (Option Int)
  precision : Option (Option Int)
  deriving DecidableEq, Repr

/-- `has_text` of parse_non_fraction.py 194: the text is there (even empty) or a child has a non-empty tail. -/
def NonFractionElem.hasText (e : NonFractionElem) : Bool :=
  e.value.text.isSome || e.children.any (fun c => (truthy c.tail).isSome)

/-- parse_non_fraction.py 140-242 (`parse_non_fraction_fact_element`): the fact, the reported errors and the ids seen so far.
The errors are the `ValueError` of `differs` and the `IndexError` of `element_children[0]` (line 237) when there is no child. -/
def parseNonFraction (dig : Char → Option Nat) (flt : String → Option Bool) (e : NonFractionElem) (taken : List String) :
    Except PyErr (InlineFact × ErrNames × List String) :=
  let dup : ErrNames := match e.id with
    | some i => if i ∈ taken then ["IXBRL_DUPLICATE_ELEMENT_ID"] else []
    | none => []
  let taken' := match e.id with
    | some i => appendNew taken i
    | none => taken
  let (dec, decErr) : Option (Option Int) × ErrNames := match parseDecimals dig e.decimals with
    | .ok d => (d, [])
    | .error _ => (none, ["INVALID_DECIMALS_ATTRIBUTE_VALUE"])
  let (prec, precErr) : Option (Option Int) × ErrNames := match parseDecimals dig e.precision with
    | .ok d => (d, [])
    | .error _ => (none, ["INVALID_PRECISION_ATTRIBUTE_VALUE"])
  let excl : ErrNames :=
    if (dec.isSome && prec.isSome) || (prec.isSome && e.nil.isSome) || (dec.isSome && e.nil.isSome)
    then ["IXBRL_MUTUALLY_EXCLUSIVE_ATTRIBUTES_IN_NON_FRACTION"] else []
  let hasText := e.hasText
  let hasChildren := decide (e.children ≠ [])
  let both : ErrNames := if hasText && hasChildren then ["IXBRL_BOTH_TEXT_AND_CHILDREN_IN_NON_FRACTION"] else []
  let nilErr : ErrNames := if e.nil = some "true" ∧ (hasText || hasChildren) then ["IXBRL_TEXT_OR_CHILDREN_WITH_NIL"] else []
  let absent := ((truthy e.nil).isNone || decide (e.nil = some "false")) && !hasText && !hasChildren
  let absentErr : ErrNames := if absent then ["IXBRL_NO_TEXT_OR_CHILDREN_WITH_ABSENT_NIL_ATTRIBUTE"] else []
  let nil' := if absent then some "true" else e.nil
  let desc := validateDescendant e
  let before := dup ++ decErr ++ precErr ++ excl ++ both ++ nilErr ++ absentErr ++ desc
  let fact (value : String) : InlineFact := { value, id := e.id, decimals := dec, precision := prec }
  if e.differs then .error .valueError
  else if nil' = some "true" then .ok (fact "", before, taken')
  else if hasText then
    let r := processNonFraction dig flt e.value
    .ok (fact r.1, before ++ r.2, taken')
  else match e.children with
    | [] => .error .indexError
    | c :: cs =>
      .ok (fact c.xml, before ++ (if cs ≠ [] then ["IXBRL_MULTIPLE_NON_FRACTION_CHILDREN"] else []) ++
        (if c.tag ≠ "ix:nonFraction" then ["IXBRL_INVALID_NON_FRACTION_CHILD"] else []), taken')

end Brel
