import Verif.Model.Xml
import Verif.Model.Repos
import Verif.Model.Numeric

/-!
Model of `brel/parsers/XML/characteristics/`, `brel/parsers/XML/xml_context_parser.py` and the constructors and accessors of
`brel/characteristics/period_characteristic.py` and `unit_characteristic.py`.

`dateOf s` stands for `dateutil.parser.parse(s).date()`, with `none` for a `ValueError`; dateutil itself is not modelled, and
neither are other exceptions it may raise.
Recorded errors are modelled by their codes, in order.
-/

namespace Brel

/-- The repositories the context parser writes to: characteristics, aspects, errors. -/
structure ParseState where
  chars : CharStore := []
  aspects : AspectStore := []
  errs : ErrNames := []

/-- `error_repository.insert(code, …)` -/
def ParseState.err (s : ParseState) (e : String) : ParseState := { s with errs := s.errs ++ [e] }

/-- `characteristic_repository.upsert(id, c)` -/
def ParseState.put (s : ParseState) (i : String) (c : Characteristic) : ParseState := { s with chars := s.chars.upsert i c }

/-- The result of a parser: the characteristic or `None`, and the repositories afterwards. -/
abbrev Parsed := Except PyErr (Option Characteristic × ParseState)

/-! ### Periods -/

/-- brel/characteristics/period_characteristic.py 118-132 (`_is_date`) -/
def isDate (dateOf : String → Option Date) : Option String → Bool
  | none => false
  | some s => if s = "" then false else (dateOf s).isSome

/-- period_characteristic.py 134-148 (`_instant`) -/
def mkInstant (dateOf : String → Option Date) (s : String) : Except PyErr Period :=
  if isDate dateOf (some s) then
    match dateOf s with
    | some d => .ok (.instant d)
    | none => .error .valueError
  else .error .valueError

/-- period_characteristic.py 150-176 (`_duration`) -/
def mkDuration (dateOf : String → Option Date) (s e : String) : Except PyErr Period :=
  if !isDate dateOf (some s) then .error .valueError
  else if !isDate dateOf (some e) then .error .valueError
  else
    match dateOf s, dateOf e with
    | some ds, some de => if Date.le ds de then .ok (.duration ds de) else .error .valueError
    | _, _ => .error .valueError

/-- period_characteristic.py 49-54 -/
def Period.isInstant : Period → Bool
  | .instant _ => true
  | .duration _ _ => false

/-- period_characteristic.py 56-66 (`get_start_period`); a `datetime.date` is never falsy. -/
def Period.getStart : Period → Except PyErr Date
  | .duration s _ => .ok s
  | .instant _ => .error .valueError

/-- period_characteristic.py 68-78 (`get_end_period`) -/
def Period.getEnd : Period → Except PyErr Date
  | .duration _ e => .ok e
  | .instant _ => .error .valueError

/-- period_characteristic.py 80-90 (`get_instant_period`) -/
def Period.getInstant : Period → Except PyErr Date
  | .instant d => .ok d
  | .duration _ _ => .error .valueError

/-- xml_parse_period.py 22-35 (`get_context_date_from_xml`) -/
def contextDate (dateOf : String → Option Date) (x : XNode) (s : ParseState) : Option String × ParseState :=
  if isDate dateOf x.text then (x.text, s) else (none, s.err "INVALID_CONTEXT_PERIOD_DATE")

/-- xml_parse_period.py 38-62 (`parse_instant_period_from_xml`) -/
def parseInstant (dateOf : String → Option Date) (x : XNode) (s : ParseState) : Parsed :=
  match contextDate dateOf x s with
  | (none, s) => .ok (none, s)
  | (some t, s) =>
    if s.chars.hasKey t .period then (s.chars.lookup t .period).map (fun c => (some c, s))
    else (mkInstant dateOf t).map (fun p => (some (.ofPeriod p), s.put t (.ofPeriod p)))

/-- The text `f"period {start_date} {end_date}"` of xml_parse_period.py 87. -/
def durationKey (s e : String) : String := "period " ++ s ++ " " ++ e

/-- xml_parse_period.py 65-101 (`parse_duration_period_from_xml`) -/
def parseDuration (dateOf : String → Option Date) (x y : XNode) (s : ParseState) : Parsed :=
  match contextDate dateOf x s with
  | (a, s) =>
    match contextDate dateOf y s with
    | (b, s) =>
      match a, b with
      | some a, some b =>
        if s.chars.hasKey (durationKey a b) .period then (s.chars.lookup (durationKey a b) .period).map (fun c => (some c, s))
        else
          match mkDuration dateOf a b with
          | .ok p => .ok (some (.ofPeriod p), s.put (durationKey a b) (.ofPeriod p))
          | .error .valueError => .ok (none, s.err "DURATION_PERIOD_START_AFTER_END")
          | .error e => .error e
      | _, _ => .ok (none, s)

/-- xml_parse_period.py 104-140 (`parse_period_from_xml`) -/
def parsePeriod (dateOf : String → Option Date) (x : XNode) (s : ParseState) : Parsed :=
  match x.find "instant" with
  | some i => parseInstant dateOf i s
  | none =>
    match x.find "startDate" with
    | none => .ok (none, s.err "DURATION_PERIOD_MISSING_START_DATE")
    | some a =>
      match x.find "endDate" with
      | none => .ok (none, s.err "DURATION_PERIOD_MISSING_END_DATE")
      | some b => parseDuration dateOf a b s

/-! ### Entities -/

/-- xml_parse_entity.py 24-62 (`parse_entity_from_xml`) -/
def parseEntity (x : XNode) (s : ParseState) : Parsed :=
  match x.find "identifier" with
  | none => .ok (none, s.err "ENTITY_MISSING_IDENTIFIER_ELEMENT")
  | some i =>
    match i.attr? "scheme" with
    | none => .ok (none, s.err "ENTITY_IDENTIFIER_MISSING_SCHEME")
    | some url =>
      match i.text with
      | none => .ok (none, s)
      | some id =>
        if s.chars.hasKey id .entity then (s.chars.lookup id .entity).map (fun c => (some c, s))
        else .ok (some (.ofEntity id url), s.put id (.ofEntity id url))

/-! ### Dimensions -/

/-- The text `f"{aspect_id} {member_id}"` of xml_parse_explicit_dimension.py 83 and xml_parse_typed_dimension.py 104. -/
def dimensionKey (axis value : String) : String := axis ++ " " ++ value

/-- explicit_dimension_characteristic.py 31-34 (`__init__`) -/
def Characteristic.ofExplicit (dim member : ReportElement) (a : Aspect) : Characteristic := ⟨a, .explicit dim.name member.name [member.tag]⟩

/-- typed_dimension_characteristic.py 26-29 (`__init__`) -/
def Characteristic.ofTyped (dim : ReportElement) (v : String) (a : Aspect) : Characteristic := ⟨a, .typed dim.name [dim.tag] v⟩

/-- `if not m:` for `m : str | None` -/
def nonEmpty? : Option String → Option String
  | none => none
  | some s => if s = "" then none else some s

/-- xml_parse_explicit_dimension.py 31-93 (`parse_explicit_dimension_from_xml`) -/
def parseExplicit (re : ElemStore) (x : XNode) (s : ParseState) : Parsed := do
  let axis ← x.attr "dimension"
  let s := if s.chars.hasKey axis .explicit then s else { s with aspects := s.aspects.upsert { name := axis } }
  let aspect ← Dict.get s.aspects axis
  let dq ← qnameFromStr axis x.ns
  if !re.hasTypedQName dq .dimension then return (none, s.err "INVALID_EXPLICIT_DIMENSION_VALUE")
  let dim ← re.getTypedByQName dq .dimension
  match nonEmpty? x.text with
  | none => return (none, s.err "MISSING_EXPLICIT_DIMENSION_MEMBER")
  | some m =>
    let mq ← qnameFromStr m x.ns
    if !re.hasTypedQName mq .member then return (none, s.err "INVALID_EXPLICIT_DIMENSION_MEMBER")
    let member ← re.getTypedByQName mq .member
    let s := if s.chars.hasKey (dimensionKey axis m) .explicit then s else s.put (dimensionKey axis m) (.ofExplicit dim member aspect)
    let c ← s.chars.lookup (dimensionKey axis m) .explicit
    return (some c, s)

/-- xml_parse_typed_dimension.py 30-112 (`parse_typed_dimension_from_xml`) -/
def parseTyped (re : ElemStore) (x : XNode) (s : ParseState) : Parsed := do
  let axis ← x.attr "dimension"
  let s := if Dict.has s.aspects axis then s else { s with aspects := s.aspects.upsert { name := axis } }
  let aspect ← Dict.get s.aspects axis
  let dq ← qnameFromStr axis x.ns
  let s := if re.hasTypedQName dq .dimension then s else s.err "INVALID_TYPED_DIMENSION_VALUE"
  let dim ← re.getTypedByQName dq .dimension
  let s := if x.children.length > 1 then s.err "MULTIPLE_TYPED_DIMENSION_ELEMENT_CHILDREN" else s
  match x.children with
  | [] => return (none, s.err "NO_TYPED_DIMENSION_ELEMENT_CHILDREN")
  | v :: _ =>
    match v.text with
    | none => return (none, s.err "MISSING_TYPED_DIMENSION_VALUE")
    | some v =>
      let s := if s.chars.hasKey (dimensionKey axis v) .typed then s else s.put (dimensionKey axis v) (.ofTyped dim v aspect)
      let c ← s.chars.lookup (dimensionKey axis v) .typed
      return (some c, s)

/-! ### Contexts -/

/-- `if c is not None: context._add_characteristic(c)` -/
def Context.addOpt (ctx : Context) : Option Characteristic → Context
  | none => ctx
  | some c => ctx.add c

/-- xml_context_parser.py 74-94: one child of the segment. The report of line 94 does not give the `dimension_type` its message asks
for, so that making it raises a `ValueError` (error_instance.py 28-34). -/
def parseDimension (re : ElemStore) (x : XNode) (s : ParseState) : Parsed := do
  if ← x.tagHas "explicitMember" then parseExplicit re x s
  else if ← x.tagHas "typedMember" then parseTyped re x s
  else throw .valueError

/-- xml_context_parser.py 73-94: the loop over the segment. -/
def parseSegment (re : ElemStore) : List XNode → Context → ParseState → Except PyErr (Context × ParseState)
  | [], ctx, s => .ok (ctx, s)
  | x :: xs, ctx, s => do
    let (c, s) ← parseDimension re x s
    parseSegment re xs (ctx.addOpt c) s

/-- The children of the segment, none if there is no segment, xml_context_parser.py 70-73. -/
def segmentOf (entity : XNode) : List XNode :=
  match entity.find "segment" with
  | none => []
  | some g => g.children

/-- xml_context_parser.py 28-96 (`parse_context_xml`) -/
def parseContext (dateOf : String → Option Date) (re : ElemStore) (x : XNode) (given : List Characteristic) (s : ParseState) :
    Except PyErr (Option Context × ParseState) := do
  let id ← x.attr "id"
  match x.find "period" with
  | none => return (none, s.err "MISSING_CONTEXT_PERIOD")
  | some p =>
    match x.find "entity" with
    | none => return (none, s.err "MISSING_CONTEXT_ENTITY")
    | some e =>
      let ctx := given.foldl Context.add (Context.new id)
      let (c, s) ← parsePeriod dateOf p s
      let ctx := ctx.addOpt c
      let (c, s) ← parseEntity e s
      let ctx := ctx.addOpt c
      let (ctx, s) ← parseSegment re (segmentOf e) ctx s
      return (some ctx, s)

/-! ### Units -/

/-- xml_parse_unit.py 27-43 (`parse_unit_measure_from_xml`) -/
def parseMeasure (x : XNode) (errs : ErrNames) : Except PyErr (Option QName × ErrNames) :=
  match x.text with
  | none => .ok (none, errs ++ ["XML_MISSING_UNIT_MEASURE"])
  | some t => (qnameFromStr t x.ns).map (fun q => (some q, errs))

/-- xml_parse_unit.py 94-120: the loop over the children of a `divide` element; `none` is the early `return None`. -/
def parseDivide : List XNode → List QName → List QName → ErrNames → Except PyErr (Option (List QName × List QName) × ErrNames)
  | [], nums, dens, errs => .ok (some (nums, dens), errs)
  | c :: cs, nums, dens, errs => do
    let num ← c.tagHas "unitNumerator"
    let den ← c.tagHas "unitDenominator"
    let errs := if num || den then errs else errs ++ ["XML_INVALID_DIVIDE_ELEMENT_CHILDREN"]
    match c.children with
    | [] => throw .indexError
    | m :: _ =>
      match ← parseMeasure m errs with
      | (none, errs) => return (none, errs)
      | (some q, errs) =>
        if num then parseDivide cs (nums ++ [q]) dens errs
        else if den then parseDivide cs nums (dens ++ [q]) errs
        else parseDivide cs nums dens errs

/-- xml_parse_unit.py 122-128: comparing the tags of the first two children; indexing a missing one is an `IndexError`.
The tags of two comments are the same function object, and differ from every text. -/
def sameTags : List XNode → Except PyErr Bool
  | a :: b :: _ => .ok (a.tag = b.tag)
  | _ => .error .indexError

/-- xml_parse_unit.py 46-138 (`parse_unit_from_xml`). The report of lines 122-128 has a message with an unmatched brace
(error_factory_registry.py, `XML_DUPLICATE_DIVIDE_ELEMENT_CHILDREN`), so that making it raises a `ValueError`. -/
def parseUnit (x : XNode) (s : ParseState) : Parsed := do
  let id ← x.attr "id"
  let s := if s.chars.hasKey id .unit then s.err "IXBRL_DUPLICATE_ELEMENT_ID" else s
  match x.children with
  | [c] =>
    if ← c.tagHas "measure" then
      match ← parseMeasure c s.errs with
      | (none, errs) => return (none, { s with errs := errs })
      | (some q, errs) => return (some (.ofUnit id [q] []), { s with errs := errs })
    else if ← c.tagHas "divide" then
      let errs := if c.children.length ≠ 2 then s.errs ++ ["XML_DIVIDE_ELEMENT_WITHOUT_TWO_CHILDREN"] else s.errs
      match ← parseDivide c.children [] [] errs with
      | (none, errs) => return (none, { s with errs := errs })
      | (some (nums, dens), errs) =>
        let same ← sameTags c.children
        if same then throw .valueError
        return (some (.ofUnit id nums dens), { s with errs := errs })
    else return (some (.ofUnit id [] []), s.err "XML_INVALID_UNIT_ELEMENT_CHILDREN")
  | _ => return (some (.ofUnit id [] []), s.err "XML_UNIT_ELEMENT_WITHOUT_ONE_CHILD")

/-- unit_characteristic.py 94-99 (`is_simple`) -/
def unitIsSimple (nums dens : List QName) : Bool := nums.length = 1 && dens.length = 0

end Brel
