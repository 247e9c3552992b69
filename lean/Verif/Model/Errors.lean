import Verif.Model.Names
import Verif.Py

/-! brel/errors, brel/data/errors and the error accessors of brel/brel_filing.py. -/

namespace Brel

/-- brel/errors/severity.py -/
inductive Severity where
  | error | warning | info
  deriving DecidableEq, Repr

/-- brel/errors/area.py -/
inductive Area where
  | schemaDefinition | generalInstance | ixbrlInstance | xmlInstance | jsonInstance | csvInstance | generalLinkbase | calculationNetwork
  | presentationNetwork | definitionNetwork | footnoteNetwork | labelNetwork | referenceNetwork | taxonomyPackage | reportPackage | validation | misc
  deriving DecidableEq, Repr

/-- severity.py 4-7: the values of the enumeration. -/
def Severity.value : Severity → List Char
  | .error => ['E'] | .warning => ['W'] | .info => ['I']

/-- area.py 4-21: the values of the enumeration. -/
def Area.value : Area → List Char
  | .schemaDefinition => ['S', 'C', 'H'] | .generalInstance => ['I', 'N', 'G'] | .ixbrlInstance => ['I', 'N', 'I'] | .xmlInstance => ['I', 'N', 'X']
  | .jsonInstance => ['I', 'N', 'J'] | .csvInstance => ['I', 'N', 'C'] | .generalLinkbase => ['L', 'N', 'K'] | .calculationNetwork => ['C', 'A', 'L']
  | .presentationNetwork => ['P', 'R', 'E'] | .definitionNetwork => ['D', 'E', 'F'] | .footnoteNetwork => ['F', 'O', 'O'] | .labelNetwork => ['L', 'A', 'B']
  | .referenceNetwork => ['R', 'E', 'F'] | .taxonomyPackage => ['T', 'X', 'P'] | .reportPackage => ['R', 'P', 'K'] | .validation => ['V', 'A', 'L'] | .misc => ['M', 'S', 'C']

/-- The arguments of an entry of the registry. Hints are left out: nothing depends on them. -/
structure ErrEntry where
  severity : Severity
  area : Area
  number : String
  message : List Char
  xbrlCode : Option QName
  deriving DecidableEq, Repr

/-- brel/errors/error_instance.py 10-27: an error. The element it refers to is left out. -/
structure ErrorInstance where
  severity : Severity
  area : Area
  number : String
  message : List Char
  xbrlCode : Option QName
  deriving DecidableEq, Repr

/-- A call that makes a report. -/
structure Site where
  file : String
  line : Nat
  code : String
  args : List String
  deriving DecidableEq, Repr

/-- The text Python puts for an argument of `format`: `None` is written out. -/
def argText : Option String → List Char
  | none => ['N', 'o', 'n', 'e']
  | some s => s.toList

/-- `str.format` with keyword arguments. `none` is the text outside fields, `some name` the name of a field read so far. Doubled braces
stand for themselves; an unmatched brace is a `ValueError`, an unknown name a `KeyError`. Not modelled: attributes, indices, conversions
and format specifications in fields (no message of the registry has them), and fields without a name. -/
def pyFormat (args : List (String × Option String)) : Option (List Char) → List Char → Except PyErr (List Char)
  | none, [] => .ok []
  | none, '{' :: '{' :: t => (pyFormat args none t).map ('{' :: ·)
  | none, '}' :: '}' :: t => (pyFormat args none t).map ('}' :: ·)
  | none, '{' :: t => pyFormat args (some []) t
  | none, '}' :: _ => .error .valueError
  | none, c :: t => (pyFormat args none t).map (c :: ·)
  | some _, [] => .error .valueError
  | some _, '{' :: _ => .error .valueError
  | some n, '}' :: t =>
    match args.lookup (String.ofList n) with
    | none => .error .keyError
    | some v => (pyFormat args none t).map (argText v ++ ·)
  | some n, c :: t => pyFormat args (some (n ++ [c])) t

/-- error_instance.py 28-34 (`update_message`): a `KeyError` becomes a `ValueError`. -/
def updateMessage (args : List (String × Option String)) (message : List Char) : Except PyErr (List Char) :=
  match pyFormat args none message with
  | .ok m => .ok m
  | .error .keyError => .error .valueError
  | .error e => .error e

/-- A dictionary literal: later entries of a key replace earlier ones. -/
def dictLiteral (entries : List (String × ErrEntry)) : Dict String ErrEntry := entries.foldl (fun d e => Dict.set d e.1 e.2) []

/-- brel/data/errors/error_repository.py 37-54 (`create`) -/
def createError (registry : Dict String ErrEntry) (code : String) (args : List (String × Option String)) : Except PyErr ErrorInstance :=
  match Dict.get? registry code with
  | none => .error .valueError
  | some e => (updateMessage args e.message).map (fun m => ⟨e.severity, e.area, e.number, m, e.xbrlCode⟩)

/-- error_instance.py 57-73 (`get_full_error_code`) -/
def ErrorInstance.fullCode (e : ErrorInstance) : List Char :=
  e.severity.value ++ ['-'] ++ e.area.value ++ ['-'] ++ e.number.toList ++
    (match e.xbrlCode with
      | some q => [' ', '['] ++ q.clark.toList ++ [']']
      | none => [])

/-- error_instance.py 75-76 (`__str__`) -/
def ErrorInstance.str (e : ErrorInstance) : List Char := e.fullCode ++ [':', ' '] ++ e.message

/-! ### The repository -/

/-- The steps on the repository of errors, brel/data/errors. -/
inductive ErrOp where
  | insert (code : String) (args : List (String × Option String))
  | insertPremade (e : ErrorInstance)
  | upsertIf (condition : Bool) (e : ErrorInstance)
  | clear

/-- in_memory_error_repository.py 15-26 and error_repository.py 56-71 -/
def ErrOp.apply (registry : Dict String ErrEntry) (s : List ErrorInstance) : ErrOp → Except PyErr (List ErrorInstance)
  | .insert code args => (createError registry code args).map (fun e => s ++ [e])
  | .insertPremade e => .ok (s ++ [e])
  | .upsertIf c e => .ok (if c then s ++ [e] else s)
  | .clear => .ok []

/-- error_repository.py 73-75 and brel_filing.py 199-222 (`get_by_severity`, `get_errors`, `get_warnings`, `get_infos`) -/
def errorsBySeverity (s : List ErrorInstance) (v : Severity) : List ErrorInstance := s.filter (fun e => e.severity = v)

/-- brel_filing.py 190-197 (`get_errors_by_area`) -/
def errorsByArea (s : List ErrorInstance) (a : Area) : List ErrorInstance := s.filter (fun e => e.area = a)

/-- brel_filing.py 181-182 (`has_any_errors`) -/
def hasAnyErrors (s : List ErrorInstance) : Bool := decide (s.length > 0)

end Brel
