import Verif.Model.Errors

/-! What the messages of errors are, and which reports cannot be made. -/

namespace Brel.Spec

/-- A piece of a message template: a character, a doubled brace, or a field to be filled in. -/
inductive Piece where
  | char (c : Char)
  | openBrace
  | closeBrace
  | field (name : List Char)

/-- A piece can be written: characters and names have no braces. -/
def Piece.Plain : Piece → Prop
  | .char c => c ≠ '{' ∧ c ≠ '}'
  | .openBrace | .closeBrace => True
  | .field n => ∀ c ∈ n, c ≠ '{' ∧ c ≠ '}'

/-- How a piece is written in a template. -/
def Piece.written : Piece → List Char
  | .char c => [c]
  | .openBrace => ['{', '{']
  | .closeBrace => ['}', '}']
  | .field n => '{' :: n ++ ['}']

/-- What a piece becomes when the arguments are filled in. -/
def Piece.filled (args : List (String × Option String)) : Piece → Option (List Char)
  | .char c => some [c]
  | .openBrace => some ['{']
  | .closeBrace => some ['}']
  | .field n => (args.lookup (String.ofList n)).map (fun v => match v with | some s => s.toList | none => "None".toList)

/-- The message that a list of pieces becomes, if all its fields have an argument. -/
def fillAll (args : List (String × Option String)) : List Piece → Option (List Char)
  | [] => some []
  | p :: ps => (p.filled args).bind (fun a => (fillAll args ps).map (a ++ ·))

/-- A template reads as a list of pieces. -/
structure Reads (template : List Char) (ps : List Piece) : Prop where
  plain : ∀ p ∈ ps, p.Plain
  text : template = ps.flatMap Piece.written

/-- The places of the code whose report cannot be made: the code has no entry, a field of the message has no argument, or the message has an
unmatched brace. -/
def brokenSites : List (String × Nat) :=
  [("brel/parsers/XHMTL/elements/parse_hidden.py", 25), ("brel/parsers/XHMTL/elements/parse_non_fraction.py", 73),
   ("brel/parsers/XHMTL/elements/parse_references.py", 38), ("brel/parsers/XML/characteristics/xml_parse_unit.py", 123), ("brel/parsers/XML/xml_context_parser.py", 94),
   ("brel/parsers/XML/xml_facts_parser.py", 136), ("brel/parsers/XML/xml_facts_parser.py", 167), ("brel/parsers/XML/xml_parse_catalog.py", 36)]

end Brel.Spec
