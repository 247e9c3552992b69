import Verif.Model.Printing
import Verif.Model.Repos

/-!
`pprint` of `brel/utils/pprint.py` with `pprint_component` of `brel/utils/print_component.py` and `pprint_definition_table` of `brel/utils/print_table.py`.

Left out: how `rich` displays its markup; a line printed with it is the text handed over. A terminal that cannot encode a line is left out as in `Model/Printing.lean`.
-/

namespace Brel

/-- What nodes and networks look like in print, the node objects, and the depth at which Python gives up. -/
structure PrintEnv where
  nodes : NodeTexts
  network : Network → NetworkTexts
  heap : Heap
  limit : Nat
  iter : List Aspect → List Aspect

/-- brel_component.py 160-171 (`get_networks`) -/
def componentNetworks (c : ComponentOf Network) : List Network :=
  let ns : List Network := []
  let ns := match c.presentation with | some n => ns ++ [n] | none => ns
  let ns := match c.calculation with | some n => ns ++ [n] | none => ns
  match c.definition with | some n => ns ++ [n] | none => ns

/-- print_component.py 29-31: the loop; each network is followed by an empty line. -/
def printNetworks (env : PrintEnv) : List Network → Printed
  | [] => ([], true)
  | n :: ns =>
    let r := pprintNetwork env.nodes (env.network n) env.heap env.limit (some n)
    if r.2 then
      let s := printNetworks env ns
      (r.1 ++ [""] ++ s.1, s.2)
    else r

/-- print_component.py 18-37 (`pprint_component`) -/
def pprintComponent (env : PrintEnv) (c : ComponentOf Network) : Printed :=
  let head := ["[bold]Component:[/bold] " ++ c.uri, "[italic]Info:[/italic] " ++ c.info]
  let r := printNetworks env (componentNetworks c)
  if r.2 then (head ++ r.1 ++ (if (componentNetworks c).length = 0 then ["[yellow]No networks in this component.[/yellow]"] else []) ++ [""], true)
  else (head ++ r.1, false)

/-- The objects that can be handed to `pprint`, by the classes it asks for. -/
inductive Printable where
  | fact (f : Fact)
  | network (n : Network)
  | node (i : Nat)
  | component (c : ComponentOf Network)
  | table
  | list (xs : List Printable)
  | other

/-- What is printed: a line, or a table drawn by PrettyTable. -/
inductive PrintOut where
  | line (s : String)
  | table (t : PrintTable)
  deriving DecidableEq, Repr

/-- What was printed, and the exception that ended printing. -/
abbrev Output := List PrintOut × Option PyErr

/-- Printed lines; too deep a network ends in a `RecursionError`. -/
def Printed.output (p : Printed) : Output := (p.1.map .line, if p.2 then none else some .recursionError)

/-- A printed table; nothing is printed if it cannot be made. -/
def tableOutput : Except PyErr PrintTable → Output
  | .ok t => ([.table t], none)
  | .error e => ([], some e)

/-- print_facts.py 26-30 for a list that starts with a fact: anything but a fact has no `get_context`. -/
def factsOf : List Printable → Except PyErr (List Fact)
  | [] => .ok []
  | .fact f :: xs => (factsOf xs).map (f :: ·)
  | _ :: _ => .error .attributeError

/-- pprint.py 47-49: anything but a component has no `get_URI`. -/
def printComponents (env : PrintEnv) : List Printable → Output
  | [] => ([], none)
  | .component c :: xs =>
    let r := Printed.output (pprintComponent env c)
    match r.2 with
    | some e => (r.1, some e)
    | none => let s := printComponents env xs; (r.1 ++ s.1, s.2)
  | _ :: _ => ([], some .attributeError)

/-- pprint.py 27-63 (`pprint`); print_table.py 4-5 prints an empty line for a table. -/
def pprint (env : PrintEnv) : Printable → Output
  | .fact f => tableOutput (pprintFact f)
  | .list [] => tableOutput (pprintFacts env.iter [])
  | .list (.fact f :: xs) => match factsOf (.fact f :: xs) with
    | .ok fs => tableOutput (pprintFacts env.iter fs)
    | .error e => ([], some e)
  | .list (.component c :: xs) => printComponents env (.component c :: xs)
  | .list _ => ([], some .typeError)
  | .network n => Printed.output (pprintNetwork env.nodes (env.network n) env.heap env.limit (some n))
  | .node i => Printed.output (pprintNode env.nodes env.heap env.limit (some i))
  | .component c => Printed.output (pprintComponent env c)
  | .table => ([.line ""], none)
  | .other => ([], some .typeError)

end Brel
