import Verif.Model.Network
import Verif.Model.Elements

/-!
Model of `brel/utils/print_networks.py` and `brel/utils/print_facts.py`: the lines that printing a network writes, and the table that
printing facts shows.

Left out: a terminal that cannot encode a line (print_networks.py 101-104 then prints its bytes), and how PrettyTable draws a table.
-/

namespace Brel

/-! ### Networks -/

/-- The report element classes in `tag_lookup` (print_networks.py 24-34). -/
inductive ElementClass where
  | dimension | member | lineItems | hypercube | concept | abstract
  deriving DecidableEq, Repr

/-- What a node shows: `points_to()`, the class of the thing pointed to, and the strings the printer asks it for. `str(re)` of a report
element is its name, `str(content)` of a reference the text of its dictionary. -/
inductive Shown where
  | label (role language content : String)
  | reference (role content : String)
  | footnote (role content : String)
  | element (cls : ElementClass) (name : String)
  | fact
  deriving DecidableEq, Repr

/-- print_networks.py 24-34 (`tag_lookup`), the entries of report elements. -/
def ElementClass.tag : ElementClass → String
  | .dimension => "[DIMENSION]"
  | .member => "[MEMBER]"
  | .lineItems => "[LINE ITEMS]"
  | .hypercube => "[HYPERCUBE]"
  | .concept => "[CONCEPT]"
  | .abstract => "[ABSTRACT]"

/-- print_networks.py 24-34 (`tag_lookup`): its values. -/
def printTags : List String :=
  ["[LABEL]", "[FOOTNOTE]", "[REFERENCE]", "[DIMENSION]", "[MEMBER]", "[LINE ITEMS]", "[HYPERCUBE]", "[CONCEPT]", "[ABSTRACT]"]

/-- print_networks.py 36 (`PADDING`) -/
def printPadding : Nat := (printTags.map (fun t => t.length)).foldl max 0

/-- `role.split("/")[-1]` -/
def lastPathPart (s : String) : String := String.ofList (s.toList.reverse.takeWhile (· ≠ '/')).reverse

/-- `" " * n` -/
def spaces (n : Nat) : String := String.ofList (List.replicate n ' ')

/-- print_networks.py 42-81: what a line says about the thing pointed to. Report elements have no `get_preferred_label_role`, so that
line 69 is never true; nothing is printed for facts. -/
def Shown.text : Shown → String
  | .label role language content => "[" ++ "[LABEL]" ++ "] (" ++ lastPathPart role ++ " " ++ language ++ ") " ++ content
  | .reference role content => "[" ++ "[REFERENCE]" ++ "] (" ++ lastPathPart role ++ ") " ++ content
  | .footnote role content => "[" ++ "[FOOTNOTE]" ++ "] (" ++ lastPathPart role ++ ") " ++ content
  | .element cls name => cls.tag ++ " " ++ name
  | .fact => ""

/-- `f"{weight:4}"`: the text of the float, filled up on the left to four characters. -/
def width4 (w : String) : String := spaces (4 - w.length) ++ w

/-- print_networks.py 84-95. `weight` is the text of the weight; only calculation nodes have one. -/
def weightText : Option String → String
  | some w => "[W=" ++ width4 w ++ "] " ++ spaces (printPadding - ("[W=" ++ width4 w ++ "] ").length)
  | none => ""

/-- How the nodes of a heap are shown: what they point to, and their weight. -/
structure NodeTexts where
  shown : Nat → Shown
  weight : Nat → Option String

/-- print_networks.py 40-97 (`output_string`) -/
def NodeTexts.text (t : NodeTexts) (i : Nat) : String := weightText (t.weight i) ++ (t.shown i).text

/-- The printed lines, and whether printing ended without an exception. -/
abbrev Printed := List String × Bool

/-- print_networks.py 106-109, 129-131: print the nodes of a list of `len` siblings, from index `i` on. -/
def printSiblings (sub : Bool → Nat → Printed) (len : Nat) : Nat → List Nat → Printed
  | _, [] => ([], true)
  | i, n :: ns =>
    let r := sub (decide (i + 1 = len)) n
    if r.2 then
      let s := printSiblings sub len (i + 1) ns
      (r.1 ++ s.1, s.2)
    else r

/-- print_networks.py 39-109 (`__print_sub_network`). `limit` is the remaining recursion depth. -/
def printSubNetwork (t : NodeTexts) (h : Heap) : (limit : Nat) → (header : String) → (last : Bool) → Nat → Printed
  | 0, _, _, _ => ([], false)
  | limit + 1, header, last, i =>
    let line := header ++ (if last then "└──" else "├──") ++ t.text i
    let childHeader := header ++ (if last then "   " else "│  ")
    let r := printSiblings (fun l c => printSubNetwork t h limit childHeader l c) (h.children i).length 0 (h.children i)
    (line :: r.1, r.2)

/-- print_networks.py 112-115 (`pprint_network_node`) -/
def pprintNode (t : NodeTexts) (h : Heap) (limit : Nat) : Option Nat → Printed
  | none => ([], true)
  | some i => printSubNetwork t h limit "" true i

/-- The strings in the two header lines: of the link name, the list of arc roles, and the arc name of the first root (`None` when there
is no root). -/
structure NetworkTexts where
  linkName : String
  arcRoles : List String → String
  arcName : Option Nat → String

/-- print_networks.py 118-132 (`pprint_network`). `get_arc_roles` walks the whole network before the second line is printed. -/
def pprintNetwork (t : NodeTexts) (nt : NetworkTexts) (h : Heap) (limit : Nat) : Option Network → Printed
  | none => ([], true)
  | some n =>
    let line1 := "Network (link role: " ++ n.linkRole ++ "), link name: " ++ nt.linkName
    match n.getArcRoles h limit with
    | .error _ => ([line1], false)
    | .ok roles =>
      let line2 := "arc roles: " ++ nt.arcRoles roles ++ ", arc name: " ++ nt.arcName n.roots.head?
      let r := printSiblings (printSubNetwork t h limit "") n.roots.length 0 n.roots
      (line1 :: line2 :: r.1 ++ (if r.2 then [""] else []), r.2)

/-! ### Facts -/

/-- A table handed to PrettyTable: the column names and the rows. Cells are the objects of the rows: the id, characteristics, the value. -/
inductive PrintCell where
  | id (i : Option String)
  | char (c : Option Characteristic)
  | value (v : String)
  | name (n : String)
  deriving DecidableEq, Repr

/-- A table as it is handed over for drawing. -/
structure PrintTable where
  columns : List String
  rows : List (List PrintCell)
  deriving DecidableEq, Repr

/-- `PrettyTable(columns)` refuses repeated names; assumed from its documentation, the library is not part of the code. -/
def newPrintTable (columns : List String) (rows : List (List PrintCell)) : Except PyErr PrintTable :=
  if columns.Nodup then .ok { columns := columns, rows := rows } else .error .valueError

/-- print_facts.py 43-53 (`sort_dimensions`) -/
def aspectSortKey (a : Aspect) : String :=
  if a.eq .concept then "1"
  else if a.eq .period then "2"
  else if a.eq .entity then "3"
  else if a.eq .unit then "4"
  else "5" ++ a.name

/-- print_facts.py 26-30: the set of aspects; an aspect equal to one in the set is not added. -/
def addAspect (s : List Aspect) (a : Aspect) : List Aspect := if s.any (fun b => b.eq a) then s else s ++ [a]

/-- print_facts.py 26-30 -/
def collectAspects (facts : List Fact) : List Aspect := (facts.flatMap (fun f => f.context.getAspects)).foldl addAspect []

/-- print_facts.py 81: the key of a row. -/
def rowKey (r : List PrintCell) : String :=
  match r.head? with
  | some (.id (some i)) => i
  | some (.name n) => n
  | _ => ""

/-- print_facts.py 20-87 (`pprint_facts`). `iter` is the order in which the set of aspects is iterated. -/
def pprintFacts (iter : List Aspect → List Aspect) (facts : List Fact) : Except PyErr PrintTable :=
  let dims := sortBy (fun a b => decide (aspectSortKey a ≤ aspectSortKey b)) (iter (collectAspects facts))
  let rows := facts.map (fun f =>
    [PrintCell.id f.id] ++ dims.map (fun d => PrintCell.char (f.context.getCharacteristic d)) ++ [PrintCell.value f.value])
  newPrintTable (["id"] ++ dims.map (fun d => d.name) ++ ["value"]) (sortBy (fun a b => decide (rowKey a ≤ rowKey b)) rows)

/-- print_facts.py 90-117 (`pprint_fact`) -/
def pprintFact (f : Fact) : Except PyErr PrintTable :=
  let rows := f.context.getAspects.map (fun a => [PrintCell.name a.name, PrintCell.char (f.context.getCharacteristic a)])
  newPrintTable ["aspect", "value"]
    (sortBy (fun a b => decide (rowKey a ≤ rowKey b)) rows ++ [[PrintCell.name "value", PrintCell.value f.value]])

end Brel
