import Verif.Model.Elements

/-!
Model of `brel/data/context/in_memory_context_repository.py` and of how the inline fact parser uses it, with an explicit heap
so that aliasing is visible: a context object is an address, the repository and the facts hold addresses.
-/

namespace Brel

/-- `copy.deepcopy` of a characteristic: members and dimensions are copied too and get a new identity. -/
def Characteristic.deepcopy (n : Nat) (c : Characteristic) : Characteristic :=
  match c.value with
  | .explicit d m i => { c with value := .explicit d m (n :: i) }
  | .typed d i v => { c with value := .typed d (n :: i) v }
  | _ => c

/-- `copy.deepcopy` of a context; `n` is the number of the allocation. -/
def Context.deepcopy (n : Nat) (c : Context) : Context :=
  { c with chars := c.chars.map (fun e => (e.1, e.2.deepcopy n)) }

/-- The heap of context objects, the repository dict and, per stored fact, the address of its context. -/
structure CtxStore where
  heap : List Context := []
  repo : Dict String Nat := []
  facts : List Nat := []
  deriving DecidableEq, Repr

/-- Allocation of a context object. -/
def CtxStore.alloc (s : CtxStore) (c : Context) : CtxStore × Nat :=
  ({ s with heap := s.heap ++ [c] }, s.heap.length)

/-- in_memory_context_repository.py 23-37 (`insert_context`): an id that is already present is kept, `False` is returned. -/
def CtxStore.insertContext (s : CtxStore) (addr : Nat) : CtxStore × Bool :=
  match s.heap[addr]? with
  | none => (s, false)
  | some c =>
    if s.repo.has c.id then (s, false)
    else ({ s with repo := s.repo.set c.id addr }, true)

/-- in_memory_context_repository.py 11-21 (`get_context_copy`): the copy is a new object. -/
def CtxStore.getContextCopy (s : CtxStore) (cid : String) : CtxStore × Option Nat :=
  match s.repo.get? cid with
  | none => (s, none)
  | some addr =>
    match s.heap[addr]? with
    | none => (s, none)
    | some c => let (s', a) := s.alloc (c.deepcopy s.heap.length); (s', some a)

/-- `context._add_characteristic(c)` through a reference. -/
def CtxStore.addAt (s : CtxStore) (addr : Nat) (c : Characteristic) : CtxStore :=
  { s with heap := s.heap.modify addr (·.add c) }

/-- One step of reading an inline document. -/
inductive CtxOp where
  /-- A context element was parsed (xhtml_parse_facts.py 104-108). -/
  | declare (c : Context)
  /-- A fact element with a `contextRef` and its concept and unit characteristics (xhtml_parse_facts.py 227-256). -/
  | fact (cid : String) (chars : List Characteristic)
  deriving DecidableEq, Repr

/-- brel/parsers/XHMTL/xhtml_parse_facts.py 104-108 and 227-256. Fact values are left out; the fact is always stored. -/
def CtxStore.step (s : CtxStore) : CtxOp → CtxStore
  | .declare c => let (s', a) := s.alloc c; (s'.insertContext a).1
  | .fact cid chars =>
    match s.getContextCopy cid with
    | (s', none) => s'
    | (s', some a) =>
      let s'' := chars.foldl (fun s c => s.addAt a c) s'
      { s'' with facts := s''.facts ++ [a] }

/-- A whole run. -/
def CtxStore.run (ops : List CtxOp) : CtxStore := ops.foldl CtxStore.step {}

/-- What `fact.get_context()` of every stored fact shows at the end of the run. -/
def CtxStore.factContexts (s : CtxStore) : List (Option Context) := s.facts.map (fun a => s.heap[a]?)

/-- What the repository holds for an id. -/
def CtxStore.stored (s : CtxStore) (cid : String) : Option Context :=
  (s.repo.get? cid).bind (fun a => s.heap[a]?)

end Brel
