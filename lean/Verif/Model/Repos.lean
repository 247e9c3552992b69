import Verif.Model.Elements

/-!
Model of the in-memory repositories in `brel/data/`.
-/

namespace Brel

/-- The classes of `brel/reportelements/`; none is a subclass of another. -/
inductive ElemKind where
  | concept | abstract | lineItems | hypercube | dimension | member
  deriving DecidableEq, Repr

/-- A report element object. `tag` stands for everything not otherwise modelled, so that two objects with the same name can differ. -/
structure ReportElement where
  kind : ElemKind
  name : QName
  id : Option String := none
  labels : List Label := []
  tag : Nat := 0
  deriving DecidableEq, Repr

/-! ### Facts -/

/-- brel/data/fact/in_memory_fact_repository.py 17-19 -/
structure FactStore where
  byId : Dict String Fact := []
  withoutId : List Fact := []

/-- in_memory_fact_repository.py 36-45 (`upsert`) -/
def FactStore.upsert (s : FactStore) (f : Fact) : FactStore :=
  match f.id with
  | none => { s with withoutId := s.withoutId ++ [f] }
  | some i => { s with byId := s.byId.set i f }

/-- in_memory_fact_repository.py 33-34 (`get_all`) -/
def FactStore.getAll (s : FactStore) : List Fact := s.byId.values

/-- in_memory_fact_repository.py 21-22 (`get_by_id`) -/
def FactStore.getById (s : FactStore) (i : String) : Except PyErr Fact := s.byId.get i

/-- in_memory_fact_repository.py 24-28 (`get_by_id_optional`) -/
def FactStore.getByIdOptional (s : FactStore) (i : String) : Option Fact :=
  match s.getById i with
  | .ok f => some f
  | .error _ => none

/-- in_memory_fact_repository.py 30-31 (`has_id`) -/
def FactStore.hasId (s : FactStore) (i : String) : Bool := s.byId.has i

/-- The store after a history of upserts. -/
def FactStore.run (hs : List Fact) : FactStore := hs.foldl FactStore.upsert {}

/-! ### Report elements -/

/-- brel/data/report_element/in_memory_report_element_repository.py 17-19 -/
structure ElemStore where
  byName : Dict QName ReportElement := []
  byId : Dict String ReportElement := []

/-- in_memory_report_element_repository.py 41-45 (`upsert`) -/
def ElemStore.upsert (s : ElemStore) (e : ReportElement) : ElemStore :=
  let s := { s with byName := s.byName.set e.name e }
  match e.id with
  | none => s
  | some i => { s with byId := s.byId.set i e }

/-- in_memory_report_element_repository.py 21-22 -/
def ElemStore.hasQName (s : ElemStore) (q : QName) : Bool := s.byName.has q
/-- in_memory_report_element_repository.py 24-25 -/
def ElemStore.hasId (s : ElemStore) (i : String) : Bool := s.byId.has i

/-- in_memory_report_element_repository.py 27-33 -/
def ElemStore.getByQName (s : ElemStore) (q : QName) : Except PyErr ReportElement :=
  if s.hasQName q then s.byName.get q else .error .keyError

/-- in_memory_report_element_repository.py 35-39 -/
def ElemStore.getById (s : ElemStore) (i : String) : Except PyErr ReportElement :=
  if s.hasId i then s.byId.get i else .error .keyError

/-- in_memory_report_element_repository.py 47-48 -/
def ElemStore.getAll (s : ElemStore) : List ReportElement := s.byName.values

/-- brel/data/report_element/report_element_repository.py 41-49 -/
def ElemStore.getTypedByQName (s : ElemStore) (q : QName) (k : ElemKind) : Except PyErr ReportElement := do
  let e ← s.getByQName q
  if e.kind = k then return e else throw .valueError

/-- report_element_repository.py 51-59 -/
def ElemStore.getTypedById (s : ElemStore) (i : String) (k : ElemKind) : Except PyErr ReportElement := do
  let e ← s.getById i
  if e.kind = k then return e else throw .valueError

/-- report_element_repository.py 61-68 -/
def ElemStore.hasTypedQName (s : ElemStore) (q : QName) (k : ElemKind) : Bool :=
  match s.getTypedByQName q k with
  | .ok _ => true
  | .error _ => false

/-- report_element_repository.py 70-81 -/
def ElemStore.hasTypedId (s : ElemStore) (i : String) (k : ElemKind) : Bool :=
  match s.getTypedById i k with
  | .ok _ => true
  | .error _ => false

/-- report_element_repository.py 83-93 -/
def ElemStore.getAllTyped (s : ElemStore) (k : ElemKind) : List ReportElement :=
  s.getAll.filter (fun e => e.kind = k)

/-- The store after a history of upserts. -/
def ElemStore.run (hs : List ReportElement) : ElemStore := hs.foldl ElemStore.upsert {}

/-! ### Namespaces -/

/-- brel/data/namespace/in_memory_namespace_repository.py 16-18; a Python `set` is a duplicate-free list. -/
structure NsStore where
  prefixToUri : Dict String (List String) := []
  uriToPrefix : Dict String (List String) := []

/-- `d[k].add(v)` on a `defaultdict(set)`. -/
def multiAdd (d : Dict String (List String)) (k v : String) : Dict String (List String) :=
  d.set k (appendNew ((d.get? k).getD []) v)

/-- in_memory_namespace_repository.py 20-22 -/
def NsStore.upsert (s : NsStore) (pu : String × String) : NsStore :=
  { prefixToUri := multiAdd s.prefixToUri pu.1 pu.2, uriToPrefix := multiAdd s.uriToPrefix pu.2 pu.1 }

/-- in_memory_namespace_repository.py 24-25 -/
def NsStore.getUris (s : NsStore) (p : String) : List String := (s.prefixToUri.get? p).getD []
/-- in_memory_namespace_repository.py 27-28 -/
def NsStore.getPrefixes (s : NsStore) (u : String) : List String := (s.uriToPrefix.get? u).getD []

/-- The store after a history of registrations (prefix, URI). -/
def NsStore.run (hs : List (String × String)) : NsStore := hs.foldl NsStore.upsert {}

/-! ### URI rewriting -/

/-- brel/data/uri_rewrite/in_memory_uri_rewrite_repository.py 15-16 -/
abbrev Rewrites := Dict (List Char) (List Char)

/-- Operations on the rewrite repository. -/
inductive RewriteOp where
  | upsert (original replacement : List Char)
  | delete (original : List Char)
  deriving DecidableEq, Repr

/-- in_memory_uri_rewrite_repository.py 18-22; `del` of an absent key raises `KeyError`. -/
def Rewrites.step (d : Rewrites) : RewriteOp → Except PyErr Rewrites
  | .upsert o r => .ok (d.set o r)
  | .delete o => if d.has o then .ok (d.erase o) else .error .keyError

/-- in_memory_uri_rewrite_repository.py 24-29 -/
def Rewrites.rewrite (d : Rewrites) (uri : List Char) : List Char :=
  match d with
  | [] => uri
  | (o, r) :: d => if startsWith uri o then r ++ uri.drop o.length else Rewrites.rewrite d uri

/-- The repository after an operation; a `KeyError` leaves it unchanged. -/
def Rewrites.apply (d : Rewrites) (op : RewriteOp) : Rewrites :=
  match d.step op with
  | .ok d' => d'
  | .error _ => d

/-- A whole history. -/
def Rewrites.run (ops : List RewriteOp) : Rewrites := ops.foldl Rewrites.apply []

/-! ### Components and networks -/

/-- brel/brel_component.py 66-81: the data of a component, with `ν` the networks. `uid` is its identity (there is no `__eq__`). -/
structure ComponentOf (ν : Type) where
  uid : Nat
  uri : String
  info : String
  presentation : Option ν := none
  calculation : Option ν := none
  definition : Option ν := none
  deriving DecidableEq, Repr

/-- Components whose networks are given by numbers. -/
abbrev Component := ComponentOf Nat

/-- brel/data/component/in_memory_component_repository.py 22-26 (`upsert`): remove the object itself, then append. -/
def componentUpsert {ν : Type} (l : List (ComponentOf ν)) (c : ComponentOf ν) : List (ComponentOf ν) :=
  if l.any (fun d => d.uid = c.uid) then l.eraseP (fun d => d.uid = c.uid) ++ [c] else l ++ [c]

/-- brel/data/network/in_memory_network_repository.py 18-38, with `τ` the network classes and `ν` the networks. -/
abbrev NetStore (τ ν : Type) := Dict τ (List ν)

/-- in_memory_network_repository.py 37-38 (`upsert`) on a `defaultdict(list)` -/
def NetStore.upsert {τ ν : Type} [DecidableEq τ] (ty : ν → τ) (s : NetStore τ ν) (n : ν) : NetStore τ ν :=
  s.set (ty n) ((s.get? (ty n)).getD [] ++ [n])

/-- in_memory_network_repository.py 32-35 (`get_all`) -/
def NetStore.getAll {τ ν : Type} (s : NetStore τ ν) : List ν := s.flatMap (·.2)

/-- in_memory_network_repository.py 21-22 (`get_by_type`). The `defaultdict` also gets an entry for a missing key, which can only change the order of
`get_all`, if a network of the class is added later; no code of brel calls the method. -/
def NetStore.getByType {τ ν : Type} [DecidableEq τ] (s : NetStore τ ν) (t : τ) : List ν := (s.get? t).getD []

/-- in_memory_network_repository.py 24-30 (`get_by_linkrole`) -/
def NetStore.getByLinkrole {τ ν : Type} (role : ν → String) (s : NetStore τ ν) (r : String) : List ν :=
  s.flatMap (fun e => e.2.filter (fun n => role n = r))

/-! ### Tables -/

/-- brel/data/table_linkbase/in_memory_table_linkbase_repository.py 8-11: a `defaultdict` whose factory is `typing.List[Table]`. -/
abbrev TableStore (ν : Type) := Dict String (List ν)

/-- Calling the factory `typing.List[Table]()`: generic aliases of `typing.List` refuse to be instantiated
("Type List cannot be instantiated; use list() instead"). -/
def typingListFactory {ν : Type} : Except PyErr (List ν) := .error .typeError

/-- in_memory_table_linkbase_repository.py 25-26 (`upsert_definition_table`): `d[role].append(table)`; a missing key calls the factory. -/
def TableStore.upsert {ν : Type} (role : ν → String) (s : TableStore ν) (t : ν) : Except PyErr (TableStore ν) :=
  match s.get? (role t) with
  | some l => .ok (s.set (role t) (l ++ [t]))
  | none => do
    let l ← typingListFactory
    return s.set (role t) (l ++ [t])

/-- in_memory_table_linkbase_repository.py 13-20 -/
def TableStore.getAll {ν : Type} (s : TableStore ν) : List ν := s.flatMap (·.2)

/-- in_memory_table_linkbase_repository.py 22-23 -/
def TableStore.getWithLinkrole {ν : Type} (s : TableStore ν) (r : String) : List ν := (s.get? r).getD []

/-- A history of upserts as in xml_table_linkbase_parser.py 785-787: the first exception ends it. -/
def TableStore.run {ν : Type} (role : ν → String) (ts : List ν) : Except PyErr (TableStore ν) :=
  ts.foldlM (TableStore.upsert role) []

/-! ### Characteristics -/

/-- The classes of `brel/characteristics/`. -/
inductive CharKind where
  | concept | period | entity | unit | explicit | typed
  deriving DecidableEq, Repr

/-- `type(characteristic)` -/
def Characteristic.kind (c : Characteristic) : CharKind :=
  match c.value with
  | .concept _ => .concept
  | .period _ => .period
  | .entity _ _ => .entity
  | .unit _ _ _ => .unit
  | .explicit _ _ _ => .explicit
  | .typed _ _ _ => .typed

/-- brel/data/characteristic/in_memory_characteristic_repository.py 18-21 -/
abbrev CharStore := Dict (String × CharKind) Characteristic

/-- in_memory_characteristic_repository.py 35-36 -/
def CharStore.upsert (s : CharStore) (i : String) (c : Characteristic) : CharStore := s.set (i, c.kind) c

/-- in_memory_characteristic_repository.py 32-33 -/
def CharStore.hasKey (s : CharStore) (i : String) (k : CharKind) : Bool := Dict.has s (i, k)

/-- in_memory_characteristic_repository.py 23-30 -/
def CharStore.lookup (s : CharStore) (i : String) (k : CharKind) : Except PyErr Characteristic :=
  match s.get? (i, k) with
  | some c => if c.kind = k then .ok c else .error .valueError
  | none => .error .valueError

/-- brel/data/aspect/in_memory_aspect_repository.py 16-26 -/
abbrev AspectStore := Dict String Aspect

/-- in_memory_aspect_repository.py 25-26 -/
def AspectStore.upsert (s : AspectStore) (a : Aspect) : AspectStore := s.set a.name a

end Brel
