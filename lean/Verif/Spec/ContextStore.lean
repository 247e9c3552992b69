import Verif.Model.ContextStore

/-! What the facts of an inline document should show, computed without any sharing. -/

namespace Brel

/-- A characteristic with object identities forgotten. -/
def Characteristic.plain (c : Characteristic) : Characteristic :=
  match c.value with
  | .explicit d m _ => { c with value := .explicit d m [] }
  | .typed d _ v => { c with value := .typed d [] v }
  | _ => c

/-- A context with object identities forgotten. -/
def Context.plain (c : Context) : Context :=
  { c with chars := c.chars.map (fun e => (e.1, e.2.plain)) }

/-- The contexts the facts should have: the first declaration of the referenced id, extended by the fact's own
characteristics only. `decls` are the declarations seen so far. -/
def expectedFacts (decls : List Context) : List CtxOp → List Context
  | [] => []
  | .declare c :: ops => expectedFacts (decls ++ [c]) ops
  | .fact cid chars :: ops =>
    match decls.find? (fun c => c.id = cid) with
    | none => expectedFacts decls ops
    | some c => chars.foldl Context.add c :: expectedFacts decls ops

/-- All declarations of a run. -/
def declarations (ops : List CtxOp) : List Context :=
  ops.filterMap (fun | .declare c => some c | .fact _ _ => none)

end Brel
