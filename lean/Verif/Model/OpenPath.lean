import Verif.Model.Loader
import Verif.Model.Open
import Verif.Model.OpenInline

/-!
Model of `Filing.open` (`brel/brel_filing.py`): from a path to a filing, by way of the files of the path, the documents they lead to and the parser for them.
-/

namespace Brel

/-- What opening depends on: what loading depends on, and the functions the parsers take from libraries. `view` gives the elements of a document as the parsers of inline documents see
them; an `XNode` does not have the text after an element and the identity of elements. -/
structure OpenEnv where
  load : LoadEnv
  dateOf : String → Option Date
  dig : Char → Option Nat
  flt : String → Option Bool
  validUri : String → Bool
  float : String → Option Rat
  str : XNode → String
  view : SchemaDoc → List InlineElem

/-- What `parse` of the two parsers leaves in the context, with the reports about the catalog. -/
inductive Opened where
  | xml (catalog : List String) (o : OpenedFiling)
  | xhtml (catalog : List String) (o : OpenedInline)

/-- The documents of the XML repository, data/xml/xml_repository.py 21-40, in its order. -/
def LoadState.documents (s : LoadState) : List SchemaDoc := s.docs.map (fun p => ⟨p.1, p.2⟩)

/-- brel_filing.py 82-93 (`open`): a `ValueError` of the path loader is raised again with another message. `depth`, `fuel` and `steps` bound the stack while documents are loaded, the
traversal of continuation chains and that of networks; `cache` is the directory of cached files. -/
def openPath (env : OpenEnv) (depth fuel steps : Nat) (cache : Dict String String) (kind : PathKind) (zip : List String) (path : String) : Option (Except PyErr Opened) :=
  match pathFiles kind zip path with
  | .error e => some (.error e)
  | .ok files =>
    match createParser env.load depth cache files with
    | .error e => some (.error e)
    | .ok (.xml, s, errs) => (openXml env.dateOf env.float env.str env.load.so steps s.documents).map (fun r => r.map (.xml errs))
    | .ok (.xhtml, s, errs) =>
      (openXhtml env.dateOf env.dig env.flt env.validUri env.float env.str env.load.so fuel steps (s.documents.map (fun d => ⟨d, env.view d⟩))).map (fun r => r.map (.xhtml errs))

end Brel
