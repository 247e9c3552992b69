import Verif.Model.Linkbase
import Verif.Model.Output

/-!
The languages of a filing: `XMLService.get_available_filing_languages` of `brel/services/xml/xml_service.py`.
-/

namespace Brel

/-- xml_service.py 117-124: `tree.findall("//*[@xml:lang]")` and the values of these attributes. The search of lxml takes a path that begins with a slash relative to the root: all
elements below the root, comments left out, and not the root itself. -/
def treeLanguages (root : XNode) : List String :=
  (root.scoped []).filterMap (fun p => if p.2.tag.isSome then p.2.lang else none)

/-- xml_service.py 113-130 (`get_available_filing_languages`) and filing_context.py 138-142: the set of the languages of all documents as a list, in the order in which Python goes
through the set. The answer is kept and given again; the documents do not change once a filing is open. -/
def availableLanguages (so : SetOrder) (roots : List XNode) : List String :=
  so.strings ((roots.foldl (fun acc root => (treeLanguages root).foldl appendNew acc) []))

end Brel
