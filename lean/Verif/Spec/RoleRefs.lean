import Verif.Model.OpenInline
import Verif.Spec.Linkbase

/-! Role references, as the XBRL specification has them. -/

namespace Brel

/-- A reference to the declaration of a role (`attr` is `roleURI`) or of an arc role (`arcroleURI`): a simple link to a URI that says which role is meant. There is no attribute
`linktype` in the name space of XLink. -/
structure ValidRoleRef (validUri : String → Bool) (attr : String) (x : XNode) : Prop where
  scope : x.ns.get? (some "xlink") = some "http://www.w3.org/1999/xlink"
  type : x.xlinkAttr "type" = some "simple"
  none : x.xlinkAttr "linktype" = none
  href : ∃ u, x.xlinkAttr "href" = some u ∧ u ≠ "" ∧ validUri u = true
  uri : ∃ u, x.attr? attr = some u ∧ u ≠ "" ∧ validUri u = true
  role : x.xlinkAttr "role" ≠ some ""

/-- What is wrong with an attribute that must be a URI. -/
inductive UriFault where
  | missing
  | invalid
  deriving DecidableEq

/-- The fault of an attribute that must be a URI, if there is one. -/
def uriFault (validUri : String → Bool) : Option String → Option UriFault
  | Option.none => some .missing
  | some u => if u = "" then some .missing else if validUri u then Option.none else some .invalid

end Brel
