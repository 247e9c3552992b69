import Verif.Model.Languages
import Verif.Spec.Linkbase

/-! The languages that the documents of a filing state. -/

namespace Brel

/-- The element says that its content is in this language. -/
def StatesLanguage (x : XNode) (lang : String) : Prop := x.tag ≠ none ∧ x.attr? "{http://www.w3.org/XML/1998/namespace}lang" = some lang

/-- Some element of the documents, other than their roots, states the language. -/
def LanguageInside (roots : List XNode) (lang : String) : Prop := ∃ root ∈ roots, ∃ own x, Below root own x ∧ StatesLanguage x lang

/-- Some element of the documents states the language. -/
def LanguageStated (roots : List XNode) (lang : String) : Prop := LanguageInside roots lang ∨ ∃ root ∈ roots, StatesLanguage root lang

/-- Comments have no attributes. -/
def CommentsPlain (roots : List XNode) : Prop := ∀ root ∈ roots, ∀ c x, Lineage root c x → x.tag = none → x.attrs = []

end Brel
