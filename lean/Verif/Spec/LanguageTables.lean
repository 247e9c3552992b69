import Verif.Spec.FilingTables

/-! What the tables of report elements and components of a filing show if they are made one language at a time (C135). -/

namespace Brel
open Spec

/-- `post` is the part of the list after the last entry that is not shown. -/
def AfterLast (shown : String → Prop) (langs post : List String) : Prop :=
  ∃ pre, langs = pre ++ post ∧ (pre = [] ∨ ∃ p l, pre = p ++ [l] ∧ ¬ shown l) ∧ ∀ l ∈ post, shown l

/-- The titles of columns can be shown in the language. -/
def Titled (ml : Bool) (lang : String) : Prop := lang = "" ∨ ∃ t ∈ shippedTags, languagesMatch ml lang t = true

/-- The titles of columns can be shown in the language, and every declared report element has a label in it. -/
def AllLabelled (ml : Bool) (docs : List SchemaDoc) (lang : String) : Prop :=
  Titled ml lang ∧ ∀ d ∈ counting (schemaDeclarations docs), lang = "" ∨ HasLabelIn docs ml d.name lang

/-- The table consists of one block for every language after the last one that is not shown, in order. -/
def LanguageBlocks {ρ : Type} (shown : String → Prop) (block : String → List ρ → Prop) (langs : List String) (table : Except PyErr (List ρ)) : Prop :=
  ∃ post parts, AfterLast shown langs post ∧ table = .ok parts.flatten ∧ Rel2 block post parts

/-- The rows are the table of report elements in this language. -/
def ElementBlock (ml : Bool) (docs : List SchemaDoc) (lang : String) (rows : List (Dict String Cell)) : Prop := ∃ o, TextLanguage ml [lang] o ∧ ElementRows ml [lang] docs o (.ok rows)

/-- The rows are the table of components in this language. -/
def ComponentBlock (ml : Bool) (docs : List SchemaDoc) (lang : String) (rows : List (Dict String Cell)) : Prop := ∃ o, TextLanguage ml [lang] o ∧ ComponentRows ml [lang] docs o (.ok rows)

end Brel
