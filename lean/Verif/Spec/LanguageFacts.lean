import Verif.Spec.LanguageTables
import Verif.Spec.FilingQueries

/-! What the table of core facts of a filing shows if it is made one language at a time (C136). -/

namespace Brel
open Spec

/-- The core aspects have titles in the language, and every concept that a fact element without dimensions is named after has a label in it. -/
def CoreLabelled (ml : Bool) (docs : List SchemaDoc) (lang : String) : Prop :=
  TitleLanguage ml lang ∧ ∀ p ∈ coreElements docs, ∀ q, reportedName docs p.2 = some q → lang = "" ∨ HasLabelIn docs ml q lang

/-- The rows are the table of core facts in this language: one row for every fact element without dimensions, in order, with the labels that the label links state. -/
def FactBlock (dateOf : String → Option Date) (ml : Bool) (docs : List SchemaDoc) (lang : String) (rows : List (Dict String String)) : Prop :=
  ∃ o labels fs, TextLanguage ml [lang] o ∧ (∀ q, StatedLabels docs q (labels q)) ∧ StatedByAll dateOf docs fs (coreElements docs) ∧ Rel2 (FactRowShows ml [lang] o labels labels) fs rows

end Brel
