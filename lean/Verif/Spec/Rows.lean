import Verif.Model.Rows
import Verif.Spec.Output

/-! What the tables of report elements and components show. -/

namespace Brel

/-- The columns of the two tables. -/
inductive Column where
  | name | label | elementType | periodType | balanceType | nillable | dataType | isExplicit | dimensionType
  | identifier | info | presentation | calculation | definition
  deriving DecidableEq, Repr

/-- The name of a column. -/
def Column.literal : Column → String
  | .name => "name"
  | .label => "label"
  | .elementType => "report-element-type"
  | .periodType => "period-type"
  | .balanceType => "balance-type"
  | .nillable => "nillable"
  | .dataType => "data-type"
  | .isExplicit => "is-explicit"
  | .dimensionType => "dimension-type"
  | .identifier => "network-identifier"
  | .info => "info"
  | .presentation => "presentation-network"
  | .calculation => "calculation-network"
  | .definition => "definition-network"

/-- The languages of the translations that are shipped. -/
def shippedTags : List String := ["en-US", "de-DE", "fr-FR", "es-ES", "it-IT"]

/-- The language in which titles and fixed words are shown: the first preferred one that is the default language (`none`) or one of the shipped ones. -/
inductive TextLanguage (ml : Bool) : List String → Option String → Prop where
  | default {ls : List String} : TextLanguage ml ("" :: ls) none
  | tag {l t : String} {ls : List String} (h : l ≠ "") (ht : t ∈ shippedTags) (hm : languagesMatch ml l t = true) : TextLanguage ml (l :: ls) (some t)
  | skip {l : String} {ls : List String} {o : Option String} (h : l ≠ "") (hno : ∀ t ∈ shippedTags, languagesMatch ml l t = false) (rest : TextLanguage ml ls o) : TextLanguage ml (l :: ls) o

/-- `text` is how the word `name` is shown in the language: in the default language as it is, in another language by its translation, if the word has translations at all. -/
def FixedText (o : Option String) (kind name text : String) : Prop :=
  match o with
  | none => text = name
  | some tag => (∃ r ∈ shippedRows, r.ns = "http://www.brel.com/translations/" ++ kind ∧ r.name = name ∧ r.lang ++ "-" ++ r.locale = tag ∧ r.text = text) ∨
      (∀ r ∈ shippedRows, ¬ (r.ns = "http://www.brel.com/translations/" ++ kind ∧ r.name = name)) ∧ text = name

/-- What a cell shows. -/
inductive Content where
  | given (s : String)
  | word (kind name : String)
  | dataType (s : String)
  | label (ls : List Label)

/-- The part of a prefixed name after the colon. -/
def AfterColon (s n : String) : Prop := ':' ∉ n.toList ∧ (s = n ∨ ∃ p, s = p ++ ":" ++ n)

/-- The earliest preferred language for which there is a label determines the label that is shown: the first label in this language; in the default language the main label. -/
def ShownLabel (ml : Bool) (langs : List String) (ls : List Label) (text : String) : Prop :=
  ∃ pre l post, langs = pre ++ l :: post ∧ (∀ l' ∈ pre, l' ≠ "" ∧ ∀ x ∈ ls, languagesMatch ml l' x.language = false) ∧
    (l = "" ∧ text = (selectMainLabel ls).text ∨ l ≠ "" ∧ ∃ as x bs, ls = as ++ x :: bs ∧ (∀ y ∈ as, languagesMatch ml l y.language = false) ∧ languagesMatch ml l x.language = true ∧ x.text = text)

/-- The text of a cell. -/
def Content.Shows (ml : Bool) (langs : List String) (o : Option String) : Content → String → Prop
  | .given s, text => text = s
  | .word k n, text => FixedText o k n text
  | .dataType s, text => ∃ n, AfterColon s n ∧ FixedText o "data-type" n text
  | .label ls, text => ShownLabel ml langs ls text

/-- The word for a truth value. -/
def truthWord (b : Bool) : Content := .word "boolean" (if b then "true" else "false")

/-- The columns that a report element has in the table, and what they show. -/
def RowElement.columns : RowElement → List (Column × Content)
  | .concept c => [(.name, .given (c.name.pfx ++ ":" ++ c.name.localName)), (.label, .label c.labels), (.elementType, .word "report-element" "concept"),
      (.periodType, .word "period-type" c.periodType), (.balanceType, match c.balance with | some b => .word "balance-type" b | none => .word "literal" "none"),
      (.nillable, truthWord c.nillable), (.dataType, .dataType c.dataType)]
  | .dimension n ls ty => [(.name, .given (n.pfx ++ ":" ++ n.localName)), (.label, .label ls), (.elementType, .word "report-element" "dimension"),
      (.isExplicit, truthWord (decide (ty = none))), (.dimensionType, match ty with | some q => .word "data-type" q.localName | none => .word "literal" "none")]
  | .plain k n ls => [(.name, .given (n.pfx ++ ":" ++ n.localName)), (.label, .label ls),
      (.elementType, .word "report-element" (match k with | .member => "member" | .abstract => "abstract" | .hypercube => "hypercube" | .lineItems => "line-items"))]

/-- The labels of a report element. -/
def RowElement.labels : RowElement → List Label
  | .concept c => c.labels
  | .dimension _ ls _ => ls
  | .plain _ _ ls => ls

/-- The columns that a component has in the table. -/
def RowComponent.columns (c : RowComponent) : List (Column × Content) :=
  [(.identifier, .given c.uri), (.info, .given c.info), (.presentation, truthWord c.presentation), (.calculation, truthWord c.calculation), (.definition, truthWord c.definition)]

/-- The row shows these columns, and no others. -/
def RowShows (ml : Bool) (langs : List String) (o : Option String) (title : Column → String) (columns : List (Column × Content)) (row : Dict String Cell) : Prop :=
  (∀ p ∈ columns, ∃ s, Dict.get? row (title p.1) = some (.text s) ∧ p.2.Shows ml langs o s) ∧ ∀ k ∈ Dict.keys row, ∃ p ∈ columns, title p.1 = k

/-- The title of a column if there are no languages; two of them are misspelt. -/
def Column.plainTitle : Column → String
  | .dimensionType => "dimension_type"
  | .definition => "definintion-network"
  | c => c.literal

/-- The columns of a report element if there are no languages: plain values, and the main label. -/
def RowElement.plainColumns : RowElement → List (Column × Cell)
  | .concept c => [(.name, .text (c.name.pfx ++ ":" ++ c.name.localName)), (.label, .text (selectMainLabel c.labels).text), (.elementType, .text "concept"), (.periodType, .text c.periodType),
      (.balanceType, (c.balance.map Cell.text).getD .none), (.nillable, .flag c.nillable), (.dataType, .text c.dataType)]
  | .dimension n ls ty => [(.name, .text (n.pfx ++ ":" ++ n.localName)), (.label, .text (selectMainLabel ls).text), (.elementType, .text "dimension"), (.isExplicit, .flag (decide (ty = none))),
      (.dimensionType, (ty.map (fun q => Cell.text (q.pfx ++ ":" ++ q.localName))).getD .none)]
  | .plain k n ls => [(.name, .text (n.pfx ++ ":" ++ n.localName)), (.label, .text (selectMainLabel ls).text),
      (.elementType, .text (match k with | .member => "member" | .abstract => "abstract" | .hypercube => "hypercube" | .lineItems => "line item"))]

/-- The columns of a component if there are no languages. -/
def RowComponent.plainColumns (c : RowComponent) : List (Column × Cell) :=
  [(.identifier, .text c.uri), (.info, .text c.info), (.presentation, .flag c.presentation), (.calculation, .flag c.calculation), (.definition, .flag c.definition)]

/-- The words of the schema that describe an element contain no colon. -/
def RowElement.Plain : RowElement → Prop
  | .concept c => ':' ∉ c.periodType.toList ∧ ∀ b, c.balance = some b → ':' ∉ b.toList
  | .dimension _ _ ty => ∀ q, ty = some q → ':' ∉ q.localName.toList
  | .plain _ _ _ => True

end Brel
