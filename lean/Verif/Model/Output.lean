import Verif.Model.Elements

/-!
Model of the output side: languages, output parameters, tables and translations.
`brel/brel_filing.py` 99-148 and 498-593, `brel/config/brel_config.py`, `brel/services/translation/`, the label selection of
`brel/reportelements/i_report_element.py`, and the rows of `brel/brel_context.py` and `brel/brel_fact.py`.
-/

namespace Brel

/-! ### Parameters -/

/-- A `str | list[str]` argument. -/
inductive LangArg where
  | one (s : String)
  | many (l : List String)
  deriving DecidableEq, Repr

/-- brel/services/translation/output_params.py 4-10: a `TypedDict` with `total=False`; a missing entry is `none`. -/
structure OutputParams where
  languages : Option LangArg := none
  matchLocale : Option Bool := none
  allowMixed : Option Bool := none
  allowDefault : Option Bool := none
  allowSystem : Option Bool := none
  allowReport : Option Bool := none
  deriving DecidableEq, Repr

/-- brel/config/brel_config.py 8-17: the initial library parameters. -/
def libraryDefaults : OutputParams :=
  { languages := some (.many []), matchLocale := some true, allowMixed := some true, allowDefault := some true,
    allowSystem := some true, allowReport := some true }

/-- brel_filing.py 106-109: `None` gives no language, a text gives one (even an empty text). -/
def callLanguages : Option LangArg → List String
  | none => []
  | some (.one s) => [s]
  | some (.many l) => l

/-- brel_filing.py 111-117 and brel_config.py 19-21: `x or []`, so an empty text gives no language. -/
def storedLanguages : Option LangArg → List String
  | none => []
  | some (.one s) => if s = "" then [] else [s]
  | some (.many l) => l

/-- brel_filing.py 99-148 (`get_preferred_languages`); `sys` is `BrelConfig.get_system_language()`, `report` the languages of the
documents. The parameters are in the order of the Python method. -/
def preferredLanguages (filing library : OutputParams) (sys : Option String) (report : List String)
    (functionLanguages : Option LangArg) (allowReport allowSystem allowDefault : Bool) : List String :=
  let sysList := match sys with
    | some s => if s ≠ "" ∧ allowSystem = true then [s] else []
    | none => []
  let available := if allowReport then report else []
  let all := callLanguages functionLanguages ++ storedLanguages filing.languages ++ storedLanguages library.languages ++ sysList ++ available
  let all := if allowDefault then all ++ [""] else all
  all.foldl appendNew []

/-- brel_filing.py 531-545 (`get_preferred_output_parameter`) -/
def preferredParameter (passed filing library : Option Bool) : Bool :=
  match passed with
  | some b => b
  | none => match filing with
    | some b => b
    | none => match library with
      | some b => b
      | none => false

/-- The result of `__infer_output_params`. -/
structure Effective where
  languages : List String
  allowDefault : Bool
  allowSystem : Bool
  allowReport : Bool
  matchLocale : Bool
  allowMixed : Bool
  deriving DecidableEq, Repr

/-- brel_filing.py 547-584 (`__infer_output_params`): the system flag is passed where `get_preferred_languages` expects the report
flag, and the other way round. -/
def inferOutputParams (filing library : OutputParams) (sys : Option String) (report : List String) (kw : OutputParams) : Effective :=
  let allowDefault := preferredParameter kw.allowDefault filing.allowDefault library.allowDefault
  let allowSystem := preferredParameter kw.allowSystem filing.allowSystem library.allowSystem
  let allowReport := preferredParameter kw.allowReport filing.allowReport library.allowReport
  let matchLocale := preferredParameter kw.matchLocale filing.matchLocale library.matchLocale
  let allowMixed := preferredParameter kw.allowMixed filing.allowMixed library.allowMixed
  let languages := preferredLanguages filing library sys report kw.languages allowSystem allowReport allowDefault
  { languages, allowDefault, allowSystem, allowReport, matchLocale, allowMixed }

/-- Changes of the stored parameters. -/
inductive ParamOp where
  /-- brel_filing.py 586-587 (`set_filing_output_params`) -/
  | setFiling (kw : OutputParams)
  /-- brel_filing.py 589-591 and brel_config.py 30-32 (`set_library_output_parameters`) -/
  | setLibrary (kw : OutputParams)
  /-- brel_config.py 23-28 (`set_preferred_library_languages`) -/
  | setLibraryLanguages (l : LangArg)
  deriving DecidableEq, Repr

/-- The stored parameters of one filing and of the library. -/
structure ParamState where
  filing : OutputParams := {}
  library : OutputParams := libraryDefaults
  deriving DecidableEq, Repr

/-- The two setters replace the whole dictionary. -/
def ParamState.step (s : ParamState) : ParamOp → ParamState
  | .setFiling kw => { s with filing := kw }
  | .setLibrary kw => { s with library := kw }
  | .setLibraryLanguages l => { s with library := { s.library with languages := some (.many (callLanguages (some l))) } }

/-- After a history of changes. -/
def ParamState.run (ops : List ParamOp) : ParamState := ops.foldl ParamState.step {}

/-! ### Tables -/

/-- brel_filing.py 519-526, the inner loop for one language: `data` grows row by row; a failing element empties it and leaves the loop. -/
def renderLoop {ε ρ : Type} (conv : ε → List String → Except PyErr ρ) (lang : String) : List ρ → List ε → List ρ
  | data, [] => data
  | data, e :: es => match conv e [lang] with
    | .ok r => renderLoop conv lang (data ++ [r]) es
    | .error _ => []

/-- brel_filing.py 498-529 (`__generate_pandas_df_from_elements`) without pandas: the list of rows. -/
def generateRows {ε ρ : Type} (conv : ε → List String → Except PyErr ρ) (allowMixed : Bool) (languages : List String) (es : List ε) :
    Except PyErr (List ρ) :=
  if allowMixed then es.mapM (fun e => conv e languages)
  else .ok (languages.foldl (fun data lang => renderLoop conv lang data es) [])

/-! ### Translations -/

/-- `s.lower()`. Simplification: only ASCII letters are changed (language tags are ASCII). -/
def lower (s : String) : String := String.ofList (s.toList.map Char.toLower)

/-- `s.split("-")[0]` -/
def beforeDash (s : String) : String := String.ofList (s.toList.takeWhile (· ≠ '-'))

/-- brel/services/translation/translation_service.py 46-54 (`languages_match`) -/
def languagesMatch (matchLocale : Bool) (requested available : String) : Bool :=
  let r := lower requested
  let a := lower available
  if matchLocale then r = a else beforeDash r = beforeDash a

/-- The table of translation_service.py 17: name → language tag → text. -/
abbrev Translations := Dict QName (Dict String String)

/-- One row of the translation file: namespace, local name, language, locale, text. -/
structure TransRow where
  ns : String
  name : String
  lang : String
  locale : String
  text : String
  deriving DecidableEq, Repr

/-- The name of a row, translation_service.py 43. -/
def TransRow.qname (r : TransRow) : QName := ⟨r.ns, "", r.name⟩
/-- The language tag of a row, translation_service.py 44. -/
def TransRow.tag (r : TransRow) : String := r.lang ++ "-" ++ r.locale

/-- translation_service.py 43-44: `self.__translations[qname][tag] = translation` on a `defaultdict(dict)`. -/
def Translations.addRow (t : Translations) (r : TransRow) : Translations :=
  t.set r.qname (Dict.set ((t.get? r.qname).getD []) r.tag r.text)

/-- translation_service.py 23-44 (`load_from_csv` with `override`); reading the file is not modelled. -/
def Translations.load (rows : List TransRow) : Translations := rows.foldl Translations.addRow []

/-- translation_service.py 56-76 (`get_single`) -/
def Translations.getSingle (t : Translations) (matchLocale : Bool) (q : QName) (language : String) : Except PyErr String :=
  if language = "" then .ok q.localName
  else match t.get? q with
    | none => .ok q.localName
    | some d => match d.find? (fun e => languagesMatch matchLocale (lower language) e.1) with
      | some e => .ok e.2
      | none => .error .keyError

/-- translation_service.py 78-105 (`get`) for a `QName` and a list of languages. -/
def Translations.get (t : Translations) (matchLocale : Bool) (q : QName) : List String → Except PyErr String
  | [] => .error .keyError
  | l :: ls => match t.getSingle matchLocale q l with
    | .ok s => .ok s
    | .error _ => Translations.get t matchLocale q ls

/-- translation_service.py 131-146 (`get_label_with_language`) -/
def labelWithLanguage (matchLocale : Bool) (labels : List Label) (language : String) (dflt : Label) : Option Label :=
  if language = "" then some dflt
  else labels.find? (fun l => languagesMatch matchLocale language l.language)

/-- translation_service.py 107-129 (`get_from_labels`); the default is given by its text. `str` of a label is its text. -/
def getFromLabels (matchLocale : Bool) (labels : List Label) (dflt : String) : List String → Except PyErr String
  | [] => .error .valueError
  | l :: ls => match labelWithLanguage matchLocale labels l ⟨dflt, "", "", "http://www.xbrl.org/2003/role/label"⟩ with
    | some x => .ok x.text
    | none => getFromLabels matchLocale labels dflt ls

/-! ### Main label -/

/-- brel/reportelements/i_report_element.py 92-98 -/
def hasLabelWithLanguage (labels : List Label) (lang : String) : Bool := labels.any (fun l => l.language = lang)

/-- `next((label for label in labels if label.get_language() == lang), labels[0])` -/
def nextLabel (labels : List Label) (lang : String) (dflt : Label) : Label :=
  (firstMatch (fun l : Label => l.language = lang) labels).getD dflt

/-- i_report_element.py 100-138 (`select_main_label`), also brel/characteristics/brel_aspect.py 86-126 -/
def selectMainLabel (labels : List Label) : Label :=
  match labels with
  | [] => ⟨"NO_LABEL", "", "", "http://www.xbrl.org/2003/role/label"⟩
  | l0 :: rest =>
    let labels := l0 :: rest
    if hasLabelWithLanguage labels "en" then nextLabel labels "en" l0
    else if hasLabelWithLanguage labels "en-US" then nextLabel labels "en-US" l0
    else if hasLabelWithLanguage labels "en-GB" then nextLabel labels "en-GB" l0
    else if hasLabelWithLanguage labels "EN" then nextLabel labels "EN" l0
    else if hasLabelWithLanguage labels "EN-US" then nextLabel labels "EN-US" l0
    else if hasLabelWithLanguage labels "EN-GB" then nextLabel labels "EN-GB" l0
    else l0

/-! ### Rows of facts -/

/-- brel/brel_context.py 198-226 (`convert_to_df_row`) with languages: the column is the label of the aspect, the cell is
`get_characteristic_as_str` (91-116), here the parameter `cell`. A later aspect with the same column overwrites the cell. -/
def contextRow (matchLocale : Bool) (languages : List String) (cell : Aspect → Except PyErr String) (aspects : List Aspect) :
    Except PyErr (Dict String String) :=
  aspects.foldlM (fun row a => do
    let key ← getFromLabels matchLocale a.labels a.name languages
    let v ← cell a
    return Dict.set row key v) []

/-- brel/brel_context.py 210-215 without languages: the column is the aspect's name. -/
def contextRowPlain (cell : Aspect → String) (aspects : List Aspect) : Dict String String :=
  aspects.foldl (fun row a => Dict.set row a.name (cell a)) []

/-- brel/brel_fact.py 225-256 (`convert_to_dict`), with languages; `t` is the translation table. -/
def factRow (t : Translations) (matchLocale : Bool) (languages : List String) (cell : Aspect → Except PyErr String) (f : Fact) :
    Except PyErr (Dict String String) := do
  let row ← contextRow matchLocale languages cell f.context.getAspects
  let idLit ← t.get matchLocale ⟨"http://www.brel.com/translations/literal", "", "id"⟩ languages
  let valueLit ← t.get matchLocale ⟨"http://www.brel.com/translations/literal", "", "value"⟩ languages
  let row ← match f.id with
    | some i => if i ≠ "" then pure (Dict.set row idLit i) else do
        let n ← t.get matchLocale ⟨"http://www.brel.com/translations/literal", "", "none"⟩ languages
        pure (Dict.set row idLit n)
    | none => do
        let n ← t.get matchLocale ⟨"http://www.brel.com/translations/literal", "", "none"⟩ languages
        pure (Dict.set row idLit n)
  return Dict.set row valueLit f.value

/-- brel/brel_fact.py 225-256, without languages. -/
def factRowPlain (cell : Aspect → String) (f : Fact) : Dict String String :=
  Dict.set (Dict.set (contextRowPlain cell f.context.getAspects) "id" (f.id.getD "")) "value" f.value

end Brel
