import Verif.Model.Output
import Verif.Spec.Common

/-! Specification vocabulary for languages, labels and tables. -/

namespace Brel

/-- The languages offered by every source, from the highest priority to the lowest: the call, the filing, the library, the system,
the report, the default. -/
def languageSources (call filing library : List String) (sys : Option String) (report : List String)
    (allowSystem allowReport allowDefault : Bool) : List (List String) :=
  [call, filing, library,
   if allowSystem then (sys.filter (· ≠ "")).toList else [],
   if allowReport then report else [],
   if allowDefault then [""] else []]

/-- The text a translation table offers for a name in a language: the default language `""` and names without any entry are shown
by their local name. -/
inductive Offers (t : Translations) (matchLocale : Bool) (q : QName) (language text : String) : Prop where
  | default (h : language = "") (e : text = q.localName)
  | unknown (h : Dict.get? t q = none) (e : text = q.localName)
  | entry (h : language ≠ "") (d : Dict String String) (hd : Dict.get? t q = some d) (pre : List (String × String)) (tag : String)
      (post : List (String × String)) (e : d = pre ++ (tag, text) :: post) (hm : languagesMatch matchLocale (lower language) tag = true)
      (hpre : ∀ x ∈ pre, languagesMatch matchLocale (lower language) x.1 = false)

/-- The documented order of languages for the main label. -/
def mainLabelLanguages : List String := ["en", "en-US", "en-GB", "EN", "EN-US", "EN-GB"]

/-- `l` is the first label with language `lang`. -/
def FirstInLanguage (labels : List Label) (lang : String) (l : Label) : Prop :=
  ∃ pre post, labels = pre ++ l :: post ∧ l.language = lang ∧ ∀ x ∈ pre, x.language ≠ lang

/-- Every element can be shown in the language, and these are the rows. -/
def RendersAll {ε ρ : Type} (conv : ε → List String → Except PyErr ρ) (es : List ε) (lang : String) (rows : List ρ) : Prop :=
  es.map (fun e => conv e [lang]) = rows.map Except.ok

/-- Some element cannot be shown in the language. -/
def FailsIn {ε ρ : Type} (conv : ε → List String → Except PyErr ρ) (es : List ε) (lang : String) : Prop :=
  ∃ e ∈ es, ∃ x, conv e [lang] = .error x

end Brel
