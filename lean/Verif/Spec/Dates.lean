import Verif.Model.Regex
import Verif.Spec.Numeric

/-!
What date texts denote. The order of the day, month and year is read off the name of the format; the names of the months are
those of the languages (in the form used in dates), lower case, capitalised and in capitals.
-/

namespace Brel.Spec

/-- The parts of a date. -/
inductive Part where
  | day | month | year
  deriving DecidableEq, Repr

/-- The words of a name that are separated by hyphens. -/
def hyphenWords : List Char → List (List Char)
  | [] => [[]]
  | c :: cs => match hyphenWords cs with
    | [] => [[c]]
    | w :: ws => if c = '-' then [] :: w :: ws else (c :: w) :: ws

/-- The parts in the order in which the name of a format mentions them: "ixt:date-year-day-monthname-lv" has year, day, month. -/
def layout (fmt : String) : List Part :=
  (hyphenWords fmt.toList).filterMap (fun w =>
    if w = chars! "day" then some .day
    else if w = chars! "month" ∨ w = chars! "monthname" then some .month
    else if w = chars! "year" then some .year
    else none)

/-- The language of a format with month names: the last two letters of its name. -/
def languageOf (fmt : String) : List Char := ((hyphenWords fmt.toList).getLast?).getD []

/-- The formats whose month is a number. -/
def numericDateFormats : List String := [
  "ixt:date-day-month",
  "ixt:date-month-day",
  "ixt:date-day-month-year",
  "ixt:date-month-day-year",
  "ixt:date-year-month-day",
  "ixt:date-year-month",
  "ixt:date-month-year"]

/-- The formats whose month is a name of the Gregorian calendar. -/
def namedDateFormats : List String := [
  "ixt:date-day-monthname-cy", "ixt:date-monthname-year-cy", "ixt:date-day-monthname-year-cy", "ixt:date-day-monthname-bg",
  "ixt:date-day-monthname-year-bg", "ixt:date-monthname-year-bg", "ixt:date-day-monthname-cs", "ixt:date-day-monthname-year-cs",
  "ixt:date-monthname-year-cs", "ixt:date-day-monthname-da", "ixt:date-day-monthname-year-da", "ixt:date-monthname-year-da",
  "ixt:date-day-monthname-de", "ixt:date-day-monthname-year-de", "ixt:date-monthname-year-de", "ixt:date-day-monthname-el",
  "ixt:date-day-monthname-year-el", "ixt:date-monthname-year-el", "ixt:date-day-monthname-en", "ixt:date-day-monthname-year-en",
  "ixt:date-monthname-day-en", "ixt:date-monthname-day-year-en", "ixt:date-monthname-year-en", "ixt:date-year-monthname-en",
  "ixt:date-day-monthname-es", "ixt:date-day-monthname-year-es", "ixt:date-monthname-year-es", "ixt:date-day-monthname-et",
  "ixt:date-day-monthname-year-et", "ixt:date-monthname-year-et", "ixt:date-day-monthname-fi", "ixt:date-day-monthname-year-fi",
  "ixt:date-monthname-year-fi", "ixt:date-day-monthname-fr", "ixt:date-day-monthname-year-fr", "ixt:date-monthname-year-fr",
  "ixt:date-day-monthname-hr", "ixt:date-day-monthname-year-hr", "ixt:date-monthname-year-hr", "ixt:date-day-monthname-it",
  "ixt:date-day-monthname-year-it", "ixt:date-monthname-year-it", "ixt:date-day-monthname-nl", "ixt:date-day-monthname-year-nl",
  "ixt:date-monthname-year-nl", "ixt:date-monthname-day-hu", "ixt:date-year-monthname-day-hu", "ixt:date-year-monthname-hu",
  "ixt:date-monthname-day-lt", "ixt:date-year-monthname-day-lt", "ixt:date-year-monthname-lt", "ixt:date-day-monthname-lv",
  "ixt:date-year-day-monthname-lv", "ixt:date-year-monthname-lv", "ixt:date-day-monthname-no", "ixt:date-day-monthname-year-no",
  "ixt:date-monthname-year-no", "ixt:date-day-monthname-pl", "ixt:date-day-monthname-year-pl", "ixt:date-monthname-year-pl",
  "ixt:date-day-monthname-pt", "ixt:date-day-monthname-year-pt", "ixt:date-monthname-year-pt", "ixt:date-day-monthname-ro",
  "ixt:date-day-monthname-year-ro", "ixt:date-monthname-year-ro", "ixt:date-day-monthname-sk", "ixt:date-day-monthname-year-sk",
  "ixt:date-monthname-year-sk", "ixt:date-day-monthname-sl", "ixt:date-day-monthname-year-sl", "ixt:date-monthname-year-sl",
  "ixt:date-day-monthname-sv", "ixt:date-day-monthname-year-sv", "ixt:date-monthname-year-sv", "ixt:date-day-monthname-year-hi",
  "ixt:date-monthname-year-hi"]

/-- Names of the months, language `bg`. -/
def months_bg : List (List (List Char)) := [
  [chars! "януари", chars! "Януари", chars! "ЯНУАРИ"],
  [chars! "февруари", chars! "Февруари", chars! "ФЕВРУАРИ"],
  [chars! "март", chars! "Март", chars! "МАРТ"],
  [chars! "април", chars! "Април", chars! "АПРИЛ"],
  [chars! "май", chars! "Май", chars! "МАЙ"],
  [chars! "юни", chars! "Юни", chars! "ЮНИ"],
  [chars! "юли", chars! "Юли", chars! "ЮЛИ"],
  [chars! "август", chars! "Август", chars! "АВГУСТ"],
  [chars! "септември", chars! "Септември", chars! "СЕПТЕМВРИ"],
  [chars! "октомври", chars! "Октомври", chars! "ОКТОМВРИ"],
  [chars! "ноември", chars! "Ноември", chars! "НОЕМВРИ"],
  [chars! "декември", chars! "Декември", chars! "ДЕКЕМВРИ"]]

/-- Names of the months, language `cs`. -/
def months_cs : List (List (List Char)) := [
  [chars! "ledna", chars! "Ledna", chars! "LEDNA"],
  [chars! "února", chars! "Února", chars! "ÚNORA"],
  [chars! "března", chars! "Března", chars! "BŘEZNA"],
  [chars! "dubna", chars! "Dubna", chars! "DUBNA"],
  [chars! "května", chars! "Května", chars! "KVĚTNA"],
  [chars! "června", chars! "Června", chars! "ČERVNA"],
  [chars! "července", chars! "Července", chars! "ČERVENCE"],
  [chars! "srpna", chars! "Srpna", chars! "SRPNA"],
  [chars! "září", chars! "Září", chars! "ZÁŘÍ"],
  [chars! "října", chars! "Října", chars! "ŘÍJNA"],
  [chars! "listopadu", chars! "Listopadu", chars! "LISTOPADU"],
  [chars! "prosince", chars! "Prosince", chars! "PROSINCE"]]

/-- Names of the months, language `cy`. -/
def months_cy : List (List (List Char)) := [
  [chars! "ionawr", chars! "Ionawr", chars! "IONAWR"],
  [chars! "chwefror", chars! "Chwefror", chars! "CHWEFROR"],
  [chars! "mawrth", chars! "Mawrth", chars! "MAWRTH"],
  [chars! "ebrill", chars! "Ebrill", chars! "EBRILL"],
  [chars! "mai", chars! "Mai", chars! "MAI"],
  [chars! "mehefin", chars! "Mehefin", chars! "MEHEFIN"],
  [chars! "gorffennaf", chars! "Gorffennaf", chars! "GORFFENNAF"],
  [chars! "awst", chars! "Awst", chars! "AWST"],
  [chars! "medi", chars! "Medi", chars! "MEDI"],
  [chars! "hydref", chars! "Hydref", chars! "HYDREF"],
  [chars! "tachwedd", chars! "Tachwedd", chars! "TACHWEDD"],
  [chars! "rhagfyr", chars! "Rhagfyr", chars! "RHAGFYR"]]

/-- Names of the months, language `da`. -/
def months_da : List (List (List Char)) := [
  [chars! "januar", chars! "Januar", chars! "JANUAR"],
  [chars! "februar", chars! "Februar", chars! "FEBRUAR"],
  [chars! "marts", chars! "Marts", chars! "MARTS"],
  [chars! "april", chars! "April", chars! "APRIL"],
  [chars! "maj", chars! "Maj", chars! "MAJ"],
  [chars! "juni", chars! "Juni", chars! "JUNI"],
  [chars! "juli", chars! "Juli", chars! "JULI"],
  [chars! "august", chars! "August", chars! "AUGUST"],
  [chars! "september", chars! "September", chars! "SEPTEMBER"],
  [chars! "oktober", chars! "Oktober", chars! "OKTOBER"],
  [chars! "november", chars! "November", chars! "NOVEMBER"],
  [chars! "december", chars! "December", chars! "DECEMBER"]]

/-- Names of the months, language `de`. -/
def months_de : List (List (List Char)) := [
  [chars! "januar", chars! "Januar", chars! "JANUAR"],
  [chars! "februar", chars! "Februar", chars! "FEBRUAR"],
  [chars! "märz", chars! "März", chars! "MÄRZ"],
  [chars! "april", chars! "April", chars! "APRIL"],
  [chars! "mai", chars! "Mai", chars! "MAI"],
  [chars! "juni", chars! "Juni", chars! "JUNI"],
  [chars! "juli", chars! "Juli", chars! "JULI"],
  [chars! "august", chars! "August", chars! "AUGUST"],
  [chars! "september", chars! "September", chars! "SEPTEMBER"],
  [chars! "oktober", chars! "Oktober", chars! "OKTOBER"],
  [chars! "november", chars! "November", chars! "NOVEMBER"],
  [chars! "dezember", chars! "Dezember", chars! "DEZEMBER"]]

/-- Names of the months, language `el`. -/
def months_el : List (List (List Char)) := [
  [chars! "ιανουαρίου", chars! "Ιανουαρίου"],
  [chars! "φεβρουαρίου", chars! "Φεβρουαρίου"],
  [chars! "μαρτίου", chars! "Μαρτίου"],
  [chars! "απριλίου", chars! "Απριλίου"],
  [chars! "μαΐου", chars! "Μαΐου"],
  [chars! "ιουνίου", chars! "Ιουνίου"],
  [chars! "ιουλίου", chars! "Ιουλίου"],
  [chars! "αυγούστου", chars! "Αυγούστου"],
  [chars! "σεπτεμβρίου", chars! "Σεπτεμβρίου"],
  [chars! "οκτωβρίου", chars! "Οκτωβρίου"],
  [chars! "νοεμβρίου", chars! "Νοεμβρίου"],
  [chars! "δεκεμβρίου", chars! "Δεκεμβρίου"]]

/-- Names of the months, language `en`. -/
def months_en : List (List (List Char)) := [
  [chars! "January", chars! "JANUARY"],
  [chars! "February", chars! "FEBRUARY"],
  [chars! "March", chars! "MARCH"],
  [chars! "April", chars! "APRIL"],
  [chars! "May", chars! "MAY"],
  [chars! "June", chars! "JUNE"],
  [chars! "July", chars! "JULY"],
  [chars! "August", chars! "AUGUST"],
  [chars! "September", chars! "SEPTEMBER"],
  [chars! "October", chars! "OCTOBER"],
  [chars! "November", chars! "NOVEMBER"],
  [chars! "December", chars! "DECEMBER"]]

/-- Names of the months, language `es`. -/
def months_es : List (List (List Char)) := [
  [chars! "enero", chars! "Enero", chars! "ENERO"],
  [chars! "febrero", chars! "Febrero", chars! "FEBRERO"],
  [chars! "marzo", chars! "Marzo", chars! "MARZO"],
  [chars! "abril", chars! "Abril", chars! "ABRIL"],
  [chars! "mayo", chars! "Mayo", chars! "MAYO"],
  [chars! "junio", chars! "Junio", chars! "JUNIO"],
  [chars! "julio", chars! "Julio", chars! "JULIO"],
  [chars! "agosto", chars! "Agosto", chars! "AGOSTO"],
  [chars! "septiembre", chars! "Septiembre", chars! "SEPTIEMBRE"],
  [chars! "octubre", chars! "Octubre", chars! "OCTUBRE"],
  [chars! "noviembre", chars! "Noviembre", chars! "NOVIEMBRE"],
  [chars! "diciembre", chars! "Diciembre", chars! "DICIEMBRE"]]

/-- Names of the months, language `et`. -/
def months_et : List (List (List Char)) := [
  [chars! "jaanuar", chars! "Jaanuar", chars! "JAANUAR"],
  [chars! "veebruar", chars! "Veebruar", chars! "VEEBRUAR"],
  [chars! "märts", chars! "Märts", chars! "MÄRTS"],
  [chars! "aprill", chars! "Aprill", chars! "APRILL"],
  [chars! "mai", chars! "Mai", chars! "MAI"],
  [chars! "juuni", chars! "Juuni", chars! "JUUNI"],
  [chars! "juuli", chars! "Juuli", chars! "JUULI"],
  [chars! "august", chars! "August", chars! "AUGUST"],
  [chars! "september", chars! "September", chars! "SEPTEMBER"],
  [chars! "oktoober", chars! "Oktoober", chars! "OKTOOBER"],
  [chars! "november", chars! "November", chars! "NOVEMBER"],
  [chars! "detsember", chars! "Detsember", chars! "DETSEMBER"]]

/-- Names of the months, language `fi`. -/
def months_fi : List (List (List Char)) := [
  [chars! "tammikuuta", chars! "Tammikuuta", chars! "TAMMIKUUTA"],
  [chars! "helmikuuta", chars! "Helmikuuta", chars! "HELMIKUUTA"],
  [chars! "maaliskuuta", chars! "Maaliskuuta", chars! "MAALISKUUTA"],
  [chars! "huhtikuuta", chars! "Huhtikuuta", chars! "HUHTIKUUTA"],
  [chars! "toukokuuta", chars! "Toukokuuta", chars! "TOUKOKUUTA"],
  [chars! "kesäkuuta", chars! "Kesäkuuta", chars! "KESÄKUUTA"],
  [chars! "heinäkuuta", chars! "Heinäkuuta", chars! "HEINÄKUUTA"],
  [chars! "elokuuta", chars! "Elokuuta", chars! "ELOKUUTA"],
  [chars! "syyskuuta", chars! "Syyskuuta", chars! "SYYSKUUTA"],
  [chars! "lokakuuta", chars! "Lokakuuta", chars! "LOKAKUUTA"],
  [chars! "marraskuuta", chars! "Marraskuuta", chars! "MARRASKUUTA"],
  [chars! "joulukuuta", chars! "Joulukuuta", chars! "JOULUKUUTA"]]

/-- Names of the months, language `fr`. -/
def months_fr : List (List (List Char)) := [
  [chars! "janvier", chars! "Janvier", chars! "JANVIER"],
  [chars! "février", chars! "Février", chars! "FÉVRIER"],
  [chars! "mars", chars! "Mars", chars! "MARS"],
  [chars! "avril", chars! "Avril", chars! "AVRIL"],
  [chars! "mai", chars! "Mai", chars! "MAI"],
  [chars! "juin", chars! "Juin", chars! "JUIN"],
  [chars! "juillet", chars! "Juillet", chars! "JUILLET"],
  [chars! "août", chars! "Août", chars! "AOÛT"],
  [chars! "septembre", chars! "Septembre", chars! "SEPTEMBRE"],
  [chars! "octobre", chars! "Octobre", chars! "OCTOBRE"],
  [chars! "novembre", chars! "Novembre", chars! "NOVEMBRE"],
  [chars! "décembre", chars! "Décembre", chars! "DÉCEMBRE"]]

/-- Names of the months, language `hi`. -/
def months_hi : List (List (List Char)) := [
  [chars! "जनवरी"],
  [chars! "फरवरी"],
  [chars! "मार्च"],
  [chars! "अप्रैल"],
  [chars! "मई"],
  [chars! "जून"],
  [chars! "जुलाई"],
  [chars! "अगस्त"],
  [chars! "सितंबर"],
  [chars! "अक्टूबर"],
  [chars! "नवंबर"],
  [chars! "दिसंबर"]]

/-- Names of the months, language `hr`. -/
def months_hr : List (List (List Char)) := [
  [chars! "siječnja", chars! "Siječnja", chars! "SIJEČNJA"],
  [chars! "veljače", chars! "Veljače", chars! "VELJAČE"],
  [chars! "ožujka", chars! "Ožujka", chars! "OŽUJKA"],
  [chars! "travnja", chars! "Travnja", chars! "TRAVNJA"],
  [chars! "svibnja", chars! "Svibnja", chars! "SVIBNJA"],
  [chars! "lipnja", chars! "Lipnja", chars! "LIPNJA"],
  [chars! "srpnja", chars! "Srpnja", chars! "SRPNJA"],
  [chars! "kolovoza", chars! "Kolovoza", chars! "KOLOVOZA"],
  [chars! "rujna", chars! "Rujna", chars! "RUJNA"],
  [chars! "listopada", chars! "Listopada", chars! "LISTOPADA"],
  [chars! "studenoga", chars! "Studenoga", chars! "STUDENOGA"],
  [chars! "prosinca", chars! "Prosinca", chars! "PROSINCA"]]

/-- Names of the months, language `hu`. -/
def months_hu : List (List (List Char)) := [
  [chars! "január", chars! "Január", chars! "JANUÁR"],
  [chars! "február", chars! "Február", chars! "FEBRUÁR"],
  [chars! "március", chars! "Március", chars! "MÁRCIUS"],
  [chars! "április", chars! "Április", chars! "ÁPRILIS"],
  [chars! "május", chars! "Május", chars! "MÁJUS"],
  [chars! "június", chars! "Június", chars! "JÚNIUS"],
  [chars! "július", chars! "Július", chars! "JÚLIUS"],
  [chars! "augusztus", chars! "Augusztus", chars! "AUGUSZTUS"],
  [chars! "szeptember", chars! "Szeptember", chars! "SZEPTEMBER"],
  [chars! "október", chars! "Október", chars! "OKTÓBER"],
  [chars! "november", chars! "November", chars! "NOVEMBER"],
  [chars! "december", chars! "December", chars! "DECEMBER"]]

/-- Names of the months, language `it`. -/
def months_it : List (List (List Char)) := [
  [chars! "gennaio", chars! "Gennaio", chars! "GENNAIO"],
  [chars! "febbraio", chars! "Febbraio", chars! "FEBBRAIO"],
  [chars! "marzo", chars! "Marzo", chars! "MARZO"],
  [chars! "aprile", chars! "Aprile", chars! "APRILE"],
  [chars! "maggio", chars! "Maggio", chars! "MAGGIO"],
  [chars! "giugno", chars! "Giugno", chars! "GIUGNO"],
  [chars! "luglio", chars! "Luglio", chars! "LUGLIO"],
  [chars! "agosto", chars! "Agosto", chars! "AGOSTO"],
  [chars! "settembre", chars! "Settembre", chars! "SETTEMBRE"],
  [chars! "ottobre", chars! "Ottobre", chars! "OTTOBRE"],
  [chars! "novembre", chars! "Novembre", chars! "NOVEMBRE"],
  [chars! "dicembre", chars! "Dicembre", chars! "DICEMBRE"]]

/-- Names of the months, language `lt`. -/
def months_lt : List (List (List Char)) := [
  [chars! "sausio", chars! "Sausio", chars! "SAUSIO"],
  [chars! "vasario", chars! "Vasario", chars! "VASARIO"],
  [chars! "kovo", chars! "Kovo", chars! "KOVO"],
  [chars! "balandžio", chars! "Balandžio", chars! "BALANDŽIO"],
  [chars! "gegužės", chars! "Gegužės", chars! "GEGUŽĖS"],
  [chars! "birželio", chars! "Birželio", chars! "BIRŽELIO"],
  [chars! "liepos", chars! "Liepos", chars! "LIEPOS"],
  [chars! "rugpjūčio", chars! "Rugpjūčio", chars! "RUGPJŪČIO"],
  [chars! "rugsėjo", chars! "Rugsėjo", chars! "RUGSĖJO"],
  [chars! "spalio", chars! "Spalio", chars! "SPALIO"],
  [chars! "lapkričio", chars! "Lapkričio", chars! "LAPKRIČIO"],
  [chars! "gruodžio", chars! "Gruodžio", chars! "GRUODŽIO"]]

/-- Names of the months, language `lv`. -/
def months_lv : List (List (List Char)) := [
  [chars! "janvāris", chars! "Janvāris", chars! "JANVĀRIS"],
  [chars! "februāris", chars! "Februāris", chars! "FEBRUĀRIS"],
  [chars! "marts", chars! "Marts", chars! "MARTS"],
  [chars! "aprīlis", chars! "Aprīlis", chars! "APRĪLIS"],
  [chars! "maijs", chars! "Maijs", chars! "MAIJS"],
  [chars! "jūnijs", chars! "Jūnijs", chars! "JŪNIJS"],
  [chars! "jūlijs", chars! "Jūlijs", chars! "JŪLIJS"],
  [chars! "augusts", chars! "Augusts", chars! "AUGUSTS"],
  [chars! "septembris", chars! "Septembris", chars! "SEPTEMBRIS"],
  [chars! "oktobris", chars! "Oktobris", chars! "OKTOBRIS"],
  [chars! "novembris", chars! "Novembris", chars! "NOVEMBRIS"],
  [chars! "decembris", chars! "Decembris", chars! "DECEMBRIS"]]

/-- Names of the months, language `nl`. -/
def months_nl : List (List (List Char)) := [
  [chars! "januari", chars! "Januari", chars! "JANUARI"],
  [chars! "februari", chars! "Februari", chars! "FEBRUARI"],
  [chars! "maart", chars! "Maart", chars! "MAART"],
  [chars! "april", chars! "April", chars! "APRIL"],
  [chars! "mei", chars! "Mei", chars! "MEI"],
  [chars! "juni", chars! "Juni", chars! "JUNI"],
  [chars! "juli", chars! "Juli", chars! "JULI"],
  [chars! "augustus", chars! "Augustus", chars! "AUGUSTUS"],
  [chars! "september", chars! "September", chars! "SEPTEMBER"],
  [chars! "oktober", chars! "Oktober", chars! "OKTOBER"],
  [chars! "november", chars! "November", chars! "NOVEMBER"],
  [chars! "december", chars! "December", chars! "DECEMBER"]]

/-- Names of the months, language `no`. -/
def months_no : List (List (List Char)) := [
  [chars! "januar", chars! "Januar", chars! "JANUAR"],
  [chars! "februar", chars! "Februar", chars! "FEBRUAR"],
  [chars! "mars", chars! "Mars", chars! "MARS"],
  [chars! "april", chars! "April", chars! "APRIL"],
  [chars! "mai", chars! "Mai", chars! "MAI"],
  [chars! "juni", chars! "Juni", chars! "JUNI"],
  [chars! "juli", chars! "Juli", chars! "JULI"],
  [chars! "august", chars! "August", chars! "AUGUST"],
  [chars! "september", chars! "September", chars! "SEPTEMBER"],
  [chars! "oktober", chars! "Oktober", chars! "OKTOBER"],
  [chars! "november", chars! "November", chars! "NOVEMBER"],
  [chars! "desember", chars! "Desember", chars! "DESEMBER"]]

/-- Names of the months, language `pl`. -/
def months_pl : List (List (List Char)) := [
  [chars! "stycznia", chars! "Stycznia", chars! "STYCZNIA"],
  [chars! "lutego", chars! "Lutego", chars! "LUTEGO"],
  [chars! "marca", chars! "Marca", chars! "MARCA"],
  [chars! "kwietnia", chars! "Kwietnia", chars! "KWIETNIA"],
  [chars! "maja", chars! "Maja", chars! "MAJA"],
  [chars! "czerwca", chars! "Czerwca", chars! "CZERWCA"],
  [chars! "lipca", chars! "Lipca", chars! "LIPCA"],
  [chars! "sierpnia", chars! "Sierpnia", chars! "SIERPNIA"],
  [chars! "września", chars! "Września", chars! "WRZEŚNIA"],
  [chars! "października", chars! "Października", chars! "PAŹDZIERNIKA"],
  [chars! "listopada", chars! "Listopada", chars! "LISTOPADA"],
  [chars! "grudnia", chars! "Grudnia", chars! "GRUDNIA"]]

/-- Names of the months, language `pt`. -/
def months_pt : List (List (List Char)) := [
  [chars! "janeiro", chars! "Janeiro", chars! "JANEIRO"],
  [chars! "fevereiro", chars! "Fevereiro", chars! "FEVEREIRO"],
  [chars! "março", chars! "Março", chars! "MARÇO"],
  [chars! "abril", chars! "Abril", chars! "ABRIL"],
  [chars! "maio", chars! "Maio", chars! "MAIO"],
  [chars! "junho", chars! "Junho", chars! "JUNHO"],
  [chars! "julho", chars! "Julho", chars! "JULHO"],
  [chars! "agosto", chars! "Agosto", chars! "AGOSTO"],
  [chars! "setembro", chars! "Setembro", chars! "SETEMBRO"],
  [chars! "outubro", chars! "Outubro", chars! "OUTUBRO"],
  [chars! "novembro", chars! "Novembro", chars! "NOVEMBRO"],
  [chars! "dezembro", chars! "Dezembro", chars! "DEZEMBRO"]]

/-- Names of the months, language `ro`. -/
def months_ro : List (List (List Char)) := [
  [chars! "ianuarie", chars! "Ianuarie", chars! "IANUARIE"],
  [chars! "februarie", chars! "Februarie", chars! "FEBRUARIE"],
  [chars! "martie", chars! "Martie", chars! "MARTIE"],
  [chars! "aprilie", chars! "Aprilie", chars! "APRILIE"],
  [chars! "mai", chars! "Mai", chars! "MAI"],
  [chars! "iunie", chars! "Iunie", chars! "IUNIE"],
  [chars! "iulie", chars! "Iulie", chars! "IULIE"],
  [chars! "august", chars! "August", chars! "AUGUST"],
  [chars! "septembrie", chars! "Septembrie", chars! "SEPTEMBRIE"],
  [chars! "octombrie", chars! "Octombrie", chars! "OCTOMBRIE"],
  [chars! "noiembrie", chars! "Noiembrie", chars! "NOIEMBRIE"],
  [chars! "decembrie", chars! "Decembrie", chars! "DECEMBRIE"]]

/-- Names of the months, language `sk`. -/
def months_sk : List (List (List Char)) := [
  [chars! "januára", chars! "Januára", chars! "JANUÁRA"],
  [chars! "februára", chars! "Februára", chars! "FEBRUÁRA"],
  [chars! "marca", chars! "Marca", chars! "MARCA"],
  [chars! "apríla", chars! "Apríla", chars! "APRÍLA"],
  [chars! "mája", chars! "Mája", chars! "MÁJA"],
  [chars! "júna", chars! "Júna", chars! "JÚNA"],
  [chars! "júla", chars! "Júla", chars! "JÚLA"],
  [chars! "augusta", chars! "Augusta", chars! "AUGUSTA"],
  [chars! "septembra", chars! "Septembra", chars! "SEPTEMBRA"],
  [chars! "októbra", chars! "Októbra", chars! "OKTÓBRA"],
  [chars! "novembra", chars! "Novembra", chars! "NOVEMBRA"],
  [chars! "decembra", chars! "Decembra", chars! "DECEMBRA"]]

/-- Names of the months, language `sl`. -/
def months_sl : List (List (List Char)) := [
  [chars! "januarja", chars! "Januarja", chars! "JANUARJA"],
  [chars! "februarja", chars! "Februarja", chars! "FEBRUARJA"],
  [chars! "marca", chars! "Marca", chars! "MARCA"],
  [chars! "aprila", chars! "Aprila", chars! "APRILA"],
  [chars! "maja", chars! "Maja", chars! "MAJA"],
  [chars! "junija", chars! "Junija", chars! "JUNIJA"],
  [chars! "julija", chars! "Julija", chars! "JULIJA"],
  [chars! "avgusta", chars! "Avgusta", chars! "AVGUSTA"],
  [chars! "septembra", chars! "Septembra", chars! "SEPTEMBRA"],
  [chars! "oktobra", chars! "Oktobra", chars! "OKTOBRA"],
  [chars! "novembra", chars! "Novembra", chars! "NOVEMBRA"],
  [chars! "decembra", chars! "Decembra", chars! "DECEMBRA"]]

/-- Names of the months, language `sv`. -/
def months_sv : List (List (List Char)) := [
  [chars! "januari", chars! "Januari", chars! "JANUARI"],
  [chars! "februari", chars! "Februari", chars! "FEBRUARI"],
  [chars! "mars", chars! "Mars", chars! "MARS"],
  [chars! "april", chars! "April", chars! "APRIL"],
  [chars! "maj", chars! "Maj", chars! "MAJ"],
  [chars! "juni", chars! "Juni", chars! "JUNI"],
  [chars! "juli", chars! "Juli", chars! "JULI"],
  [chars! "augusti", chars! "Augusti", chars! "AUGUSTI"],
  [chars! "september", chars! "September", chars! "SEPTEMBER"],
  [chars! "oktober", chars! "Oktober", chars! "OKTOBER"],
  [chars! "november", chars! "November", chars! "NOVEMBER"],
  [chars! "december", chars! "December", chars! "DECEMBER"]]

/-- The names of the months by language. -/
def monthsOf : List (List Char × List (List (List Char))) := [
  (chars! "bg", months_bg), (chars! "cs", months_cs), (chars! "cy", months_cy), (chars! "da", months_da), (chars! "de", months_de), (chars! "el", months_el), (chars! "en", months_en), (chars! "es", months_es), (chars! "et", months_et), (chars! "fi", months_fi), (chars! "fr", months_fr), (chars! "hi", months_hi), (chars! "hr", months_hr), (chars! "hu", months_hu), (chars! "it", months_it), (chars! "lt", months_lt), (chars! "lv", months_lv), (chars! "nl", months_nl), (chars! "no", months_no), (chars! "pl", months_pl), (chars! "pt", months_pt), (chars! "ro", months_ro), (chars! "sk", months_sk), (chars! "sl", months_sl), (chars! "sv", months_sv)]

/-- Value of a digit that can occur in dates: ASCII, full-width or Devanagari. -/
def dateDigit (c : Char) : Option Nat :=
  if 0x30 ≤ c.toNat ∧ c.toNat ≤ 0x39 then some (c.toNat - 0x30)
  else if 0xFF10 ≤ c.toNat ∧ c.toNat ≤ 0xFF19 then some (c.toNat - 0xFF10)
  else if 0x966 ≤ c.toNat ∧ c.toNat ≤ 0x96F then some (c.toNat - 0x966)
  else none

/-- The formats that also read full-width digits. -/
def fullWidthFormats : List String := ["ixt:date-year-month-day", "ixt:date-year-month"]

/-- The formats that also read Devanagari digits. -/
def devanagariFormats : List String := ["ixt:date-day-month-year", "ixt:date-month-year", "ixt:date-day-monthname-year-hi", "ixt:date-monthname-year-hi"]

/-- The digits of a number, all of one script that the format reads. -/
def DigitsIn (fmt : String) (s : List Char) : Prop :=
  (∀ c ∈ s, IsAsciiDigit c) ∨ (fmt ∈ fullWidthFormats ∧ ∀ c ∈ s, 0xFF10 ≤ c.toNat ∧ c.toNat ≤ 0xFF19) ∨
  (fmt ∈ devanagariFormats ∧ ∀ c ∈ s, 0x966 ≤ c.toNat ∧ c.toNat ≤ 0x96F)

/-- The number that digits denote. -/
def dateNumber (s : List Char) : Nat := natOf (s.filterMap dateDigit)

/-- A day or month number: one or two digits. -/
def ShortNumber (fmt : String) (s : List Char) (n : Nat) : Prop := DigitsIn fmt s ∧ (s.length = 1 ∨ s.length = 2) ∧ dateNumber s = n

/-- A year: four digits, or two digits for a year of this century. -/
def YearNumber (fmt : String) (s : List Char) (n : Nat) : Prop :=
  DigitsIn fmt s ∧ ((s.length = 4 ∧ n = dateNumber s) ∨ (s.length = 2 ∧ n = 2000 + dateNumber s))

/-- `MonthName fmt s n`: `s` is a name of the `n`-th month in the language of the format. -/
def MonthName (fmt : String) (s : List Char) (n : Nat) : Prop :=
  ∃ names month, (languageOf fmt, names) ∈ monthsOf ∧ 1 ≤ n ∧ names[n - 1]? = some month ∧ s ∈ month

/-- Characters between the parts of a date with a month name: blanks and punctuation below the ASCII digits, and the no-break space. -/
def IsSeparator (c : Char) : Prop := c.toNat < 0x30 ∨ c.toNat = 0xA0

/-- `Shows P parts t`: the text shows the parts one after the other, with one or more characters that meet `P` between neighbours. -/
def Shows (P : Char → Prop) : List (List Char) → List Char → Prop
  | [], t => t = []
  | [f], t => t = f
  | f :: fs, t => ∃ sep rest, t = f ++ sep ++ rest ∧ sep ≠ [] ∧ (∀ c ∈ sep, P c) ∧ Shows P fs rest

/-- The texts of the parts in the order of the format. -/
def partTexts (fmt : String) (day month year : List Char) : List (List Char) :=
  (layout fmt).map (fun | .day => day | .month => month | .year => year)

/-- `t` writes the date in a format with month names. -/
def NamedDate (fmt : String) (t : List Char) (y m d : Nat) : Prop :=
  ∃ day month year, Shows IsSeparator (partTexts fmt day month year) t ∧ ShortNumber fmt day d ∧ MonthName fmt month m ∧ YearNumber fmt year y

/-- `t` writes the date in a numeric format. Anything but digits separates the parts; the two formats that begin with the year also
allow a text without digits at the end, as in "2020年5月3日". -/
def NumericDate (fmt : String) (t : List Char) (y m d : Nat) : Prop :=
  ∃ day month year body tail, t = body ++ tail ∧ Shows (fun c => dateDigit c = none) (partTexts fmt day month year) body ∧
    (tail = [] ∨ (fmt ∈ fullWidthFormats ∧ ∀ c ∈ tail, dateDigit c = none)) ∧
    ShortNumber fmt day d ∧ ShortNumber fmt month m ∧ YearNumber fmt year y

/-- The digit with the given value. -/
def digitChar (n : Nat) : Char := Char.ofNat (0x30 + n % 10)

/-- `n` with two digits. -/
def twoDigits (n : Nat) : List Char := [digitChar (n / 10), digitChar n]

/-- `n` with four digits. -/
def fourDigits (n : Nat) : List Char := [digitChar (n / 1000), digitChar (n / 100), digitChar (n / 10), digitChar n]

/-- The ISO text of the parts a format has: `yyyy-mm-dd`, `yyyy-mm` or `--mm-dd`. -/
def isoText (fmt : String) (y m d : Nat) : List Char :=
  (if .year ∈ layout fmt then fourDigits y else chars! "-") ++ chars! "-" ++ twoDigits m ++
  (if .day ∈ layout fmt then chars! "-" ++ twoDigits d else [])

/-- Leap years of the Gregorian calendar. -/
def Leap (y : Nat) : Prop := 400 ∣ y ∨ (4 ∣ y ∧ ¬ 100 ∣ y)

/-- `d` is a day of the `m`-th month of the year `y` of the Gregorian calendar. -/
def DayExists (y m d : Nat) : Prop :=
  1 ≤ d ∧ ((m ∈ [1, 3, 5, 7, 8, 10, 12] ∧ d ≤ 31) ∨ (m ∈ [4, 6, 9, 11] ∧ d ≤ 30) ∨ (m = 2 ∧ (d ≤ 28 ∨ (d = 29 ∧ Leap y))))

/-- The date that the parts of the format denote exists: a day of a year from 1 on, a month of such a year, or a day that some year has. -/
def DateExists (fmt : String) (y m d : Nat) : Prop :=
  (.year ∈ layout fmt → 1 ≤ y) ∧ 1 ≤ m ∧ m ≤ 12 ∧
  (.day ∈ layout fmt → if .year ∈ layout fmt then DayExists y m d else ∃ y', DayExists y' m d)

end Brel.Spec
