import Verif.Model.Regex

/-!
The tables of `brel/parsers/XHMTL/xhtml_parse_transformation_registry.py`, transcribed by a script from the source text.
Each pattern is the parse tree of the regular expression without its anchors `^` and `$`.
-/

namespace Brel
namespace Rx

/-! Character classes that occur in the patterns (lines 11-111). -/

/-- `[.'`´’′ 0-9]` -/
def wholeCommaApos : Cls := ⟨false, [(46, 46), (39, 39), (96, 96), (180, 180), (8217, 8217), (8242, 8242), (32, 32), (48, 57)]⟩

/-- `[ 0-9]` -/
def fracDigits : Cls := ⟨false, [(32, 32), (48, 57)]⟩

/-- `[,'`´’′ 0-9]` -/
def wholeDotApos : Cls := ⟨false, [(44, 44), (39, 39), (96, 96), (180, 180), (8217, 8217), (8242, 8242), (32, 32), (48, 57)]⟩

/-- `[0-9０-９.,，'`´’′＇]` -/
def unitWholeApos : Cls := ⟨false, [(48, 57), (65296, 65305), (46, 46), (44, 44), (65292, 65292), (39, 39), (96, 96), (180, 180), (8217, 8217), (8242, 8242), (65287, 65287)]⟩

/-- `[^0-9０-９.,，'`´’′＇]` -/
def notUnitWholeApos : Cls := ⟨true, [(48, 57), (65296, 65305), (46, 46), (44, 44), (65292, 65292), (39, 39), (96, 96), (180, 180), (8217, 8217), (8242, 8242), (65287, 65287)]⟩

/-- `[^0-9０-９]` -/
def notWideDigit : Cls := ⟨true, [(48, 57), (65296, 65305)]⟩

/-- `[0-9０-９]` -/
def wideDigit : Cls := ⟨false, [(48, 57), (65296, 65305)]⟩

/-- `[. 0-9]` -/
def wholeComma : Cls := ⟨false, [(46, 46), (32, 32), (48, 57)]⟩

/-- `[, 0-9]` -/
def wholeDot : Cls := ⟨false, [(44, 44), (32, 32), (48, 57)]⟩

/-- `[0-9０-９.,，]` -/
def unitWhole : Cls := ⟨false, [(48, 57), (65296, 65305), (46, 46), (44, 44), (65292, 65292)]⟩

/-- `[^0-9０-９.,，]` -/
def notUnitWhole : Cls := ⟨true, [(48, 57), (65296, 65305), (46, 46), (44, 44), (65292, 65292)]⟩

/-- `[0-9]` -/
def asciiDigit : Cls := ⟨false, [(48, 57)]⟩

/-- `[^0-9]` -/
def notDigit : Cls := ⟨true, [(48, 57)]⟩

/-- `[^0-9a-zA-Z]` -/
def notAlnum : Cls := ⟨true, [(48, 57), (97, 122), (65, 90)]⟩

/-- `[0-9०-९]` -/
def hindiOrDigit : Cls := ⟨false, [(48, 57), (2406, 2415)]⟩

/-- `[^0-9०-९]` -/
def notHindiOrDigit : Cls := ⟨true, [(48, 57), (2406, 2415)]⟩

/-- `[.]` -/
def dot : Cls := ⟨false, [(46, 46)]⟩

/-- `[a-zA-Z]` -/
def asciiLetter : Cls := ⟨false, [(97, 122), (65, 90)]⟩

/-- `[^XVIxvi]` -/
def notRoman : Cls := ⟨true, [(88, 88), (86, 86), (73, 73), (120, 120), (118, 118), (105, 105)]⟩

/-- `[I]` -/
def upperI : Cls := ⟨false, [(73, 73)]⟩

/-- `[XVI]` -/
def upperRoman : Cls := ⟨false, [(88, 88), (86, 86), (73, 73)]⟩

/-- `[i]` -/
def lowerI : Cls := ⟨false, [(105, 105)]⟩

/-- `[xvi]` -/
def lowerRoman : Cls := ⟨false, [(120, 120), (118, 118), (105, 105)]⟩

/-- `[\s]` -/
def reSpace : Cls := ⟨false, [(9, 13), (28, 32), (133, 133), (160, 160), (5760, 5760), (8192, 8202), (8232, 8233), (8239, 8239), (8287, 8287), (12288, 12288), (32, 32)]⟩

/-- `[०-९]` -/
def hindiDigit : Cls := ⟨false, [(2406, 2415)]⟩

/-- `[^\s]` -/
def notReSpace : Cls := ⟨true, [(9, 13), (28, 32), (133, 133), (160, 160), (5760, 5760), (8192, 8202), (8232, 8233), (8239, 8239), (8287, 8287), (12288, 12288)]⟩

end Rx
open Rx

/-- xhtml_parse_transformation_registry.py 11-18 (`number_format_to_regex`) -/
def numberFormats : Dict String Re := [
  ("ixt:num-comma-decimal-apos", .seq (.grp 1 (.rep wholeCommaApos 0 none)) (.opt (.grp 2 (.seq (.lits [chars! ","]) (.rep fracDigits 1 none))))),
  ("ixt:num-dot-decimal-apos", .seq (.grp 1 (.rep wholeDotApos 0 none)) (.opt (.grp 2 (.seq (.lits [chars! "."]) (.rep fracDigits 1 none))))),
  ("ixt:num-unit-decimal-apos", .seq (.grp 1 (.rep unitWholeApos 1 none)) (.seq (.rep notUnitWholeApos 1 (some 1)) (.seq (.rep notWideDigit 0 none) (.seq (.grp 2 (.rep wideDigit 1 (some 2))) (.rep notWideDigit 0 none))))),
  ("ixt:num-comma-decimal", .seq (.grp 1 (.rep wholeComma 0 none)) (.opt (.grp 2 (.seq (.lits [chars! ","]) (.rep fracDigits 1 none))))),
  ("ixt:num-dot-decimal", .seq (.grp 1 (.rep wholeDot 0 none)) (.opt (.grp 2 (.seq (.lits [chars! "."]) (.rep fracDigits 1 none))))),
  ("ixt:num-unit-decimal", .seq (.grp 1 (.rep unitWhole 1 none)) (.seq (.rep notUnitWhole 1 (some 1)) (.seq (.rep notWideDigit 0 none) (.seq (.grp 2 (.rep wideDigit 1 (some 2))) (.rep notWideDigit 0 none)))))]

/-- xhtml_parse_transformation_registry.py 20-111 (`date_format_to_regex`) -/
def dateFormats : Dict String Re := [
  ("ixt:date-day-monthname-cy", .seq (.grp 1 (.rep asciiDigit 1 (some 2))) (.seq (.rep notDigit 0 none) (.seq (.rep notAlnum 1 none) (.seq (.grp 2 (.lits [chars! "ion", chars! "chwe", chars! "maw", chars! "ebr", chars! "mai", chars! "meh", chars! "gor", chars! "aws", chars! "med", chars! "hyd", chars! "tach", chars! "rhag", chars! "ION", chars! "CHWE", chars! "MAW", chars! "EBR", chars! "MAI", chars! "MEH", chars! "GOR", chars! "AWS", chars! "MED", chars! "HYD", chars! "TACH", chars! "RHAG", chars! "Ion", chars! "Chwe", chars! "Maw", chars! "Ebr", chars! "Mai", chars! "Meh", chars! "Gor", chars! "Aws", chars! "Med", chars! "Hyd", chars! "Tach", chars! "Rhag"])) (.rep notDigit 0 (some 7)))))),
  ("ixt:date-monthname-year-cy", .seq (.grp 1 (.lits [chars! "ion", chars! "chwe", chars! "maw", chars! "faw", chars! "ebr", chars! "mai", chars! "fai", chars! "meh", chars! "feh", chars! "gor", chars! "ngor", chars! "aws", chars! "med", chars! "fed", chars! "hyd", chars! "tach", chars! "dach", chars! "nhach", chars! "thach", chars! "rhag", chars! "rag", chars! "ION", chars! "CHWE", chars! "MAW", chars! "FAW", chars! "EBR", chars! "MAI", chars! "FAI", chars! "MEH", chars! "FEH", chars! "GOR", chars! "NGOR", chars! "AWS", chars! "MED", chars! "FED", chars! "HYD", chars! "TACH", chars! "DACH", chars! "NHACH", chars! "THACH", chars! "RHAG", chars! "RAG", chars! "Ion", chars! "Chwe", chars! "Maw", chars! "Faw", chars! "Ebr", chars! "Mai", chars! "Fai", chars! "Meh", chars! "Feh", chars! "Gor", chars! "Ngor", chars! "Aws", chars! "Med", chars! "Fedi", chars! "Hyd", chars! "Tach", chars! "Dach", chars! "Nhach", chars! "Thach", chars! "Rhag", chars! "Rag"])) (.seq (.rep notDigit 1 none) (.grp 2 (.alt (.rep asciiDigit 1 (some 2)) (.rep asciiDigit 4 (some 4)))))),
  ("ixt:date-day-monthname-year-cy", .seq (.grp 1 (.rep asciiDigit 1 (some 2))) (.seq (.rep notDigit 0 none) (.seq (.rep notAlnum 1 none) (.seq (.grp 2 (.lits [chars! "ion", chars! "chwe", chars! "maw", chars! "ebr", chars! "mai", chars! "meh", chars! "gor", chars! "aws", chars! "med", chars! "hyd", chars! "tach", chars! "rhag", chars! "ION", chars! "CHWE", chars! "MAW", chars! "EBR", chars! "MAI", chars! "MEH", chars! "GOR", chars! "AWS", chars! "MED", chars! "HYD", chars! "TACH", chars! "RHAG", chars! "Ion", chars! "Chwe", chars! "Maw", chars! "Ebr", chars! "Mai", chars! "Meh", chars! "Gor", chars! "Aws", chars! "Med", chars! "Hyd", chars! "Tach", chars! "Rhag"])) (.seq (.rep notDigit 1 none) (.grp 3 (.alt (.rep asciiDigit 1 (some 2)) (.rep asciiDigit 4 (some 4))))))))),
  ("ixt:date-day-month", .seq (.grp 1 (.rep asciiDigit 1 (some 2))) (.seq (.rep notDigit 1 none) (.grp 2 (.rep asciiDigit 1 (some 2))))),
  ("ixt:date-month-day", .seq (.grp 1 (.rep asciiDigit 1 (some 2))) (.seq (.rep notDigit 1 none) (.grp 2 (.rep asciiDigit 1 (some 2))))),
  ("ixt:date-day-month-year", .seq (.grp 1 (.rep hindiOrDigit 1 (some 2))) (.seq (.rep notHindiOrDigit 1 none) (.seq (.grp 2 (.rep hindiOrDigit 1 (some 2))) (.seq (.rep notHindiOrDigit 1 none) (.grp 3 (.alt (.rep hindiOrDigit 1 (some 2)) (.rep hindiOrDigit 4 (some 4)))))))),
  ("ixt:date-month-day-year", .seq (.grp 1 (.rep asciiDigit 1 (some 2))) (.seq (.rep notDigit 1 none) (.seq (.grp 2 (.rep asciiDigit 1 (some 2))) (.seq (.rep notDigit 1 none) (.grp 3 (.alt (.rep asciiDigit 1 (some 2)) (.rep asciiDigit 4 (some 4)))))))),
  ("ixt:date-year-month-day", .seq (.grp 1 (.alt (.rep wideDigit 1 (some 2)) (.rep wideDigit 4 (some 4)))) (.seq (.rep notWideDigit 1 none) (.seq (.grp 2 (.rep wideDigit 1 (some 2))) (.seq (.rep notWideDigit 1 none) (.seq (.grp 3 (.rep wideDigit 1 (some 2))) (.rep notWideDigit 0 none)))))),
  ("ixt:date-year-month", .seq (.grp 1 (.alt (.rep wideDigit 1 (some 2)) (.rep wideDigit 4 (some 4)))) (.seq (.rep notWideDigit 1 none) (.seq (.grp 2 (.rep wideDigit 1 (some 2))) (.rep notWideDigit 0 none)))),
  ("ixt:date-month-year", .seq (.grp 1 (.rep hindiOrDigit 1 (some 2))) (.seq (.rep notHindiOrDigit 1 none) (.grp 2 (.alt (.rep hindiOrDigit 1 (some 2)) (.rep hindiOrDigit 4 (some 4)))))),
  ("ixt:date-day-monthname-bg", .seq (.grp 1 (.rep asciiDigit 1 (some 2))) (.seq (.rep notDigit 1 none) (.seq (.grp 2 (.lits [chars! "ян", chars! "фев", chars! "мар", chars! "апр", chars! "май", chars! "маи", chars! "юни", chars! "юли", chars! "авг", chars! "сеп", chars! "окт", chars! "ное", chars! "дек", chars! "ЯН", chars! "ФЕВ", chars! "МАР", chars! "АПР", chars! "МАЙ", chars! "МАИ", chars! "ЮНИ", chars! "ЮЛИ", chars! "АВГ", chars! "СЕП", chars! "ОКТ", chars! "НОЕ", chars! "ДЕК", chars! "Ян", chars! "Фев", chars! "Мар", chars! "Апр", chars! "Май", chars! "Маи", chars! "Юни", chars! "Юли", chars! "Авг", chars! "Сеп", chars! "Окт", chars! "Ное", chars! "Дек"])) (.rep notDigit 0 (some 6))))),
  ("ixt:date-day-monthname-year-bg", .seq (.grp 1 (.rep asciiDigit 1 (some 2))) (.seq (.rep notDigit 1 none) (.seq (.grp 2 (.lits [chars! "ян", chars! "фев", chars! "мар", chars! "апр", chars! "май", chars! "маи", chars! "юни", chars! "юли", chars! "авг", chars! "сеп", chars! "окт", chars! "ное", chars! "дек", chars! "ЯН", chars! "ФЕВ", chars! "МАР", chars! "АПР", chars! "МАЙ", chars! "МАИ", chars! "ЮНИ", chars! "ЮЛИ", chars! "АВГ", chars! "СЕП", chars! "ОКТ", chars! "НОЕ", chars! "ДЕК", chars! "Ян", chars! "Фев", chars! "Мар", chars! "Апр", chars! "Май", chars! "Маи", chars! "Юни", chars! "Юли", chars! "Авг", chars! "Сеп", chars! "Окт", chars! "Ное", chars! "Дек"])) (.seq (.rep notDigit 1 none) (.seq (.grp 3 (.alt (.rep asciiDigit 1 (some 2)) (.rep asciiDigit 4 (some 4)))) (.rep notDigit 0 none)))))),
  ("ixt:date-monthname-year-bg", .seq (.grp 1 (.lits [chars! "ян", chars! "фев", chars! "мар", chars! "апр", chars! "май", chars! "маи", chars! "юни", chars! "юли", chars! "авг", chars! "сеп", chars! "окт", chars! "ное", chars! "дек", chars! "ЯН", chars! "ФЕВ", chars! "МАР", chars! "АПР", chars! "МАЙ", chars! "МАИ", chars! "ЮНИ", chars! "ЮЛИ", chars! "АВГ", chars! "СЕП", chars! "ОКТ", chars! "НОЕ", chars! "ДЕК", chars! "Ян", chars! "Фев", chars! "Мар", chars! "Апр", chars! "Май", chars! "Маи", chars! "Юни", chars! "Юли", chars! "Авг", chars! "Сеп", chars! "Окт", chars! "Ное", chars! "Дек"])) (.seq (.rep notDigit 1 none) (.seq (.grp 2 (.alt (.rep asciiDigit 1 (some 2)) (.rep asciiDigit 4 (some 4)))) (.rep notDigit 0 none)))),
  ("ixt:date-day-monthname-cs", .seq (.grp 1 (.rep asciiDigit 1 (some 2))) (.seq (.rep notDigit 1 none) (.seq (.grp 2 (.lits [chars! "ledna", chars! "února", chars! "unora", chars! "března", chars! "brezna", chars! "dubna", chars! "května", chars! "kvetna", chars! "června", chars! "cervna", chars! "července", chars! "cervence", chars! "srpna", chars! "září", chars! "zari", chars! "října", chars! "rijna", chars! "listopadu", chars! "prosince", chars! "led", chars! "úno", chars! "uno", chars! "bře", chars! "bre", chars! "dub", chars! "kvě", chars! "kve", chars! "čvn", chars! "cvn", chars! "čvc", chars! "cvc", chars! "srp", chars! "zář", chars! "zar", chars! "říj", chars! "rij", chars! "lis", chars! "pro", chars! "LEDNA", chars! "ÚNORA", chars! "UNORA", chars! "BŘEZNA", chars! "BREZNA", chars! "DUBNA", chars! "KVĚTNA", chars! "KVETNA", chars! "ČERVNA", chars! "CERVNA", chars! "ČERVENCE", chars! "CERVENCE", chars! "SRPNA", chars! "ZÁŘÍ", chars! "ZARI", chars! "ŘÍJNA", chars! "RIJNA", chars! "LISTOPADU", chars! "PROSINCE", chars! "LED", chars! "ÚNO", chars! "UNO", chars! "BŘE", chars! "BRE", chars! "DUB", chars! "KVĚ", chars! "KVE", chars! "ČVN", chars! "CVN", chars! "ČVC", chars! "CVC", chars! "SRP", chars! "ZÁŘ", chars! "ZAR", chars! "ŘÍJ", chars! "RIJ", chars! "LIS", chars! "PRO", chars! "Ledna", chars! "Února", chars! "Unora", chars! "Března", chars! "Brezna", chars! "Dubna", chars! "Května", chars! "Kvetna", chars! "Června", chars! "Cervna", chars! "Července", chars! "Cervence", chars! "Srpna", chars! "Září", chars! "Zari", chars! "Října", chars! "Rijna", chars! "Listopadu", chars! "Prosince", chars! "Led", chars! "Úno", chars! "Uno", chars! "Bře", chars! "Bre", chars! "Dub", chars! "Kvě", chars! "Kve", chars! "Čvn", chars! "Cvn", chars! "Čvc", chars! "Cvc", chars! "Srp", chars! "Zář", chars! "Zar", chars! "Říj", chars! "Rij", chars! "Lis", chars! "Pro"])) (.rep dot 0 (some 1))))),
  ("ixt:date-day-monthname-year-cs", .seq (.grp 1 (.rep asciiDigit 1 (some 2))) (.seq (.rep notDigit 1 none) (.seq (.grp 2 (.lits [chars! "ledna", chars! "února", chars! "unora", chars! "března", chars! "brezna", chars! "dubna", chars! "května", chars! "kvetna", chars! "června", chars! "cervna", chars! "července", chars! "cervence", chars! "srpna", chars! "září", chars! "zari", chars! "října", chars! "rijna", chars! "listopadu", chars! "prosince", chars! "led", chars! "úno", chars! "uno", chars! "bře", chars! "bre", chars! "dub", chars! "kvě", chars! "kve", chars! "čvn", chars! "cvn", chars! "čvc", chars! "cvc", chars! "srp", chars! "zář", chars! "zar", chars! "říj", chars! "rij", chars! "lis", chars! "pro", chars! "LEDNA", chars! "ÚNORA", chars! "UNORA", chars! "BŘEZNA", chars! "BREZNA", chars! "DUBNA", chars! "KVĚTNA", chars! "KVETNA", chars! "ČERVNA", chars! "CERVNA", chars! "ČERVENCE", chars! "CERVENCE", chars! "SRPNA", chars! "ZÁŘÍ", chars! "ZARI", chars! "ŘÍJNA", chars! "RIJNA", chars! "LISTOPADU", chars! "PROSINCE", chars! "LED", chars! "ÚNO", chars! "UNO", chars! "BŘE", chars! "BRE", chars! "DUB", chars! "KVĚ", chars! "KVE", chars! "ČVN", chars! "CVN", chars! "ČVC", chars! "CVC", chars! "SRP", chars! "ZÁŘ", chars! "ZAR", chars! "ŘÍJ", chars! "RIJ", chars! "LIS", chars! "PRO", chars! "Ledna", chars! "Února", chars! "Unora", chars! "Března", chars! "Brezna", chars! "Dubna", chars! "Května", chars! "Kvetna", chars! "Června", chars! "Cervna", chars! "Července", chars! "Cervence", chars! "Srpna", chars! "Září", chars! "Zari", chars! "Října", chars! "Rijna", chars! "Listopadu", chars! "Prosince", chars! "Led", chars! "Úno", chars! "Uno", chars! "Bře", chars! "Bre", chars! "Dub", chars! "Kvě", chars! "Kve", chars! "Čvn", chars! "Cvn", chars! "Čvc", chars! "Cvc", chars! "Srp", chars! "Zář", chars! "Zar", chars! "Říj", chars! "Rij", chars! "Lis", chars! "Pro"])) (.seq (.rep notAlnum 1 none) (.seq (.rep notDigit 0 none) (.grp 3 (.alt (.rep asciiDigit 1 (some 2)) (.rep asciiDigit 4 (some 4))))))))),
  ("ixt:date-monthname-year-cs", .seq (.grp 1 (.lits [chars! "leden", chars! "ledna", chars! "lednu", chars! "únor", chars! "unor", chars! "února", chars! "unora", chars! "únoru", chars! "unoru", chars! "březen", chars! "brezen", chars! "března", chars! "brezna", chars! "březnu", chars! "breznu", chars! "duben", chars! "dubna", chars! "dubnu", chars! "květen", chars! "kveten", chars! "května", chars! "kvetna", chars! "květnu", chars! "kvetnu", chars! "červen", chars! "cerven", chars! "června", chars! "cervna", chars! "červnu", chars! "cervnu", chars! "červenec", chars! "cervenec", chars! "července", chars! "cervence", chars! "červenci", chars! "cervenci", chars! "srpen", chars! "srpna", chars! "srpnu", chars! "září", chars! "zari", chars! "říjen", chars! "rijen", chars! "října", chars! "rijna", chars! "říjnu", chars! "rijnu", chars! "listopad", chars! "listopadu", chars! "prosinec", chars! "prosince", chars! "prosinci", chars! "led", chars! "úno", chars! "uno", chars! "bře", chars! "bre", chars! "dub", chars! "kvě", chars! "kve", chars! "čvn", chars! "cvn", chars! "čvc", chars! "cvc", chars! "srp", chars! "zář", chars! "zar", chars! "říj", chars! "rij", chars! "lis", chars! "pro", chars! "LEDEN", chars! "LEDNA", chars! "LEDNU", chars! "ÚNOR", chars! "UNOR", chars! "ÚNORA", chars! "UNORA", chars! "ÚNORU", chars! "UNORU", chars! "BŘEZEN", chars! "BREZEN", chars! "BŘEZNA", chars! "BREZNA", chars! "BŘEZNU", chars! "BREZNU", chars! "DUBEN", chars! "DUBNA", chars! "DUBNU", chars! "KVĚTEN", chars! "KVETEN", chars! "KVĚTNA", chars! "KVETNA", chars! "KVĚTNU", chars! "KVETNU", chars! "ČERVEN", chars! "CERVEN", chars! "ČERVNA", chars! "CERVNA", chars! "ČERVNU", chars! "CERVNU", chars! "ČERVENEC", chars! "CERVENEC", chars! "ČERVENCE", chars! "CERVENCE", chars! "ČERVENCI", chars! "CERVENCI", chars! "SRPEN", chars! "SRPNA", chars! "SRPNU", chars! "ZÁŘÍ", chars! "ZARI", chars! "ŘÍJEN", chars! "RIJEN", chars! "ŘÍJNA", chars! "RIJNA", chars! "ŘÍJNU", chars! "RIJNU", chars! "LISTOPAD", chars! "LISTOPADU", chars! "PROSINEC", chars! "PROSINCE", chars! "PROSINCI", chars! "LED", chars! "ÚNO", chars! "UNO", chars! "BŘE", chars! "BRE", chars! "DUB", chars! "KVĚ", chars! "KVE", chars! "ČVN", chars! "CVN", chars! "ČVC", chars! "CVC", chars! "SRP", chars! "ZÁŘ", chars! "ZAR", chars! "ŘÍJ", chars! "RIJ", chars! "LIS", chars! "PRO", chars! "Leden", chars! "Ledna", chars! "Lednu", chars! "Únor", chars! "Unor", chars! "Února", chars! "Unora", chars! "Únoru", chars! "Unoru", chars! "Březen", chars! "Brezen", chars! "Března", chars! "Brezna", chars! "Březnu", chars! "Breznu", chars! "Duben", chars! "Dubna", chars! "Dubnu", chars! "Květen", chars! "Kveten", chars! "Května", chars! "Kvetna", chars! "Květnu", chars! "Kvetnu", chars! "Červen", chars! "Cerven", chars! "Června", chars! "Cervna", chars! "Červnu", chars! "Cervnu", chars! "Červenec", chars! "Cervenec", chars! "Července", chars! "Cervence", chars! "Červenci", chars! "Cervenci", chars! "Srpen", chars! "Srpna", chars! "Srpnu", chars! "Září", chars! "Zari", chars! "Říjen", chars! "Rijen", chars! "Října", chars! "Rijna", chars! "Říjnu", chars! "Rijnu", chars! "Listopad", chars! "Listopadu", chars! "Prosinec", chars! "Prosince", chars! "Prosinci", chars! "Led", chars! "Úno", chars! "Uno", chars! "Bře", chars! "Bre", chars! "Dub", chars! "Kvě", chars! "Kve", chars! "Čvn", chars! "Cvn", chars! "Čvc", chars! "Cvc", chars! "Srp", chars! "Zář", chars! "Zar", chars! "Říj", chars! "Rij", chars! "Lis", chars! "Pro"])) (.seq (.rep notAlnum 1 none) (.seq (.rep notDigit 0 none) (.grp 2 (.alt (.rep asciiDigit 1 (some 2)) (.rep asciiDigit 4 (some 4))))))),
  ("ixt:date-day-monthname-da", .seq (.grp 1 (.rep asciiDigit 1 (some 2))) (.seq (.rep notDigit 1 none) (.seq (.grp 2 (.lits [chars! "jan", chars! "feb", chars! "mar", chars! "apr", chars! "maj", chars! "jun", chars! "jul", chars! "aug", chars! "sep", chars! "okt", chars! "nov", chars! "dec", chars! "JAN", chars! "FEB", chars! "MAR", chars! "APR", chars! "MAJ", chars! "JUN", chars! "JUL", chars! "AUG", chars! "SEP", chars! "OKT", chars! "NOV", chars! "DEC", chars! "Jan", chars! "Feb", chars! "Mar", chars! "Apr", chars! "Maj", chars! "Jun", chars! "Jul", chars! "Aug", chars! "Sep", chars! "Okt", chars! "Nov", chars! "Dec"])) (.rep notDigit 0 (some 6))))),
  ("ixt:date-day-monthname-year-da", .seq (.grp 1 (.rep asciiDigit 1 (some 2))) (.seq (.rep notDigit 1 none) (.seq (.grp 2 (.lits [chars! "jan", chars! "feb", chars! "mar", chars! "apr", chars! "maj", chars! "jun", chars! "jul", chars! "aug", chars! "sep", chars! "okt", chars! "nov", chars! "dec", chars! "JAN", chars! "FEB", chars! "MAR", chars! "APR", chars! "MAJ", chars! "JUN", chars! "JUL", chars! "AUG", chars! "SEP", chars! "OKT", chars! "NOV", chars! "DEC", chars! "Jan", chars! "Feb", chars! "Mar", chars! "Apr", chars! "Maj", chars! "Jun", chars! "Jul", chars! "Aug", chars! "Sep", chars! "Okt", chars! "Nov", chars! "Dec"])) (.seq (.rep notDigit 1 none) (.grp 3 (.alt (.rep asciiDigit 1 (some 2)) (.rep asciiDigit 4 (some 4)))))))),
  ("ixt:date-monthname-year-da", .seq (.grp 1 (.lits [chars! "jan", chars! "feb", chars! "mar", chars! "apr", chars! "maj", chars! "jun", chars! "jul", chars! "aug", chars! "sep", chars! "okt", chars! "nov", chars! "dec", chars! "JAN", chars! "FEB", chars! "MAR", chars! "APR", chars! "MAJ", chars! "JUN", chars! "JUL", chars! "AUG", chars! "SEP", chars! "OKT", chars! "NOV", chars! "DEC", chars! "Jan", chars! "Feb", chars! "Mar", chars! "Apr", chars! "Maj", chars! "Jun", chars! "Jul", chars! "Aug", chars! "Sep", chars! "Okt", chars! "Nov", chars! "Dec"])) (.seq (.rep notDigit 1 none) (.grp 2 (.alt (.rep asciiDigit 1 (some 2)) (.rep asciiDigit 4 (some 4)))))),
  ("ixt:date-day-monthname-de", .seq (.grp 1 (.rep asciiDigit 1 (some 2))) (.seq (.rep notDigit 1 none) (.seq (.grp 2 (.lits [chars! "jan", chars! "feb", chars! "mar", chars! "apr", chars! "maj", chars! "jun", chars! "jul", chars! "aug", chars! "sep", chars! "okt", chars! "nov", chars! "dec", chars! "JAN", chars! "FEB", chars! "MAR", chars! "APR", chars! "MAJ", chars! "JUN", chars! "JUL", chars! "AUG", chars! "SEP", chars! "OKT", chars! "NOV", chars! "DEC", chars! "Jan", chars! "Feb", chars! "Mar", chars! "Apr", chars! "Maj", chars! "Jun", chars! "Jul", chars! "Aug", chars! "Sep", chars! "Okt", chars! "Nov", chars! "Dec"])) (.rep notDigit 0 (some 6))))),
  ("ixt:date-day-monthname-year-de", .seq (.grp 1 (.rep asciiDigit 1 (some 2))) (.seq (.rep notDigit 1 none) (.seq (.grp 2 (.lits [chars! "jan", chars! "feb", chars! "mar", chars! "apr", chars! "maj", chars! "jun", chars! "jul", chars! "aug", chars! "sep", chars! "okt", chars! "nov", chars! "dec", chars! "JAN", chars! "FEB", chars! "MAR", chars! "APR", chars! "MAJ", chars! "JUN", chars! "JUL", chars! "AUG", chars! "SEP", chars! "OKT", chars! "NOV", chars! "DEC", chars! "Jan", chars! "Feb", chars! "Mar", chars! "Apr", chars! "Maj", chars! "Jun", chars! "Jul", chars! "Aug", chars! "Sep", chars! "Okt", chars! "Nov", chars! "Dec"])) (.seq (.rep notDigit 1 none) (.grp 3 (.alt (.rep asciiDigit 1 (some 2)) (.rep asciiDigit 4 (some 4)))))))),
  ("ixt:date-monthname-year-de", .seq (.grp 1 (.lits [chars! "jan", chars! "feb", chars! "mar", chars! "apr", chars! "maj", chars! "jun", chars! "jul", chars! "aug", chars! "sep", chars! "okt", chars! "nov", chars! "dec", chars! "JAN", chars! "FEB", chars! "MAR", chars! "APR", chars! "MAJ", chars! "JUN", chars! "JUL", chars! "AUG", chars! "SEP", chars! "OKT", chars! "NOV", chars! "DEC", chars! "Jan", chars! "Feb", chars! "Mar", chars! "Apr", chars! "Maj", chars! "Jun", chars! "Jul", chars! "Aug", chars! "Sep", chars! "Okt", chars! "Nov", chars! "Dec"])) (.seq (.rep notDigit 1 none) (.grp 2 (.alt (.rep asciiDigit 1 (some 2)) (.rep asciiDigit 4 (some 4)))))),
  ("ixt:date-day-monthname-el", .seq (.grp 1 (.rep asciiDigit 1 (some 2))) (.seq (.rep notDigit 1 none) (.seq (.grp 2 (.lits [chars! "ιαν", chars! "ίαν", chars! "φεβ", chars! "μάρ", chars! "μαρ", chars! "απρ", chars! "άπρ", chars! "αρίλ", chars! "άρίλ", chars! "αριλ", chars! "άριλ", chars! "μαΐ", chars! "μαι", chars! "μάι", chars! "μαϊ", chars! "μάϊ", chars! "ιούν", chars! "ίούν", chars! "ίουν", chars! "ιουν", chars! "ιούλ", chars! "ίούλ", chars! "ίουλ", chars! "ίουλ", chars! "ιουλ", chars! "αύγ", chars! "αυγ", chars! "σεπ", chars! "οκτ", chars! "όκτ", chars! "νοέ", chars! "νοε", chars! "δεκ", chars! "ΙΑΝ", chars! "ΊΑΝ", chars! "IΑΝ", chars! "ΦΕΒ", chars! "ΜΆΡ", chars! "ΜΑΡ", chars! "ΑΠΡ", chars! "ΆΠΡ", chars! "AΠΡ", chars! "AΡΙΛ", chars! "ΆΡΙΛ", chars! "ΑΡΙΛ", chars! "ΜΑΪ́", chars! "ΜΑΙ", chars! "ΜΆΙ", chars! "ΜΑΪ", chars! "ΜΆΪ", chars! "ΙΟΎΝ", chars! "ΊΟΎΝ", chars! "ΊΟΥΝ", chars! "IΟΥΝ", chars! "ΙΟΥΝ", chars! "IΟΥΝ", chars! "ΙΟΎΛ", chars! "ΊΟΎΛ", chars! "ΊΟΥΛ", chars! "IΟΎΛ", chars! "ΙΟΥΛ", chars! "IΟΥΛ", chars! "ΑΎΓ", chars! "ΑΥΓ", chars! "ΣΕΠ", chars! "ΟΚΤ", chars! "ΌΚΤ", chars! "OΚΤ", chars! "ΝΟΈ", chars! "ΝΟΕ", chars! "ΔΕΚ", chars! "Ιαν", chars! "Ίαν", chars! "Iαν", chars! "Φεβ", chars! "Μάρ", chars! "Μαρ", chars! "Απρ", chars! "Άπρ", chars! "Aπρ", chars! "Αρίλ", chars! "Άρίλ", chars! "Aρίλ", chars! "Aριλ", chars! "Άριλ", chars! "Αριλ", chars! "Μαΐ", chars! "Μαι", chars! "Μάι", chars! "Μαϊ", chars! "Μάϊ", chars! "Ιούν", chars! "Ίούν", chars! "Ίουν", chars! "Iούν", chars! "Ιουν", chars! "Iουν", chars! "Ιούλ", chars! "Ίούλ", chars! "Ίουλ", chars! "Iούλ", chars! "Ιουλ", chars! "Iουλ", chars! "Αύγ", chars! "Αυγ", chars! "Σεπ", chars! "Οκτ", chars! "Όκτ", chars! "Oκτ", chars! "Νοέ", chars! "Νοε", chars! "Δεκ"])) (.rep notDigit 0 (some 8))))),
  ("ixt:date-day-monthname-year-el", .seq (.grp 1 (.rep asciiDigit 1 (some 2))) (.seq (.rep notDigit 1 none) (.seq (.grp 2 (.lits [chars! "ιαν", chars! "ίαν", chars! "φεβ", chars! "μάρ", chars! "μαρ", chars! "απρ", chars! "άπρ", chars! "αρίλ", chars! "άρίλ", chars! "αριλ", chars! "άριλ", chars! "μαΐ", chars! "μαι", chars! "μάι", chars! "μαϊ", chars! "μάϊ", chars! "ιούν", chars! "ίούν", chars! "ίουν", chars! "ιουν", chars! "ιούλ", chars! "ίούλ", chars! "ίουλ", chars! "ίουλ", chars! "ιουλ", chars! "αύγ", chars! "αυγ", chars! "σεπ", chars! "οκτ", chars! "όκτ", chars! "νοέ", chars! "νοε", chars! "δεκ", chars! "ΙΑΝ", chars! "ΊΑΝ", chars! "IΑΝ", chars! "ΦΕΒ", chars! "ΜΆΡ", chars! "ΜΑΡ", chars! "ΑΠΡ", chars! "ΆΠΡ", chars! "AΠΡ", chars! "AΡΙΛ", chars! "ΆΡΙΛ", chars! "ΑΡΙΛ", chars! "ΜΑΪ́", chars! "ΜΑΙ", chars! "ΜΆΙ", chars! "ΜΑΪ", chars! "ΜΆΪ", chars! "ΙΟΎΝ", chars! "ΊΟΎΝ", chars! "ΊΟΥΝ", chars! "IΟΎΝ", chars! "ΙΟΥΝ", chars! "IΟΥΝ", chars! "ΙΟΎΛ", chars! "ΊΟΎΛ", chars! "ΊΟΥΛ", chars! "IΟΎΛ", chars! "ΙΟΥΛ", chars! "IΟΥΛ", chars! "ΑΎΓ", chars! "ΑΥΓ", chars! "ΣΕΠ", chars! "ΟΚΤ", chars! "ΌΚΤ", chars! "OΚΤ", chars! "ΝΟΈ", chars! "ΝΟΕ", chars! "ΔΕΚ", chars! "Ιαν", chars! "Ίαν", chars! "Iαν", chars! "Φεβ", chars! "Μάρ", chars! "Μαρ", chars! "Απρ", chars! "Άπρ", chars! "Aπρ", chars! "Αρίλ", chars! "Άρίλ", chars! "Aρίλ", chars! "Aριλ", chars! "Άριλ", chars! "Αριλ", chars! "Μαΐ", chars! "Μαι", chars! "Μάι", chars! "Μαϊ", chars! "Μάϊ", chars! "Ιούν", chars! "Ίούν", chars! "Ίουν", chars! "Iούν", chars! "Ιουν", chars! "Iουν", chars! "Ιούλ", chars! "Ίούλ", chars! "Ίουλ", chars! "Iούλ", chars! "Ιουλ", chars! "Iουλ", chars! "Αύγ", chars! "Αυγ", chars! "Σεπ", chars! "Οκτ", chars! "Όκτ", chars! "Oκτ", chars! "Νοέ", chars! "Νοε", chars! "Δεκ"])) (.seq (.rep notDigit 1 none) (.grp 3 (.alt (.rep asciiDigit 1 (some 2)) (.rep asciiDigit 4 (some 4)))))))),
  ("ixt:date-monthname-year-el", .seq (.grp 1 (.lits [chars! "ιαν", chars! "ίαν", chars! "φεβ", chars! "μάρ", chars! "μαρ", chars! "απρ", chars! "άπρ", chars! "αρίλ", chars! "άρίλ", chars! "αριλ", chars! "άριλ", chars! "μαΐ", chars! "μαι", chars! "μάι", chars! "μαϊ", chars! "μάϊ", chars! "ιούν", chars! "ίούν", chars! "ίουν", chars! "ιουν", chars! "ιούλ", chars! "ίούλ", chars! "ίουλ", chars! "ίουλ", chars! "ιουλ", chars! "αύγ", chars! "αυγ", chars! "σεπ", chars! "οκτ", chars! "όκτ", chars! "νοέ", chars! "νοε", chars! "δεκ", chars! "ΙΑΝ", chars! "ΊΑΝ", chars! "IΑΝ", chars! "ΦΕΒ", chars! "ΜΆΡ", chars! "ΜΑΡ", chars! "ΑΠΡ", chars! "ΆΠΡ", chars! "AΠΡ", chars! "AΡΙΛ", chars! "ΆΡΙΛ", chars! "ΑΡΙΛ", chars! "ΜΑΪ́", chars! "ΜΑΙ", chars! "ΜΆΙ", chars! "ΜΑΪ", chars! "ΜΆΪ", chars! "ΙΟΎΝ", chars! "ΊΟΎΝ", chars! "ΊΟΥΝ", chars! "IΟΎΝ", chars! "ΙΟΥΝ", chars! "IΟΥΝ", chars! "ΙΟΎΛ", chars! "ΊΟΎΛ", chars! "ΊΟΥΛ", chars! "IΟΎΛ", chars! "ΙΟΥΛ", chars! "IΟΥΛ", chars! "ΑΎΓ", chars! "ΑΥΓ", chars! "ΣΕΠ", chars! "ΟΚΤ", chars! "ΌΚΤ", chars! "OΚΤ", chars! "ΝΟΈ", chars! "ΝΟΕ", chars! "ΔΕΚ", chars! "Ιαν", chars! "Ίαν", chars! "Iαν", chars! "Φεβ", chars! "Μάρ", chars! "Μαρ", chars! "Απρ", chars! "Άπρ", chars! "Aπρ", chars! "Αρίλ", chars! "Άρίλ", chars! "Aρίλ", chars! "Aριλ", chars! "Άριλ", chars! "Αριλ", chars! "Μαΐ", chars! "Μαι", chars! "Μάι", chars! "Μαϊ", chars! "Μάϊ", chars! "Ιούν", chars! "Ίούν", chars! "Ίουν", chars! "Iούν", chars! "Ιουν", chars! "Iουν", chars! "Ιούλ", chars! "Ίούλ", chars! "Ίουλ", chars! "Iούλ", chars! "Ιουλ", chars! "Iουλ", chars! "Αύγ", chars! "Αυγ", chars! "Σεπ", chars! "Οκτ", chars! "Όκτ", chars! "Oκτ", chars! "Νοέ", chars! "Νοε", chars! "Δεκ"])) (.seq (.rep notDigit 1 none) (.grp 2 (.alt (.rep asciiDigit 1 (some 2)) (.rep asciiDigit 4 (some 4)))))),
  ("ixt:date-day-monthname-en", .seq (.grp 1 (.rep asciiDigit 1 (some 2))) (.seq (.rep notDigit 1 none) (.grp 2 (.lits [chars! "January", chars! "February", chars! "March", chars! "April", chars! "May", chars! "June", chars! "July", chars! "August", chars! "September", chars! "October", chars! "November", chars! "December", chars! "Jan", chars! "Feb", chars! "Mar", chars! "Apr", chars! "May", chars! "Jun", chars! "Jul", chars! "Aug", chars! "Sep", chars! "Oct", chars! "Nov", chars! "Dec", chars! "JAN", chars! "FEB", chars! "MAR", chars! "APR", chars! "MAY", chars! "JUN", chars! "JUL", chars! "AUG", chars! "SEP", chars! "OCT", chars! "NOV", chars! "DEC", chars! "JANUARY", chars! "FEBRUARY", chars! "MARCH", chars! "APRIL", chars! "MAY", chars! "JUNE", chars! "JULY", chars! "AUGUST", chars! "SEPTEMBER", chars! "OCTOBER", chars! "NOVEMBER", chars! "DECEMBER"])))),
  ("ixt:date-day-monthname-year-en", .seq (.grp 1 (.rep asciiDigit 1 (some 2))) (.seq (.rep notDigit 1 none) (.seq (.grp 2 (.lits [chars! "January", chars! "February", chars! "March", chars! "April", chars! "May", chars! "June", chars! "July", chars! "August", chars! "September", chars! "October", chars! "November", chars! "December", chars! "Jan", chars! "Feb", chars! "Mar", chars! "Apr", chars! "May", chars! "Jun", chars! "Jul", chars! "Aug", chars! "Sep", chars! "Oct", chars! "Nov", chars! "Dec", chars! "JAN", chars! "FEB", chars! "MAR", chars! "APR", chars! "MAY", chars! "JUN", chars! "JUL", chars! "AUG", chars! "SEP", chars! "OCT", chars! "NOV", chars! "DEC", chars! "JANUARY", chars! "FEBRUARY", chars! "MARCH", chars! "APRIL", chars! "MAY", chars! "JUNE", chars! "JULY", chars! "AUGUST", chars! "SEPTEMBER", chars! "OCTOBER", chars! "NOVEMBER", chars! "DECEMBER"])) (.seq (.rep notDigit 1 none) (.grp 3 (.alt (.rep asciiDigit 1 (some 2)) (.rep asciiDigit 4 (some 4)))))))),
  ("ixt:date-monthname-day-en", .seq (.grp 1 (.lits [chars! "January", chars! "February", chars! "March", chars! "April", chars! "May", chars! "June", chars! "July", chars! "August", chars! "September", chars! "October", chars! "November", chars! "December", chars! "Jan", chars! "Feb", chars! "Mar", chars! "Apr", chars! "May", chars! "Jun", chars! "Jul", chars! "Aug", chars! "Sep", chars! "Oct", chars! "Nov", chars! "Dec", chars! "JAN", chars! "FEB", chars! "MAR", chars! "APR", chars! "MAY", chars! "JUN", chars! "JUL", chars! "AUG", chars! "SEP", chars! "OCT", chars! "NOV", chars! "DEC", chars! "JANUARY", chars! "FEBRUARY", chars! "MARCH", chars! "APRIL", chars! "MAY", chars! "JUNE", chars! "JULY", chars! "AUGUST", chars! "SEPTEMBER", chars! "OCTOBER", chars! "NOVEMBER", chars! "DECEMBER"])) (.seq (.rep notDigit 1 none) (.seq (.grp 2 (.rep asciiDigit 1 (some 2))) (.rep asciiLetter 0 (some 2))))),
  ("ixt:date-monthname-day-year-en", .seq (.grp 1 (.lits [chars! "January", chars! "February", chars! "March", chars! "April", chars! "May", chars! "June", chars! "July", chars! "August", chars! "September", chars! "October", chars! "November", chars! "December", chars! "Jan", chars! "Feb", chars! "Mar", chars! "Apr", chars! "May", chars! "Jun", chars! "Jul", chars! "Aug", chars! "Sep", chars! "Oct", chars! "Nov", chars! "Dec", chars! "JAN", chars! "FEB", chars! "MAR", chars! "APR", chars! "MAY", chars! "JUN", chars! "JUL", chars! "AUG", chars! "SEP", chars! "OCT", chars! "NOV", chars! "DEC", chars! "JANUARY", chars! "FEBRUARY", chars! "MARCH", chars! "APRIL", chars! "MAY", chars! "JUNE", chars! "JULY", chars! "AUGUST", chars! "SEPTEMBER", chars! "OCTOBER", chars! "NOVEMBER", chars! "DECEMBER"])) (.seq (.rep notDigit 1 none) (.seq (.grp 2 (.rep asciiDigit 1 (some 2))) (.seq (.rep notDigit 1 none) (.grp 3 (.alt (.rep asciiDigit 1 (some 2)) (.rep asciiDigit 4 (some 4)))))))),
  ("ixt:date-monthname-year-en", .seq (.grp 1 (.lits [chars! "January", chars! "February", chars! "March", chars! "April", chars! "May", chars! "June", chars! "July", chars! "August", chars! "September", chars! "October", chars! "November", chars! "December", chars! "Jan", chars! "Feb", chars! "Mar", chars! "Apr", chars! "May", chars! "Jun", chars! "Jul", chars! "Aug", chars! "Sep", chars! "Oct", chars! "Nov", chars! "Dec", chars! "JAN", chars! "FEB", chars! "MAR", chars! "APR", chars! "MAY", chars! "JUN", chars! "JUL", chars! "AUG", chars! "SEP", chars! "OCT", chars! "NOV", chars! "DEC", chars! "JANUARY", chars! "FEBRUARY", chars! "MARCH", chars! "APRIL", chars! "MAY", chars! "JUNE", chars! "JULY", chars! "AUGUST", chars! "SEPTEMBER", chars! "OCTOBER", chars! "NOVEMBER", chars! "DECEMBER"])) (.seq (.rep notDigit 1 none) (.grp 2 (.alt (.rep asciiDigit 1 (some 2)) (.rep asciiDigit 4 (some 4)))))),
  ("ixt:date-year-monthname-en", .seq (.grp 1 (.alt (.rep asciiDigit 1 (some 2)) (.rep asciiDigit 4 (some 4)))) (.seq (.rep notDigit 1 none) (.grp 2 (.lits [chars! "January", chars! "February", chars! "March", chars! "April", chars! "May", chars! "June", chars! "July", chars! "August", chars! "September", chars! "October", chars! "November", chars! "December", chars! "Jan", chars! "Feb", chars! "Mar", chars! "Apr", chars! "May", chars! "Jun", chars! "Jul", chars! "Aug", chars! "Sep", chars! "Oct", chars! "Nov", chars! "Dec", chars! "JAN", chars! "FEB", chars! "MAR", chars! "APR", chars! "MAY", chars! "JUN", chars! "JUL", chars! "AUG", chars! "SEP", chars! "OCT", chars! "NOV", chars! "DEC", chars! "JANUARY", chars! "FEBRUARY", chars! "MARCH", chars! "APRIL", chars! "MAY", chars! "JUNE", chars! "JULY", chars! "AUGUST", chars! "SEPTEMBER", chars! "OCTOBER", chars! "NOVEMBER", chars! "DECEMBER"])))),
  ("ixt:date-day-monthname-es", .seq (.grp 1 (.rep asciiDigit 1 (some 2))) (.seq (.rep notDigit 1 none) (.seq (.grp 2 (.lits [chars! "ene", chars! "feb", chars! "mar", chars! "abr", chars! "may", chars! "jun", chars! "jul", chars! "ago", chars! "sep", chars! "oct", chars! "nov", chars! "dic", chars! "ENE", chars! "FEB", chars! "MAR", chars! "ABR", chars! "MAY", chars! "JUN", chars! "JUL", chars! "AGO", chars! "SEP", chars! "OCT", chars! "NOV", chars! "DIC", chars! "Ene", chars! "Feb", chars! "Mar", chars! "Abr", chars! "May", chars! "Jun", chars! "Jul", chars! "Ago", chars! "Sep", chars! "Oct", chars! "Nov", chars! "Dic"])) (.rep notDigit 0 (some 7))))),
  ("ixt:date-day-monthname-year-es", .seq (.grp 1 (.rep asciiDigit 1 (some 2))) (.seq (.rep notDigit 1 none) (.seq (.grp 2 (.lits [chars! "ene", chars! "feb", chars! "mar", chars! "abr", chars! "may", chars! "jun", chars! "jul", chars! "ago", chars! "sep", chars! "oct", chars! "nov", chars! "dic", chars! "ENE", chars! "FEB", chars! "MAR", chars! "ABR", chars! "MAY", chars! "JUN", chars! "JUL", chars! "AGO", chars! "SEP", chars! "OCT", chars! "NOV", chars! "DIC", chars! "Ene", chars! "Feb", chars! "Mar", chars! "Abr", chars! "May", chars! "Jun", chars! "Jul", chars! "Ago", chars! "Sep", chars! "Oct", chars! "Nov", chars! "Dic"])) (.seq (.rep notDigit 1 none) (.grp 3 (.alt (.rep asciiDigit 1 (some 2)) (.rep asciiDigit 4 (some 4)))))))),
  ("ixt:date-monthname-year-es", .seq (.grp 1 (.lits [chars! "ene", chars! "feb", chars! "mar", chars! "abr", chars! "may", chars! "jun", chars! "jul", chars! "ago", chars! "sep", chars! "oct", chars! "nov", chars! "dic", chars! "ENE", chars! "FEB", chars! "MAR", chars! "ABR", chars! "MAY", chars! "JUN", chars! "JUL", chars! "AGO", chars! "SEP", chars! "OCT", chars! "NOV", chars! "DIC", chars! "Ene", chars! "Feb", chars! "Mar", chars! "Abr", chars! "May", chars! "Jun", chars! "Jul", chars! "Ago", chars! "Sep", chars! "Oct", chars! "Nov", chars! "Dic"])) (.seq (.rep notDigit 1 none) (.grp 2 (.alt (.rep asciiDigit 1 (some 2)) (.rep asciiDigit 4 (some 4)))))),
  ("ixt:date-day-monthname-et", .seq (.grp 1 (.rep asciiDigit 1 (some 2))) (.seq (.rep notDigit 1 none) (.seq (.grp 2 (.lits [chars! "jaan", chars! "veebr", chars! "märts", chars! "marts", chars! "apr", chars! "mai", chars! "juuni", chars! "juuli", chars! "aug", chars! "sept", chars! "okt", chars! "nov", chars! "dets", chars! "JAAN", chars! "VEEBR", chars! "MÄRTS", chars! "MARTS", chars! "APR", chars! "MAI", chars! "JUUNI", chars! "JUULI", chars! "AUG", chars! "SEPT", chars! "OKT", chars! "NOV", chars! "DETS", chars! "Jaan", chars! "Veebr", chars! "Märts", chars! "Marts", chars! "Apr", chars! "Mai", chars! "Juuni", chars! "Juuli", chars! "Aug", chars! "Sept", chars! "Okt", chars! "Nov", chars! "Dets"])) (.rep notDigit 0 (some 5))))),
  ("ixt:date-day-monthname-year-et", .seq (.grp 1 (.rep asciiDigit 1 (some 2))) (.seq (.rep notDigit 1 none) (.seq (.grp 2 (.lits [chars! "jaan", chars! "veebr", chars! "märts", chars! "marts", chars! "apr", chars! "mai", chars! "juuni", chars! "juuli", chars! "aug", chars! "sept", chars! "okt", chars! "nov", chars! "dets", chars! "JAAN", chars! "VEEBR", chars! "MÄRTS", chars! "MARTS", chars! "APR", chars! "MAI", chars! "JUUNI", chars! "JUULI", chars! "AUG", chars! "SEPT", chars! "OKT", chars! "NOV", chars! "DETS", chars! "Jaan", chars! "Veebr", chars! "Märts", chars! "Marts", chars! "Apr", chars! "Mai", chars! "Juuni", chars! "Juuli", chars! "Aug", chars! "Sept", chars! "Okt", chars! "Nov", chars! "Dets"])) (.seq (.rep notDigit 1 none) (.grp 3 (.alt (.rep asciiDigit 1 (some 2)) (.rep asciiDigit 4 (some 4)))))))),
  ("ixt:date-monthname-year-et", .seq (.grp 1 (.lits [chars! "jaan", chars! "veebr", chars! "märts", chars! "marts", chars! "apr", chars! "mai", chars! "juuni", chars! "juuli", chars! "aug", chars! "sept", chars! "okt", chars! "nov", chars! "dets", chars! "JAAN", chars! "VEEBR", chars! "MÄRTS", chars! "MARTS", chars! "APR", chars! "MAI", chars! "JUUNI", chars! "JUULI", chars! "AUG", chars! "SEPT", chars! "OKT", chars! "NOV", chars! "DETS", chars! "Jaan", chars! "Veebr", chars! "Märts", chars! "Marts", chars! "Apr", chars! "Mai", chars! "Juuni", chars! "Juuli", chars! "Aug", chars! "Sept", chars! "Okt", chars! "Nov", chars! "Dets"])) (.seq (.rep notDigit 1 none) (.grp 2 (.alt (.rep asciiDigit 1 (some 2)) (.rep asciiDigit 4 (some 4)))))),
  ("ixt:date-day-monthname-fi", .seq (.grp 1 (.rep asciiDigit 1 (some 2))) (.seq (.rep notDigit 0 none) (.seq (.rep notAlnum 1 none) (.seq (.grp 2 (.lits [chars! "tam", chars! "hel", chars! "maa", chars! "huh", chars! "tou", chars! "kes", chars! "hei", chars! "elo", chars! "syy", chars! "lok", chars! "mar", chars! "jou", chars! "TAM", chars! "HEL", chars! "MAA", chars! "HUH", chars! "TOU", chars! "KES", chars! "HEI", chars! "ELO", chars! "SYY", chars! "LOK", chars! "MAR", chars! "JOU", chars! "Tam", chars! "Hel", chars! "Maa", chars! "Huh", chars! "Tou", chars! "Kes", chars! "Hei", chars! "Elo", chars! "Syy", chars! "Lok", chars! "Mar", chars! "Jou"])) (.rep notDigit 0 (some 8)))))),
  ("ixt:date-day-monthname-year-fi", .seq (.grp 1 (.rep asciiDigit 1 (some 2))) (.seq (.rep notDigit 0 none) (.seq (.rep notAlnum 1 none) (.seq (.grp 2 (.lits [chars! "tam", chars! "hel", chars! "maa", chars! "huh", chars! "tou", chars! "kes", chars! "hei", chars! "elo", chars! "syy", chars! "lok", chars! "mar", chars! "jou", chars! "TAM", chars! "HEL", chars! "MAA", chars! "HUH", chars! "TOU", chars! "KES", chars! "HEI", chars! "ELO", chars! "SYY", chars! "LOK", chars! "MAR", chars! "JOU", chars! "Tam", chars! "Hel", chars! "Maa", chars! "Huh", chars! "Tou", chars! "Kes", chars! "Hei", chars! "Elo", chars! "Syy", chars! "Lok", chars! "Mar", chars! "Jou"])) (.seq (.rep notDigit 1 none) (.grp 3 (.alt (.rep asciiDigit 1 (some 2)) (.rep asciiDigit 4 (some 4))))))))),
  ("ixt:date-monthname-year-fi", .seq (.grp 1 (.lits [chars! "tam", chars! "hel", chars! "maa", chars! "huh", chars! "tou", chars! "kes", chars! "hei", chars! "elo", chars! "syy", chars! "lok", chars! "mar", chars! "jou", chars! "TAM", chars! "HEL", chars! "MAA", chars! "HUH", chars! "TOU", chars! "KES", chars! "HEI", chars! "ELO", chars! "SYY", chars! "LOK", chars! "MAR", chars! "JOU", chars! "Tam", chars! "Hel", chars! "Maa", chars! "Huh", chars! "Tou", chars! "Kes", chars! "Hei", chars! "Elo", chars! "Syy", chars! "Lok", chars! "Mar", chars! "Jou"])) (.seq (.rep notDigit 1 none) (.grp 2 (.alt (.rep asciiDigit 1 (some 2)) (.rep asciiDigit 4 (some 4)))))),
  ("ixt:date-day-monthname-fr", .seq (.grp 1 (.rep asciiDigit 1 (some 2))) (.seq (.rep notDigit 1 none) (.seq (.grp 2 (.lits [chars! "janv", chars! "févr", chars! "fevr", chars! "mars", chars! "avr", chars! "mai", chars! "juin", chars! "juil", chars! "août", chars! "aout", chars! "sept", chars! "oct", chars! "nov", chars! "déc", chars! "dec", chars! "JANV", chars! "FÉVR", chars! "FEVR", chars! "MARS", chars! "AVR", chars! "MAI", chars! "JUIN", chars! "JUIL", chars! "AOÛT", chars! "AOUT", chars! "SEPT", chars! "OCT", chars! "NOV", chars! "DÉC", chars! "DEC", chars! "Janv", chars! "Févr", chars! "Fevr", chars! "Mars", chars! "Avr", chars! "Mai", chars! "Juin", chars! "Juil", chars! "Août", chars! "Aout", chars! "Sept", chars! "Oct", chars! "Nov", chars! "Déc", chars! "Dec"])) (.rep notDigit 0 (some 5))))),
  ("ixt:date-day-monthname-year-fr", .seq (.grp 1 (.rep asciiDigit 1 (some 2))) (.seq (.rep notDigit 1 none) (.seq (.grp 2 (.lits [chars! "janv", chars! "févr", chars! "fevr", chars! "mars", chars! "avr", chars! "mai", chars! "juin", chars! "juil", chars! "août", chars! "aout", chars! "sept", chars! "oct", chars! "nov", chars! "déc", chars! "dec", chars! "JANV", chars! "FÉVR", chars! "FEVR", chars! "MARS", chars! "AVR", chars! "MAI", chars! "JUIN", chars! "JUIL", chars! "AOÛT", chars! "AOUT", chars! "SEPT", chars! "OCT", chars! "NOV", chars! "DÉC", chars! "DEC", chars! "Janv", chars! "Févr", chars! "Fevr", chars! "Mars", chars! "Avr", chars! "Mai", chars! "Juin", chars! "Juil", chars! "Août", chars! "Aout", chars! "Sept", chars! "Oct", chars! "Nov", chars! "Déc", chars! "Dec"])) (.seq (.rep notDigit 1 none) (.grp 3 (.alt (.rep asciiDigit 1 (some 2)) (.rep asciiDigit 4 (some 4)))))))),
  ("ixt:date-monthname-year-fr", .seq (.grp 1 (.lits [chars! "janv", chars! "févr", chars! "fevr", chars! "mars", chars! "avr", chars! "mai", chars! "juin", chars! "juil", chars! "août", chars! "aout", chars! "sept", chars! "oct", chars! "nov", chars! "déc", chars! "dec", chars! "JANV", chars! "FÉVR", chars! "FEVR", chars! "MARS", chars! "AVR", chars! "MAI", chars! "JUIN", chars! "JUIL", chars! "AOÛT", chars! "AOUT", chars! "SEPT", chars! "OCT", chars! "NOV", chars! "DÉC", chars! "DEC", chars! "Janv", chars! "Févr", chars! "Fevr", chars! "Mars", chars! "Avr", chars! "Mai", chars! "Juin", chars! "Juil", chars! "Août", chars! "Aout", chars! "Sept", chars! "Oct", chars! "Nov", chars! "Déc", chars! "Dec"])) (.seq (.rep notDigit 1 none) (.grp 2 (.alt (.rep asciiDigit 1 (some 2)) (.rep asciiDigit 4 (some 4)))))),
  ("ixt:date-day-monthname-hr", .seq (.grp 1 (.rep asciiDigit 1 (some 2))) (.seq (.rep notDigit 1 none) (.seq (.grp 2 (.lits [chars! "sij", chars! "velj", chars! "ožu", chars! "ozu", chars! "tra", chars! "svi", chars! "lip", chars! "srp", chars! "kol", chars! "ruj", chars! "lis", chars! "stu", chars! "pro", chars! "SIJ", chars! "VELJ", chars! "OŽU", chars! "OZU", chars! "TRA", chars! "SVI", chars! "LIP", chars! "SRP", chars! "KOL", chars! "RUJ", chars! "LIS", chars! "STU", chars! "PRO", chars! "Sij", chars! "Velj", chars! "Ožu", chars! "Ozu", chars! "Tra", chars! "Svi", chars! "Lip", chars! "Srp", chars! "Kol", chars! "Ruj", chars! "Lis", chars! "Stu", chars! "Pro"])) (.rep notDigit 0 (some 6))))),
  ("ixt:date-day-monthname-year-hr", .seq (.grp 1 (.rep asciiDigit 1 (some 2))) (.seq (.rep notDigit 1 none) (.seq (.grp 2 (.lits [chars! "sij", chars! "velj", chars! "ožu", chars! "ozu", chars! "tra", chars! "svi", chars! "lip", chars! "srp", chars! "kol", chars! "ruj", chars! "lis", chars! "stu", chars! "pro", chars! "SIJ", chars! "VELJ", chars! "OŽU", chars! "OZU", chars! "TRA", chars! "SVI", chars! "LIP", chars! "SRP", chars! "KOL", chars! "RUJ", chars! "LIS", chars! "STU", chars! "PRO", chars! "Sij", chars! "Velj", chars! "Ožu", chars! "Ozu", chars! "Tra", chars! "Svi", chars! "Lip", chars! "Srp", chars! "Kol", chars! "Ruj", chars! "Lis", chars! "Stu", chars! "Pro"])) (.seq (.rep notDigit 1 none) (.grp 3 (.alt (.rep asciiDigit 1 (some 2)) (.rep asciiDigit 4 (some 4)))))))),
  ("ixt:date-monthname-year-hr", .seq (.grp 1 (.lits [chars! "sij", chars! "velj", chars! "ožu", chars! "ozu", chars! "tra", chars! "svi", chars! "lip", chars! "srp", chars! "kol", chars! "ruj", chars! "lis", chars! "stu", chars! "pro", chars! "SIJ", chars! "VELJ", chars! "OŽU", chars! "OZU", chars! "TRA", chars! "SVI", chars! "LIP", chars! "SRP", chars! "KOL", chars! "RUJ", chars! "LIS", chars! "STU", chars! "PRO", chars! "Sij", chars! "Velj", chars! "Ožu", chars! "Ozu", chars! "Tra", chars! "Svi", chars! "Lip", chars! "Srp", chars! "Kol", chars! "Ruj", chars! "Lis", chars! "Stu", chars! "Pro"])) (.seq (.rep notDigit 1 none) (.grp 2 (.alt (.rep asciiDigit 1 (some 2)) (.rep asciiDigit 4 (some 4)))))),
  ("ixt:date-day-monthroman", .seq (.grp 1 (.rep asciiDigit 1 (some 2))) (.seq (.rep notDigit 0 none) (.seq (.rep notRoman 1 (some 1)) (.grp 2 (.alt (.grp 3 (.seq (.rep upperI 0 (some 1)) (.seq (.grp 4 (.rep upperRoman 1 (some 1))) (.rep upperI 0 (some 3))))) (.grp 5 (.seq (.rep lowerI 0 (some 1)) (.seq (.grp 6 (.rep lowerRoman 1 (some 1))) (.rep lowerI 0 (some 3)))))))))),
  ("ixt:date-day-monthroman-year", .seq (.grp 1 (.rep asciiDigit 1 (some 2))) (.seq (.rep notDigit 0 none) (.seq (.rep notRoman 1 (some 1)) (.seq (.grp 2 (.alt (.grp 3 (.seq (.rep upperI 0 (some 1)) (.seq (.grp 4 (.rep upperRoman 1 (some 1))) (.rep upperI 0 (some 3))))) (.grp 5 (.seq (.rep lowerI 0 (some 1)) (.seq (.grp 6 (.rep lowerRoman 1 (some 1))) (.rep lowerI 0 (some 3))))))) (.seq (.rep notRoman 1 (some 1)) (.seq (.rep notDigit 0 none) (.grp 7 (.alt (.rep asciiDigit 1 (some 2)) (.rep asciiDigit 4 (some 4)))))))))),
  ("ixt:date-monthroman-year", .seq (.grp 1 (.alt (.grp 2 (.seq (.rep upperI 0 (some 1)) (.seq (.grp 3 (.rep upperRoman 1 (some 1))) (.rep upperI 0 (some 3))))) (.grp 4 (.seq (.rep lowerI 0 (some 1)) (.seq (.grp 5 (.rep lowerRoman 1 (some 1))) (.rep lowerI 0 (some 3))))))) (.seq (.rep notRoman 1 (some 1)) (.seq (.rep notDigit 0 none) (.grp 6 (.alt (.rep asciiDigit 1 (some 2)) (.rep asciiDigit 4 (some 4))))))),
  ("ixt:date-day-monthname-it", .seq (.grp 1 (.rep asciiDigit 1 (some 2))) (.seq (.rep notDigit 1 none) (.seq (.grp 2 (.lits [chars! "gen", chars! "feb", chars! "mar", chars! "apr", chars! "mag", chars! "giu", chars! "lug", chars! "ago", chars! "set", chars! "ott", chars! "nov", chars! "dic", chars! "GEN", chars! "FEB", chars! "MAR", chars! "APR", chars! "MAG", chars! "GIU", chars! "LUG", chars! "AGO", chars! "SET", chars! "OTT", chars! "NOV", chars! "DIC", chars! "Gen", chars! "Feb", chars! "Mar", chars! "Apr", chars! "Mag", chars! "Giu", chars! "Lug", chars! "Ago", chars! "Set", chars! "Ott", chars! "Nov", chars! "Dic"])) (.rep notDigit 0 (some 6))))),
  ("ixt:date-day-monthname-year-it", .seq (.grp 1 (.rep asciiDigit 1 (some 2))) (.seq (.rep notDigit 1 none) (.seq (.grp 2 (.lits [chars! "gen", chars! "feb", chars! "mar", chars! "apr", chars! "mag", chars! "giu", chars! "lug", chars! "ago", chars! "set", chars! "ott", chars! "nov", chars! "dic", chars! "GEN", chars! "FEB", chars! "MAR", chars! "APR", chars! "MAG", chars! "GIU", chars! "LUG", chars! "AGO", chars! "SET", chars! "OTT", chars! "NOV", chars! "DIC", chars! "Gen", chars! "Feb", chars! "Mar", chars! "Apr", chars! "Mag", chars! "Giu", chars! "Lug", chars! "Ago", chars! "Set", chars! "Ott", chars! "Nov", chars! "Dic"])) (.seq (.rep notDigit 1 none) (.grp 3 (.alt (.rep asciiDigit 1 (some 2)) (.rep asciiDigit 4 (some 4)))))))),
  ("ixt:date-monthname-year-it", .seq (.grp 1 (.lits [chars! "gen", chars! "feb", chars! "mar", chars! "apr", chars! "mag", chars! "giu", chars! "lug", chars! "ago", chars! "set", chars! "ott", chars! "nov", chars! "dic", chars! "GEN", chars! "FEB", chars! "MAR", chars! "APR", chars! "MAG", chars! "GIU", chars! "LUG", chars! "AGO", chars! "SET", chars! "OTT", chars! "NOV", chars! "DIC", chars! "Gen", chars! "Feb", chars! "Mar", chars! "Apr", chars! "Mag", chars! "Giu", chars! "Lug", chars! "Ago", chars! "Set", chars! "Ott", chars! "Nov", chars! "Dic"])) (.seq (.rep notDigit 1 none) (.grp 2 (.alt (.rep asciiDigit 1 (some 2)) (.rep asciiDigit 4 (some 4)))))),
  ("ixt:date-day-monthname-nl", .seq (.grp 1 (.rep asciiDigit 1 (some 2))) (.seq (.rep notDigit 1 none) (.seq (.grp 2 (.lits [chars! "jan", chars! "feb", chars! "maa", chars! "mrt", chars! "apr", chars! "mei", chars! "jun", chars! "jul", chars! "aug", chars! "sep", chars! "okt", chars! "nov", chars! "dec", chars! "JAN", chars! "FEB", chars! "MAA", chars! "MRT", chars! "APR", chars! "MEI", chars! "JUN", chars! "JUL", chars! "AUG", chars! "SEP", chars! "OKT", chars! "NOV", chars! "DEC", chars! "Jan", chars! "Feb", chars! "Maa", chars! "Mrt", chars! "Apr", chars! "Mei", chars! "Jun", chars! "Jul", chars! "Aug", chars! "Sep", chars! "Okt", chars! "Nov", chars! "Dec"])) (.rep notDigit 0 (some 6))))),
  ("ixt:date-day-monthname-year-nl", .seq (.grp 1 (.rep asciiDigit 1 (some 2))) (.seq (.rep notDigit 1 none) (.seq (.grp 2 (.lits [chars! "jan", chars! "feb", chars! "maa", chars! "mrt", chars! "apr", chars! "mei", chars! "jun", chars! "jul", chars! "aug", chars! "sep", chars! "okt", chars! "nov", chars! "dec", chars! "JAN", chars! "FEB", chars! "MAA", chars! "MRT", chars! "APR", chars! "MEI", chars! "JUN", chars! "JUL", chars! "AUG", chars! "SEP", chars! "OKT", chars! "NOV", chars! "DEC", chars! "Jan", chars! "Feb", chars! "Maa", chars! "Mrt", chars! "Apr", chars! "Mei", chars! "Jun", chars! "Jul", chars! "Aug", chars! "Sep", chars! "Okt", chars! "Nov", chars! "Dec"])) (.seq (.rep notDigit 1 none) (.grp 3 (.alt (.rep asciiDigit 1 (some 2)) (.rep asciiDigit 4 (some 4)))))))),
  ("ixt:date-monthname-year-nl", .seq (.grp 1 (.lits [chars! "jan", chars! "feb", chars! "maa", chars! "mrt", chars! "apr", chars! "mei", chars! "jun", chars! "jul", chars! "aug", chars! "sep", chars! "okt", chars! "nov", chars! "dec", chars! "JAN", chars! "FEB", chars! "MAA", chars! "MRT", chars! "APR", chars! "MEI", chars! "JUN", chars! "JUL", chars! "AUG", chars! "SEP", chars! "OKT", chars! "NOV", chars! "DEC", chars! "Jan", chars! "Feb", chars! "Maa", chars! "Mrt", chars! "Apr", chars! "Mei", chars! "Jun", chars! "Jul", chars! "Aug", chars! "Sep", chars! "Okt", chars! "Nov", chars! "Dec"])) (.seq (.rep notDigit 1 none) (.grp 2 (.alt (.rep asciiDigit 1 (some 2)) (.rep asciiDigit 4 (some 4)))))),
  ("ixt:date-monthname-day-hu", .seq (.grp 1 (.lits [chars! "jan", chars! "feb", chars! "márc", chars! "marc", chars! "ápr", chars! "apr", chars! "máj", chars! "maj", chars! "jún", chars! "jun", chars! "júl", chars! "jul", chars! "aug", chars! "szept", chars! "okt", chars! "nov", chars! "dec", chars! "JAN", chars! "FEB", chars! "MÁRC", chars! "MARC", chars! "ÁPR", chars! "APR", chars! "MÁJ", chars! "MAJ", chars! "JÚN", chars! "JUN", chars! "JÚL", chars! "JUL", chars! "AUG", chars! "SZEPT", chars! "OKT", chars! "NOV", chars! "DEC", chars! "Jan", chars! "Feb", chars! "Márc", chars! "Marc", chars! "Ápr", chars! "Apr", chars! "Máj", chars! "Maj", chars! "Jún", chars! "Jun", chars! "Júl", chars! "Jul", chars! "Aug", chars! "Szept", chars! "Okt", chars! "Nov", chars! "Dec"])) (.seq (.rep notDigit 0 (some 7)) (.seq (.rep notDigit 1 none) (.grp 2 (.rep asciiDigit 1 (some 2)))))),
  ("ixt:date-year-monthname-day-hu", .seq (.grp 1 (.alt (.rep asciiDigit 1 (some 2)) (.rep asciiDigit 4 (some 4)))) (.seq (.rep notDigit 1 none) (.seq (.grp 2 (.lits [chars! "jan", chars! "feb", chars! "márc", chars! "marc", chars! "ápr", chars! "apr", chars! "máj", chars! "maj", chars! "jún", chars! "jun", chars! "júl", chars! "jul", chars! "aug", chars! "szept", chars! "okt", chars! "nov", chars! "dec", chars! "JAN", chars! "FEB", chars! "MÁRC", chars! "MARC", chars! "ÁPR", chars! "APR", chars! "MÁJ", chars! "MAJ", chars! "JÚN", chars! "JUN", chars! "JÚL", chars! "JUL", chars! "AUG", chars! "SZEPT", chars! "OKT", chars! "NOV", chars! "DEC", chars! "Jan", chars! "Feb", chars! "Márc", chars! "Marc", chars! "Ápr", chars! "Apr", chars! "Máj", chars! "Maj", chars! "Jún", chars! "Jun", chars! "Júl", chars! "Jul", chars! "Aug", chars! "Szept", chars! "Okt", chars! "Nov", chars! "Dec"])) (.seq (.rep notDigit 1 none) (.grp 3 (.rep asciiDigit 1 (some 2))))))),
  ("ixt:date-year-monthname-hu", .seq (.grp 1 (.alt (.rep asciiDigit 1 (some 2)) (.rep asciiDigit 4 (some 4)))) (.seq (.rep notDigit 1 none) (.seq (.grp 2 (.lits [chars! "jan", chars! "feb", chars! "márc", chars! "marc", chars! "ápr", chars! "apr", chars! "máj", chars! "maj", chars! "jún", chars! "jun", chars! "júl", chars! "jul", chars! "aug", chars! "szept", chars! "okt", chars! "nov", chars! "dec", chars! "JAN", chars! "FEB", chars! "MÁRC", chars! "MARC", chars! "ÁPR", chars! "APR", chars! "MÁJ", chars! "MAJ", chars! "JÚN", chars! "JUN", chars! "JÚL", chars! "JUL", chars! "AUG", chars! "SZEPT", chars! "OKT", chars! "NOV", chars! "DEC", chars! "Jan", chars! "Feb", chars! "Márc", chars! "Marc", chars! "Ápr", chars! "Apr", chars! "Máj", chars! "Maj", chars! "Jún", chars! "Jun", chars! "Júl", chars! "Jul", chars! "Aug", chars! "Szept", chars! "Okt", chars! "Nov", chars! "Dec"])) (.rep notDigit 0 (some 7))))),
  ("ixt:date-monthname-day-lt", .seq (.grp 1 (.lits [chars! "sau", chars! "vas", chars! "kov", chars! "bal", chars! "geg", chars! "bir", chars! "lie", chars! "rugp", chars! "rgp", chars! "rugs", chars! "rgs", chars! "spa", chars! "spl", chars! "lap", chars! "gru", chars! "grd", chars! "SAU", chars! "VAS", chars! "KOV", chars! "BAL", chars! "GEG", chars! "BIR", chars! "LIE", chars! "RUGP", chars! "RGP", chars! "RUGS", chars! "RGS", chars! "SPA", chars! "SPL", chars! "LAP", chars! "GRU", chars! "GRD", chars! "Sau", chars! "Vas", chars! "Kov", chars! "Bal", chars! "Geg", chars! "Bir", chars! "Lie", chars! "Rugp", chars! "Rgp", chars! "Rugs", chars! "Rgs", chars! "Spa", chars! "Spl", chars! "Lap", chars! "Gru", chars! "Grd"])) (.seq (.rep notDigit 0 (some 6)) (.seq (.rep notDigit 1 none) (.seq (.grp 2 (.rep asciiDigit 1 (some 2))) (.rep notDigit 0 none))))),
  ("ixt:date-year-monthname-day-lt", .seq (.grp 1 (.alt (.rep asciiDigit 1 (some 2)) (.rep asciiDigit 4 (some 4)))) (.seq (.rep notDigit 0 none) (.seq (.rep notAlnum 1 none) (.seq (.grp 2 (.lits [chars! "sau", chars! "vas", chars! "kov", chars! "bal", chars! "geg", chars! "bir", chars! "lie", chars! "rugp", chars! "rgp", chars! "rugs", chars! "rgs", chars! "spa", chars! "spl", chars! "lap", chars! "gru", chars! "grd", chars! "SAU", chars! "VAS", chars! "KOV", chars! "BAL", chars! "GEG", chars! "BIR", chars! "LIE", chars! "RUGP", chars! "RGP", chars! "RUGS", chars! "RGS", chars! "SPA", chars! "SPL", chars! "LAP", chars! "GRU", chars! "GRD", chars! "Sau", chars! "Vas", chars! "Kov", chars! "Bal", chars! "Geg", chars! "Bir", chars! "Lie", chars! "Rugp", chars! "Rgp", chars! "Rugs", chars! "Rgs", chars! "Spa", chars! "Spl", chars! "Lap", chars! "Gru", chars! "Grd"])) (.seq (.rep notDigit 1 none) (.seq (.grp 3 (.rep asciiDigit 1 (some 2))) (.rep notDigit 0 none))))))),
  ("ixt:date-year-monthname-lt", .seq (.grp 1 (.alt (.rep asciiDigit 1 (some 2)) (.rep asciiDigit 4 (some 4)))) (.seq (.rep notDigit 0 none) (.seq (.rep notAlnum 1 none) (.seq (.grp 2 (.lits [chars! "sau", chars! "vas", chars! "kov", chars! "bal", chars! "geg", chars! "bir", chars! "lie", chars! "rugp", chars! "rgp", chars! "rugs", chars! "rgs", chars! "spa", chars! "spl", chars! "lap", chars! "gru", chars! "grd", chars! "SAU", chars! "VAS", chars! "KOV", chars! "BAL", chars! "GEG", chars! "BIR", chars! "LIE", chars! "RUGP", chars! "RGP", chars! "RUGS", chars! "RGS", chars! "SPA", chars! "SPL", chars! "LAP", chars! "GRU", chars! "GRD", chars! "Sau", chars! "Vas", chars! "Kov", chars! "Bal", chars! "Geg", chars! "Bir", chars! "Lie", chars! "Rugp", chars! "Rgp", chars! "Rugs", chars! "Rgs", chars! "Spa", chars! "Spl", chars! "Lap", chars! "Gru", chars! "Grd"])) (.rep notDigit 0 none))))),
  ("ixt:date-day-monthname-lv", .seq (.grp 1 (.rep asciiDigit 1 (some 2))) (.seq (.rep notDigit 1 none) (.seq (.grp 2 (.lits [chars! "janv", chars! "febr", chars! "marts", chars! "apr", chars! "maijs", chars! "jūn", chars! "jun", chars! "jūl", chars! "jul", chars! "aug", chars! "sept", chars! "okt", chars! "nov", chars! "dec", chars! "JANV", chars! "FEBR", chars! "MARTS", chars! "APR", chars! "MAIJS", chars! "JŪN", chars! "JUN", chars! "JŪL", chars! "JUL", chars! "AUG", chars! "SEPT", chars! "OKT", chars! "NOV", chars! "DEC", chars! "Janv", chars! "Febr", chars! "Marts", chars! "Apr", chars! "Maijs", chars! "Jūn", chars! "Jun", chars! "Jūl", chars! "Jul", chars! "Aug", chars! "Sept", chars! "Okt", chars! "Nov", chars! "Dec"])) (.rep notDigit 0 (some 6))))),
  ("ixt:date-year-day-monthname-lv", .seq (.grp 1 (.alt (.rep asciiDigit 1 (some 2)) (.rep asciiDigit 4 (some 4)))) (.seq (.rep notDigit 1 none) (.seq (.grp 2 (.rep asciiDigit 1 (some 2))) (.seq (.rep notDigit 1 none) (.seq (.grp 3 (.lits [chars! "janv", chars! "febr", chars! "marts", chars! "apr", chars! "maijs", chars! "jūn", chars! "jun", chars! "jūl", chars! "jul", chars! "aug", chars! "sept", chars! "okt", chars! "nov", chars! "dec", chars! "JANV", chars! "FEBR", chars! "MARTS", chars! "APR", chars! "MAIJS", chars! "JŪN", chars! "JUN", chars! "JŪL", chars! "JUL", chars! "AUG", chars! "SEPT", chars! "OKT", chars! "NOV", chars! "DEC", chars! "Janv", chars! "Febr", chars! "Marts", chars! "Apr", chars! "Maijs", chars! "Jūn", chars! "Jun", chars! "Jūl", chars! "Jul", chars! "Aug", chars! "Sept", chars! "Okt", chars! "Nov", chars! "Dec"])) (.rep notDigit 0 none)))))),
  ("ixt:date-year-monthname-lv", .seq (.grp 1 (.alt (.rep asciiDigit 1 (some 2)) (.rep asciiDigit 4 (some 4)))) (.seq (.rep notDigit 1 none) (.seq (.grp 2 (.lits [chars! "janv", chars! "febr", chars! "marts", chars! "apr", chars! "maijs", chars! "jūn", chars! "jun", chars! "jūl", chars! "jul", chars! "aug", chars! "sept", chars! "okt", chars! "nov", chars! "dec", chars! "JANV", chars! "FEBR", chars! "MARTS", chars! "APR", chars! "MAIJS", chars! "JŪN", chars! "JUN", chars! "JŪL", chars! "JUL", chars! "AUG", chars! "SEPT", chars! "OKT", chars! "NOV", chars! "DEC", chars! "Janv", chars! "Febr", chars! "Marts", chars! "Apr", chars! "Maijs", chars! "Jūn", chars! "Jun", chars! "Jūl", chars! "Jul", chars! "Aug", chars! "Sept", chars! "Okt", chars! "Nov", chars! "Dec"])) (.rep notDigit 0 (some 7))))),
  ("ixt:date-day-monthname-no", .seq (.grp 1 (.rep asciiDigit 1 (some 2))) (.seq (.rep notDigit 1 none) (.seq (.grp 2 (.lits [chars! "jan", chars! "feb", chars! "mar", chars! "apr", chars! "mai", chars! "jun", chars! "jul", chars! "aug", chars! "sep", chars! "okt", chars! "nov", chars! "des", chars! "JAN", chars! "FEB", chars! "MAR", chars! "APR", chars! "MAI", chars! "JUN", chars! "JUL", chars! "AUG", chars! "SEP", chars! "OKT", chars! "NOV", chars! "DES", chars! "Jan", chars! "Feb", chars! "Mar", chars! "Apr", chars! "Mai", chars! "Jun", chars! "Jul", chars! "Aug", chars! "Sep", chars! "Okt", chars! "Nov", chars! "Des"])) (.rep notDigit 0 (some 6))))),
  ("ixt:date-day-monthname-year-no", .seq (.grp 1 (.rep asciiDigit 1 (some 2))) (.seq (.rep notDigit 1 none) (.seq (.grp 2 (.lits [chars! "jan", chars! "feb", chars! "mar", chars! "apr", chars! "mai", chars! "jun", chars! "jul", chars! "aug", chars! "sep", chars! "okt", chars! "nov", chars! "des", chars! "JAN", chars! "FEB", chars! "MAR", chars! "APR", chars! "MAI", chars! "JUN", chars! "JUL", chars! "AUG", chars! "SEP", chars! "OKT", chars! "NOV", chars! "DES", chars! "Jan", chars! "Feb", chars! "Mar", chars! "Apr", chars! "Mai", chars! "Jun", chars! "Jul", chars! "Aug", chars! "Sep", chars! "Okt", chars! "Nov", chars! "Des"])) (.seq (.rep notDigit 1 none) (.grp 3 (.alt (.rep asciiDigit 1 (some 2)) (.rep asciiDigit 4 (some 4)))))))),
  ("ixt:date-monthname-year-no", .seq (.grp 1 (.lits [chars! "jan", chars! "feb", chars! "mar", chars! "apr", chars! "mai", chars! "jun", chars! "jul", chars! "aug", chars! "sep", chars! "okt", chars! "nov", chars! "des", chars! "JAN", chars! "FEB", chars! "MAR", chars! "APR", chars! "MAI", chars! "JUN", chars! "JUL", chars! "AUG", chars! "SEP", chars! "OKT", chars! "NOV", chars! "DES", chars! "Jan", chars! "Feb", chars! "Mar", chars! "Apr", chars! "Mai", chars! "Jun", chars! "Jul", chars! "Aug", chars! "Sep", chars! "Okt", chars! "Nov", chars! "Des"])) (.seq (.rep notDigit 1 none) (.grp 2 (.alt (.rep asciiDigit 1 (some 2)) (.rep asciiDigit 4 (some 4)))))),
  ("ixt:date-day-monthname-pl", .seq (.grp 1 (.rep asciiDigit 1 (some 2))) (.seq (.rep notDigit 0 none) (.seq (.rep notAlnum 1 none) (.seq (.grp 2 (.lits [chars! "sty", chars! "lut", chars! "mar", chars! "kwi", chars! "maj", chars! "cze", chars! "lip", chars! "sie", chars! "wrz", chars! "paź", chars! "paz", chars! "lis", chars! "gru", chars! "STY", chars! "LUT", chars! "MAR", chars! "KWI", chars! "MAJ", chars! "CZE", chars! "LIP", chars! "SIE", chars! "WRZ", chars! "PAŹ", chars! "PAZ", chars! "LIS", chars! "GRU", chars! "Sty", chars! "Lut", chars! "Mar", chars! "Kwi", chars! "Maj", chars! "Cze", chars! "Lip", chars! "Sie", chars! "Wrz", chars! "Paź", chars! "Paz", chars! "Lis", chars! "Gru"])) (.rep notDigit 0 (some 9)))))),
  ("ixt:date-day-monthname-year-pl", .seq (.grp 1 (.rep asciiDigit 1 (some 2))) (.seq (.rep notDigit 0 none) (.seq (.rep notAlnum 1 none) (.seq (.grp 2 (.lits [chars! "sty", chars! "lut", chars! "mar", chars! "kwi", chars! "maj", chars! "cze", chars! "lip", chars! "sie", chars! "wrz", chars! "paź", chars! "paz", chars! "lis", chars! "gru", chars! "STY", chars! "LUT", chars! "MAR", chars! "KWI", chars! "MAJ", chars! "CZE", chars! "LIP", chars! "SIE", chars! "WRZ", chars! "PAŹ", chars! "PAZ", chars! "LIS", chars! "GRU", chars! "Sty", chars! "Lut", chars! "Mar", chars! "Kwi", chars! "Maj", chars! "Cze", chars! "Lip", chars! "Sie", chars! "Wrz", chars! "Paź", chars! "Paz", chars! "Lis", chars! "Gru"])) (.seq (.rep notDigit 1 none) (.seq (.grp 3 (.alt (.rep asciiDigit 1 (some 2)) (.rep asciiDigit 4 (some 4)))) (.rep notDigit 0 none))))))),
  ("ixt:date-monthname-year-pl", .seq (.grp 1 (.lits [chars! "sty", chars! "lut", chars! "mar", chars! "kwi", chars! "maj", chars! "cze", chars! "lip", chars! "sie", chars! "wrz", chars! "paź", chars! "paz", chars! "lis", chars! "gru", chars! "STY", chars! "LUT", chars! "MAR", chars! "KWI", chars! "MAJ", chars! "CZE", chars! "LIP", chars! "SIE", chars! "WRZ", chars! "PAŹ", chars! "PAZ", chars! "LIS", chars! "GRU", chars! "Sty", chars! "Lut", chars! "Mar", chars! "Kwi", chars! "Maj", chars! "Cze", chars! "Lip", chars! "Sie", chars! "Wrz", chars! "Paź", chars! "Paz", chars! "Lis", chars! "Gru"])) (.seq (.rep notDigit 1 none) (.seq (.grp 2 (.alt (.rep asciiDigit 1 (some 2)) (.rep asciiDigit 4 (some 4)))) (.rep notDigit 0 none)))),
  ("ixt:date-day-monthname-pt", .seq (.grp 1 (.rep asciiDigit 1 (some 2))) (.seq (.rep notDigit 1 none) (.seq (.grp 2 (.lits [chars! "jan", chars! "fev", chars! "mar", chars! "abr", chars! "mai", chars! "jun", chars! "jul", chars! "ago", chars! "set", chars! "out", chars! "nov", chars! "dez", chars! "JAN", chars! "FEV", chars! "MAR", chars! "ABR", chars! "MAI", chars! "JUN", chars! "JUL", chars! "AGO", chars! "SET", chars! "OUT", chars! "NOV", chars! "DEZ", chars! "Jan", chars! "Fev", chars! "Mar", chars! "Abr", chars! "Mai", chars! "Jun", chars! "Jul", chars! "Ago", chars! "Set", chars! "Out", chars! "Nov", chars! "Dez"])) (.rep notDigit 0 (some 6))))),
  ("ixt:date-day-monthname-year-pt", .seq (.grp 1 (.rep asciiDigit 1 (some 2))) (.seq (.rep notDigit 1 none) (.seq (.grp 2 (.lits [chars! "jan", chars! "fev", chars! "mar", chars! "abr", chars! "mai", chars! "jun", chars! "jul", chars! "ago", chars! "set", chars! "out", chars! "nov", chars! "dez", chars! "JAN", chars! "FEV", chars! "MAR", chars! "ABR", chars! "MAI", chars! "JUN", chars! "JUL", chars! "AGO", chars! "SET", chars! "OUT", chars! "NOV", chars! "DEZ", chars! "Jan", chars! "Fev", chars! "Mar", chars! "Abr", chars! "Mai", chars! "Jun", chars! "Jul", chars! "Ago", chars! "Set", chars! "Out", chars! "Nov", chars! "Dez"])) (.seq (.rep notDigit 1 none) (.grp 3 (.alt (.rep asciiDigit 1 (some 2)) (.rep asciiDigit 4 (some 4)))))))),
  ("ixt:date-monthname-year-pt", .seq (.grp 1 (.lits [chars! "jan", chars! "fev", chars! "mar", chars! "abr", chars! "mai", chars! "jun", chars! "jul", chars! "ago", chars! "set", chars! "out", chars! "nov", chars! "dez", chars! "JAN", chars! "FEV", chars! "MAR", chars! "ABR", chars! "MAI", chars! "JUN", chars! "JUL", chars! "AGO", chars! "SET", chars! "OUT", chars! "NOV", chars! "DEZ", chars! "Jan", chars! "Fev", chars! "Mar", chars! "Abr", chars! "Mai", chars! "Jun", chars! "Jul", chars! "Ago", chars! "Set", chars! "Out", chars! "Nov", chars! "Dez"])) (.seq (.rep notDigit 1 none) (.grp 2 (.alt (.rep asciiDigit 1 (some 2)) (.rep asciiDigit 4 (some 4)))))),
  ("ixt:date-day-monthname-ro", .seq (.grp 1 (.rep asciiDigit 1 (some 2))) (.seq (.rep notDigit 1 none) (.seq (.grp 2 (.lits [chars! "ian", chars! "feb", chars! "mar", chars! "apr", chars! "mai", chars! "iun", chars! "iul", chars! "aug", chars! "sep", chars! "oct", chars! "noi", chars! "nov", chars! "dec", chars! "IAN", chars! "FEB", chars! "MAR", chars! "APR", chars! "MAI", chars! "IUN", chars! "IUL", chars! "AUG", chars! "SEP", chars! "OCT", chars! "NOI", chars! "NOV", chars! "DEC", chars! "Ian", chars! "Feb", chars! "Mar", chars! "Apr", chars! "Mai", chars! "Iun", chars! "Iul", chars! "Aug", chars! "Sep", chars! "Oct", chars! "Noi", chars! "Nov", chars! "Dec"])) (.rep notDigit 0 (some 7))))),
  ("ixt:date-day-monthname-year-ro", .seq (.grp 1 (.rep asciiDigit 1 (some 2))) (.seq (.rep notDigit 1 none) (.seq (.grp 2 (.lits [chars! "ian", chars! "feb", chars! "mar", chars! "apr", chars! "mai", chars! "iun", chars! "iul", chars! "aug", chars! "sep", chars! "oct", chars! "noi", chars! "nov", chars! "dec", chars! "IAN", chars! "FEB", chars! "MAR", chars! "APR", chars! "MAI", chars! "IUN", chars! "IUL", chars! "AUG", chars! "SEP", chars! "OCT", chars! "NOI", chars! "NOV", chars! "DEC", chars! "Ian", chars! "Feb", chars! "Mar", chars! "Apr", chars! "Mai", chars! "Iun", chars! "Iul", chars! "Aug", chars! "Sep", chars! "Oct", chars! "Noi", chars! "Nov", chars! "Dec"])) (.seq (.rep notDigit 1 none) (.grp 3 (.alt (.rep asciiDigit 1 (some 2)) (.rep asciiDigit 4 (some 4)))))))),
  ("ixt:date-monthname-year-ro", .seq (.grp 1 (.lits [chars! "ian", chars! "feb", chars! "mar", chars! "apr", chars! "mai", chars! "iun", chars! "iul", chars! "aug", chars! "sep", chars! "oct", chars! "noi", chars! "nov", chars! "dec", chars! "IAN", chars! "FEB", chars! "MAR", chars! "APR", chars! "MAI", chars! "IUN", chars! "IUL", chars! "AUG", chars! "SEP", chars! "OCT", chars! "NOI", chars! "NOV", chars! "DEC", chars! "Ian", chars! "Feb", chars! "Mar", chars! "Apr", chars! "Mai", chars! "Iun", chars! "Iul", chars! "Aug", chars! "Sep", chars! "Oct", chars! "Noi", chars! "Nov", chars! "Dec"])) (.seq (.rep notDigit 1 none) (.grp 2 (.alt (.rep asciiDigit 1 (some 2)) (.rep asciiDigit 4 (some 4)))))),
  ("ixt:date-day-monthname-sk", .seq (.grp 1 (.rep asciiDigit 1 (some 2))) (.seq (.rep notDigit 1 none) (.seq (.grp 2 (.lits [chars! "jan", chars! "feb", chars! "mar", chars! "apr", chars! "máj", chars! "maj", chars! "jún", chars! "jun", chars! "júl", chars! "jul", chars! "aug", chars! "sep", chars! "okt", chars! "nov", chars! "dec", chars! "JAN", chars! "FEB", chars! "MAR", chars! "APR", chars! "MÁJ", chars! "MAJ", chars! "JÚN", chars! "JUN", chars! "JÚL", chars! "JUL", chars! "AUG", chars! "SEP", chars! "OKT", chars! "NOV", chars! "DEC", chars! "Jan", chars! "Feb", chars! "Mar", chars! "Apr", chars! "Máj", chars! "Maj", chars! "Jún", chars! "Jun", chars! "Júl", chars! "Jul", chars! "Aug", chars! "Sep", chars! "Okt", chars! "Nov", chars! "Dec"])) (.rep notDigit 0 (some 6))))),
  ("ixt:date-day-monthname-year-sk", .seq (.grp 1 (.rep asciiDigit 1 (some 2))) (.seq (.rep notDigit 1 none) (.seq (.grp 2 (.lits [chars! "jan", chars! "feb", chars! "mar", chars! "apr", chars! "máj", chars! "maj", chars! "jún", chars! "jun", chars! "júl", chars! "jul", chars! "aug", chars! "sep", chars! "okt", chars! "nov", chars! "dec", chars! "JAN", chars! "FEB", chars! "MAR", chars! "APR", chars! "MÁJ", chars! "MAJ", chars! "JÚN", chars! "JUN", chars! "JÚL", chars! "JUL", chars! "AUG", chars! "SEP", chars! "OKT", chars! "NOV", chars! "DEC", chars! "Jan", chars! "Feb", chars! "Mar", chars! "Apr", chars! "Máj", chars! "Maj", chars! "Jún", chars! "Jun", chars! "Júl", chars! "Jul", chars! "Aug", chars! "Sep", chars! "Okt", chars! "Nov", chars! "Dec"])) (.seq (.rep notDigit 1 none) (.grp 3 (.alt (.rep asciiDigit 1 (some 2)) (.rep asciiDigit 4 (some 4)))))))),
  ("ixt:date-monthname-year-sk", .seq (.grp 1 (.lits [chars! "jan", chars! "feb", chars! "mar", chars! "apr", chars! "máj", chars! "maj", chars! "jún", chars! "jun", chars! "júl", chars! "jul", chars! "aug", chars! "sep", chars! "okt", chars! "nov", chars! "dec", chars! "JAN", chars! "FEB", chars! "MAR", chars! "APR", chars! "MÁJ", chars! "MAJ", chars! "JÚN", chars! "JUN", chars! "JÚL", chars! "JUL", chars! "AUG", chars! "SEP", chars! "OKT", chars! "NOV", chars! "DEC", chars! "Jan", chars! "Feb", chars! "Mar", chars! "Apr", chars! "Máj", chars! "Maj", chars! "Jún", chars! "Jun", chars! "Júl", chars! "Jul", chars! "Aug", chars! "Sep", chars! "Okt", chars! "Nov", chars! "Dec"])) (.seq (.rep notDigit 1 none) (.grp 2 (.alt (.rep asciiDigit 1 (some 2)) (.rep asciiDigit 4 (some 4)))))),
  ("ixt:date-day-monthname-sl", .seq (.rep asciiDigit 1 (some 2)) (.seq (.rep notDigit 1 none) (.seq (.grp 1 (.lits [chars! "jan", chars! "feb", chars! "mar", chars! "apr", chars! "maj", chars! "jun", chars! "jul", chars! "avg", chars! "sep", chars! "okt", chars! "nov", chars! "dec", chars! "JAN", chars! "FEB", chars! "MAR", chars! "APR", chars! "MAJ", chars! "JUN", chars! "JUL", chars! "AVG", chars! "SEP", chars! "OKT", chars! "NOV", chars! "DEC", chars! "Jan", chars! "Feb", chars! "Mar", chars! "Apr", chars! "Maj", chars! "Jun", chars! "Jul", chars! "Avg", chars! "Sep", chars! "Okt", chars! "Nov", chars! "Dec"])) (.rep notDigit 0 (some 6))))),
  ("ixt:date-day-monthname-year-sl", .seq (.rep asciiDigit 1 (some 2)) (.seq (.rep notDigit 1 none) (.seq (.grp 1 (.lits [chars! "jan", chars! "feb", chars! "mar", chars! "apr", chars! "maj", chars! "jun", chars! "jul", chars! "avg", chars! "sep", chars! "okt", chars! "nov", chars! "dec", chars! "JAN", chars! "FEB", chars! "MAR", chars! "APR", chars! "MAJ", chars! "JUN", chars! "JUL", chars! "AVG", chars! "SEP", chars! "OKT", chars! "NOV", chars! "DEC", chars! "Jan", chars! "Feb", chars! "Mar", chars! "Apr", chars! "Maj", chars! "Jun", chars! "Jul", chars! "Avg", chars! "Sep", chars! "Okt", chars! "Nov", chars! "Dec"])) (.seq (.rep notDigit 1 none) (.grp 2 (.alt (.rep asciiDigit 1 (some 2)) (.rep asciiDigit 4 (some 4)))))))),
  ("ixt:date-monthname-year-sl", .seq (.grp 1 (.lits [chars! "jan", chars! "feb", chars! "mar", chars! "apr", chars! "maj", chars! "jun", chars! "jul", chars! "avg", chars! "sep", chars! "okt", chars! "nov", chars! "dec", chars! "JAN", chars! "FEB", chars! "MAR", chars! "APR", chars! "MAJ", chars! "JUN", chars! "JUL", chars! "AVG", chars! "SEP", chars! "OKT", chars! "NOV", chars! "DEC", chars! "Jan", chars! "Feb", chars! "Mar", chars! "Apr", chars! "Maj", chars! "Jun", chars! "Jul", chars! "Avg", chars! "Sep", chars! "Okt", chars! "Nov", chars! "Dec"])) (.seq (.rep notDigit 1 none) (.grp 2 (.alt (.rep asciiDigit 1 (some 2)) (.rep asciiDigit 4 (some 4)))))),
  ("ixt:date-day-monthname-sv", .seq (.grp 1 (.rep asciiDigit 1 (some 2))) (.seq (.rep notDigit 1 none) (.seq (.grp 2 (.lits [chars! "jan", chars! "feb", chars! "mar", chars! "apr", chars! "maj", chars! "jun", chars! "jul", chars! "aug", chars! "sep", chars! "okt", chars! "nov", chars! "dec", chars! "JAN", chars! "FEB", chars! "MAR", chars! "APR", chars! "MAJ", chars! "JUN", chars! "JUL", chars! "AUG", chars! "SEP", chars! "OKT", chars! "NOV", chars! "DEC", chars! "Jan", chars! "Feb", chars! "Mar", chars! "Apr", chars! "Maj", chars! "Jun", chars! "Jul", chars! "Aug", chars! "Sep", chars! "Okt", chars! "Nov", chars! "Dec"])) (.rep notDigit 0 (some 6))))),
  ("ixt:date-day-monthname-year-sv", .seq (.grp 1 (.rep asciiDigit 1 (some 2))) (.seq (.rep notDigit 1 none) (.seq (.grp 2 (.lits [chars! "jan", chars! "feb", chars! "mar", chars! "apr", chars! "maj", chars! "jun", chars! "jul", chars! "aug", chars! "sep", chars! "okt", chars! "nov", chars! "dec", chars! "JAN", chars! "FEB", chars! "MAR", chars! "APR", chars! "MAJ", chars! "JUN", chars! "JUL", chars! "AUG", chars! "SEP", chars! "OKT", chars! "NOV", chars! "DEC", chars! "Jan", chars! "Feb", chars! "Mar", chars! "Apr", chars! "Maj", chars! "Jun", chars! "Jul", chars! "Aug", chars! "Sep", chars! "Okt", chars! "Nov", chars! "Dec"])) (.seq (.rep notDigit 1 none) (.grp 3 (.alt (.rep asciiDigit 1 (some 2)) (.rep asciiDigit 4 (some 4)))))))),
  ("ixt:date-monthname-year-sv", .seq (.grp 1 (.lits [chars! "jan", chars! "feb", chars! "mar", chars! "apr", chars! "maj", chars! "jun", chars! "jul", chars! "aug", chars! "sep", chars! "okt", chars! "nov", chars! "dec", chars! "JAN", chars! "FEB", chars! "MAR", chars! "APR", chars! "MAJ", chars! "JUN", chars! "JUL", chars! "AUG", chars! "SEP", chars! "OKT", chars! "NOV", chars! "DEC", chars! "Jan", chars! "Feb", chars! "Mar", chars! "Apr", chars! "Maj", chars! "Jun", chars! "Jul", chars! "Aug", chars! "Sep", chars! "Okt", chars! "Nov", chars! "Dec"])) (.seq (.rep notDigit 1 none) (.grp 2 (.alt (.rep asciiDigit 1 (some 2)) (.rep asciiDigit 4 (some 4)))))),
  ("ixt:date-jpn-era-year-month", .seq (.grp 1 (.lits [chars! "明治", chars! "明", chars! "大正", chars! "大", chars! "昭和", chars! "昭", chars! "平成", chars! "平", chars! "令和", chars! "令"])) (.seq (.rep reSpace 0 none) (.seq (.grp 2 (.alt (.rep wideDigit 1 (some 2)) (.lits [chars! "元"]))) (.seq (.rep reSpace 0 none) (.seq (.lits [chars! "年"]) (.seq (.rep reSpace 0 none) (.seq (.grp 3 (.rep wideDigit 1 (some 2))) (.seq (.rep reSpace 0 none) (.lits [chars! "月"]))))))))),
  ("ixt:date-jpn-era-year-month-day", .seq (.grp 1 (.lits [chars! "明治", chars! "明", chars! "大正", chars! "大", chars! "昭和", chars! "昭", chars! "平成", chars! "平", chars! "令和", chars! "令"])) (.seq (.rep reSpace 0 none) (.seq (.grp 2 (.alt (.rep wideDigit 1 (some 2)) (.lits [chars! "元"]))) (.seq (.rep reSpace 0 none) (.seq (.lits [chars! "年"]) (.seq (.rep reSpace 0 none) (.seq (.grp 3 (.rep wideDigit 1 (some 2))) (.seq (.rep reSpace 0 none) (.seq (.lits [chars! "月"]) (.seq (.rep reSpace 0 none) (.seq (.grp 4 (.rep wideDigit 1 (some 2))) (.seq (.rep reSpace 0 none) (.lits [chars! "日"]))))))))))))),
  ("ixt:date-day-monthname-year-hi", .seq (.grp 1 (.alt (.rep asciiDigit 1 (some 2)) (.rep hindiDigit 1 (some 2)))) (.seq (.rep notHindiOrDigit 1 none) (.seq (.grp 2 (.lits [chars! "जनवरी", chars! "फरवरी", chars! "मार्च", chars! "अप्रैल", chars! "मई", chars! "जून", chars! "जुलाई", chars! "अगस्त", chars! "सितंबर", chars! "अक्टूबर", chars! "नवंबर", chars! "दिसंबर"])) (.seq (.rep notHindiOrDigit 1 none) (.grp 3 (.alt (.rep asciiDigit 2 (some 2)) (.alt (.rep asciiDigit 4 (some 4)) (.alt (.rep hindiDigit 2 (some 2)) (.rep hindiDigit 4 (some 4)))))))))),
  ("ixt:date-monthname-year-hi", .seq (.grp 1 (.lits [chars! "जनवरी", chars! "फरवरी", chars! "मार्च", chars! "अप्रैल", chars! "मई", chars! "जून", chars! "जुलाई", chars! "अगस्त", chars! "सितंबर", chars! "अक्टूबर", chars! "नवंबर", chars! "दिसंबर"])) (.seq (.rep notHindiOrDigit 1 none) (.grp 2 (.alt (.rep asciiDigit 2 (some 2)) (.alt (.rep asciiDigit 4 (some 4)) (.alt (.rep hindiDigit 2 (some 2)) (.rep hindiDigit 4 (some 4)))))))),
  ("ixt:date-ind-day-monthname-year-hi", .seq (.grp 1 (.alt (.rep asciiDigit 1 (some 2)) (.rep hindiDigit 1 (some 2)))) (.seq (.rep notHindiOrDigit 1 none) (.seq (.grp 2 (.alt (.seq (.lits [chars! "C"]) (.seq (.rep notReSpace 0 none) (.lits [chars! "ait"]))) (.alt (.lits [chars! "चैत्र", chars! "Vai", chars! "वैशाख", chars! "बैसाख", chars! "Jy", chars! "ज्येष्ठ", chars! "dha", chars! "ḍha", chars! "आषाढ", chars! "आषाढ़", chars! "vana", chars! "Śrāvaṇa", chars! "श्रावण", chars! "सावन"]) (.alt (.seq (.lits [chars! "Bh"]) (.seq (.rep notReSpace 1 none) (.lits [chars! "dra"]))) (.alt (.lits [chars! "Proṣṭhapada", chars! "भाद्रपद", chars! "भादो", chars! "in", chars! "आश्विन"]) (.alt (.seq (.lits [chars! "K"]) (.seq (.rep notReSpace 1 none) (.lits [chars! "rti"]))) (.alt (.lits [chars! "कार्तिक"]) (.alt (.seq (.lits [chars! "M"]) (.seq (.rep notReSpace 1 none) (.lits [chars! "rga"]))) (.alt (.lits [chars! "Agra", chars! "मार्गशीर्ष", chars! "अगहन", chars! "Pau", chars! "पौष"]) (.alt (.seq (.lits [chars! "M"]) (.seq (.rep notReSpace 1 none) (.lits [chars! "gh"]))) (.alt (.lits [chars! "माघ"]) (.alt (.seq (.lits [chars! "Ph"]) (.seq (.rep notReSpace 1 none) (.lits [chars! "lg"]))) (.lits [chars! "फाल्गुन"]))))))))))))) (.seq (.rep notHindiOrDigit 1 none) (.grp 3 (.alt (.rep asciiDigit 2 (some 2)) (.alt (.rep asciiDigit 4 (some 4)) (.alt (.rep hindiDigit 2 (some 2)) (.rep hindiDigit 4 (some 4))))))))))]

/-- Keys of the dictionary that `parse_date_match` fills. -/
inductive DatePart where
  | era | year | month | day
  deriving DecidableEq, Repr

/-- xhtml_parse_transformation_registry.py 114-138 (`irregular_date_order_dict`) -/
def irregularDateOrder : Dict String (List DatePart) := [
  ("ixt:date-month-day", [.month, .day]),
  ("ixt:date-month-day-year", [.month, .day, .year]),
  ("ixt:date-year-month-day", [.year, .month, .day]),
  ("ixt:date-year-month", [.year, .month]),
  ("ixt:date-monthname-day-en", [.month, .day]),
  ("ixt:date-monthname-day-year-en", [.month, .day, .year]),
  ("ixt:date-year-monthname-en", [.year, .month]),
  ("ixt:date-monthname-year-it", [.month, .year]),
  ("ixt:date-monthname-day-hu", [.month, .day]),
  ("ixt:date-year-monthname-day-hu", [.year, .month, .day]),
  ("ixt:date-year-monthname-hu", [.year, .month]),
  ("ixt:date-monthname-day-lt", [.month, .day]),
  ("ixt:date-year-monthname-day-lt", [.year, .month, .day]),
  ("ixt:date-year-monthname-lt", [.year, .month]),
  ("ixt:date-year-day-monthname-lv", [.year, .day, .month]),
  ("ixt:date-year-monthname-lv", [.year, .month]),
  ("ixt:date-day-monthname-year-hi", [.day, .month, .year]),
  ("ixt:date-monthname-year-hi", [.month, .year]),
  ("ixt:date-jpn-era-year-month", [.era, .year, .month]),
  ("ixt:date-jpn-era-year-month-day", [.era, .year, .month, .day])]

/-- xhtml_parse_transformation_registry.py 140-528 (`country_to_month_names`); the key `none` is Python's `None`. -/
def monthNames : Dict (Option String) (List (List (List Char))) := [
  (none, [[chars! "01", chars! "1"], [chars! "02", chars! "2"], [chars! "03", chars! "3"], [chars! "04", chars! "4"], [chars! "05", chars! "5"], [chars! "06", chars! "6"], [chars! "07", chars! "7"], [chars! "08", chars! "8"], [chars! "09", chars! "9"], [chars! "10"], [chars! "11"], [chars! "12"]]),
  (some "roman", [[chars! "i"], [chars! "ii"], [chars! "iii"], [chars! "iv"], [chars! "v"], [chars! "vi"], [chars! "vii"], [chars! "viii"], [chars! "ix"], [chars! "x"], [chars! "xi"], [chars! "xii"]]),
  (some "bg", [[chars! "ян"], [chars! "фев"], [chars! "мар"], [chars! "апр"], [chars! "май", chars! "маи"], [chars! "юни"], [chars! "юли"], [chars! "авг"], [chars! "сеп"], [chars! "окт"], [chars! "ное"], [chars! "дек"]]),
  (some "cs", [[chars! "leden", chars! "ledna", chars! "lednu", chars! "led"], [chars! "únor", chars! "unor", chars! "února", chars! "unora", chars! "únoru", chars! "unoru", chars! "úno", chars! "uno"], [chars! "březen", chars! "brezen", chars! "března", chars! "brezna", chars! "březnu", chars! "breznu", chars! "bře", chars! "bre"], [chars! "duben", chars! "dubna", chars! "dubnu", chars! "dub"], [chars! "květen", chars! "kveten", chars! "května", chars! "kvetna", chars! "květnu", chars! "kvetnu", chars! "kvě", chars! "kve"], [chars! "červen", chars! "cerven", chars! "června", chars! "cervna", chars! "červnu", chars! "cervnu", chars! "čvn", chars! "cvn"], [chars! "červenec", chars! "cervenec", chars! "července", chars! "cervence", chars! "červenci", chars! "cervenci", chars! "čvc", chars! "cvc"], [chars! "srpen", chars! "srpna", chars! "srpnu", chars! "srp"], [chars! "září", chars! "zari", chars! "zář", chars! "zar"], [chars! "říjen", chars! "rijen", chars! "října", chars! "rijna", chars! "říjnu", chars! "rijnu", chars! "říj", chars! "rij"], [chars! "listopad", chars! "listopadu", chars! "lis"], [chars! "prosinec", chars! "prosince", chars! "prosinci", chars! "pro"]]),
  (some "cy", [[chars! "ion"], [chars! "chwe"], [chars! "maw"], [chars! "ebr"], [chars! "mai"], [chars! "meh"], [chars! "gor"], [chars! "aws"], [chars! "med"], [chars! "hyd"], [chars! "tach"], [chars! "rhag"]]),
  (some "da", [[chars! "jan"], [chars! "feb"], [chars! "mar"], [chars! "apr"], [chars! "maj"], [chars! "jun"], [chars! "jul"], [chars! "aug"], [chars! "sep"], [chars! "okt"], [chars! "nov"], [chars! "dec"]]),
  (some "de", [[chars! "jan", chars! "jän", chars! "jaen"], [chars! "feb"], [chars! "mär", chars! "maer", chars! "mar"], [chars! "apr"], [chars! "mai"], [chars! "jun"], [chars! "jul"], [chars! "aug"], [chars! "sep"], [chars! "okt"], [chars! "nov"], [chars! "dez"]]),
  (some "el", [[chars! "ιαν", chars! "ίαν"], [chars! "φεβ"], [chars! "μάρ", chars! "μαρ"], [chars! "απρ", chars! "άπρ", chars! "αρίλ", chars! "άρίλ", chars! "αριλ", chars! "άριλ"], [chars! "μαΐ", chars! "μαι", chars! "μάι", chars! "μαϊ", chars! "μάϊ"], [chars! "ιούν", chars! "ίούν", chars! "ίουν", chars! "ιουν"], [chars! "ιούλ", chars! "ίούλ", chars! "ίουλ", chars! "ίουλ", chars! "ιουλ"], [chars! "αύγ", chars! "αυγ"], [chars! "σεπ"], [chars! "οκτ", chars! "όκτ"], [chars! "νοέ", chars! "νοε"], [chars! "δεκ"]]),
  (some "en", [[chars! "january", chars! "jan"], [chars! "february", chars! "feb"], [chars! "march", chars! "mar"], [chars! "april", chars! "apr"], [chars! "may"], [chars! "june", chars! "jun"], [chars! "july", chars! "jul"], [chars! "august", chars! "aug"], [chars! "september", chars! "sep"], [chars! "october", chars! "oct"], [chars! "november", chars! "nov"], [chars! "december", chars! "dec"]]),
  (some "es", [[chars! "ene"], [chars! "feb"], [chars! "mar"], [chars! "abr"], [chars! "may"], [chars! "jun"], [chars! "jul"], [chars! "ago"], [chars! "sep"], [chars! "oct"], [chars! "nov"], [chars! "dic"]]),
  (some "et", [[chars! "jaan"], [chars! "veebr"], [chars! "märts", chars! "marts"], [chars! "apr"], [chars! "mai"], [chars! "juuni"], [chars! "juuli"], [chars! "aug"], [chars! "sept"], [chars! "okt"], [chars! "nov"], [chars! "dets"]]),
  (some "fi", [[chars! "tam"], [chars! "hel"], [chars! "maa"], [chars! "huh"], [chars! "tou"], [chars! "kes"], [chars! "hei"], [chars! "elo"], [chars! "syy"], [chars! "lok"], [chars! "mar"], [chars! "jou"]]),
  (some "fr", [[chars! "janv"], [chars! "févr", chars! "fevr"], [chars! "mars"], [chars! "avr"], [chars! "mai"], [chars! "juin"], [chars! "juil"], [chars! "août", chars! "aout"], [chars! "sept"], [chars! "oct"], [chars! "nov"], [chars! "déc", chars! "dec"]]),
  (some "hi", [[chars! "जनवरी", chars! "cait", chars! "chait", chars! "चैत्र"], [chars! "फरवरी", chars! "vai", chars! "वैशाख", chars! "बैसाख"], [chars! "मार्च", chars! "jy", chars! "ज्येष्ठ"], [chars! "अप्रैल", chars! "dha", chars! "ḍha", chars! "आषाढ", chars! "आषाढ़"], [chars! "मई", chars! "vana", chars! "śrāvaṇa", chars! "श्रावण", chars! "सावन"], [chars! "जून", chars! "bhadra", chars! "proṣṭhapada", chars! "भाद्रपद", chars! "भादो"], [chars! "जुलाई", chars! "in", chars! "आश्विन"], [chars! "अगस्त", chars! "karti", chars! "kartik", chars! "कार्तिक"], [chars! "सितंबर", chars! "mrga", chars! "marga", chars! "agra", chars! "मार्गशीर्ष", chars! "अगहन"], [chars! "अक्टूबर", chars! "pau", chars! "पौष"], [chars! "नवंबर", chars! "mgh", chars! "magha", chars! "माघ"], [chars! "दिसंबर", chars! "phlg", chars! "phalg", chars! "फाल्गुन"]]),
  (some "hr", [[chars! "sij"], [chars! "velj"], [chars! "ožu", chars! "ozu"], [chars! "tra"], [chars! "svi"], [chars! "lip"], [chars! "srp"], [chars! "kol"], [chars! "ruj"], [chars! "lis"], [chars! "stu"], [chars! "pro"]]),
  (some "it", [[chars! "gen"], [chars! "feb"], [chars! "mar"], [chars! "apr"], [chars! "mag"], [chars! "giu"], [chars! "lug"], [chars! "ago"], [chars! "set"], [chars! "ott"], [chars! "nov"], [chars! "dic"]]),
  (some "nl", [[chars! "jan"], [chars! "feb"], [chars! "maa"], [chars! "mrt"], [chars! "apr"], [chars! "mei"], [chars! "jun"], [chars! "jul"], [chars! "aug"], [chars! "sep"], [chars! "okt"], [chars! "nov"], [chars! "dec"]]),
  (some "hu", [[chars! "jan"], [chars! "feb"], [chars! "márc", chars! "marc"], [chars! "ápr", chars! "apr"], [chars! "máj", chars! "maj"], [chars! "jún", chars! "jun"], [chars! "júl", chars! "jul"], [chars! "aug"], [chars! "szept"], [chars! "okt"], [chars! "nov"], [chars! "dec"]]),
  (some "lt", [[chars! "sau"], [chars! "vas"], [chars! "kov"], [chars! "bal"], [chars! "geg"], [chars! "bir"], [chars! "lie"], [chars! "rugp", chars! "rgp", chars! "rugs", chars! "rgs"], [chars! "spa", chars! "spl"], [chars! "lap"], [chars! "gru", chars! "grd"]]),
  (some "lv", [[chars! "janv"], [chars! "febr"], [chars! "marts"], [chars! "apr"], [chars! "maijs"], [chars! "jūn", chars! "jun"], [chars! "jūl", chars! "jul"], [chars! "aug"], [chars! "sept"], [chars! "okt"], [chars! "nov"], [chars! "dec"]]),
  (some "no", [[chars! "jan"], [chars! "feb"], [chars! "mar"], [chars! "apr"], [chars! "mai"], [chars! "jun"], [chars! "jul"], [chars! "aug"], [chars! "sep"], [chars! "okt"], [chars! "nov"], [chars! "des"]]),
  (some "pl", [[chars! "sty"], [chars! "lut"], [chars! "mar"], [chars! "kwi"], [chars! "maj"], [chars! "cze"], [chars! "lip"], [chars! "sie"], [chars! "wrz"], [chars! "paź", chars! "paz"], [chars! "lis"], [chars! "gru"]]),
  (some "pt", [[chars! "jan"], [chars! "fev"], [chars! "mar"], [chars! "abr"], [chars! "mai"], [chars! "jun"], [chars! "jul"], [chars! "ago"], [chars! "set"], [chars! "out"], [chars! "nov"], [chars! "dez"]]),
  (some "ro", [[chars! "ian"], [chars! "feb"], [chars! "mar"], [chars! "apr"], [chars! "mai"], [chars! "iun"], [chars! "iul"], [chars! "aug"], [chars! "sep"], [chars! "oct"], [chars! "noi", chars! "nov"], [chars! "dec"]]),
  (some "sk", [[chars! "jan"], [chars! "feb"], [chars! "mar"], [chars! "apr"], [chars! "máj", chars! "maj"], [chars! "jún", chars! "jun"], [chars! "júl", chars! "jul"], [chars! "aug"], [chars! "sep"], [chars! "okt"], [chars! "nov"], [chars! "dec"]]),
  (some "sl", [[chars! "jan"], [chars! "feb"], [chars! "mar"], [chars! "apr"], [chars! "maj"], [chars! "jun"], [chars! "jul"], [chars! "avg"], [chars! "sep"], [chars! "okt"], [chars! "nov"], [chars! "dec"]]),
  (some "sv", [[chars! "jan"], [chars! "feb"], [chars! "mar"], [chars! "apr"], [chars! "maj"], [chars! "jun"], [chars! "jul"], [chars! "aug"], [chars! "sep"], [chars! "okt"], [chars! "nov"], [chars! "dec"]])]

/-- xhtml_parse_transformation_registry.py 530-542 (`japanese_era_to_gregorian_period`): first and last day of an era. -/
def japaneseEras : Dict String ((Nat × Nat × Nat) × (Nat × Nat × Nat)) := [
  ("明治", ((1868, 10, 23), (1912, 7, 29))),
  ("明", ((1868, 10, 23), (1912, 7, 29))),
  ("大正", ((1912, 7, 30), (1926, 12, 24))),
  ("大", ((1912, 7, 30), (1926, 12, 24))),
  ("昭和", ((1926, 12, 25), (1989, 1, 7))),
  ("昭", ((1926, 12, 25), (1989, 1, 7))),
  ("平成", ((1989, 1, 8), (2019, 4, 30))),
  ("平", ((1989, 1, 8), (2019, 4, 30))),
  ("令和", ((2019, 5, 1), (9999, 12, 31))),
  ("令", ((2019, 5, 1), (9999, 12, 31)))]

/-- xhtml_parse_transformation_registry.py 544-601 (`legacy_to_current_formats`) -/
def legacyFormats : Dict String String := [
  ("ixt:booleanfalse", "ixt:fixed-false"),
  ("ixt:booleantrue", "ixt:fixed-true"),
  ("ixt:calindaymonthyear", "ixt:date-ind-day-month-year-hi"),
  ("ixt:datedaymonth", "ixt:date-day-month"),
  ("ixt:datedaymonthdk", "ixt:date-day-monthname-da"),
  ("ixt:datedaymonthen", "ixt:date-day-monthname-en"),
  ("ixt:datedaymonthyear", "ixt:date-day-month-year"),
  ("ixt:datedaymonthyeardk", "ixt:date-day-monthname-year-da"),
  ("ixt:datedaymonthyearen", "ixt:date-day-monthname-year-en"),
  ("ixt:dateerayearmonthdayjp", "ixt:date-jpn-era-year-month-day"),
  ("ixt:dateerayearmonthjp", "ixt:date-jpn-era-year-month"),
  ("ixt:datemonthday", "ixt:date-month-day"),
  ("ixt:datemonthdayen", "ixt:date-monthname-day-en"),
  ("ixt:datemonthdayyear", "ixt:date-month-day-year"),
  ("ixt:datemonthdayyearen", "ixt:date-monthname-day-year-en"),
  ("ixt:datemonthyear", "ixt:date-month-year"),
  ("ixt:datemonthyeardk", "ixt:date-monthname-year-da"),
  ("ixt:datemonthyearen", "ixt:date-monthname-year-en"),
  ("ixt:datemonthyearin", "ixt:date-monthname-year-hi"),
  ("ixt:dateyearmonthday", "ixt:date-year-month-day"),
  ("ixt:dateyearmonthdaycjk", "ixt:date-year-month-day"),
  ("ixt:dateyearmonthcjk", "ixt:date-year-month"),
  ("ixt:dateyearmonthen", "ixt:date-year-monthname-en"),
  ("ixt:nocontent", "ixt:fixed-empty"),
  ("ixt:numcommadecimal", "ixt:num-comma-decimal"),
  ("ixt:numdotdecimal", "ixt:num-dot-decimal"),
  ("ixt:numdotdecimalin", "ixt:num-dot-decimal"),
  ("ixt:numunitdecimal", "ixt:num-unit-decimal"),
  ("ixt:numunitdecimalin", "ixt:num-unit-decimal"),
  ("ixt:zerodash", "ixt:fixed-zero"),
  ("ixt:numcomma", "ixt:num-comma-decimal"),
  ("ixt:numcommadot", "ixt:num-dot-decimal"),
  ("ixt:numdash", "ixt:fixed-zero"),
  ("ixt:numdotcomma", "ixt:num-comma-decimal"),
  ("ixt:numspacecomma", "ixt:num-comma-decimal"),
  ("ixt:numspacedot", "ixt:num-dot-decimal"),
  ("ixt:datedoteu", "ixt:date-day-month-year"),
  ("ixt:datedotus", "ixt:date-month-day-year"),
  ("ixt:datelonguk", "ixt:date-day-monthname-year-en"),
  ("ixt:datelongus", "ixt:date-monthname-day-year-en"),
  ("ixt:dateshortuk", "ixt:date-day-monthname-year-en"),
  ("ixt:dateshortus", "ixt:date-monthname-day-year-en"),
  ("ixt:dateslasheu", "ixt:date-day-month-year"),
  ("ixt:dateslashus", "ixt:date-month-day-year"),
  ("ixt:datelongdaymonthuk", "ixt:date-day-monthname-en"),
  ("ixt:datelongmonthdayus", "ixt:date-monthname-day-en"),
  ("ixt:dateshortdaymonthuk", "ixt:date-day-monthname-en"),
  ("ixt:dateshortmonthdayus", "ixt:date-day-monthname-en"),
  ("ixt:dateslashdaymontheu", "ixt:date-day-month"),
  ("ixt:dateslashmonthdayus", "ixt:date-month-day"),
  ("ixt:datelongyearmonth", "ixt:date-year-monthname-en"),
  ("ixt:dateshortyearmonth", "ixt:date-year-monthname-en"),
  ("ixt:datelongmonthyear", "ixt:date-monthname-year-en"),
  ("ixt:dateshortmonthyear", "ixt:date-monthname-year-en")]

/-- `str.lower` on the letters that occur in the month names; other characters are kept (simplification). -/
def lowerPairs : List (Char × Char) := [
  ('A', 'a'), ('B', 'b'), ('C', 'c'), ('D', 'd'), ('E', 'e'), ('F', 'f'), ('G', 'g'), ('H', 'h'), ('I', 'i'), ('J', 'j'), ('K', 'k'), ('L', 'l'), ('M', 'm'), ('N', 'n'), ('O', 'o'), ('P', 'p'), ('Q', 'q'), ('R', 'r'), ('S', 's'), ('T', 't'), ('U', 'u'), ('V', 'v'), ('W', 'w'), ('X', 'x'), ('Y', 'y'), ('Z', 'z'), ('Á', 'á'), ('Ä', 'ä'), ('É', 'é'), ('Í', 'í'), ('Ú', 'ú'), ('Û', 'û'), ('Č', 'č'), ('Ě', 'ě'), ('Ř', 'ř'), ('Ś', 'ś'), ('Ū', 'ū'), ('Ź', 'ź'), ('Ž', 'ž'), ('Ά', 'ά'), ('Έ', 'έ'), ('Ί', 'ί'), ('Ό', 'ό'), ('Ύ', 'ύ'), ('Α', 'α'), ('Β', 'β'), ('Γ', 'γ'), ('Δ', 'δ'), ('Ε', 'ε'), ('Ι', 'ι'), ('Κ', 'κ'), ('Λ', 'λ'), ('Μ', 'μ'), ('Ν', 'ν'), ('Ο', 'ο'), ('Π', 'π'), ('Ρ', 'ρ'), ('Σ', 'σ'), ('Τ', 'τ'), ('Υ', 'υ'), ('Φ', 'φ'), ('Ϊ', 'ϊ'), ('А', 'а'), ('В', 'в'), ('Г', 'г'), ('Д', 'д'), ('Е', 'е'), ('И', 'и'), ('Й', 'й'), ('К', 'к'), ('Л', 'л'), ('М', 'м'), ('Н', 'н'), ('О', 'о'), ('П', 'п'), ('Р', 'р'), ('С', 'с'), ('Т', 'т'), ('Ф', 'ф'), ('Ю', 'ю'), ('Я', 'я')]

end Brel
