import Verif.Model.Output

/-!
The translation table that is shipped with the library: `brel/config/translations.csv`.
The file lists all names for one language after the other; here the five texts of a name stand together. A line that is repeated (`dateTimeItemType`) is listed once. The order of the lines
does not matter for the table that is loaded, because the pairs of name and language are distinct otherwise.
-/

namespace Brel

/-- translation_service.py 82: the default of `base` -/
def translationBase : String := "http://www.brel.com/translations/"

/-- The languages and locales of translations.csv, in the order of the file. -/
def shippedLanguages : List (String × String) := [("en", "US"), ("de", "DE"), ("fr", "FR"), ("es", "ES"), ("it", "IT")]

/-- One line per language: the name space (without the base), the name and the five texts. -/
def sectionRows (kind : String) (texts : List (String × List String)) : List TransRow :=
  texts.flatMap (fun e => (shippedLanguages.zip e.2).map (fun p => ⟨translationBase ++ kind, e.1, p.1.1, p.1.2, p.2⟩))

/-- translations.csv: the names of `http://www.brel.com/translations/boolean` -/
def textsBoolean : List (String × List String) := [
  ("false", ["False", "Falsch", "Faux", "Falso", "Falso"]),
  ("true", ["True", "Wahr", "Vrai", "Verdadero", "Vero"])]

/-- translations.csv: the names of `http://www.brel.com/translations/report-element` -/
def textsElement : List (String × List String) := [
  ("abstract", ["Abstract", "Abstrakt", "Abstrait", "Abstracto", "Astratto"]),
  ("dimension", ["Dimension", "Dimension", "Dimension", "Dimensión", "Dimensione"]),
  ("member", ["Member", "Mitglied", "Membre", "Miembro", "Membro"]),
  ("hypercube", ["Hypercube", "Hyperwürfel", "Hypercube", "Hipercubo", "Ipercubo"]),
  ("line-items", ["Line Items", "Posten", "Postes", "Partidas", "Voci"]),
  ("concept", ["Concept", "Konzept", "Concept", "Concepto", "Concetto"])]

/-- translations.csv: the names of `http://www.brel.com/translations/literal` -/
def textsLiteral : List (String × List String) := [
  ("name", ["Name", "Name", "Nom", "Nombre", "Nome"]),
  ("label", ["Label", "Bezeichnung", "Libellé", "Etiqueta", "Etichetta"]),
  ("report-element-type", ["Report Element Type", "Berichtselementtyp", "Type d’élément de rapport", "Tipo de elemento de informe", "Tipo di elemento del rapporto"]),
  ("period-type", ["Period Type", "Zeitraumtyp", "Type de période", "Tipo de período", "Tipo di periodo"]),
  ("balance-type", ["Balance Type", "Saldoart", "Type de solde", "Tipo de saldo", "Tipo di saldo"]),
  ("nillable", ["Is Nillable", "Kann leer sein", "Peut être nul", "Puede ser nulo", "Può essere nullo"]),
  ("data-type", ["Data Type", "Datentyp", "Type de données", "Tipo de dato", "Tipo di dato"]),
  ("none", ["None", "Keine", "Aucun", "Ninguno", "Nessuno"]),
  ("dimension-type", ["Dimension Type", "Dimensionstyp", "Type de dimension", "Tipo de dimensión", "Tipo di dimensione"]),
  ("is-explicit", ["Is Explicit", "Explizit", "Explicite", "Explícito", "Esplicito"]),
  ("network-identifier", ["Network Identifier", "Netzwerkkennung", "Identifiant de réseau", "Identificador de red", "Identificatore di rete"]),
  ("info", ["Info", "Info", "Info", "Información", "Informazioni"]),
  ("presentation-network", ["Presentation Network", "Präsentationsnetzwerk", "Réseau de présentation", "Red de presentación", "Rete di presentazione"]),
  ("definition-network", ["Definition Network", "Definitionsnetzwerk", "Réseau de définition", "Red de definición", "Rete di definizione"]),
  ("calculation-network", ["Calculation Network", "Berechnungsnetzwerk", "Réseau de calcul", "Red de cálculo", "Rete di calcolo"]),
  ("id", ["Id", "ID", "Id", "Id", "Id"]),
  ("value", ["Value", "Wert", "Valeur", "Valor", "Valore"])]

/-- translations.csv: the names of `http://www.brel.com/translations/period-type` -/
def textsPeriod : List (String × List String) := [
  ("instant", ["Instant", "Zeitpunkt", "Instant", "Instante", "Istantaneo"]),
  ("duration", ["Duration", "Zeitraum", "Durée", "Duración", "Durata"])]

/-- translations.csv: the names of `http://www.brel.com/translations/balance-type` -/
def textsBalance : List (String × List String) := [
  ("credit", ["Credit", "Haben", "Crédit", "Crédito", "Credito"]),
  ("debit", ["Debit", "Soll", "Débit", "Débito", "Debito"])]

/-- translations.csv: the names of `http://www.brel.com/translations/data-type` -/
def textsData : List (String × List String) := [
  ("domainItemType", ["Domain", "Domäne", "Domaine", "Dominio", "Dominio"]),
  ("escapedItemType", ["Escaped Text", "Escape-Text", "Texte échappé", "Texto escapado", "Testo escape"]),
  ("xmlNodesItemType", ["XML Nodes", "XML-Knoten", "Nœuds XML", "Nodos XML", "Nodi XML"]),
  ("xmlItemType", ["XML", "XML", "XML", "XML", "XML"]),
  ("textBlockItemType", ["Text Block", "Textblock", "Bloc de texte", "Bloque de texto", "Blocco di testo"]),
  ("percentItemType", ["Percent", "Prozent", "Pourcentage", "Porcentaje", "Percentuale"]),
  ("perShareItemType", ["Per Share", "Pro Aktie", "Par action", "Por acción", "Per azione"]),
  ("areaItemType", ["Area", "Fläche", "Surface", "Área", "Area"]),
  ("volumeItemType", ["Volume", "Volumen", "Volume", "Volumen", "Volume"]),
  ("massItemType", ["Mass", "Masse", "Masse", "Masa", "Massa"]),
  ("weightItemType", ["Weight", "Gewicht", "Poids", "Peso", "Peso"]),
  ("energyItemType", ["Energy", "Energie", "Énergie", "Energía", "Energia"]),
  ("powerItemType", ["Power", "Leistung", "Puissance", "Potencia", "Potenza"]),
  ("lengthItemType", ["Length", "Länge", "Longueur", "Longitud", "Lunghezza"]),
  ("memoryItemType", ["Memory", "Speicher", "Mémoire", "Memoria", "Memoria"]),
  ("noDecimalsMonetaryItemType", ["Monetary (No Decimals)", "Monetär (keine Dezimalstellen)", "Monétaire (sans décimales)", "Monetario (sin decimales)", "Monetario (senza decimali)"]),
  ("nonNegativeMonetaryItemType", ["Monetary (Non-negative)", "Monetär (nicht negativ)", "Monétaire (non négatif)", "Monetario (no negativo)", "Monetario (non negativo)"]),
  ("nonNegativeNoDecimalsMonetaryItemType", ["Monetary (No Decimals, Non-negative)", "Monetär (keine Dezimalstellen, nicht negativ)", "Monétaire (sans décimales, non négatif)", "Monetario (sin decimales, no negativo)", "Monetario (senza decimali, non negativo)"]),
  ("insolationItemType", ["Insolation", "Sonneneinstrahlung", "Insolation", "Insolación", "Insolazione"]),
  ("temperatureItemType", ["Temperature", "Temperatur", "Température", "Temperatura", "Temperatura"]),
  ("pressureItemType", ["Pressure", "Druck", "Pression", "Presión", "Pressione"]),
  ("frequencyItemType", ["Frequency", "Frequenz", "Fréquence", "Frecuencia", "Frequenza"]),
  ("irradianceItemType", ["Irradiance", "Bestrahlungsstärke", "Irradiance", "Irradiancia", "Irradianza"]),
  ("speedItemType", ["Speed", "Geschwindigkeit", "Vitesse", "Velocidad", "Velocità"]),
  ("planeAngleItemType", ["Plane Angle", "Ebenenwinkel", "Angle plan", "Ángulo plano", "Angolo piano"]),
  ("voltageItemType", ["Voltage", "Spannung", "Tension", "Voltaje", "Tensione"]),
  ("electricCurrentItemType", ["Electric Current", "Elektrischer Strom", "Courant électrique", "Corriente eléctrica", "Corrente elettrica"]),
  ("forceItemType", ["Force", "Kraft", "Force", "Fuerza", "Forza"]),
  ("electricChargeItemType", ["Electric Charge", "Elektrische Ladung", "Charge électrique", "Carga eléctrica", "Carica elettrica"]),
  ("guidanceItemType", ["Guidance", "Anleitung", "Guide", "Orientación", "Guida"]),
  ("noLangTokenItemType", ["Token (No Langauge)", "Token (keine Sprache)", "Jeton (sans langue)", "Token (sin idioma)", "Token (senza lingua)"]),
  ("noLangStringItemType", ["Text (No Language)", "Text (keine Sprache)", "Texte (sans langue)", "Texto (sin idioma)", "Testo (senza lingua)"]),
  ("prefixedContentItemType", ["Prefixed Content", "Präfixinhalt", "Contenu préfixé", "Contenido con prefijo", "Contenuto prefissato"]),
  ("prefixedContentType", ["Prefixed Content (Type)", "Präfixinhalt (Typ)", "Contenu préfixé (Type)", "Contenido con prefijo (Tipo)", "Contenuto prefissato (Tipo)"]),
  ("SQNameItemType", ["SQName", "SQName", "SQName", "SQName", "SQName"]),
  ("SQNameType", ["SQName (Type)", "SQName (Typ)", "SQName (Type)", "SQName (Tipo)", "SQName (Tipo)"]),
  ("SQNamesItemType", ["SQNames", "SQNames", "SQNames", "SQNames", "SQNames"]),
  ("SQNamesType", ["SQNames (Type)", "SQNames (Typ)", "SQNames (Type)", "SQNames (Tipo)", "SQNames (Tipo)"]),
  ("gYearListItemType", ["Year List", "Jahresliste", "Liste d’années", "Lista de años", "Lista di anni"]),
  ("flowItemType", ["Flow", "Strom", "Flux", "Flujo", "Flusso"]),
  ("massFlowItemType", ["Mass Flow", "Massenstrom", "Flux de masse", "Flujo de masa", "Flusso di massa"]),
  ("monetaryPerLengthItemType", ["Monetary per Length", "Monetär pro Länge", "Monétaire par longueur", "Monetario por longitud", "Monetario per lunghezza"]),
  ("monetaryPerAreaItemType", ["Monetary per Area", "Monetär pro Fläche", "Monétaire par surface", "Monetario por área", "Monetario per area"]),
  ("monetaryPerVolumeItemType", ["Monetary per Volume", "Monetär pro Volumen", "Monétaire par volume", "Monetario por volumen", "Monetario per volume"]),
  ("monetaryPerDurationItemType", ["Monetary per Duration", "Monetär pro Zeitraum", "Monétaire par durée", "Monetario por duración", "Monetario per durata"]),
  ("monetaryPerEnergyItemType", ["Monetary per Energy", "Monetär pro Energie", "Monétaire par énergie", "Monetario por energía", "Monetario per energia"]),
  ("monetaryPerMassItemType", ["Monetary per Mass", "Monetär pro Masse", "Monétaire par masse", "Monetario por masa", "Monetario per massa"]),
  ("dateTimeItemType", ["Date and Time", "Datum und Uhrzeit", "Date et heure", "Fecha y hora", "Data e ora"]),
  ("ghgEmissionsItemType", ["Greenhouse Gas Emissions", "Treibhausgasemissionen", "Émissions de gaz à effet de serre", "Emisiones de gases de efecto invernadero", "Emissioni di gas serra"]),
  ("energyPerMonetaryItemType", ["Energy per Monetary", "Energie pro Monetär", "Énergie par monétaire", "Energía por monetario", "Energia per monetario"]),
  ("ghgEmissionsPerMonetaryItemType", ["Greenhouse Gas Emissions per Monetary", "Treibhausgasemissionen pro Monetär", "Émissions de gaz à effet de serre par monétaire", "Emisiones de gases de efecto invernadero por monetario", "Emissioni di gas serra per monetario"]),
  ("volumePerMonetaryItemType", ["Volume per Monetary", "Volumen pro Monetär", "Volume par monétaire", "Volumen por monetario", "Volume per monetario"]),
  ("decimalItemType", ["Decimal Number", "Dezimalzahl", "Nombre décimal", "Número decimal", "Numero decimale"]),
  ("floatItemType", ["Floating-Point Number", "Gleitkommazahl", "Nombre à virgule flottante", "Número de punto flotante", "Numero in virgola mobile"]),
  ("doubleItemType", ["Double Precision Floating-Point Number", "Doppelgenaue Gleitkommazahl", "Nombre à double précision", "Número de doble precisión", "Numero a doppia precisione"]),
  ("integerItemType", ["Integer", "Ganzzahl", "Entier", "Número entero", "Intero"]),
  ("nonPositiveIntegerItemType", ["Integer (Non-positive)", "Ganzzahl (nicht positiv)", "Entier (non positif)", "Entero (no positivo)", "Intero (non positivo)"]),
  ("negativeIntegerItemType", ["Integer (Negative)", "Ganzzahl (negativ)", "Entier (négatif)", "Entero (negativo)", "Intero (negativo)"]),
  ("longItemType", ["Number (long)", "Zahl (long)", "Nombre (long)", "Número (long)", "Numero (long)"]),
  ("intItemType", ["Number (int)", "Zahl (int)", "Nombre (int)", "Número (int)", "Numero (int)"]),
  ("shortItemType", ["Number (short)", "Zahl (short)", "Nombre (short)", "Número (short)", "Numero (short)"]),
  ("byteItemType", ["Number (byte)", "Zahl (byte)", "Nombre (byte)", "Número (byte)", "Numero (byte)"]),
  ("nonNegativeIntegerItemType", ["Integer (Non-negative)", "Ganzzahl (nicht negativ)", "Entier (non négatif)", "Entero (no negativo)", "Intero (non negativo)"]),
  ("unsignedLongItemType", ["Number (unsigned long)", "Zahl (unsigned long)", "Nombre (long non signé)", "Número (long sin signo)", "Numero (long senza segno)"]),
  ("unsignedIntItemType", ["Number (unsigned int)", "Zahl (unsigned int)", "Nombre (int non signé)", "Número (int sin signo)", "Numero (int senza segno)"]),
  ("unsignedShortItemType", ["Number (unsigned short)", "Zahl (unsigned short)", "Nombre (short non signé)", "Número (short sin signo)", "Numero (short senza segno)"]),
  ("unsignedByteItemType", ["Number (unsigned byte)", "Zahl (unsigned byte)", "Nombre (byte non signé)", "Número (byte sin signo)", "Numero (byte senza segno)"]),
  ("positiveIntegerItemType", ["Integer (Positive)", "Ganzzahl (positiv)", "Entier (positif)", "Entero (positivo)", "Intero (positivo)"]),
  ("monetaryItemType", ["Monetary", "Monetär", "Monétaire", "Monetario", "Monetario"]),
  ("sharesItemType", ["Shares", "Aktien", "Actions", "Acciones", "Azioni"]),
  ("pureItemType", ["Pure Number", "Reine Zahl", "Nombre pur", "Número puro", "Numero puro"]),
  ("fractionItemType", ["Fraction", "Bruch", "Fraction", "Fracción", "Frazione"]),
  ("stringItemType", ["Text", "Text", "Texte", "Texto", "Testo"]),
  ("booleanItemType", ["Boolean", "Boolean", "Booléen", "Booleano", "Booleano"]),
  ("hexBinaryItemType", ["Hexadecimal Binary", "Hexadezimal-Binär", "Binaire hexadécimal", "Binario hexadecimal", "Binario esadecimale"]),
  ("base64BinaryItemType", ["Base64 Binary", "Base64-Binär", "Binaire Base64", "Binario Base64", "Binario Base64"]),
  ("anyURIItemType", ["URI", "URI", "URI", "URI", "URI"]),
  ("QNameItemType", ["QName", "QName", "QName", "QName", "QName"]),
  ("durationItemType", ["Duration", "Dauer", "Durée", "Duración", "Durata"]),
  ("timeItemType", ["Time", "Uhrzeit", "Heure", "Hora", "Ora"]),
  ("dateItemType", ["Date", "Datum", "Date", "Fecha", "Data"]),
  ("gYearMonthItemType", ["Year-Month", "Jahr-Monat", "Année-Mois", "Año-Mes", "Anno-Mese"]),
  ("gYearItemType", ["Year", "Jahr", "Année", "Año", "Anno"]),
  ("gMonthDayItemType", ["Month-Day", "Monat-Tag", "Mois-Jour", "Mes-Día", "Mese-Giorno"]),
  ("gDayItemType", ["Day", "Tag", "Jour", "Día", "Giorno"]),
  ("gMonthItemType", ["Month", "Monat", "Mois", "Mes", "Mese"]),
  ("normalizedStringItemType", ["Normalized Text", "Normalisierter Text", "Texte normalisé", "Texto normalizado", "Testo normalizzato"]),
  ("tokenItemType", ["Token ", "Token", "Jeton", "Token", "Token"]),
  ("languageItemType", ["Language Code", "Sprachcode", "Code de langue", "Código de idioma", "Codice lingua"]),
  ("NameItemType", ["XML Name", "XML-Name", "Nom XML", "Nombre XML", "Nome XML"]),
  ("NCNameItemType", ["NCName", "NCName", "NCName", "NCName", "NCName"]),
  ("perUnitItemType", ["Per Unit", "Pro Einheit", "Par unité", "Por unidad", "Per unità"]),
  ("financialInstrumentGlobalIdentifierItemType", ["Global Identifier of Finacial Instrument", "Globaler Bezeichner des Finanzinstruments", "Identifiant global de l'instrument financier", "Identificador global del instrumento financiero", "Identificatore globale dello strumento finanziario"])]

/-- translations.csv: the names of `http://www.brel.com/translations/unit` -/
def textsUnit : List (String × List String) := [
  ("acre", ["Acre", "Acre", "Acre", "Acre", "Acri"]),
  ("sqft", ["Square Foot", "Quadratfuß", "Pied carré", "Pie cuadrado", "Piede quadrato"]),
  ("sqmi", ["Square Mile", "Quadratmeile", "Mille carré", "Milla cuadrada", "Miglio quadrato"]),
  ("sqyd", ["Square Yard", "Quadratyard", "Yard carré", "Yarda cuadrada", "Yarda quadrata"]),
  ("Boe", ["Barrel of Oil Equivalent", "Barrel Öläquivalent", "Baril équivalent pétrole", "Barril equivalente de petróleo", "Barile equivalente petrolio"]),
  ("Btu", ["British Thermal Unit", "Britische Wärmeeinheit", "Unité thermique britannique", "Unidad térmica británica", "Unità termica britannica"]),
  ("ft_lb", ["Foot-Pound", "Fuß-Pfund", "Pied-livre", "Pie-libra", "Piede-libbra"]),
  ("MBoe", ["Thousand Barrels of Oil Equivalent", "Tausend Barrel Öläquivalent", "Mille barils équivalent pétrole", "Mil barriles equivalente de petróleo", "Mille barili equivalente petrolio"]),
  ("Mcfe", ["Thousand Cubic Foot Equivalent", "Tausend Kubikfuß-Äquivalent", "Mille pieds cubes équivalent", "Mil pies cúbicos equivalentes", "Mille piedi cubici equivalenti"]),
  ("MMBoe", ["Millions of Barrels of Oil Equivalent", "Millionen Barrel Öläquivalent", "Millions de barils équivalent pétrole", "Millones de barriles equivalente de petróleo", "Milioni di barili equivalente petrolio"]),
  ("MMBTU", ["Millions of BTU", "Millionen BTU", "Millions de BTU", "Millones de BTU", "Milioni di BTU"]),
  ("ft", ["Foot", "Fuß", "Pied", "Pie", "Piede"]),
  ("in", ["Inch", "Zoll", "Pouce", "Pulgada", "Pollice"]),
  ("mi", ["Mile", "Meile", "Mille", "Milla", "Miglio"]),
  ("nmi", ["Nautical Mile", "Seemeile", "Mille marin", "Milla náutica", "Miglio nautico"]),
  ("yd", ["Yard", "Yard", "Yard", "Yarda", "Yarda"]),
  ("lb", ["Pound", "Pfund", "Livre", "Libra", "Libbra"]),
  ("oz", ["Ounce", "Unze", "Once", "Onza", "Oncia"]),
  ("ozt", ["Troy Ounce", "Feinunze", "Once troy", "Onza troy", "Oncia troy"]),
  ("T", ["Ton", "Tonne", "Tonne", "Tonelada", "Ton"]),
  ("hp", ["Horsepower", "Pferdestärke", "Cheval-vapeur", "Caballos de fuerza", "Cavalli vapore"]),
  ("bbl", ["Barrel", "Fass", "Baril", "Barril", "Barile"]),
  ("ft3", ["Cubic Foot", "Kubikfuß", "Pied cube", "Pie cúbico", "Piede cubo"]),
  ("gal", ["Gallon", "Gallone", "Gallon", "Galón", "Gallone"]),
  ("MBbls", ["Thousand Barrels", "Tausend Barrel", "Mille barils", "Mil barriles", "Mille barili"]),
  ("Mcf", ["Thousands Cubic Feet", "Tausend Kubikfuß", "Mille pieds cubes", "Mil pies cúbicos", "Mille piedi cubici"]),
  ("MMBbls", ["Million Barrels", "Million Barrel", "Million de barils", "Millón de barriles", "Milione di barili"]),
  ("MMcf", ["Millions Cubic Feet", "Millionen Kubikfuß", "Million de pieds cubes", "Millones de pies cúbicos", "Milioni di piedi cubici"]),
  ("AED", ["U.A.E. dirham", "VAE-Dirham", "Dirham des Émirats", "Dirham EAU", "Dirham EAU"]),
  ("AFN", ["Afghan afghani", "Afghani", "Afghani", "Afgani", "Afghani"]),
  ("ALL", ["Albanian lek", "Albanischer Lek", "Lek albanais", "Lek albanés", "Lek albanese"]),
  ("AMD", ["Armenian dram", "Armenischer Dram", "Dram arménien", "Dram armenio", "Dram armeno"]),
  ("ANG", ["Netherlands Antillean guilder", "Niederländisch-Antillischer Gulden", "Florin des Antilles néerlandaises", "Florín de las Antillas Neerlandesas", "Fiorino Antille Olandesi"]),
  ("AOA", ["Angolan kwanza", "Angolanischer Kwanza", "Kwanza angolais", "Kwanza angoleño", "Kwanza angolano"]),
  ("ARS", ["Argentine peso", "Argentinischer Peso", "Peso argentin", "Peso argentino", "Peso argentino"]),
  ("AUD", ["Australian dollar", "Australischer Dollar", "Dollar australien", "Dólar australiano", "Dollaro australiano"]),
  ("AWG", ["Aruban florin", "Aruba-Florin", "Florin arubais", "Florín arubeño", "Fiorino arubano"]),
  ("AZN", ["Azerbaijani manat", "Aserbaidschanischer Manat", "Manat azerbaïdjanais", "Manat azerbaiyano", "Manat azero"]),
  ("BAM", ["Bosnia and Herzegovina convertible mark", "Bosnische Konvertible Mark", "Mark convertible de Bosnie-Herzégovine", "Marco convertible bosnio", "Marco convertibile Bosnia-Erzegovina"]),
  ("BBD", ["Barbados dollar", "Barbados-Dollar", "Dollar barbadien", "Dólar barbadense", "Dollaro barbadiano"]),
  ("BDT", ["Bangladeshi taka", "Bangladesch-Taka", "Taka bangladais", "Taka bangladesí", "Taka bangladese"]),
  ("BGN", ["Bulgarian lev", "Bulgarischer Lew", "Lev bulgare", "Lev búlgaro", "Lev bulgaro"]),
  ("BHD", ["Bahraini dinar", "Bahrain-Dinar", "Dinar bahreïni", "Dinar bareiní", "Dinaro bahreinita"]),
  ("BIF", ["Burundian franc", "Burundi-Franc", "Franc burundais", "Franco burundés", "Franco burundese"]),
  ("BMD", ["Bermuda Dollar", "Bermudadollar", "Dollar bermudien", "Dólar bermudeño", "Dollaro bermudiano"]),
  ("BND", ["Brunei dollar", "Brunei-Dollar", "Dollar brunéien", "Dólar de Brunéi", "Dollaro del Brunei"]),
  ("BOB", ["Boliviano", "Boliviano", "Boliviano", "Boliviano", "Boliviano"]),
  ("BOV", ["Bolivian Mvdol", "Bolivianischer Mvdol", "Mvdol bolivien", "Mvdol boliviano", "Mvdol boliviano"]),
  ("BRL", ["Brazilian real", "Brasilianischer Real", "Réal brésilien", "Real brasileño", "Real brasiliano"]),
  ("BSD", ["Bahamian dollar", "Bahamas-Dollar", "Dollar bahaméen", "Dólar bahameño", "Dollaro delle Bahamas"]),
  ("BTN", ["Bhutanese ngultrum", "Bhutanischer Ngultrum", "Ngultrum bhoutanais", "Ngultrum butanés", "Ngultrum bhutanese"]),
  ("BWP", ["Botswana pula", "Botswana-Pula", "Pula botswanais", "Pula botsuano", "Pula botswano"]),
  ("BYN", ["Belarusian ruble", "Weißrussischer Rubel", "Rouble biélorusse", "Rublo bielorruso", "Rublo bielorusso"]),
  ("BYR", ["Belarusian ruble", "Weißrussischer Rubel (alt)", "Rouble biélorusse (ancien)", "Rublo bielorruso (antiguo)", "Rublo bielorusso (vecchio)"]),
  ("BZD", ["Belize dollar", "Belize-Dollar", "Dollar bélizéen", "Dólar beliceño", "Dollaro beliziano"]),
  ("CAD", ["Canadian dollar", "Kanadischer Dollar", "Dollar canadien", "Dólar canadiense", "Dollaro canadese"]),
  ("CDF", ["Congolese franc", "Kongolesischer Franc", "Franc congolais", "Franco congoleño", "Franco congolese"]),
  ("CHE", ["WIR Bank", "WIR Bank", "Banque WIR", "Banco WIR", "Banca WIR"]),
  ("CHF", ["Swiss franc", "Schweizer Franken", "Franc suisse", "Franco suizo", "Franco svizzero"]),
  ("CHW", ["WIR Bank", "WIR Bank", "Banque WIR", "Banco WIR", "Banca WIR"]),
  ("CLF", ["Unidad de Fomento", "Unidad de Fomento", "Unidad de Fomento", "Unidad de Fomento", "Unidad de Fomento"]),
  ("CLP", ["Chilean peso", "Chilenischer Peso", "Peso chilien", "Peso chileno", "Peso cileno"]),
  ("CNY", ["Chinese yuan", "Chinesischer Yuan", "Yuan chinois", "Yuan chino", "Yuan cinese"]),
  ("COP", ["Colombian peso", "Kolumbianischer Peso", "Peso colombien", "Peso colombiano", "Peso colombiano"]),
  ("COU", ["Unidad de Valor Real", "Unidad de Valor Real", "Unidad de Valor Real", "Unidad de Valor Real", "Unidad de Valor Real"]),
  ("CRC", ["Costa Rican colon", "Costa-Rica-Colón", "Colón costaricain", "Colón costarricense", "Colon costaricano"]),
  ("CUC", ["Cuban convertible peso", "Kubanischer Konvertibler Peso", "Peso convertible cubain", "Peso convertible cubano", "Peso convertibile cubano"]),
  ("CUP", ["Cuban peso", "Kubanischer Peso", "Peso cubain", "Peso cubano", "Peso cubano"]),
  ("CVE", ["Cape Verde escudo", "Kapverdischer Escudo", "Escudo cap-verdien", "Escudo caboverdiano", "Scudo capoverdiano"]),
  ("CZK", ["Czech koruna", "Tschechische Krone", "Couronne tchèque", "Corona checa", "Corona ceca"]),
  ("DJF", ["Djiboutian franc", "Dschibutischer Franc", "Franc djiboutien", "Franco yibutiano", "Franco gibutiano"]),
  ("DKK", ["Danish krone", "Dänische Krone", "Couronne danoise", "Corona danesa", "Corona danese"]),
  ("DOP", ["Dominican peso", "Dominikanischer Peso", "Peso dominicain", "Peso dominicano", "Peso dominicano"]),
  ("DZD", ["Algerian dinar", "Algerischer Dinar", "Dinar algérien", "Dinar argelino", "Dinaro algerino"]),
  ("EEK", ["Estonian kroon", "Estnische Krone", "Couronne estonienne", "Corona estonia", "Corona estone"]),
  ("EGP", ["Egyptian pound", "Ägyptisches Pfund", "Livre égyptienne", "Libra egipcia", "Lira egiziana"]),
  ("ERN", ["Eritrean nakfa", "Eritreischer Nakfa", "Nakfa érythréen", "Nakfa eritreo", "Nakfa eritreo"]),
  ("ETB", ["Ethiopian birr", "Äthiopischer Birr", "Birr éthiopien", "Birr etíope", "Birr etiope"]),
  ("EUR", ["Euro", "Euro", "Euro", "Euro", "Euro"]),
  ("FJD", ["Fiji dollar", "Fidschi-Dollar", "Dollar fidjien", "Dólar fiyiano", "Dollaro Figi"]),
  ("FKP", ["Falkland Islands pound", "Falkland-Pfund", "Livre des îles Falkland", "Libra de las Malvinas", "Sterlina Falkland"]),
  ("GBP", ["Pound sterling", "Pfund Sterling", "Livre sterling", "Libra esterlina", "Sterlina britannica"]),
  ("GEL", ["Georgian lari", "Georgischer Lari", "Lari géorgien", "Lari georgiano", "Lari georgiano"]),
  ("GHS", ["Ghanaian cedi", "Ghana-Cedi", "Cedi ghanéen", "Cedi ghanés", "Cedi ghanese"]),
  ("GIP", ["Gibraltar pound", "Gibraltar-Pfund", "Livre de Gibraltar", "Libra de Gibraltar", "Sterlina di Gibilterra"]),
  ("GMD", ["Gambian dalasi", "Gambischer Dalasi", "Dalasi gambien", "Dalasi gambiano", "Dalasi gambiano"]),
  ("GNF", ["Guinean franc", "Guineischer Franc", "Franc guinéen", "Franco guineano", "Franco guineano"]),
  ("GTQ", ["Guatemalan quetzal", "Guatemaltekischer Quetzal", "Quetzal guatémaltèque", "Quetzal guatemalteco", "Quetzal guatemalteco"]),
  ("GYD", ["Guyanese dollar", "Guyana-Dollar", "Dollar guyanais", "Dólar guyanés", "Dollaro guyanese"]),
  ("HKD", ["Hong Kong dollar", "Hongkong-Dollar", "Dollar de Hong Kong", "Dólar de Hong Kong", "Dollaro di Hong Kong"]),
  ("HNL", ["Honduran lempira", "Honduranische Lempira", "Lempira hondurien", "Lempira hondureño", "Lempira honduregna"]),
  ("HRK", ["Croatian kuna", "Kroatischer Kuna", "Kuna croate", "Kuna croata", "Kuna croata"]),
  ("HTG", ["Haitian gourde", "Haitianische Gourde", "Gourde haïtienne", "Gourde haitiana", "Gourde haitiano"]),
  ("HUF", ["Hungarian forint", "Ungarischer Forint", "Forint hongrois", "Forinto húngaro", "Fiorino ungherese"]),
  ("IDR", ["Indonesian rupiah", "Indonesische Rupiah", "Roupie indonésienne", "Rupia indonesia", "Rupia indonesiana"]),
  ("ILS", ["Israeli new sheqel", "Israelischer Neuer Schekel", "Nouveau shekel israélien", "Nuevo shéquel israelí", "Nuovo shekel israeliano"]),
  ("INR", ["Indian rupee", "Indische Rupie", "Roupie indienne", "Rupia india", "Rupia indiana"]),
  ("IQD", ["Iraqi dinar", "Irakischer Dinar", "Dinar irakien", "Dinar iraquí", "Dinaro iracheno"]),
  ("IRR", ["Iranian rial", "Iranischer Rial", "Rial iranien", "Rial iraní", "Rial iraniano"]),
  ("ISK", ["Icelandic króna", "Isländische Króna", "Couronne islandaise", "Corona islandesa", "Corona islandese"]),
  ("JMD", ["Jamaican dollar", "Jamaika-Dollar", "Dollar jamaïcain", "Dólar jamaiquino", "Dollaro giamaicano"]),
  ("JOD", ["Jordanian dinar", "Jordanischer Dinar", "Dinar jordanien", "Dinar jordano", "Dinaro giordano"]),
  ("JPY", ["Japanese yen", "Japanischer Yen", "Yen japonais", "Yen japonés", "Yen giapponese"]),
  ("KES", ["Kenyan shilling", "Kenianischer Schilling", "Shilling kényan", "Chelín keniano", "Sciellino keniota"]),
  ("KGS", ["Kyrgyzstani som", "Kirgisischer Som", "Som kirghize", "Som kirguís", "Som kirghiso"]),
  ("KHR", ["Cambodian riel", "Kambodschanischer Riel", "Riel cambodgien", "Riel camboyano", "Riel cambogiano"]),
  ("KMF", ["Comoro franc", "Komoren-Franc", "Franc comorien", "Franco comorense", "Franco comoriano"]),
  ("KPW", ["North Korean won", "Nordkoreanischer Won", "Won nord-coréen", "Won norcoreano", "Won nordcoreano"]),
  ("KRW", ["South Korean won", "Südkoreanischer Won", "Won sud-coréen", "Won surcoreano", "Won sudcoreano"]),
  ("KWD", ["Kuwaiti dinar", "Kuwait-Dinar", "Dinar koweïtien", "Dinar kuwaití", "Dinaro kuwaitiano"]),
  ("KYD", ["Cayman Islands dollar", "Kaiman-Dollar", "Dollar des îles Caïmans", "Dólar de las Islas Caimán", "Dollaro Cayman"]),
  ("KZT", ["Kazakhstani tenge", "Kasachischer Tenge", "Tenge kazakh", "Tenge kazajo", "Tenge kazako"]),
  ("LAK", ["Lao kip", "Laotischer Kip", "Kip laotien", "Kip laosiano", "Kip laotiano"]),
  ("LBP", ["Lebanese pound", "Libanesisches Pfund", "Livre libanaise", "Libra libanesa", "Lira libanese"]),
  ("LKR", ["Sri Lanka rupee", "Sri-Lanka-Rupie", "Roupie srilankaise", "Rupia de Sri Lanka", "Rupia dello Sri Lanka"]),
  ("LRD", ["Liberian dollar", "Liberianischer Dollar", "Dollar libérien", "Dólar liberiano", "Dollaro liberiano"]),
  ("LSL", ["Lesotho loti", "Lesothischer Loti", "Loti lesothien", "Loti lesothense", "Loti lesothiano"]),
  ("LTL", ["Lithuanian litas", "Litauischer Litas", "Litas lituanien", "Litas lituano", "Litas lituano"]),
  ("LVL", ["Latvian lats", "Lettischer Lats", "Lats letton", "Lats letón", "Lats lettone"]),
  ("LYD", ["Libyan dinar", "Libyscher Dinar", "Dinar libyen", "Dinar libio", "Dinaro libico"]),
  ("MAD", ["Moroccan dirham", "Marokkanischer Dirham", "Dirham marocain", "Dirham marroquí", "Dirham marocchino"]),
  ("MDL", ["Moldovan leu", "Moldauischer Leu", "Leu moldave", "Leu moldavo", "Leu moldavo"]),
  ("MGA", ["Malagasy ariary", "Madagassischer Ariary", "Ariary malgache", "Ariary malgache", "Ariary malgascio"]),
  ("MKD", ["Macedonian denar", "Mazedonischer Denar", "Denar macédonien", "Dinar macedonio", "Denar macedone"]),
  ("MMK", ["Myanma kyat", "Myanma-Kyat", "Kyat myanmarais", "Kyat birmano", "Kyat birmano"]),
  ("MNT", ["Mongolian tugrik", "Mongolischer Tugrik", "Tugrik mongol", "Tugrik mongol", "Tugrik mongolo"]),
  ("MOP", ["Macanese pataca", "Macao-Pataca", "Pataca macanaise", "Pataca de Macao", "Pataca di Macao"]),
  ("MRO", ["Mauritanian ouguiya", "Mauretanischer Ouguiya (alt)", "Ouguiya mauritanien (ancien)", "Ouguiya mauritano (antiguo)", "Ouguiya mauritano (vecchio)"]),
  ("MRU", ["Mauritanian ouguiya", "Mauretanischer Ouguiya", "Ouguiya mauritanien", "Ouguiya mauritano", "Ouguiya mauritano"]),
  ("MUR", ["Mauritian rupee", "Mauritius-Rupie", "Roupie mauricienne", "Rupia de Mauricio", "Rupia mauriziana"]),
  ("MVR", ["Maldivian rufiyaa", "Maledivische Rufiyaa", "Rufiyaa maldivien", "Rufiyaa maldivo", "Rufiyaa maldiviana"]),
  ("MWK", ["Malawian kwacha", "Malawische Kwacha", "Kwacha malawite", "Kwacha malauí", "Kwacha malawiano"]),
  ("MXN", ["Mexican peso", "Mexikanischer Peso", "Peso mexicain", "Peso mexicano", "Peso messicano"]),
  ("MXV", ["Mexican UDI", "Mexikanische UDI", "UDI mexicaine", "UDI mexicana", "UDI messicana"]),
  ("MYR", ["Malaysian ringgit", "Malaysischer Ringgit", "Ringgit malaisien", "Ringgit malayo", "Ringgit malese"]),
  ("MZN", ["Mozambican metical", "Mosambikanischer Metical", "Metical mozambicain", "Metical mozambiqueño", "Metical mozambicano"]),
  ("NAD", ["Namibian dollar", "Namibischer Dollar", "Dollar namibien", "Dólar namibio", "Dollaro namibiano"]),
  ("NGN", ["Nigerian naira", "Nigerianische Naira", "Naira nigérian", "Naira nigeriano", "Naira nigeriana"]),
  ("NIO", ["Cordoba oro", "Cordoba Oro", "Córdoba oro", "Córdoba oro", "Córdoba oro"]),
  ("NOK", ["Norwegian krone", "Norwegische Krone", "Couronne norvégienne", "Corona noruega", "Corona norvegese"]),
  ("NPR", ["Nepalese rupee", "Nepalesische Rupie", "Roupie népalaise", "Rupia nepalí", "Rupia nepalese"]),
  ("NZD", ["New Zealand dollar", "Neuseeland-Dollar", "Dollar néo-zélandais", "Dólar neozelandés", "Dollaro neozelandese"]),
  ("OMR", ["Omani rial", "Omanischer Rial", "Rial omanais", "Rial omaní", "Rial omanita"]),
  ("PAB", ["Panamanian balboa", "Panamaischer Balboa", "Balboa panaméen", "Balboa panameño", "Balboa panamense"]),
  ("PEN", ["Peruvian nuevo sol", "Peruanischer Nuevo Sol", "Nouveau sol péruvien", "Nuevo sol peruano", "Nuovo sol peruviano"]),
  ("PGK", ["Papua New Guinean kina", "Papua-Neuguinea-Kina", "Kina papou-néo-guinéen", "Kina de Papúa Nueva Guinea", "Kina della Papua Nuova Guinea"]),
  ("PHP", ["Philippine peso", "Philippinischer Peso", "Peso philippin", "Peso filipino", "Peso filippino"]),
  ("PKR", ["Pakistani rupee", "Pakistanische Rupie", "Roupie pakistanaise", "Rupia pakistaní", "Rupia pachistana"]),
  ("PLN", ["Polish złoty", "Polnischer Złoty", "Złoty polonais", "Złoty polaco", "Złoty polacco"]),
  ("PYG", ["Paraguayan guaraní", "Paraguayischer Guaraní", "Guaraní paraguayen", "Guaraní paraguayo", "Guaraní paraguayano"]),
  ("QAR", ["Qatari rial", "Katar-Rial", "Rial qatari", "Rial catarí", "Rial qatari"]),
  ("RON", ["Romanian new leu", "Rumänischer Neuer Leu", "Nouveau leu roumain", "Nuevo leu rumano", "Nuovo leu romeno"]),
  ("RSD", ["Serbian dinar", "Serbischer Dinar", "Dinar serbe", "Dinar serbio", "Dinar serbo"]),
  ("RUB", ["Rouble", "Russischer Rubel", "Rouble", "Rublo", "Rublo"]),
  ("RWF", ["Rwandan franc", "Ruandischer Franc", "Franc rwandais", "Franco ruandés", "Franco ruandese"]),
  ("SAR", ["Riyal", "Saudi-Rial", "Rial saoudien", "Rial saudí", "Rial saudita"]),
  ("SBD", ["Solomon Islands dollar", "Salomonen-Dollar", "Dollar des îles Salomon", "Dólar de las Islas Salomón", "Dollaro delle Isole Salomone"]),
  ("SCR", ["Seychelles rupee", "Seychellen-Rupie", "Roupie seychelloise", "Rupia de Seychelles", "Rupia delle Seychelles"]),
  ("SDG", ["Sudanese pound", "Sudanese Pfund", "Livre soudanaise", "Libra sudanesa", "Sterlina sudanese"]),
  ("SEK", ["Swedish krona", "Schwedische Krone", "Couronne suédoise", "Corona sueca", "Corona svedese"]),
  ("SGD", ["Singapore dollar", "Singapur-Dollar", "Dollar singapourien", "Dólar de Singapur", "Dollaro di Singapore"]),
  ("SHP", ["Saint Helena pound", "St.-Helena-Pfund", "Livre de Sainte-Hélène", "Libra de Santa Elena", "Sterlina di Sant’Elena"]),
  ("SLL", ["Leone", "Leone", "Leone", "Leone", "Leone"]),
  ("SLE", ["Leone", "Leone", "Leone", "Leone", "Leone"]),
  ("SOS", ["Somali shilling", "Somali-Schilling", "Shilling somalien", "Chelín somalí", "Sciellino somalo"]),
  ("SRD", ["Surinamese dollar", "Suriname-Dollar", "Dollar surinamien", "Dólar surinamés", "Dollaro surinamese"]),
  ("SSP", ["South Sudanese pound", "Südsudan-Pfund", "Livre du Soudan du Sud", "Libra de Sudán del Sur", "Sterlina del Sud Sudan"]),
  ("STD", ["São Tomé and Príncipe dobra", "São-Tomé-und-Príncipe-Dobra (alt)", "Dobra de São Tomé-et-Príncipe (ancien)", "Dobra de Santo Tomé y Príncipe (antiguo)", "Dobra di São Tomé e Príncipe (vecchio)"]),
  ("STN", ["Dobra", "Dobra", "Dobra", "Dobra", "Dobra"]),
  ("SVC", ["Salvadoran colón", "El-Salvador-Colón", "Colón salvadorien", "Colón salvadoreño", "Colón salvadoregno"]),
  ("SYP", ["Syrian pound", "Syrisches Pfund", "Livre syrienne", "Libra siria", "Sterlina siriana"]),
  ("SZL", ["Lilangeni", "Lilangeni", "Lilangeni", "Lilangeni", "Lilangeni"]),
  ("THB", ["Baht", "Baht", "Baht", "Baht", "Baht"]),
  ("TJS", ["Tajikistani somoni", "Tadschikischer Somoni", "Somoni tadjik", "Somoni tayiko", "Somoni tagiko"]),
  ("TMT", ["Turkmenistani manat", "Turkmenischer Manat", "Manat turkmène", "Manat turcomano", "Manat turkmeno"]),
  ("TND", ["Tunisian dinar", "Tunesischer Dinar", "Dinar tunisien", "Dinar tunecino", "Dinaro tunisino"]),
  ("TOP", ["Pa'anga", "Paʻanga", "Paʻanga", "Paʻanga", "Paʻanga"]),
  ("TRY", ["Turkish lira", "Türkische Lira", "Livre turque", "Lira turca", "Lira turca"]),
  ("TTD", ["Trinidad and Tobago dollar", "Trinidad-und-Tobago-Dollar", "Dollar de Trinité-et-Tobago", "Dólar de Trinidad y Tobago", "Dollaro di Trinidad e Tobago"]),
  ("TWD", ["New Taiwan dollar", "Neuer Taiwan-Dollar", "Nouveau dollar taïwanais", "Nuevo dólar taiwanés", "Nuovo dollaro taiwanese"]),
  ("TZS", ["Tanzanian shilling", "Tansania-Schilling", "Shilling tanzanien", "Chelín tanzano", "Sciellino tanzaniano"]),
  ("UAH", ["Hryvnia", "Hrywnja", "Hryvnia", "Hryvnia", "Hryvnia"]),
  ("UGX", ["Ugandan shilling", "Uganda-Schilling", "Shilling ougandais", "Chelín ugandés", "Sciellino ugandese"]),
  ("USD", ["US Dollar", "US-Dollar", "Dollar américain", "Dólar estadounidense", "Dollaro USA"]),
  ("USN", ["Next Day US Dollar", "US-Dollar (nächster Tag)", "Dollar américain (jour suivant)", "Dólar estadounidense (día siguiente)", "Dollaro USA (giorno successivo)"]),
  ("USS", ["Same Day US Dollar", "US-Dollar (gleicher Tag)", "Dollar américain (jour même)", "Dólar estadounidense (mismo día)", "Dollaro USA (stesso giorno)"]),
  ("UYI", ["Uruguay Peso en Unidades Indexadas", "Uruguay Peso en Unidades Indexadas", "Uruguay Peso en Unidades Indexadas", "Uruguay Peso en Unidades Indexadas", "Uruguay Peso en Unidades Indexadas"]),
  ("UYU", ["Uruguayan peso", "Uruguayischer Peso", "Peso uruguayen", "Peso uruguayo", "Peso uruguaiano"]),
  ("UYW", ["Unidad Previsional", "Unidad Previsional", "Unidad Previsional", "Unidad Previsional", "Unidad Previsional"]),
  ("UZS", ["Som", "Usbekischer Som", "Som ouzbek", "Som uzbeko", "Som uzbeko"]),
  ("VEB", ["Venezualan Bolivar", "Venezolanischer Bolívar (alt)", "Bolívar vénézuélien (ancien)", "Bolívar venezolano (antiguo)", "Bolívar venezuelano (vecchio)"]),
  ("VEF", ["Venezuelan Bolivar Fuerte", "Venezolanischer Bolívar Fuerte (alt)", "Bolívar fuerte vénézuélien (ancien)", "Bolívar fuerte venezolano (antiguo)", "Bolívar fuerte venezuelano (vecchio)"]),
  ("VES", ["Bolívar Soberano", "Bolívar Soberano", "Bolívar souverain", "Bolívar soberano", "Bolívar sovrano"]),
  ("VED", ["Bolívar Soberano", "Bolívar Soberano", "Bolívar souverain", "Bolívar soberano", "Bolívar sovrano"]),
  ("VND", ["đồng", "Vietnamesischer Đồng", "Đồng vietnamien", "Đồng vietnamita", "Đồng vietnamita"]),
  ("VUV", ["Vanuatu vatu", "Vanuatu-Vatu", "Vatu vanuatais", "Vatu vanuatuense", "Vatu vanuatuense"]),
  ("WST", ["Samoan tala", "Samoanischer Tala", "Tala samoan", "Tala samoano", "Tala samoano"]),
  ("XAF", ["CFA Franc BEAC", "CFA-Franc BEAC", "Franc CFA BEAC", "Franco CFA BEAC", "Franco CFA BEAC"]),
  ("XAG", ["Silver", "Silber", "Argent", "Plata", "Argento"]),
  ("XAU", ["Gold", "Gold", "Or", "Oro", "Oro"]),
  ("XBA", ["EURCO", "EURCO", "EURCO", "EURCO", "EURCO"]),
  ("XBB", ["E.M.U.-6", "E.M.U.-6", "UEM-6", "UEM-6", "UEM-6"]),
  ("XBC", ["E.U.A.-9", "E.U.A.-9", "UE-9", "UE-9", "UE-9"]),
  ("XBD", ["E.U.A.-17", "E.U.A.-17", "UE-17", "UE-17", "UE-17"]),
  ("XCD", ["East Caribbean dollar", "Ostkaribischer Dollar", "Dollar des Caraïbes orientales", "Dólar del Caribe Oriental", "Dollaro dei Caraibi orientali"]),
  ("XDR", ["Special Drawing Rights", "Sonderziehungsrechte", "Droits de tirage spéciaux", "Derechos especiales de giro", "Diritti speciali di prelievo"]),
  ("XFU", ["UIC Franc", "UIC-Franc", "Franc UIC", "Franco UIC", "Franco UIC"]),
  ("XOF", ["CFA Franc BCEAO", "CFA-Franc BCEAO", "Franc CFA BCEAO", "Franco CFA BCEAO", "Franco CFA BCEAO"]),
  ("XPD", ["Palladium", "Palladium", "Palladium", "Paladio", "Palladio"]),
  ("XPF", ["CFP Franc", "CFP-Franc", "Franc CFP", "Franco CFP", "Franco CFP"]),
  ("XPT", ["Platinum", "Platin", "Platine", "Platino", "Platino"]),
  ("XSU", ["SUCRE", "SUCRE", "SUCRE", "SUCRE", "SUCRE"]),
  ("XUA", ["ADB Unit of Account", "ADB-Rechnungseinheit", "Unité de compte de la BAD", "Unidad de cuenta del BAD", "Unità di conto Banca Asiatica"]),
  ("YER", ["Yemeni rial", "Jemen-Rial", "Rial yéménite", "Rial yemení", "Rial yemenita"]),
  ("ZAR", ["South African rand", "Südafrikanischer Rand", "Rand sud-africain", "Rand sudafricano", "Rand sudafricano"]),
  ("ZMK", ["Zambian kwacha", "Sambischer Kwacha (alt)", "Kwacha zambien (ancien)", "Kwacha zambiano (antiguo)", "Kwacha zambiano (vecchio)"]),
  ("ZMW", ["Zambian kwacha", "Sambischer Kwacha", "Kwacha zambien", "Kwacha zambiano", "Kwacha zambiano"]),
  ("ZWG", ["Zimbabwe Gold", "Simbabwe-Gold", "Or du Zimbabwe", "Oro de Zimbabue", "Oro dello Zimbabwe"]),
  ("ZWL", ["Zimbabwe dollar", "Simbabwe-Dollar", "Dollar zimbabwéen", "Dólar zimbabuense", "Dollaro dello Zimbabwe"]),
  ("Cal", ["Calorie", "Kalorie", "Calorie", "Caloría", "Caloria"]),
  ("t", ["Tonne", "Tonne", "Tonne", "Tonelada", "Ton"]),
  ("B", ["Byte", "Byte", "Octet", "Byte", "Byte"]),
  ("GB", ["Gigabyte", "Gigabyte", "Gigaoctet", "Gigabyte", "Gigabyte"]),
  ("kB", ["Kilobyte", "Kilobyte", "Kilooctet", "Kilobyte", "Kilobyte"]),
  ("MB", ["Megabyte", "Megabyte", "Mégaoctet", "Megabyte", "Megabyte"]),
  ("TB", ["Terabyte", "Terabyte", "Téraoctet", "Terabyte", "Terabyte"]),
  ("ha", ["Hectare", "Hektar", "Hectare", "Hectárea", "Ettaro"]),
  ("sqkm", ["Square km", "Quadratkilometer", "Kilomètre carré", "Kilómetro cuadrado", "Chilometro quadrato"]),
  ("sqm", ["Square metre", "Quadratmeter", "Mètre carré", "Metro cuadrado", "Metro quadrato"]),
  ("A", ["Ampere", "Ampere", "Ampère", "Amperio", "Ampere"]),
  ("J", ["Joule", "Joule", "Joule", "Julio", "Joule"]),
  ("kJ", ["Kilojoule", "Kilojoule", "Kilojoule", "Kilojulio", "Kilojoule"]),
  ("kWh", ["Kilowatt-Hours", "Kilowattstunde", "Kilowatt-heure", "Kilovatio-hora", "Kilowattora"]),
  ("mJ", ["mJ", "Millijoule", "Millijoule", "Milijulio", "Millijoule"]),
  ("MWh", ["Megawatt-Hour", "Megawattstunde", "Mégawatt-heure", "Megavatio-hora", "Megawattora"]),
  ("V", ["Volt", "Volt", "Volt", "Volt", "Volt"]),
  ("Hz", ["Hertz", "Hertz", "Hertz", "Hertz", "Hertz"]),
  ("cm", ["Centimetre", "Zentimeter", "Centimètre", "Centímetro", "Centimetro"]),
  ("dm", ["Decimetre", "Dezimeter", "Décimètre", "Decímetro", "Decimetro"]),
  ("km", ["Kilometre", "Kilometer", "Kilomètre", "Kilómetro", "Chilometro"]),
  ("m", ["Metre", "Meter", "Mètre", "Metro", "Metro"]),
  ("mm", ["Millimetre", "Millimeter", "Millimètre", "Milímetro", "Millimetro"]),
  ("g", ["Gram", "Gramm", "Gramme", "Gramo", "Grammo"]),
  ("kg", ["Kilogram", "Kilogramm", "Kilogramme", "Kilogramo", "Chilogrammo"]),
  ("GW", ["Gigawatt", "Gigawatt", "Gigawatt", "Gigavatio", "Gigawatt"]),
  ("kW", ["Kilowatt", "Kilowatt", "Kilowatt", "Kilovatio", "Kilowatt"]),
  ("MW", ["Megawatt", "Megawatt", "Mégawatt", "Megavatio", "Megawatt"]),
  ("TW", ["Terawatt", "Terawatt", "Térawatt", "Teravatio", "Terawatt"]),
  ("W", ["Watt", "Watt", "Watt", "Vatio", "Watt"]),
  ("kV", ["Kilovolt", "Kilovolt", "Kilovolt", "Kilovoltio", "Kilovolt"]),
  ("l", ["Litre", "Liter", "Litre", "Litro", "Litro"]),
  ("m3", ["Cubic Metre", "Kubikmeter", "Mètre cube", "Metro cúbico", "Metro cubo"]),
  ("bu", ["Bushel", "Scheffel", "Boisseau", "Bushel", "Bushel"]),
  ("aft", ["Acre-Foot", "Acre-Fuß", "Acre-pied", "Acre-pie", "Acre-piede"]),
  ("Monetary_per_Share", ["Monetary/share", "Monetär/Aktie", "Monétaire/action", "Monetario/acción", "Monetario/azione"]),
  ("Monetary_per_Decimal", ["Monetary/Decimal", "Monetär/Dezimal", "Monétaire/décimal", "Monetario/decimal", "Monetario/decimale"]),
  ("Monetary_per_Monetary", ["Monetary/Monetary", "Monetär/Monetär", "Monétaire/monétaire", "Monetario/monetario", "Monetario/monetario"]),
  ("pure", ["pure", "Reine Zahl", "Nombre pur", "Número puro", "Numero puro"]),
  ("Rate", ["Rate", "Rate", "Taux", "Tasa", "Tasso"]),
  ("shares", ["Share", "Aktie", "Action", "Acción", "Azione"]),
  ("Y", ["Year", "Jahr", "Année", "Año", "Anno"]),
  ("M", ["Month", "Monat", "Mois", "Mes", "Mese"]),
  ("D", ["Day", "Tag", "Jour", "Día", "Giorno"]),
  ("H", ["Hour", "Stunde", "Heure", "Hora", "Ora"]),
  ("MM", ["Minute", "Minute", "Minute", "Minuto", "Minuto"]),
  ("S", ["Second", "Sekunde", "Seconde", "Segundo", "Secondo"]),
  ("Volume_per_Duration", ["Volume/Duration", "Volumen/Zeitraum", "Volume/durée", "Volumen/duración", "Volume/durata"]),
  ("MV", ["Megavolt", "Megavolt", "Mégavolt", "Megavoltio", "Megavolt"]),
  ("GV", ["Gigavolt", "Gigavolt", "Gigavolt", "Gigavoltio", "Gigavolt"]),
  ("Bcf", ["Billions of cubic feet", "Milliarden Kubikfuß", "Milliards de pieds cubes", "Miles de millones de pies cúbicos", "Miliardi di piedi cubi"]),
  ("Tcf", ["Trillions of cubic feet", "Billionen Kubikfuß", "Billions de pieds cubes", "Billones de pies cúbicos", "Trilioni di piedi cubi"]),
  ("GWh", ["Gigawatt-Hour", "Gigawattstunde", "Gigawatt-heure", "Gigavatio-hora", "Gigawattora"]),
  ("TWh", ["Terawatt-Hour", "Terawattstunde", "Térawatt-heure", "Teravatio-hora", "Terawattora"]),
  ("Q", ["Quarter", "Quartal", "Trimestre", "Trimestre", "Trimestre"]),
  ("WK", ["Week", "Woche", "Semaine", "Semana", "Settimana"]),
  ("MMcfe", ["Million Cubic Foot Equivalent", "Million Kubikfuß-Äquivalent", "Million de pieds cubes équivalent", "Millón de pies cúbicos equivalente", "Milione di piedi cubici equivalente"]),
  ("Bcfe", ["Billion Cubic Foot Equivalent", "Milliarde Kubikfuß-Äquivalent", "Milliard de pieds cubes équivalent", "Mil millones de pies cúbicos equivalente", "Miliardo di piedi cubici equivalente"]),
  ("Tcfe", ["Trillion Cubic Foot Equivalent", "Billion Kubikfuß-Äquivalent", "Billion de pieds cubes équivalent", "Billón de pies cúbicos equivalente", "Trilione di piedi cubici equivalente"]),
  ("kT", ["Thousand Tons", "Tausend Tonnen", "Mille tonnes", "Mil toneladas", "Mille tonnellate"]),
  ("MT", ["Million Tons", "Million Tonnen", "Million de tonnes", "Millón de toneladas", "Milione di tonnellate"]),
  ("GT", ["Billion Tons", "Milliarde Tonnen", "Milliard de tonnes", "Mil millones de toneladas", "Miliardo di tonnellate"]),
  ("kt", ["Kilotonne", "Kilotonne", "Kilotonne", "Kilotón", "Chilotonna"]),
  ("Mt", ["Megatonne", "Megatonne", "Mégatonne", "Megatón", "Megatonna"]),
  ("Gt", ["Gigatonne", "Gigatonne", "Gigatonne", "Gigatón", "Gigatonna"]),
  ("MWM", ["Megawatt-Month", "Megawatt-Monat", "Mégawatt-mois", "Megavatio-mes", "Megawatt-mese"]),
  ("GWM", ["Gigawatt-Month", "Gigawatt-Monat", "Gigawatt-mois", "Gigavatio-mes", "Gigawatt-mese"]),
  ("Energy_per_Duration", ["Energy/Duration", "Energie/Zeitraum", "Énergie/durée", "Energía/duración", "Energia/durata"]),
  ("Celsius", ["Celsius", "Celsius", "Celsius", "Celsius", "Celsius"]),
  ("K", ["Kelvin", "Kelvin", "Kelvin", "Kelvin", "Kelvin"]),
  ("F", ["Fahrenheit", "Fahrenheit", "Fahrenheit", "Fahrenheit", "Fahrenheit"]),
  ("Pa", ["Pascal", "Pascal", "Pascal", "Pascal", "Pascal"]),
  ("Bar", ["Bar", "Bar", "Bar", "Bar", "Bar"]),
  ("psi", ["Pounds Per Square Inch", "Pfund pro Quadratzoll", "Livre par pouce carré", "Libra por pulgada cuadrada", "Libbra per pollice quadrato"]),
  ("atm", ["Standard Atmosphere", "Standardatmosphäre", "Atmosphère standard", "Atmósfera estándar", "Atmosfera standard"]),
  ("N", ["Newton", "Newton", "Newton", "Newton", "Newton"]),
  ("var", ["Volt-ampere reactive", "Blindleistung (Volt-Ampere)", "Volt-ampère réactif", "Voltio-amperio reactivo", "Volt-ampere reattivo"]),
  ("VA", ["Volt-ampere", "Scheinleistung (Volt-Ampere)", "Volt-ampère", "Voltio-amperio", "Volt-ampere"]),
  ("Wh", ["Watt-Hours", "Wattstunde", "Watt-heure", "Vatio-hora", "Wattora"]),
  ("VAh", ["Volt-ampere-hours", "Volt-Ampere-Stunden", "Volt-ampère-heure", "Voltio-amperio-hora", "Volt-ampere-ora"]),
  ("Ah", ["Ampere Hours", "Amperestunde", "Ampère-heure", "Amperio-hora", "Ampere-ora"]),
  ("C", ["Coulomb", "Coulomb", "Coulomb", "Culombio", "Coulomb"]),
  ("Degree", ["Degree", "Grad", "Degré", "Grado", "Grado"]),
  ("rad", ["Radian", "Radiant", "Radian", "Radián", "Radianti"]),
  ("dth", ["Dekatherm", "Dekatherm", "Décatherm", "Decatherm", "Decatherm"]),
  ("MWd", ["Megawatt-Day", "Megawatt-Tag", "Mégawatt-jour", "Megavatio-día", "Megawatt-giorno"]),
  ("GJ", ["Gigajoule", "Gigajoule", "Gigajoule", "Gigajulio", "Gigajoule"]),
  ("MJ", ["Megajoule", "Megajoule", "Mégajoule", "Megajulio", "Megajoule"]),
  ("TJ", ["Terajoule", "Terajoule", "Térajoule", "Terajulio", "Terajoule"]),
  ("PB", ["Petabyte", "Petabyte", "Pétaoctet", "Petabyte", "Petabyte"]),
  ("Mvar", ["Million Volt-ampere reactive", "Million Volt-Ampere Blindleistung", "Million Volt-ampère réactif", "Millón Voltio-amperio reactivo", "Milioni Volt-ampere reattivo"]),
  ("MVA", ["MegaVolt-ampere", "Megavolt-Ampere", "Mégavolt-ampère", "Megavoltio-amperio", "Megavolt-ampere"]),
  ("tCO2e", ["Metric tonnes of CO2 equivalent", "Tonnen CO₂-Äquivalent", "Tonnes équivalent CO₂", "Toneladas equivalentes de CO₂", "Tonnellate equivalenti CO₂"]),
  ("ktCO2e", ["Thousand metric tonnes of CO2 equivalent", "Tausend Tonnen CO₂-Äquivalent", "Mille tonnes équivalent CO₂", "Mil toneladas equivalentes de CO₂", "Mille tonnellate equivalenti CO₂"]),
  ("MtCO2e", ["Million metric tonnes of CO2 equivalent", "Millionen Tonnen CO₂-Äquivalent", "Millions de tonnes équivalent CO₂", "Millones de toneladas equivalentes de CO₂", "Milioni di tonnellate equivalenti CO₂"]),
  ("GtCO2e", ["Thousand million metric tonnes of CO2 equivalent", "Tausend Millionen Tonnen CO₂-Äquivalent", "Mille millions de tonnes équivalent CO₂", "Mil millones de toneladas equivalentes de CO₂", "Miliardi di tonnellate equivalenti CO₂"]),
  ("Emissions_per_Monetary", ["Emissions/Monetary", "Emissionen/Monetär", "Émissions/Monétaire", "Emisiones/Monetario", "Emissioni/Monetario"]),
  ("Energy_per_Monetary", ["Energy/Monetary", "Energie/Monetär", "Énergie/Monétaire", "Energía/Monetario", "Energia/Monetario"]),
  ("Volume_per_Monetary", ["Volume/Monetary", "Volumen/Monetär", "Volume/Monétaire", "Volumen/Monetario", "Volume/Monetario"]),
  ("gCO2e", ["Grams of CO2 equivalent", "Gramm CO₂-Äquivalent", "Grammes équivalent CO₂", "Gramos equivalentes de CO₂", "Grammi equivalenti CO₂"]),
  ("hl", ["Hectolitre", "Hektoliter", "Hectolitre", "Hectolitro", "Ettolitro"]),
  ("Mhl", ["Millions of hectolitres", "Millionen Hektoliter", "Millions d’hectolitres", "Millones de hectolitros", "Milioni di ettolitri"]),
  ("Ml", ["Megalitre", "Megaliter", "Mégalitre", "Megalitro", "Megalitro"]),
  ("Mm3", ["Thousand cubic metres", "Tausend Kubikmeter", "Mille mètres cubes", "Mil metros cúbicos", "Mille metri cubi"]),
  ("TEU", ["Twenty-foot equivalent unit", "Zwanzig-Fuß-Standardcontainer", "Équivalent vingt pieds", "Equivalente a veinte pies", "Unità equivalente venti piedi"])]

/-- translations.csv -/
def shippedSections : List (String × List (String × List String)) := [("boolean", textsBoolean), ("report-element", textsElement), ("literal", textsLiteral), ("period-type", textsPeriod), ("balance-type", textsBalance), ("data-type", textsData), ("unit", textsUnit)]

/-- translations.csv -/
def shippedRows : List TransRow := shippedSections.flatMap (fun s => sectionRows s.1 s.2)

/-- brel/data/factory.py 104-107 (`create_translation_service`) -/
def shippedTranslations : Translations := Translations.load shippedRows

end Brel
