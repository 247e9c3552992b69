{"id": "C01", "title": "A context keeps the first characteristic of every aspect", "statement": "After any sequence of characteristics has been added to a context, looking up an aspect returns the first characteristic that was added for an aspect of that name, and returns nothing exactly when no characteristic of that aspect was ever added. Later additions for the same aspect never change an answer.", "quantifier": "every finite history of characteristic additions, every aspect looked up", "why_tests_cant": "The claim is about every history and every interleaving of aspects; a test fixes a handful of additions.", "anchors": ["brel/brel_context.py: Context._add_characteristic, get_characteristic, has_characteristic"]}
{"id": "C02", "title": "A context lists its aspects once each, in name order", "statement": "get_aspects() of any context contains exactly the aspects for which a characteristic was added, each one once, sorted by name; every listed aspect has a characteristic.", "quantifier": "every finite history of characteristic additions", "why_tests_cant": "Sortedness and absence of duplicates must survive every insertion order.", "anchors": ["brel/brel_context.py: Context._add_characteristic, get_aspects"]}
{"id": "C03", "title": "Facts sharing a contextRef do not influence each other", "statement": "When several facts refer to the same context id, each fact's context consists of the declared context plus that fact's own concept and unit; what is added for one fact is never visible in another fact or in the stored context.", "quantifier": "every sequence of context declarations and fact constructions", "why_tests_cant": "Aliasing bugs appear only for particular orders of facts sharing a context; the claim is over all of them.", "anchors": ["brel/data/context/in_memory_context_repository.py: InMemoryContextRepository", "brel/parsers/XHMTL/xhtml_parse_facts.py: parse_facts"]}
{"id": "C04", "title": "get_value() returns the type announced by the concept", "statement": "Fact.get_value() yields an integer for integer concepts, a float for other numeric concepts, a boolean for boolean concepts and the text otherwise; it raises ValueError exactly when the text does not denote a value of that type.", "quantifier": "every fact text and every concept data type", "why_tests_cant": "All strings and all data-type names are in scope.", "anchors": ["brel/brel_fact.py: Fact.get_value, __int__, __float__, __bool__", "brel/reportelements/concept.py: Concept.is_integer, is_numeric, is_boolean"]}
{"id": "C05", "title": "Core facts are exactly the facts without user-defined dimensions", "statement": "get_all_core_facts() returns, in order, exactly the facts of the filing none of whose aspects is a user-defined dimension.", "quantifier": "every filing and every set of aspects", "why_tests_cant": "Must hold for every combination of core and non-core aspects.", "anchors": ["brel/brel_filing.py: Filing.get_all_core_facts", "brel/brel_fact.py: Fact.is_core", "brel/brel_context.py: Context.has_noncore_dimensions"]}
{"id": "C06", "title": "The fact store returns every fact that was stored", "statement": "After any sequence of upserts, get_all_facts() contains every stored fact that was not replaced by a later fact with the same id, and get_by_id returns the latest fact with that id.", "quantifier": "every history of fact upserts, with and without ids", "why_tests_cant": "Histories of any length, including facts without id.", "anchors": ["brel/data/fact/in_memory_fact_repository.py: InMemoryFactRepository"]}
{"id": "C07", "title": "get_all_reported_concepts() is the duplicate-free list of concepts with facts", "statement": "get_all_reported_concepts() contains a concept if and only if some fact of the filing reports it, contains it once, and lists concepts in order of first appearance.", "quantifier": "every list of facts", "why_tests_cant": "Completeness and uniqueness for every multiset of facts.", "anchors": ["brel/brel_filing.py: Filing.get_all_reported_concepts"]}
{"id": "C08", "title": "get_facts_by_concept_name() returns exactly the facts of the concept", "statement": "Given a name that denotes exactly one concept, get_facts_by_concept_name() returns exactly the facts whose concept has that name, in filing order; if the name denotes no concept or several, no fact list is returned.", "quantifier": "every filing, every name", "why_tests_cant": "Soundness and completeness over arbitrary fact lists.", "anchors": ["brel/brel_filing.py: Filing.get_facts_by_concept_name, get_facts_by_concept, get_concept_by_name"]}
{"id": "C09", "title": "get_component() finds the component with the given URI", "statement": "get_component(uri) returns the first component whose URI equals uri and raises ValueError exactly when there is none; get_all_component_uris() lists the URIs of all components in order.", "quantifier": "every list of components and every URI", "why_tests_cant": "Needs all lists, including duplicate URIs.", "anchors": ["brel/brel_filing.py: Filing.get_component, get_all_component_uris"]}
{"id": "C10", "title": "Preferred languages respect the configured priority", "statement": "The resulting language list contains no duplicates, contains exactly the languages offered by the enabled sources, and orders two languages by the highest-priority source that mentions them (call, filing, library, system, report, default).", "quantifier": "every content of every language source, every combination of the flags", "why_tests_cant": "Order and uniqueness for arbitrary, overlapping language lists.", "anchors": ["brel/brel_filing.py: Filing.get_preferred_languages"]}
{"id": "C11", "title": "Output parameters are resolved call > filing > library > False", "statement": "For every boolean output parameter the effective value is the value passed in the call, else the value set on the filing, else the library value, else False; an explicit False is respected.", "quantifier": "every assignment of every parameter at every level", "why_tests_cant": "All combinations of present/absent/True/False over three levels and all parameters.", "anchors": ["brel/brel_filing.py: Filing.get_preferred_output_parameter", "brel/config/brel_config.py: BrelConfig"]}
{"id": "C12", "title": "allow_system_language and allow_report_language control their own source", "statement": "In DataFrame output, the system language is offered if and only if allow_system_language is effective, and the report languages if and only if allow_report_language is effective.", "quantifier": "every effective setting of the two flags and every language environment", "why_tests_cant": "A test with both flags equal cannot distinguish them; the claim is for all settings.", "anchors": ["brel/brel_filing.py: Filing.__infer_output_params, get_preferred_languages"]}
{"id": "C13", "title": "A single-language DataFrame has one row per element in one language", "statement": "With allow_mixed disabled, the resulting table contains exactly one row per element, all rendered in one language, namely the first preferred language in which every element can be rendered.", "quantifier": "every list of elements, every list of languages, every availability relation", "why_tests_cant": "The interplay of partial failures in several languages has unboundedly many shapes.", "anchors": ["brel/brel_filing.py: Filing.__generate_pandas_df_from_elements"]}
{"id": "C14", "title": "Translations are taken from the earliest preferred language that has one", "statement": "A translation or label request returns the text of the earliest language in the preference list that offers one (an entry with a matching language tag; the default language and names without any translation offer the name itself), and fails exactly when no language in the list offers one.", "quantifier": "every translation table and every preference list", "why_tests_cant": "All tables and preference lists.", "anchors": ["brel/services/translation/translation_service.py: TranslationService.get, get_single, languages_match"]}
{"id": "C15", "title": "The main label follows the documented language priority", "statement": "The main label is a standard-choice English label when one exists, in the documented order of language tags, otherwise the first label; only an element without labels yields the no-label marker.", "quantifier": "every list of labels", "why_tests_cant": "All orders and multiplicities of labels.", "anchors": ["brel/characteristics/brel_aspect.py: Aspect.select_main_label", "brel/reportelements/i_report_element.py: IReportElement.select_main_label"]}
{"id": "C16", "title": "is_balance_consistent() decides the XBRL balance rule", "statement": "CalculationNetwork.is_balance_consistent() is True if and only if every concept in the network has a balance and for every parent/child pair the weight is non-negative for equal balances and non-positive for opposite balances.", "quantifier": "every finite calculation tree forest, every weight", "why_tests_cant": "Trees of any depth and width.", "anchors": ["brel/networks/calculation_network.py: CalculationNetwork.is_balance_consistent"]}
{"id": "C17", "title": "is_aggregation_consistent() checks every reported sum in the network", "statement": "is_aggregation_consistent() returns True only if for every inner node of the network and every fact of its concept the fact's value equals the weighted sum of the matching child facts.", "quantifier": "every calculation tree and every list of facts", "why_tests_cant": "Trees and fact lists of any size; whether a deep violation is seen depends on the facts of all its ancestors.", "anchors": ["brel/networks/calculation_network.py: CalculationNetwork.is_aggregation_consistent"]}
{"id": "C18", "title": "Children of a network node are always in order", "statement": "After any sequence of child insertions, get_children() is a permutation of the inserted children sorted by order, and children of equal order keep their insertion order.", "quantifier": "every sequence of insertions, every order value", "why_tests_cant": "Sorting stability and permutation for every history.", "anchors": ["brel/networks/presentation_network_node.py: PresentationNetworkNode._add_child", "brel/networks/calculation_network_node.py: CalculationNetworkNode._add_child", "brel/networks/definition_network_node.py: DefinitionNetworkNode._add_child", "brel/networks/footnote_network_node.py: FootnoteNetworkNode._add_child"]}
{"id": "C19", "title": "get_all_nodes() returns exactly the reachable nodes", "statement": "For every acyclic network get_all_nodes() returns without duplicates exactly the nodes reachable from the roots, and get_all_descendants() of a node covers exactly the nodes reachable from it.", "quantifier": "every finite acyclic network", "why_tests_cant": "Graphs of any size and sharing.", "anchors": ["brel/networks/i_network.py: INetwork.get_all_nodes", "brel/networks/i_network_node.py: INetworkNode.get_all_descendants"]}
{"id": "C20", "title": "A parsed link has exactly the arcs and roots of the XML link", "statement": "The network(s) built from an extended link contain a parent/child edge exactly for the pairs connected by some arc, and the roots are exactly the endpoints that have no incoming arc; a duplicate arc is reported and ignored.", "quantifier": "every list of arcs, locators and resources", "why_tests_cant": "Arc lists of any size with repeated labels.", "anchors": ["brel/parsers/XML/networks/xml_extended_link_parser.py: parse_xml_link"]}
{"id": "C21", "title": "Combining networks loses no node", "statement": "combine_networks() of several networks yields a network whose nodes cover every node of every input network, with all their children, and merges a root into an equal node when one exists.", "quantifier": "every list of networks", "why_tests_cant": "Any number of networks merged in any order.", "anchors": ["brel/parsers/utils/network_utils.py: combine_networks, nodes_equal"]}
{"id": "C22", "title": "Report element lookup refines a map", "statement": "After any history of upserts, lookup by QName returns the latest element stored under that QName, typed lookup succeeds exactly when that element has the requested type, and lookup by id returns an element currently stored with that id.", "quantifier": "every history of upserts", "why_tests_cant": "Histories with replaced elements and changed ids.", "anchors": ["brel/data/report_element/in_memory_report_element_repository.py: InMemoryReportElementRepository"]}
{"id": "C23", "title": "Prefixes and namespace URIs stay mutually consistent", "statement": "After any history of registrations, a URI is listed for a prefix if and only if the prefix is listed for the URI, and if and only if that pair was registered.", "quantifier": "every history of registrations", "why_tests_cant": "Histories of arbitrary length with conflicting registrations.", "anchors": ["brel/data/namespace/in_memory_namespace_repository.py: InMemoryNamespaceRepository"]}
{"id": "C24", "title": "URI rewriting uses a matching rule and changes only the prefix", "statement": "Rewriting replaces the start string of a matching rule by its replacement and leaves the rest of the URI unchanged; a URI matching no rule is returned unchanged; of several matching rules the longest start string is used.", "quantifier": "every history of rule insertions and deletions, every URI", "why_tests_cant": "Overlapping prefixes in any insertion order.", "anchors": ["brel/data/uri_rewrite/in_memory_uri_rewrite_repository.py: InMemoryURIRewriteRepository.rewrite"]}
{"id": "C25", "title": "Cached files of different URIs do not collide", "statement": "Two different URIs are stored under two different cache file names.", "quantifier": "every pair of URIs", "why_tests_cant": "A counterexample or a proof needs all pairs of strings.", "anchors": ["brel/parsers/utils/file_utils.py: uri_to_filename", "brel/data/file/pyfs_file_repository.py"]}
{"id": "C26", "title": "Loading follows references transitively and stops", "statement": "Opening an entry point loads every document reachable over references exactly once, loads nothing else, and terminates even when documents reference each other cyclically.", "quantifier": "every finite reference graph", "why_tests_cant": "Cyclic reference graphs of any size.", "anchors": ["brel/services/xml/xml_service.py: XMLService.add_etree_recursive"]}
{"id": "C27", "title": "QName text forms round-trip", "statement": "A QName written in Clark notation or as prefix:local and parsed again in a scope that declares its namespace yields the same QName.", "quantifier": "every QName with XML-legal parts and every namespace scope", "why_tests_cant": "All names and scopes, including several prefixes for one URI.", "anchors": ["brel/qnames/qname.py: QName", "brel/qnames/qname_utils.py: qname_from_str, is_clark_notation, is_namespace_localname"]}
{"id": "C28", "title": "Name search is sound and complete", "statement": "Searching report elements by a textual name returns every element whose name matches all given parts and nothing else.", "quantifier": "every repository content and every search string", "why_tests_cant": "All repositories and search strings.", "anchors": ["brel/services/report_element/report_element_service.py: ReportElementService.get_fuzzy", "brel/qnames/qname_search_params.py: QNameSearchParams"]}
{"id": "C29", "title": "Inline numeric values are scaled exactly", "statement": "For every text that matches a numeric transformation format and every integer scale, the value stored for the fact denotes the number written in the text multiplied by ten to the scale.", "quantifier": "every numeral of every length, every scale in the integers", "why_tests_cant": "Unbounded digit strings and scales; correctness at padding boundaries.", "anchors": ["brel/parsers/XHMTL/xhtml_parse_transformation_registry.py: parse_numerical_fact_value, apply_scale, process_number_part, normalize_numerical_fact_value"]}
{"id": "C30", "title": "Inline numeric values are stored as canonical numerals", "statement": "The stored text of a transformed numeric fact is a numeral without superfluous leading or trailing zeros that Fact.get_value() can read; in particular zero is stored as a numeral.", "quantifier": "every numeral, every scale", "why_tests_cant": "All numerals; zero is a single point among infinitely many.", "anchors": ["brel/parsers/XHMTL/xhtml_parse_transformation_registry.py: normalize_numerical_fact_value"]}
{"id": "C31", "title": "The sign attribute negates the value", "statement": "An inline numeric fact with sign=\"-\" denotes the negation of the value it would denote without the attribute, any other sign value is reported and ignored, and a nil fact has an empty value.", "quantifier": "every fact element", "why_tests_cant": "All combinations of text, sign, scale, format and nil.", "anchors": ["brel/parsers/XHMTL/elements/parse_non_fraction.py: process_non_fraction_value, parse_non_fraction_fact_element"]}
{"id": "C32", "title": "Inline dates are converted to the ISO date they denote", "statement": "For every date transformation the components are assigned according to the format's order, months are mapped to their number, two-digit years to 20xx, and the result is year-month-day, --month-day or year-month as announced by the format.", "quantifier": "every date text of every supported format", "why_tests_cant": "All formats, languages and digit strings.", "anchors": ["brel/parsers/XHMTL/xhtml_parse_transformation_registry.py: parse_date_fact_value, parse_date_match, normalize_date_parts, country_to_month_names"]}
{"id": "C33", "title": "Continuation chains terminate", "statement": "Building the continuation chains of a document terminates for every document, and for documents whose continuations are acyclic each chain is exactly the sequence obtained by following continuedAt.", "quantifier": "every finite set of continuation elements", "why_tests_cant": "Cyclic continuation graphs are rare in samples but possible inputs.", "anchors": ["brel/parsers/XHMTL/elements/parse_continuation_chain.py: create_continuation_chains"]}
{"id": "C34", "title": "Relevant content keeps all text except excluded text", "statement": "The text of a continued fact is the concatenation, in document order, of the text of its fragments without the text inside ix:exclude elements.", "quantifier": "every element tree and every chain", "why_tests_cant": "Trees of any depth with arbitrary mixed content.", "anchors": ["brel/parsers/XHMTL/elements/parse_continuation_chain.py: extract_relevant_content_per_element, merge_relevant_content", "brel/parsers/XHMTL/elements/parse_non_numeric.py: extract_text_content"]}
{"id": "C35", "title": "Inline footnote networks carry their link role", "statement": "Inline relationships are grouped into one footnote network per link role and arc role, and get_link_role() of each network is the link role of the relationships in it.", "quantifier": "every list of relationships", "why_tests_cant": "Any number of relationships with arbitrary roles.", "anchors": ["brel/parsers/XHMTL/networks/xhtml_parse_footnote_network.py: build_footnote_networks"]}
{"id": "C36", "title": "Every well-formed inline relationship is accepted", "statement": "Parsing the attributes of a relationship never crashes: missing arcrole, linkRole and order get their defaults and invalid values are reported and replaced by the default.", "quantifier": "every combination of attribute values", "why_tests_cant": "All combinations of present, absent, invalid.", "anchors": ["brel/parsers/XHMTL/networks/xhtml_parse_footnote_network.py: parse_relationship_attributes"]}
{"id": "C37", "title": "Normalised namespace maps are one-to-one", "statement": "normalize_nsmap() yields a map from prefixes to URIs in which every group of URIs that are versions of each other is represented by exactly one prefix, and no group is lost.", "quantifier": "every list of namespace maps", "why_tests_cant": "Collisions of prefixes between any number of groups.", "anchors": ["brel/parsers/XML/xml_namespace_normalizer.py: normalize_nsmap, generate_alternative_prefixes"]}
{"id": "C38", "title": "An entity characteristic has the identifier and scheme of its element", "statement": "The entity parsed from an entity element has exactly the scheme and identifier text of that element, whatever was parsed before.", "quantifier": "every history of parsed entities", "why_tests_cant": "Depends on the cache content left by every earlier element.", "anchors": ["brel/parsers/XML/characteristics/xml_parse_entity.py: parse_entity_from_xml", "brel/data/characteristic/in_memory_characteristic_repository.py"]}
{"id": "C39", "title": "A context is produced exactly when period and entity are valid", "statement": "Parsing a context element yields a context if and only if it has a valid period and a valid entity; otherwise an error is recorded. The context contains the period, the entity and every valid dimension of the segment.", "quantifier": "every context element", "why_tests_cant": "All shapes of context elements.", "anchors": ["brel/parsers/XML/xml_context_parser.py: parse_context_xml"]}
{"id": "C40", "title": "Units carry their numerators and denominators", "statement": "A unit element with a single measure yields a simple unit with that numerator; a divide element yields the measures of its numerator and denominator; malformed units are reported.", "quantifier": "every unit element", "why_tests_cant": "All shapes of unit elements.", "anchors": ["brel/parsers/XML/characteristics/xml_parse_unit.py: parse_unit_from_xml", "brel/characteristics/unit_characteristic.py"]}
{"id": "C41", "title": "No fact element disappears silently", "statement": "For every fact element of an instance either a fact is stored or an error is recorded, and every stored fact has the concept, unit and context its element refers to.", "quantifier": "every instance document", "why_tests_cant": "All documents with all combinations of broken references.", "anchors": ["brel/parsers/XML/xml_facts_parser.py: parse_facts_xml, parse_fact_from_xml", "brel/parsers/XHMTL/xhtml_parse_facts.py: parse_facts"]}
{"id": "C42", "title": "Components collect the networks of their role", "statement": "A component has a presentation, calculation or definition network if and only if one exists for its role; additional networks of a kind and networks without usedOn declaration are reported.", "quantifier": "every role type and every set of networks", "why_tests_cant": "All combinations of networks per role.", "anchors": ["brel/parsers/XML/xml_component_parser.py: parse_component_from_xml", "brel/brel_component.py: Component.get_networks"]}
{"id": "C43", "title": "Every schema element is classified into at most one report element kind", "statement": "The kind of report element created from a schema element is determined by its type, abstractness and substitution group in the documented order.", "quantifier": "every combination of attribute values", "why_tests_cant": "All strings as attribute values.", "anchors": ["brel/parsers/XML/xml_report_element_factory.py: XMLReportElementFactory.create"]}
{"id": "C44", "title": "Only well-formed concepts are created", "statement": "A concept is created exactly when period type, balance, nillable and type attributes are valid; otherwise exactly one error naming the first invalid attribute is recorded.", "quantifier": "every combination of attribute values", "why_tests_cant": "All strings as attribute values.", "anchors": ["brel/reportelements/concept.py: Concept._from_xml"]}
{"id": "C45", "title": "Parent-child order is inherited from the nearest ancestor", "statement": "After parsing a table every breakdown and closed definition node has the order it specifies, otherwise that of its nearest specifying ancestor, otherwise parent-first.", "quantifier": "every table tree", "why_tests_cant": "Trees of any depth.", "anchors": ["brel/table_linkbases/definition_model/table.py: Table.propagate_parent_child_order", "brel/table_linkbases/definition_model/breakdown.py", "brel/table_linkbases/definition_model/definition_nodes/closed_definition_node.py"]}
{"id": "C46", "title": "Error codes identify errors and reports can be made", "statement": "Two different error kinds never share a full error code; the message of a recorded error is the message of its kind with the arguments filled in; every call that records an error can record it, whatever the values it passes; and filtering recorded errors by severity or area partitions the recorded errors, which are those recorded since the last clear, in order.", "quantifier": "every pair of error kinds, every reporting call of the code with every argument values, every history of recorded errors", "why_tests_cant": "All pairs of kinds, all calls with all values and all histories.", "anchors": ["brel/errors/error_factory_registry.py", "brel/errors/error_instance.py: ErrorInstance.get_full_error_code", "brel/errors/error_instance.py: ErrorInstance.update_message", "brel/data/errors/error_repository.py: ErrorRepository.create", "brel/brel_filing.py: Filing.get_errors"]}
{"id": "C47", "title": "Durations never end before they start", "statement": "Every duration period characteristic has a start that is not after its end; accessors of the wrong period kind raise ValueError.", "quantifier": "every pair of date texts", "why_tests_cant": "All pairs of texts.", "anchors": ["brel/characteristics/period_characteristic.py: PeriodCharacteristic"]}
{"id": "C48", "title": "Duplicate element ids are reported", "statement": "In an inline document every id used by more than one referenced, context, unit, continuation, fact or footnote element is reported at each use after the first.", "quantifier": "every sequence of elements", "why_tests_cant": "All sequences of ids over several element kinds.", "anchors": ["brel/parsers/XHMTL/xhtml_parse_facts.py: parse_contexts, parse_units", "brel/parsers/XHMTL/elements/parse_continuation_chain.py: build_continuation_element_index", "brel/parsers/XHMTL/elements/parse_references.py"]}
{"id": "C49", "title": "The parser kind follows the file set", "statement": "An XML parser is chosen exactly when all entry files are .xml or .xsd, an XHTML parser exactly when all are supported and some is inline XBRL; otherwise ValueError.", "quantifier": "every list of file names", "why_tests_cant": "All lists and names.", "anchors": ["brel/parsers/filing_parser_factory.py: FilingParserFactory.create_parser", "brel/contexts/factory.py: parse_catalog"]}
{"id": "C50", "title": "The printed network tree shows every node once under its parent", "statement": "Printing a network prints one line per node occurrence in depth-first order, with indentation and connectors determined by its position among its siblings.", "quantifier": "every finite network tree", "why_tests_cant": "Trees of any shape.", "anchors": ["brel/utils/print_networks.py: pprint_network, __print_sub_network"]}
{"id": "C51", "title": "Facts of one context agree on every dimension", "statement": "Two facts that refer to the same declared context have characteristics that compare equal for every aspect declared in that context, so that comparisons between facts (such as the aggregation check) match them.", "quantifier": "every sequence of context declarations and fact constructions, every declared aspect", "why_tests_cant": "Depends on how contexts are copied and on which classes define equality; unit tests only compare a few kinds of characteristics.", "anchors": ["brel/data/context/in_memory_context_repository.py: InMemoryContextRepository", "brel/characteristics/explicit_dimension_characteristic.py: __eq__", "brel/reportelements/member.py: Member"]}
{"id": "C52", "title": "Tables of a filing can be stored and listed", "statement": "Every table handed to the table store is stored, and get_all / get_with_linkrole list exactly the stored tables (of the link role), in order.", "quantifier": "every history of stored tables", "why_tests_cant": "All histories; the store's first insertion per link role goes through a default factory.", "anchors": ["brel/data/table_linkbase/in_memory_table_linkbase_repository.py: upsert_definition_table", "brel/parsers/XML/table_linkbase/xml_table_linkbase_parser.py"]}
{"id": "C53", "title": "The network store lists exactly the stored networks", "statement": "After any history of upserts, the networks listed are the stored ones; listing by type or by link role returns exactly those of the type or role, in order of storage within a type.", "quantifier": "every history of stored networks, every type, every link role", "why_tests_cant": "All histories.", "anchors": ["brel/data/network/in_memory_network_repository.py: InMemoryNetworkRepository"]}
{"id": "C54", "title": "The characteristic store is a map keyed by id and kind", "statement": "Lookup of an id and kind returns the latest characteristic of that kind stored under the id; storing one kind never changes what is found for another kind.", "quantifier": "every history of stores, every id and kind", "why_tests_cant": "All histories over six kinds.", "anchors": ["brel/data/characteristic/in_memory_characteristic_repository.py: InMemoryCharacteristicRepository"]}
{"id": "C57", "title": "Looking up one element by name returns the only match, and nothing for a missing name", "statement": "get_report_element_by_name / get_concept_by_name return the element when exactly one matches; a missing name yields None as documented; an ambiguous text raises ValueError.", "quantifier": "every repository content, every name", "why_tests_cant": "All contents and names.", "anchors": ["brel/brel_filing.py: Filing.get_report_element_by_name, get_concept_by_name", "brel/parsers/utils/iterable_utils.py: exactly_one"]}
{"id": "C56", "title": "The system language selects labels and translations of that language", "statement": "When the system language is enabled and is the first source, elements that have a label in the system's language are shown in it.", "quantifier": "every system locale name, every label language tag, both values of match_locale", "why_tests_cant": "Depends on the relation between two naming schemes for languages (en_US and en-US); tests on a machine without a locale never see it.", "anchors": ["brel/brel_filing.py: Filing.get_preferred_languages", "brel/services/translation/translation_service.py: TranslationService.languages_match"]}
{"id": "C58", "title": "A fact's table row keeps every aspect of the fact", "statement": "The row of a fact in a table contains the value of every aspect of its context, its id and its value.", "quantifier": "every fact, every label assignment, every language list", "why_tests_cant": "Columns are named by labels, which need not be unique; the claim is for every labelling.", "anchors": ["brel/brel_fact.py: Fact.convert_to_dict", "brel/brel_context.py: Context.convert_to_df_row"]}
{"id": "C59", "title": "Setting one output parameter keeps the others", "statement": "Setting some output parameters on a filing or on the library changes exactly these parameters and leaves the others as they were.", "quantifier": "every history of settings at both levels", "why_tests_cant": "Histories of settings; a test of one setting sees nothing.", "anchors": ["brel/brel_filing.py: Filing.set_filing_output_params, set_library_output_parameters", "brel/config/brel_config.py: BrelConfig"]}
{"id": "C55", "title": "Facts outside a calculation network do not disturb its aggregation check", "statement": "Adding facts of concepts that are not in the network, or facts of network concepts broken down by a further dimension, does not change the answer of the aggregation check for the other facts.", "quantifier": "every calculation network, every set of facts, every additional fact", "why_tests_cant": "All networks and fact sets; which additional facts matter depends on all other facts.", "anchors": ["brel/networks/calculation_network.py: CalculationNetwork.is_aggregation_consistent"]}
{"id": "C60", "title": "A child shows the order, weight and preferred label of the arc that makes it a child", "statement": "In a network read from a link, a child of a node shows the order, the weight (calculation) and the preferred label (presentation) written on the arc from that parent to it.", "quantifier": "every link, every parent and child in its networks", "why_tests_cant": "Links of any size where a locator has several incoming arcs; the arc that wins depends on the whole document.", "anchors": ["brel/parsers/XML/networks/xml_extended_link_parser.py: parse_xml_link", "brel/parsers/XML/networks/xml_calculation_network_factory.py: create_node", "brel/parsers/XML/networks/xml_presentation_network_factory.py: create_node"]}
{"id": "C61", "title": "Reading a link twice gives the same order of children", "statement": "The order of the children of every node of a network read from a link is determined by the document.", "quantifier": "every link, every iteration order of Python sets", "why_tests_cant": "Set iteration orders vary between runs; a test sees one of them.", "anchors": ["brel/parsers/XML/networks/xml_extended_link_parser.py: parse_xml_link"]}
{"id": "C62", "title": "Prohibited arcs make no relation", "statement": "An arc whose use attribute is 'prohibited' adds no parent/child edge.", "quantifier": "every link and every assignment of use attributes", "why_tests_cant": "All links; the attribute is never read.", "anchors": ["brel/parsers/XML/networks/xml_extended_link_parser.py: parse_xml_link"]}
{"id": "C63", "title": "A locator stands for the element of the document it names", "statement": "A locator with an href 'document#id' stands for the report element or fact with this id in this document.", "quantifier": "every history of loaded elements and facts, every href", "why_tests_cant": "Ids of all loaded documents in any order of loading.", "anchors": ["brel/parsers/XML/networks/xml_extended_link_parser.py: get_object_from_reference"]}
{"id": "C64", "title": "A combined network does not depend on the order of the links", "statement": "The networks of several links with the same role and type are combined to the same network whatever the order of the links.", "quantifier": "every list of networks and every reordering of it", "why_tests_cant": "All orders of all lists of networks.", "anchors": ["brel/parsers/utils/network_utils.py: combine_networks"]}
{"id": "C65", "title": "The labels of a label link reach exactly the elements they are linked to", "statement": "After a label link is read, an element has a label of this link exactly when an arc leads from a locator of the element to the label.", "quantifier": "every label link", "why_tests_cant": "Label links of any size with shared and repeated labels.", "anchors": ["brel/parsers/XML/networks/xml_label_network_factory.py: update_report_elements", "brel/parsers/XML/networks/xml_extended_link_parser.py: parse_xml_link"]}
{"id": "C66", "title": "A concept that occurs twice under a parent is shown twice", "statement": "If two presentation arcs connect the same two concepts with different preferred labels (opening and closing balance), the parent has two children, each with its preferred label.", "quantifier": "every presentation link with such a pair of arcs", "why_tests_cant": "Links of any size; whether it holds depends on the locators the author chose.", "anchors": ["brel/parsers/XML/networks/xml_extended_link_parser.py: parse_xml_link"]}
{"id": "C67", "title": "Every object of a link appears in one of its networks", "statement": "Every locator or resource of a link that stands for an object has a node that can be reached from a root of one of the networks of the link.", "quantifier": "every link", "why_tests_cant": "Reachability in graphs of any size.", "anchors": ["brel/parsers/XML/networks/xml_extended_link_parser.py: parse_xml_link"]}
{"id": "C68", "title": "Labels, footnotes and references keep their content", "statement": "The content of a label or footnote is the text of the element, its language that of the nearest enclosing element that states one, and a reference keeps all its parts.", "quantifier": "every resource element", "why_tests_cant": "All contents, with markup and repeated parts.", "anchors": ["brel/parsers/XML/networks/xml_resource_parser.py: parse_xml_resource", "brel/parsers/utils/lxml_utils.py: get_elem_lang_recursive"]}
{"id": "C69", "title": "Links show only objects of their kind, definition links twice", "statement": "A link whose locators or resources lead to an object the kind of link is not about (an abstract in a calculation, a fact in a presentation) is reported as an error of the filing; a definition link is shown by physical and by logical networks, every other link by one kind of network.", "quantifier": "every link of every kind", "why_tests_cant": "All kinds of links and all mixtures of objects.", "anchors": ["brel/parsers/XML/networks/xml_extended_link_parser.py: parse_xml_link"]}
{"id": "C70", "title": "Inline numeric facts keep their accuracy and id", "statement": "The decimals and precision of an inline numeric fact are the integers its attributes denote, infinite for INF, absent when the attribute is absent; an unreadable attribute is reported. The id is the id of the element, and an id that was used before is reported.", "quantifier": "every inline numeric element", "why_tests_cant": "All attribute texts and all histories of ids.", "anchors": ["brel/parsers/XHMTL/elements/parse_non_fraction.py: parse_non_fraction_fact_element, parse_decimals_or_precision"]}
{"id": "C71", "title": "A nested inline fact has the value of the fact inside", "statement": "An inline numeric fact whose only content is another inline numeric fact has the number of that inner fact as its value.", "quantifier": "every nested inline numeric element", "why_tests_cant": "All depths of nesting and all numbers.", "anchors": ["brel/parsers/XHMTL/elements/parse_non_fraction.py: parse_non_fraction_fact_element"]}
{"id": "C72", "title": "An inline date that does not exist is reported", "statement": "When the text of an inline date denotes a day or month that the Gregorian calendar does not have, an error is reported and no exception is raised; when it denotes an existing one, no error is reported.", "quantifier": "every date text of every supported format", "why_tests_cant": "All days, months and leap years in all formats.", "anchors": ["brel/parsers/XHMTL/xhtml_parse_transformation_registry.py: validate_date_fact_value, parse_date_fact_value"]}
{"id": "C73", "title": "Non-numeric inline facts keep their text unless a format says otherwise", "statement": "Without a format the text of a non-numeric inline fact is its value; the fixed formats give their fixed value whatever the text; an unknown format keeps the text and reports exactly one error.", "quantifier": "every text and every format name", "why_tests_cant": "All texts, all format names.", "anchors": ["brel/parsers/XHMTL/xhtml_parse_transformation_registry.py: parse_non_numerical_fact_value, parse_literal_fact_value"]}
{"id": "C74", "title": "Escaped inline facts hold the XML source of their content", "statement": "With escape=\"true\" the value of a non-numeric inline fact is the XML source of its content, in which every special character is escaped exactly once.", "quantifier": "every element tree and every chain", "why_tests_cant": "Trees of any depth with arbitrary mixed content and special characters.", "anchors": ["brel/parsers/XHMTL/elements/parse_non_numeric.py: convert_escaped_characters, parse_non_numeric_fact_element"]}
{"id": "C75", "title": "Every continuation belongs to exactly one fact", "statement": "When no error is reported for the continuations of a document, each continuation element is a fragment of exactly one fact or footnote, exactly once, and no fragment of a fact contains another fragment of the same fact.", "quantifier": "every set of facts, footnotes and continuations", "why_tests_cant": "Any number of elements with any ids and references.", "anchors": ["brel/parsers/XHMTL/elements/parse_continuation_chain.py: create_continuation_chains, build_continuation_element_index"]}
{"id": "C76", "title": "Inline relationships link their facts to their footnotes and facts", "statement": "Each fact that a relationship lists as origin has, in the network of the roles of the relationship, each footnote or fact the relationship leads to as a child, and no other children; the roots are the facts no relationship leads to.", "quantifier": "every list of relationships, footnotes and facts, every iteration order of sets", "why_tests_cant": "Any number of relationships that share facts and footnotes; set iteration order varies between runs.", "anchors": ["brel/parsers/XHMTL/networks/xhtml_parse_footnote_network.py: create_footnote_network_nodes, connect_footnote_network_nodes", "brel/networks/footnote_network_node.py"]}
{"id": "C77", "title": "Broken inline relationships are reported and do not stop loading", "statement": "A relationship that refers to an id that is neither a fact nor a footnote, repeats an id or mixes facts and footnotes is reported, and the other relationships are still loaded.", "quantifier": "every list of relationships", "why_tests_cant": "All combinations of broken references.", "anchors": ["brel/parsers/XHMTL/networks/xhtml_parse_footnote_network.py: validate_relationship_from_and_to_refs, create_footnote_network_nodes"]}
{"id": "C78", "title": "Inline footnotes keep their content, language and role", "statement": "The content of an inline footnote is the content of its fragments; its language is that of the nearest enclosing element that states one, its role the stated one or the default; missing ids and languages, invalid roles and repeated ids are reported.", "quantifier": "every footnote element and chain", "why_tests_cant": "All trees and attribute combinations.", "anchors": ["brel/parsers/XHMTL/networks/xhtml_parse_footnote_network.py: parse_footnote"]}
{"id": "C79", "title": "Footnotes of a fact are ordered by their relationships", "statement": "The footnotes below a fact are in ascending order of the order attributes of the relationships that link them to this fact.", "quantifier": "every list of relationships", "why_tests_cant": "Any number of relationships that share footnotes with different orders.", "anchors": ["brel/parsers/XHMTL/networks/xhtml_parse_footnote_network.py: create_footnote_network_nodes"]}
{"id": "C80", "title": "A context has the dimensions its segment states", "statement": "For every explicit or typed member element of the segment of a context, the context's characteristic for that dimension is the dimension and member (or value) that element names in its own namespace scope, whatever was parsed before; a member element that cannot be used is reported.", "quantifier": "every history of parsed contexts and every context element", "why_tests_cant": "Depends on the cache content left by every earlier element and on all bindings of prefixes.", "anchors": ["brel/parsers/XML/xml_context_parser.py: parse_context_xml", "brel/parsers/XML/characteristics/xml_parse_explicit_dimension.py: parse_explicit_dimension_from_xml", "brel/parsers/XML/characteristics/xml_parse_typed_dimension.py: parse_typed_dimension_from_xml"]}
{"id": "C81", "title": "The period of a context is the one its element states", "statement": "If the period element of a context states an instant or a start and an end date that is not before it, the context's period characteristic is exactly that period, whatever was parsed before.", "quantifier": "every history of parsed contexts and every context element whose dates contain no space, as those of xs:date and xs:dateTime", "why_tests_cant": "Instants and durations share one cache keyed by texts; the claim ranges over all texts and histories.", "anchors": ["brel/parsers/XML/characteristics/xml_parse_period.py: parse_period_from_xml", "brel/parsers/XML/xml_context_parser.py: parse_context_xml"]}
{"id": "C82", "title": "The choice of prefix does not decide whether a fact is read", "statement": "A fact element whose tag is the namespace and local name of a concept of the taxonomy becomes a fact about that concept, whatever prefix its document binds to the namespace.", "quantifier": "every taxonomy, every instance document and every binding of prefixes", "why_tests_cant": "Prefixes are free in XML; tests use the customary ones.", "anchors": ["brel/parsers/XML/xml_facts_parser.py: parse_facts_xml", "brel/qnames/qname.py: QName", "brel/data/report_element/in_memory_report_element_repository.py"]}
{"id": "C83", "title": "Every child of an inline header is used or reported", "statement": "In an inline document every child of a header element is taken as a hidden, resources or references element, and every child of a resources element as a relationship, role reference, arc role reference, context or unit, in document order; every other child, and every child of a hidden or references element that does not belong there, is reported exactly once, as are missing headers and resources and headers with several hidden or resources elements.", "quantifier": "every set of inline documents with any number of headers and children", "why_tests_cant": "A child that is neither used nor reported is lost silently; tests cover a few well-formed headers.", "anchors": ["brel/parsers/XHMTL/elements/parse_header.py: parse_header", "brel/parsers/XHMTL/elements/parse_resources.py: parse_resources_elements", "brel/parsers/XHMTL/elements/parse_hidden.py: validate_hidden_elements", "brel/parsers/XHMTL/elements/parse_references.py", "brel/parsers/XHMTL/xhtml_parse_facts.py: parse_headers"]}
{"id": "C84", "title": "A role has at most one network of a class, uniting its links", "statement": "After the networks of a filing are read, there is for every role and every class of networks at most one network that is not restricted to one arc role; it exists if and only if some extended link of the role yields one, and it has exactly the objects and the parent-child relations of the networks of the class yielded by the links of the role. Networks of a single arc role are kept as each link yields them. Links of standard roles are read first. Links without role and links of an unknown type are reported.", "quantifier": "every list of extended links in all documents, with any arcs, locators and roles, and every iteration order of the sets used", "why_tests_cant": "The networks of one role can be spread over any number of links of any documents; nodes are merged and mutated while other networks refer to them, so only an invariant over the whole pass shows that one role does not disturb another.", "anchors": ["brel/parsers/XML/networks/xml_networks_parser.py: parse_networks_from_xmls", "brel/parsers/utils/network_utils.py: combine_networks", "brel/data/network/in_memory_network_repository.py"]}
{"id": "C85", "title": "The report elements of a filing are those its schemas declare", "statement": "After the schemas are read, there is exactly one report element for every name with a valid declaration in a schema with a target namespace; it is the one of the first valid declaration of that name in the order of documents. Looking up an id yields the last element with that id. Exactly the errors about the attributes of all declarations and about the types of the dimensions that count are recorded.", "quantifier": "every list of schema documents with any declarations at any depth", "why_tests_cant": "The outcome depends on the order and the names of all declarations of all documents of a taxonomy; tests use one.", "anchors": ["brel/parsers/XML/xml_report_element_parser.py: parse_report_elements_xml, parse_report_element", "brel/data/report_element/in_memory_report_element_repository.py: upsert"]}
{"id": "C86", "title": "Typed dimensions carry the type of the element they refer to", "statement": "A dimension is typed if and only if its declaration has the attribute typedDomainRef of the dimensions namespace, and its type is then the type of the referenced element, in the same document or in the referenced one; an error tells when there is no such element.", "quantifier": "every declaration of a dimension, every reference text, every set of loaded documents", "why_tests_cant": "References range over all texts and documents; prefixes and relative references are the document author's choice.", "anchors": ["brel/parsers/XML/xml_report_element_parser.py: parse_report_element", "brel/data/xml/xml_repository.py: get_etree"]}
{"id": "C87", "title": "References of a document are those written in it", "statement": "The documents that a document refers to are exactly those named by its href and schemaLocation attributes, without fragments and each once.", "quantifier": "every text of a document", "why_tests_cant": "The text is arbitrary; only a statement over all texts can say that no reference is missed or invented.", "anchors": ["brel/services/xml/xml_service.py: XMLService.add_etree_recursive"]}
{"id": "C88", "title": "A taxonomy package's catalog redirects exactly what it says", "statement": "The catalog with the shortest path is used; its complete rules, and no others, are the rewritings, relative to the catalog's folder; incomplete rules, repeated start texts and a wrong root are reported.", "quantifier": "every list of paths, every catalog document", "why_tests_cant": "Catalogs are arbitrary XML with any number of rules.", "anchors": ["brel/contexts/factory.py: get_catalog_filepath", "brel/parsers/XML/xml_parse_catalog.py: parse_catalog_xml"]}
{"id": "C89", "title": "Opening a path takes all files of the filing", "statement": "Opening a folder takes exactly the supported files at any depth, each once; a single supported file or web address is taken as it is; an archive stands for the supported files in it; anything else is refused with ValueError.", "quantifier": "every folder tree, every path, every archive", "why_tests_cant": "Trees of any depth and names of any form.", "anchors": ["brel/parsers/path_loaders/folder_path_loader.py: FolderPathLoader", "brel/parsers/path_loaders/file_path_loader.py: FilePathLoader", "brel/parsers/path_loaders/zip_path_loader.py: ZipPathLoader", "brel/parsers/path_loaders/path_loader_resolver.py: PathLoaderResolver"]}
{"id": "C90", "title": "A version group is represented by its latest version and its best prefix", "statement": "In a normalised name space map the URI that represents a group of versions is the latest of the bound versions, and its prefix is the configured default prefix of the URI, otherwise a shortest prefix bound to a version of it, unless the map records a rename.", "quantifier": "every list of name space maps, every set iteration order, every table of decimal digits", "why_tests_cant": "Maps are of any size and URIs have any number of digits.", "anchors": ["brel/parsers/XML/xml_namespace_normalizer.py: get_latest_url_version", "brel/parsers/XML/xml_namespace_normalizer.py: get_best_prefix", "brel/parsers/XML/xml_namespace_normalizer.py: get_default_prefix_from_uri", "brel/parsers/XML/xml_namespace_normalizer.py: normalize_nsmap"]}
{"id": "C91", "title": "A table link is read completely", "statement": "The tables of a table link are its table resources; the breakdowns of a table on each axis, the roots of a breakdown and the children of a node are exactly the targets of the arcs of the link, in document order, with the order of the arc. Every valid link is read.", "quantifier": "every link: any number of resources and arcs, repeated and missing labels included", "why_tests_cant": "Links have any number of resources and arcs in any order.", "anchors": ["brel/parsers/XML/table_linkbase/xml_table_linkbase_parser.py: parse_table_linkbase_element", "brel/parsers/XML/table_linkbase/xml_table_linkbase_parser.py: parse_table_breakdown_arc", "brel/parsers/XML/table_linkbase/xml_table_linkbase_parser.py: parse_breakdown_tree_arc", "brel/parsers/XML/table_linkbase/xml_table_linkbase_parser.py: parse_definition_node_subtree_arc"]}
{"id": "C92", "title": "Nodes of tables say what their elements say", "statement": "A rule node holds, for each tag, exactly the rules of the rule set with this tag and, without tag, its own rules, in document order, and its abstract and merge attributes; an aspect node holds its aspect.", "quantifier": "every rule node and every aspect node element with any children", "why_tests_cant": "Elements have any number of children of any kind.", "anchors": ["brel/parsers/XML/table_linkbase/xml_table_linkbase_parser.py: parse_rule_node_element", "brel/parsers/XML/table_linkbase/xml_table_linkbase_parser.py: parse_rule_sets_for_rule_node_element", "brel/parsers/XML/table_linkbase/xml_table_linkbase_parser.py: parse_aspect_node_element", "brel/parsers/XML/formula/xml_aspect_formula_parser.py: parse_formula_aspect_element"]}
{"id": "C93", "title": "Nothing a table linkbase says is lost", "statement": "Every table of a linkbase document is found, its filters apply, and its relationship nodes are nodes of the table.", "quantifier": "every set of documents and every link in them", "why_tests_cant": "Documents are arbitrary.", "anchors": ["brel/parsers/XML/table_linkbase/xml_table_linkbase_parser.py: find_table_linkbase_elements", "brel/parsers/XML/table_linkbase/xml_table_linkbase_parser.py: parse_dimension_relationship_node_element", "brel/parsers/XML/table_linkbase/xml_table_linkbase_parser.py: parse_table_filter_arc"]}
{"id": "C94", "title": "A printed line identifies what its node points to", "statement": "The line of a node shows the class and the name of the report element it points to, or the content of the resource or fact, so that different things look different; weights are printed in a column of their own.", "quantifier": "every node, whatever it points to, and every weight", "why_tests_cant": "Names, texts and weights are arbitrary.", "anchors": ["brel/utils/print_networks.py: __print_sub_network", "brel/utils/print_networks.py: tag_lookup"]}
{"id": "C95", "title": "The printed table of facts is complete and deterministic", "statement": "Printing facts shows one row per fact, sorted by id, with its value and its characteristic for every aspect that occurs in any of the facts; each aspect has one column, the core aspects first and the others in alphabetical order, whatever order sets are iterated in. Printing a fact shows a row per aspect and its value.", "quantifier": "every list of facts, every iteration order of the set of aspects", "why_tests_cant": "The columns are collected in a set, whose iteration order differs between runs.", "anchors": ["brel/utils/print_facts.py: pprint_facts", "brel/utils/print_facts.py: pprint_fact"]}
{"id": "C96", "title": "Valid facts are never refused", "statement": "A filing of XML instances in which every fact element is valid - it is named after a concept, has a value unless the concept may lack one, and refers to a context with readable period, entity and known dimensions and to a well-formed unit - is read without an exception and without an error report, and yields exactly one fact per fact element, in document order.", "quantifier": "every filing of any number of instance documents with any number of facts, contexts and units, every taxonomy", "why_tests_cant": "Whether an element is accepted depends on everything parsed before it, through the caches of concepts, units, periods, entities and dimensions.", "anchors": ["brel/parsers/XML/xml_facts_parser.py: parse_facts_xml", "brel/parsers/XML/xml_context_parser.py: parse_context_xml", "brel/parsers/XML/characteristics/xml_parse_unit.py: parse_unit_from_xml"]}
{"id": "C97", "title": "Reading a written instance returns what was written", "statement": "Writing contexts, units and facts as an XBRL instance document and reading it back gives exactly the facts written, in the same order, each with its id, value, concept, unit, period, entity and dimensions, and no errors.", "quantifier": "every instance with any number of contexts, units, dimensions and facts: distinct fact ids, references that exist, readable dates, names whose prefixes the document declares (concepts with the last prefix declared for their namespace), one scheme per entity identifier", "why_tests_cant": "Instances are arbitrary, and contexts, units and dimensions share caches.", "anchors": ["brel/parsers/XML/xml_facts_parser.py: parse_facts_xml", "brel/parsers/XML/xml_facts_parser.py: parse_fact_from_xml", "brel/parsers/XML/xml_context_parser.py: parse_context_xml"]}
{"id": "C98", "title": "Valid inline filings are never refused", "statement": "An inline filing that is valid - headers with valid references, contexts and units, continuations that each belong to one chain, fact elements that name a concept and refer to declared contexts and units and whose content can be read, all ids distinct - is read without an exception, without an error report and in finitely many steps, and yields exactly one fact per fact element, in document order, with the text of its whole chain of continuations.", "quantifier": "every inline filing of any number of documents, headers, contexts, units, facts, footnotes and continuations, every taxonomy", "why_tests_cant": "What is reported of an element depends on all ids, contexts, units and continuations of all documents.", "anchors": ["brel/parsers/XHMTL/xhtml_parse_facts.py: parse_facts_xhtml", "brel/parsers/XHMTL/elements/parse_header.py: parse_header", "brel/parsers/XHMTL/elements/parse_resources.py: parse_resources_elements"]}
{"id": "C99", "title": "The reports on continuations are exact", "statement": "When the chains of continuations of an inline filing are built, an error is reported exactly if a continuation has no id, a continuation is reached twice, an element is continued at an id no continuation has, a continuation is never reached, an element of a chain contains another one of the same chain, or an id is used twice; if nothing is reported, every continuation belongs to exactly one chain and the continuations do not form a circle.", "quantifier": "every list of facts, footnotes and continuations, with any references between them", "why_tests_cant": "References between elements form arbitrary graphs.", "anchors": ["brel/parsers/XHMTL/elements/parse_continuation_chain.py: create_continuation_chains"]}
{"id": "C100", "title": "Elements have exactly the labels their label links state", "statement": "After a filing is opened, the labels of a report element are exactly those stated for it by the label links of its documents: an arc leads from a locator of the element to a label with this text and role, in the language in force at that place.", "quantifier": "every set of link base documents that can be read, with any number of links, locators, labels and arcs in any places, every report element and every label", "why_tests_cant": "Links, labels and references are arbitrary, links are sorted before they are read, and languages are inherited over any number of levels.", "anchors": ["brel/parsers/XML/networks/xml_networks_parser.py: parse_networks_from_xmls", "brel/parsers/XML/networks/xml_extended_link_parser.py: parse_xml_link", "brel/parsers/XML/networks/xml_label_network_factory.py: update_report_elements", "brel/resource/brel_label.py: BrelLabel"]}
{"id": "C101", "title": "Networks show exactly the relations their links state", "statement": "After a filing is opened, the presentation, calculation and definition network of a role shows an element exactly if a link of this kind and role locates it, and shows one element below another exactly if such a link has an arc between their locators; a role has at most one network of each kind.", "quantifier": "every set of link base documents that can be read, every role, kind and pair of report elements; the converse for links whose arcs form no cycle and start at report elements", "why_tests_cant": "Any number of links from any number of documents are merged into a network.", "anchors": ["brel/parsers/XML/networks/xml_networks_parser.py: parse_networks_from_xmls", "brel/parsers/XML/networks/xml_extended_link_parser.py: parse_xml_link", "brel/parsers/utils/network_utils.py: combine_networks"]}
{"id": "C102", "title": "Valid link bases are read, and the reports on links are exact", "statement": "If the extended links of a filing are valid, reading them raises no exception and ends. What is reported about links is exactly: an arc that is stated twice, a locator that leads to nothing in the filing, a label or footnote for which no language is in force, and a link without role.", "quantifier": "every set of link base documents with valid links of any size and nesting; the reports for every set that can be read", "why_tests_cant": "The links may have any number of arcs, labels and objects, and the traversals that merge their networks have to end for all of them.", "anchors": ["brel/parsers/XML/networks/xml_networks_parser.py: parse_networks_from_xmls", "brel/parsers/XML/networks/xml_extended_link_parser.py: parse_xml_link", "brel/parsers/XML/networks/xml_resource_parser.py: parse_xml_resource"]}
{"id": "C103", "title": "Opening from EDGAR opens the latest filing asked for", "statement": "Opening a filing by company number, type and optional date opens an XBRL filing of this type and date of this company: the one for the latest report date, and the first listed of several for that date. If there is none, or an argument is wrong, a ValueError is raised. The list of filings consulted is at most one day old.", "quantifier": "every list of filings of any length, every company number, type and date, every state of the cache", "why_tests_cant": "The list of filings comes from a server and may have any content and order.", "anchors": ["brel/utils/edgar.py: open_edgar", "brel/utils/edgar.py: __download_metadata_for_cik"]}
{"id": "C104", "title": "Tables of elements and components show every property under one title", "statement": "In the tables of report elements and of components, every row shows exactly the properties of its element, each property under the same title in all rows and different properties under different titles. Titles and fixed words are in the first preferred language that is available (English, German, French, Spanish, Italian or the default), and the label is the standard label in the first preferred language that has one. A row fails only if no preferred language is available.", "quantifier": "every report element and component, every list of preferred languages, both values of match_locale, the whole shipped translation table", "why_tests_cant": "Rows depend on labels, types and languages of any content; titles are keys, so that two equal titles lose a column.", "anchors": ["brel/reportelements/concept.py: convert_to_dict", "brel/reportelements/dimension.py: convert_to_dict", "brel/brel_component.py: convert_to_dict", "brel/services/translation/translation_service.py: get_from_labels"]}
{"id": "C105", "title": "A valid filing opens and shows what its documents say", "statement": "If the schemas, instances, link bases and role declarations of an XML filing are valid, opening it raises no exception, ends and reports nothing; it then shows exactly what its documents say: the declared report elements, a fact for each fact element in order, the stated labels, the networks with the stated objects and relations, and a component for each declared role with the networks of that role. A search by a text finds exactly the elements it denotes, and the facts found by the name of a concept are the stated facts of that concept.", "quantifier": "every list of documents of any number, size and order whose parts are valid, every search text", "why_tests_cant": "The steps depend on each other: elements, facts, networks and components read what the earlier steps stored, for documents of any content.", "anchors": ["brel/parsers/filing_parser.py: parse", "brel/parsers/xml_filing_parser.py: parse_networks", "brel/brel_filing.py: open", "brel/brel_filing.py: get_facts_by_concept_name"]}
{"id": "C106", "title": "The languages of a filing are those its documents state", "statement": "The languages a filing offers are exactly the languages that elements of its documents state with xml:lang, each once. Every label the documents give is in an offered language, so that output in the languages of the report can show it.", "quantifier": "every list of documents of any shape, every placement of xml:lang, every order of sets", "why_tests_cant": "Languages may be stated on any element at any depth and are inherited by labels below it.", "anchors": ["brel/services/xml/xml_service.py: get_available_filing_languages", "brel/brel_filing.py: get_preferred_languages"]}
{"id": "C107", "title": "Physical networks separate the arc roles", "statement": "Every network in the list of physical networks has one arc role on all its nodes. The physical definition networks of a role and arc role show exactly the relations that the definition links of that role state with arcs of that arc role: nothing else, and everything a link without cycles states. The union that makes the logical networks does not change them.", "quantifier": "every set of link bases that is read, every definition link, every role and arc role, every order of sets", "why_tests_cant": "Links, arcs and arc roles may be combined in any number and order, and logical and physical networks are built from the same links.", "anchors": ["brel/brel_filing.py: get_all_physical_networks", "brel/parsers/XML/networks/xml_networks_parser.py: parse_networks_from_xmls"]}
{"id": "C108", "title": "The lists of concepts, abstracts, line items, hypercubes, dimensions and members", "statement": "After any history of definitions the six lists together have exactly the report elements of the filing. An element is in the list of its class only, in the order of all report elements; if a name was defined again, only the latest definition is listed, under its own class.", "quantifier": "every history of definitions of report elements, with any names, classes and repetitions", "why_tests_cant": "Names may be defined again with another class, any number of times.", "anchors": ["brel/brel_filing.py: get_all_concepts", "brel/brel_filing.py: get_all_abstracts", "brel/brel_filing.py: get_all_line_items", "brel/brel_filing.py: get_all_hypercubes", "brel/brel_filing.py: get_all_dimensions", "brel/brel_filing.py: get_all_members"]}
{"id": "C109", "title": "Role references of inline documents", "statement": "For every link:roleRef and link:arcroleRef in the resources of inline documents, opening reports exactly the faults it has: a link type other than simple, a missing or invalid href, a missing or invalid role URI, an empty role. A valid reference is accepted without a report.", "quantifier": "every role reference and arc role reference, with any attributes and prefixes, and every sequence of them", "why_tests_cant": "Attributes may be missing, empty or invalid in any combination, and prefixes may be bound in any way.", "anchors": ["brel/parsers/XHMTL/networks/xhtml_parse_footnote_network.py: parse_role_reference", "brel/parsers/XHMTL/networks/xhtml_parse_footnote_network.py: parse_role_references"]}
{"id": "C110", "title": "A valid inline filing is opened and shows what its documents say", "statement": "If the schemas, inline documents, link bases and roles of an inline XBRL filing are valid, opening it raises no exception and reports nothing, and the filing has exactly the report elements declared, the facts stated with the text of their continuations, the footnotes with their text, language, role and title, one network of footnotes for each pair of roles with exactly the stated relationships, the labels, networks and components of the link bases.", "quantifier": "every inline filing that is valid, with any number of documents, facts, footnotes, continuations, relationships, links and roles", "why_tests_cant": "The result depends on all documents together: ids, continuation chains and locators lead from any document to any other.", "anchors": ["brel/parsers/xhtml_filing_parser.py: XHTMLFilingParser", "brel/parsers/filing_parser.py: parse", "brel/parsers/XHMTL/networks/xhtml_parse_footnote_network.py: parse_footnote_networks_xhtml"]}
{"id": "C111", "title": "Filing.open: from a path to the filing", "statement": "Filing.open of a path to a file, a folder or a web address opens the filing of exactly the documents that can be reached from the files of the path over references, after the rewritings of its catalog: if they are available, well-formed and valid, opening succeeds without a report, each document is read once, and the filing shows what exactly these documents say, as in C105 for XML and C110 for inline filings. A path without files, or with a file that is no document, is refused.", "quantifier": "every path, folder and catalog, every set of documents referring to each other in any way, and every order in which sets are iterated", "why_tests_cant": "The documents are found by following references; their number, order and the cycles among them are not bounded.", "anchors": ["brel/brel_filing.py: open", "brel/parsers/filing_parser_factory.py: create_parser", "brel/contexts/factory.py: create_filing_context", "brel/services/xml/xml_service.py: add_etree_recursive"]}
{"id": "C112", "title": "Roles and links are checked to be URIs", "statement": "The check of role URIs and links accepts exactly the URI references: for a text made of scheme, authority, path, query and fragment as RFC 3986 prescribes it is passed, for any other text an error is reported and the default role is used.", "quantifier": "every text, with any characters in any part", "why_tests_cant": "The parts of a URI are delimited by characters that may occur in other parts, so the result depends on the whole text.", "anchors": ["brel/parsers/utils/url_utils.py: is_valid_uri", "brel/parsers/XHMTL/networks/xhtml_parse_footnote_network.py: parse_relationship_attributes"]}
{"id": "C113", "title": "What a node points to, and the dictionaries of nodes and networks", "statement": "points_to() of a node names the one getter (get_report_element, get_resource, get_fact) that returns what the node points to, the two others raise ValueError. convert_to_dict() of a node or network gives a dictionary from which the network can be seen: at each position, it has the same children in the same order, the roles, the names, the order and what the node points to.", "quantifier": "every network, of any depth and shape, with nodes reached in several ways and with cycles", "why_tests_cant": "The dictionary is made by recursion over a graph of unbounded size.", "anchors": ["brel/networks/i_network_node.py: convert_to_dict", "brel/networks/i_network.py: convert_to_dict", "brel/networks/footnote_network_node.py: points_to", "brel/networks/label_network_node.py: get_resource"]}
{"id": "C114", "title": "Equal objects mean the same", "statement": "Two periods, entities, units, contexts, concepts or characteristics compare equal (==) exactly when they mean the same: the same dates, scheme and identifier, measures, characteristics, or namespace and local name.", "quantifier": "every pair of objects, and every triple for transitivity", "why_tests_cant": "Comparison goes through texts that are composed of parts, so whether two different objects have the same text depends on all parts at once.", "anchors": ["brel/characteristics/period_characteristic.py: __eq__", "brel/characteristics/entity_characteristic.py: __eq__", "brel/characteristics/unit_characteristic.py: __eq__", "brel/brel_context.py: __eq__", "brel/reportelements/concept.py: __eq__"]}
{"id": "C115", "title": "Children show the weight, order and preferred label their arcs state", "statement": "In a presentation or calculation network of an opened filing, a report element is shown below another one with a weight, an order or a preferred label exactly when an arc between them in a link of the role states that weight, order or preferred label (a missing order is 1, a missing preferred label the standard label).", "quantifier": "every set of link bases, with any number of links, arcs and locators", "why_tests_cant": "A node is made for a locator, not for an arc, and links are combined afterwards; which arc gives the data depends on all arcs of the link.", "anchors": ["brel/parsers/XML/networks/xml_calculation_network_factory.py: create_node", "brel/parsers/XML/networks/xml_presentation_network_factory.py: create_node", "brel/parsers/XML/networks/xml_networks_parser.py: combine_networks", "brel/networks/calculation_network_node.py: get_weight", "brel/networks/presentation_network_node.py: get_preferred_label_role"]}
{"id": "C116", "title": "The balance check of an opened filing judges the documents", "statement": "For a valid filing, the balance check of the calculation network of a role ends, and says yes exactly when the documents agree: every concept located by a calculation link of the role is declared with a balance, no stated weight between concepts of the same balance is negative, and none between concepts of different balances is positive.", "quantifier": "every valid filing with any number of documents, links, arcs and concepts, and every role", "why_tests_cant": "The check walks a graph made from all links of the role by reading and combining; that it visits everything that the documents state, and nothing else, is a statement about all of them.", "anchors": ["brel/networks/calculation_network.py: is_balance_consistent", "brel/parsers/XML/networks/xml_calculation_network_factory.py: create_node", "brel/parsers/XML/networks/xml_networks_parser.py: combine_networks", "brel/reportelements/concept.py: get_balance_type"]}
{"id": "C117", "title": "Cached files are the downloaded and copied ones, byte for byte", "statement": "Whatever documents are needed, in whatever order and by however many openings, the content a document is read with is byte for byte a content that the server (with a status of success) or the disk offered for it or for a document that shares its cached file, and reading it again gives the same bytes. A document that the server or the disk offers is not refused.", "quantifier": "every sequence of needed documents, every content and status the world offers each time", "why_tests_cant": "The content passes through decoding and encoding, and which earlier content is read depends on the whole history of the directory.", "anchors": ["brel/data/file/pyfs_file_repository.py: add_file, get_file, has_file", "brel/services/file/file_service.py: download_and_add_file, copy_and_add_file", "brel/services/xml/xml_service.py: add_etree_recursive"]}
{"id": "C118", "title": "A document is read whole or not at all, also after interruptions and with several processes", "statement": "Whenever a process reads a cached document, it reads the whole content, however many processes use the directory, in whatever order their steps happen, and wherever a process is ended.", "quantifier": "every content, every number of processes, every schedule of their steps with every size of written pieces, every crash point", "why_tests_cant": "The moments between opening, writing and closing a file are short and the number of schedules is unbounded.", "anchors": ["brel/data/file/pyfs_file_repository.py: add_file, has_file", "brel/services/file/file_service.py: download_and_add_file", "brel/services/xml/xml_service.py: add_etree_recursive", "brel/data/factory.py: create_file_repository"]}
{"id": "C119", "title": "A filing that was opened once can be opened again without the web", "statement": "If a path was opened, opening it again with the files cached then gives the same filing, with the documents in the same order, and neither the server nor the disk is asked for any document, whatever they have by then (only a catalog is read anew).", "quantifier": "every path, set of files, graph of references and cache before the first opening", "why_tests_cant": "Documents share cached files and are found by following references; that the second opening finds each of them is a statement about the whole graph.", "anchors": ["brel/services/xml/xml_service.py: add_etree_recursive", "brel/services/file/file_service.py: has_file", "brel/contexts/factory.py: create_filing_context", "brel/brel_filing.py: open"]}
{"id": "C120", "title": "The aggregation check of an opened filing decides whether the totals of the calculation link hold", "statement": "For a valid filing whose role has one calculation link, `CalculationNetwork.is_aggregation_consistent(facts)` on the network of that role returns True if and only if every fact of every concept that is met from the top of the link through reported concepts is the weighted sum of the facts of the summands that the arcs of the link state, where a summand's fact agrees with the total's on all other aspects.", "quantifier": "every set of documents that form a valid filing, every calculation link in them, every list of facts and in particular the facts the instance documents state", "why_tests_cant": "The result depends on locators, arcs, weights, the combination of networks, the shape of the tree and the facts together; a test fixes all of them.", "anchors": ["brel/networks/calculation_network.py:103", "brel/parsers/XML/networks/xml_calculation_network_factory.py:55", "brel/parsers/XML/networks/xml_extended_link_parser.py:100"]}
{"id": "C121", "title": "The table of facts shows each fact of the filing", "statement": "`Fact.convert_to_dict(language)` gives one column per aspect of the fact, plus the id and the value. The title of a column is the name of the aspect in the language asked for. The cell shows the characteristic: the label of the concept or member, the start and end of the period as ISO dates, the entity with its scheme, the unit in the language and the typed value. `pprint` of the facts of an opened filing has one such row per fact of the instance documents, in their order.", "quantifier": "every valid filing, every fact in it, every list of languages, every set of labels", "why_tests_cant": "A row depends on the fact, all labels, the language list and the translation table; columns must not collide for any of them.", "anchors": ["brel/brel_fact.py:225", "brel/brel_context.py:91", "brel/brel_context.py:198", "brel/characteristics/brel_aspect.py:142", "brel/characteristics/unit_characteristic.py:76"]}
{"id": "C122", "title": "The table shows an inline fact like the same fact of an XML instance", "statement": "The row of a fact of an inline document shows the fact as in C121, and it is the row that the same fact has when an XML instance states it.", "quantifier": "every inline filing, every fact in it, every list of languages, every set of labels", "why_tests_cant": "The difference depends on the order of reading contexts, facts and labels and shows only for facts with explicit members and labels.", "anchors": ["brel/data/context/in_memory_context_repository.py:21", "brel/parsers/XHTML/xhtml_parse_facts.py:233", "brel/characteristics/explicit_dimension_characteristic.py:53"]}
{"id": "C123", "title": "A numeric fact is read as the nearest floating point number", "statement": "float(fact) and get_value() of a fact with a non-integer numeric concept accept exactly the decimal texts (optional sign, digits with single underscores between digits, optional fraction and exponent, surrounding white space) and the words for infinity and NaN, and give the IEEE double nearest to the number the text states, ties to the even last digit, infinity from half a last place beyond the largest double on. The value is the number itself if that number is a double.", "quantifier": "every fact, every text", "why_tests_cant": "There are infinitely many texts, and the boundaries (ties, subnormal numbers, overflow) are hit by few of them.", "anchors": ["brel/brel_fact.py:178", "brel/brel_fact.py:118"]}
{"id": "C124", "title": "The aggregation check with floating point numbers decides the exact sums", "statement": "is_aggregation_consistent, computing with floating point numbers, returns True exactly if every reported total is the exact weighted sum of its summands.", "quantifier": "every calculation network, every list of facts, every filing", "why_tests_cant": "Rounding errors depend on the digits of all summands and on their order.", "anchors": ["brel/networks/calculation_network.py:138", "brel/networks/calculation_network.py:144", "brel/networks/calculation_network.py:192"]}
{"id": "C125", "title": "Changing a list that a query returned does not change the filing", "statement": "Whatever a user does to the lists that get_all_facts, get_all_components, get_all_errors, get_aspects, get_roots, get_children, get_labels, get_numerators and the other list queries returned, every later query answers as if the lists had not been touched.", "quantifier": "every filing, every sequence of queries and of changes to the lists they returned", "why_tests_cant": "The sequences are unbounded, and a test that never changes a returned list cannot notice that it is shared.", "anchors": ["brel/data/component/in_memory_component_repository.py:19", "brel/data/errors/in_memory_error_repository.py:22", "brel/brel_context.py:67", "brel/networks/i_network.py:53", "brel/networks/calculation_network_node.py:87", "brel/characteristics/unit_characteristic.py:57"]}
{"id": "C126", "title": "The order of the documents and the run of Python do not change what a filing shows", "statement": "Opening the documents of a valid filing again, listed in another order and in another run of Python (which iterates over sets in another order), gives the same report elements, facts, labels, components, networks, weights, orders and preferred labels, the same results of searches and of the balance and aggregation checks, and no reports either; only the order in which things are listed may differ.", "quantifier": "every valid filing, every permutation of its documents, every order of iteration over sets", "why_tests_cant": "A test runs with one listing of a directory and one hash seed; the claim compares all of them.", "anchors": ["brel/brel_filing.py:82", "brel/parsers/xml_filing_parser.py:23", "brel/parsers/XML/networks/xml_networks_parser.py:48", "brel/parsers/XML/networks/xml_extended_link_parser.py:152", "brel/parsers/XML/xml_report_element_parser.py:65"]}
{"id": "C127", "title": "Writing a whole filing and opening it gives it back", "statement": "For whatever report elements, roles, labels, networks, contexts, units and facts a filing is to contain, writing them as a schema, an instance and a link base and opening these documents gives a filing with exactly those: no more, no less, in the order written, and without reports. The weights, orders and preferred labels of relations are shown as written too.", "quantifier": "every list of report elements of the six kinds, of roles, of labels, of networks of the three classes with any acyclic relations, and every instance", "why_tests_cant": "The filings are unbounded in size and shape; a test compares a single one with what its author expects to see.", "anchors": ["brel/brel_filing.py:82", "brel/parsers/xml_filing_parser.py:43", "brel/parsers/XML/xml_report_element_factory.py:26", "brel/parsers/XML/xml_facts_parser.py:86", "brel/parsers/XML/networks/xml_networks_parser.py:48", "brel/parsers/XML/xml_component_parser.py:126"]}
{"id": "C128", "title": "The checks of calculation networks in inline filings", "statement": "For an opened inline XBRL filing, the balance check of a calculation network says whether the weights stated in the link bases agree with the balances stated in the schemas, and the aggregation check, given the facts of the filing, succeeds exactly if every fact of a total met from the top is the weighted sum of the matching facts. The number used for a fact is the one its element states, with format, scale and sign applied.", "quantifier": "every valid inline filing, every role with a calculation link, every number in a decimal format", "why_tests_cant": "The filings, the depth of the networks and the numbers are unbounded; and whether a filing has dimensions or zeros, where the check does not work, depends on the filings that the test author thought of.", "anchors": ["brel/networks/calculation_network.py:42", "brel/networks/calculation_network.py:103", "brel/parsers/XHMTL/xhtml_parse_facts.py:233", "brel/data/context/in_memory_context_repository.py:11", "brel/parsers/XHMTL/elements/parse_non_fraction.py:20", "brel/brel_fact.py:98"]}
{"id": "C129", "title": "Filters of table link bases", "statement": "A filter of a table link base is read with its label, its id and its condition: the names and expressions of a filter for names of concepts in the order of the document, the dimension and members of a filter for a dimension, the test of a filter for periods, and the date and time of a filter for a start, an end or an instant. The tables of the link have the filters that its arcs give them.", "quantifier": "every element, with any number of children, and every link", "why_tests_cant": "Elements and links are unbounded; that no element at all is read as a filter for a dimension and that no link at all gives a table a filter are statements about all inputs.", "anchors": ["brel/parsers/XML/formula/xml_filter_parser.py:38", "brel/parsers/XML/formula/xml_filter_parser.py:70", "brel/parsers/XML/formula/xml_filter_parser.py:137", "brel/parsers/XML/formula/xml_filter_parser.py:205", "brel/parsers/XML/formula/xml_filter_parser.py:220", "brel/parsers/XML/formula/xml_filter_parser.py:264", "brel/parsers/XML/table_linkbase/xml_table_linkbase_parser.py:745"]}
{"id": "C130", "title": "Tables of report elements, components and labels of an opened filing", "statement": "Of a valid filing that was opened, the table of report elements has one row for every element the schemas declare, in the order of the documents, which shows what the attributes of the declaration and the label links say; the table of components has one row for every declared role, which says of each class of networks whether a link of the role and the class locates a report element; the table of labels lists the labels that the label links state, element by element. An element without a label in the preferred languages does not affect the rows of the others.", "quantifier": "every valid XML or inline filing, every list of preferred languages with texts", "why_tests_cant": "Filings, their documents, links and lists of languages are unbounded, and the statement relates the tables to the documents through the whole reading of the filing.", "anchors": ["brel/brel_filing.py:454", "brel/brel_filing.py:465", "brel/brel_filing.py:478", "brel/brel_filing.py:487", "brel/brel_filing.py:497", "brel/resource/brel_label.py:58"]}
{"id": "C131", "title": "Pretty printing components and lists", "statement": "Printing a component shows its URI, its description and, in the order presentation, calculation, definition, every place of each of its networks, or a note that it has none. A list of components is printed one after the other; a list of facts as one table. The first element of another class, or the first component that is too deep, ends printing; what comes before it has been printed and nothing that comes after it. An object that is not supported raises the documented exception. All components of a valid filing that was opened can be printed, and the report elements printed below a network are those the links of the role locate.", "quantifier": "every component, network, node, list of objects and recursion limit; every valid XML filing", "why_tests_cant": "Networks, lists and filings are unbounded; that printing a filing always ends needs the absence of cycles, and the printed places are related to the link bases through the whole reading of the filing.", "anchors": ["brel/utils/pprint.py:27", "brel/utils/print_component.py:18", "brel/utils/print_table.py:4", "brel/brel_component.py:160"]}
{"id": "C132", "title": "Fact queries of an opened filing answer from its documents", "statement": "Of a valid filing that was opened, get_all_core_facts() lists the facts of the fact elements whose contexts have no dimensions, in the order of the documents; get_facts_by_concept_name() lists the facts of the fact elements that are named after the only concept the argument denotes; get_all_reported_concepts() lists the concepts that have a fact element, each once; and the table of core facts has one row for each core fact, in order, whatever labels the members and the concepts of other facts have.", "quantifier": "every valid XML filing, every concept name and text, every list of preferred languages", "why_tests_cant": "Filings, names and lists of languages are unbounded, and the statement relates the queries to the documents through the whole reading of the filing.", "anchors": ["brel/brel_filing.py:225", "brel/brel_filing.py:350", "brel/brel_filing.py:363", "brel/brel_filing.py:421", "brel/brel_fact.py:258"]}
{"id": "C133", "title": "Fact queries of an opened inline filing answer from its documents", "statement": "Of a valid inline filing that was opened, get_all_core_facts() lists the facts of the inline elements whose contexts have no dimensions, in the order of the documents, wherever the contexts are declared; get_facts_by_concept_name() lists the facts of the inline elements with the name of the only concept the argument denotes, and raises an exception if it denotes none or several; get_all_reported_concepts() lists the concepts that are the name of an inline element, each once; and the table of core facts has one row for each core fact, in order.", "quantifier": "every valid inline filing, every concept name and text, every list of preferred languages", "why_tests_cant": "Filings, names and lists of languages are unbounded, and the statement relates the queries to the documents through the whole reading of the filing.", "anchors": ["brel/brel_filing.py:225", "brel/brel_filing.py:350", "brel/brel_filing.py:363", "brel/brel_filing.py:421", "brel/parsers/xhtml_filing_parser.py:33"]}
{"id": "C134", "title": "The accessors of a fact answer what its element says", "statement": "Of a valid filing that was opened, in XML or inline, the facts are in the order of their elements, and for each of them get_concept(), get_unit(), get_period() and get_entity() give the concept the element names, the unit it refers to (None if it refers to none), and the period and the entity of its context; get_characteristic() of a dimension gives the member that the segment of the context states first for it, and None if it states none. The text of the context of a fact puts together the values of concept, entity, period, unit and of the dimensions in the order of their names, each followed by a space.", "quantifier": "every valid XML filing and every valid inline filing, every fact, every dimension", "why_tests_cant": "Filings, contexts and segments are unbounded, and the statement relates the accessors to the documents through the whole reading of the filing.", "anchors": ["brel/brel_fact.py:160", "brel/brel_fact.py:174", "brel/brel_fact.py:184", "brel/brel_fact.py:195", "brel/brel_context.py:127", "brel/brel_context.py:185"]}
{"id": "C135", "title": "Tables of report elements and components made one language at a time", "statement": "Without mixing of languages, the table of report elements of an opened filing consists of the tables in the single languages, one below the other, of those languages that come after the last one in which the titles of the columns or the label of some declared element are missing; the table of components likewise, where only the titles have to be there. Every block has one row for each declared element or role, in order, and shows what the documents say. If the last preferred language cannot be shown, the table is empty.", "quantifier": "every valid XML or inline filing, every list of preferred languages, with and without matching of locales", "why_tests_cant": "Filings and lists of languages are unbounded; which blocks appear depends on the labels of all elements in all languages.", "anchors": ["brel/brel_filing.py:454", "brel/brel_filing.py:487", "brel/brel_filing.py:498"]}
{"id": "C136", "title": "The table of core facts made one language at a time", "statement": "Without mixing of languages, the table of core facts of an opened filing consists of the tables in the single languages, one below the other, of those languages that come after the last one in which the titles of the core aspects or a label of a concept of a core fact are missing. Every block has one row for each fact element whose context has no dimensions, in order. The core aspects have no Italian titles, so with Italian as the last preferred language the table is empty.", "quantifier": "every valid XML filing, every list of preferred languages, with and without matching of locales", "why_tests_cant": "Filings and lists of languages are unbounded; which blocks appear depends on the labels of the concepts of all core facts in all languages.", "anchors": ["brel/brel_filing.py:421", "brel/brel_filing.py:498", "brel/brel_fact.py:225"]}
