{
 "claims": [
  {
   "property": "C01",
   "status": "proved",
   "theorems": [
    "Brel.C01_first_characteristic_wins",
    "Brel.C01_later_addition_ignored",
    "Brel.C01_has_iff_lookup"
   ],
   "note": ""
  },
  {
   "property": "C02",
   "status": "proved",
   "theorems": [
    "Brel.C02_aspects_strictly_sorted",
    "Brel.C02_aspects_exact"
   ],
   "note": ""
  },
  {
   "property": "C03",
   "status": "proved",
   "theorems": [
    "Brel.C03_facts_do_not_interfere",
    "Brel.C03_stored_context_unchanged"
   ],
   "note": ""
  },
  {
   "property": "C04",
   "status": "proved",
   "theorems": [
    "Brel.C04_integer",
    "Brel.C04_numeric",
    "Brel.C04_boolean",
    "Brel.C04_text",
    "Brel.C04_kinds",
    "Brel.C04_standard_types"
   ],
   "note": "float() text syntax is a parameter; int() and bool syntax are modelled on characters"
  },
  {
   "property": "C05",
   "status": "proved",
   "theorems": [
    "Brel.C05_is_core",
    "Brel.C05_core_facts"
   ],
   "note": ""
  },
  {
   "property": "C06",
   "status": "partial",
   "theorems": [
    "Brel.C06_get_by_id",
    "Brel.C06_get_all_partial",
    "Brel.C06_facts_without_id_lost",
    "Brel.C06_every_stored_fact_listed_false"
   ],
   "note": "facts without id are never listed by the code; proved for facts with an id"
  },
  {
   "property": "C07",
   "status": "proved",
   "theorems": [
    "Brel.C07_reported_concepts",
    "Brel.C07_reported_concepts_raises"
   ],
   "note": "over the facts listed by get_all_facts (see C06 for facts that are not listed)"
  },
  {
   "property": "C08",
   "status": "proved",
   "theorems": [
    "Brel.C08_facts_of_concept",
    "Brel.C08_by_qname",
    "Brel.C08_by_text"
   ],
   "note": "which concept a text finds is the subject of C28"
  },
  {
   "property": "C09",
   "status": "proved",
   "theorems": [
    "Brel.C09_get_component"
   ],
   "note": ""
  },
  {
   "property": "C10",
   "status": "proved",
   "theorems": [
    "Brel.C10_preferred_languages",
    "Brel.C10_offered_languages"
   ],
   "note": ""
  },
  {
   "property": "C11",
   "status": "proved",
   "theorems": [
    "Brel.C11_effective_parameters",
    "Brel.C11_explicit_false"
   ],
   "note": ""
  },
  {
   "property": "C12",
   "status": "partial",
   "theorems": [
    "Brel.C12_flags_swapped",
    "Brel.C12_own_source_false",
    "Brel.C12_equal_flags_partial"
   ],
   "note": "false: the two flags are swapped; what each flag really controls is proved"
  },
  {
   "property": "C13",
   "status": "partial",
   "theorems": [
    "Brel.C13_rows_after_last_failure",
    "Brel.C13_one_row_per_element_false",
    "Brel.C13_first_usable_language_false",
    "Brel.C13_only_last_language_partial",
    "Brel.C13_mixed"
   ],
   "note": "false: rows of all languages after the last failing one are concatenated; exact behaviour proved"
  },
  {
   "property": "C14",
   "status": "proved",
   "theorems": [
    "Brel.C14_translation",
    "Brel.C14_table_from_rows",
    "Brel.C14_label",
    "Brel.C14_language_match"
   ],
   "note": ""
  },
  {
   "property": "C15",
   "status": "proved",
   "theorems": [
    "Brel.C15_main_label"
   ],
   "note": ""
  },
  {
   "property": "C16",
   "status": "proved",
   "theorems": [
    "Brel.C16_balance"
   ],
   "note": ""
  },
  {
   "property": "C17",
   "status": "partial",
   "theorems": [
    "Brel.C17_aggregation_exact",
    "Brel.C17_aggregation_false",
    "Brel.C17_all_sums_checked_partial",
    "Brel.C17_missing_child_raises"
   ],
   "note": "exact decision proved; false: sums below an unreported parent are never checked"
  },
  {
   "property": "C18",
   "status": "proved",
   "theorems": [
    "Brel.C18_children_in_order",
    "Brel.C18_accepts",
    "Brel.C18_other_class"
   ],
   "note": "order values as rational numbers (every finite float is one)"
  },
  {
   "property": "C19",
   "status": "proved",
   "theorems": [
    "Brel.C19_all_nodes",
    "Brel.C19_all_nodes_defined",
    "Brel.C19_acyclic",
    "Brel.C19_cycle_raises",
    "Brel.C19_descendants",
    "Brel.C19_descendants_terminates",
    "Brel.C19_descendants_mono",
    "Brel.C19_get_root",
    "Brel.C19_arc_roles"
   ],
   "note": "exact also for cyclic networks: get_all_nodes raises RecursionError, get_all_descendants does not end"
  },
  {
   "property": "C20",
   "status": "proved",
   "theorems": [
    "Brel.C20_nodes",
    "Brel.C20_edges",
    "Brel.C20_edge_iff",
    "Brel.C20_children_sorted",
    "Brel.C20_roots",
    "Brel.C20_networks",
    "Brel.C20_reported",
    "Brel.C20_succeeds"
   ],
   "note": "for every iteration order of Python sets; order and weight as rational numbers"
  },
  {
   "property": "C21",
   "status": "proved",
   "theorems": [
    "Brel.C21_objects",
    "Brel.C21_relations",
    "Brel.C21_node_data",
    "Brel.C21_none_and_one",
    "Brel.C21_succeeds",
    "Brel.C21_children"
   ],
   "note": "in terms of the objects and relations; comparisons of the unused sort not modelled"
  },
  {
   "property": "C22",
   "status": "partial",
   "theorems": [
    "Brel.C22_by_name",
    "Brel.C22_typed_by_name",
    "Brel.C22_all",
    "Brel.C22_by_id",
    "Brel.C22_by_id_is_current_false",
    "Brel.C22_by_id_partial"
   ],
   "note": "lookup by id can return an element that is no longer stored; proved for histories where names and ids correspond"
  },
  {
   "property": "C23",
   "status": "proved",
   "theorems": [
    "Brel.C23_consistent"
   ],
   "note": ""
  },
  {
   "property": "C24",
   "status": "partial",
   "theorems": [
    "Brel.C24_rewrites_prefix",
    "Brel.C24_unique_rule",
    "Brel.C24_longest_rule_false",
    "Brel.C24_first_inserted_rule"
   ],
   "note": "the first inserted matching rule is used, not the longest one the OASIS catalog specification requires"
  },
  {
   "property": "C25",
   "status": "partial",
   "theorems": [
    "Brel.C25_folder_partial",
    "Brel.C25_server_partial",
    "Brel.C25_folders_false",
    "Brel.C25_scheme_false",
    "Brel.C25_punctuation_false",
    "Brel.C25_outdated_false",
    "Brel.C25_same_name_false"
   ],
   "note": "false in general: same names in two folders, http and https, and punctuation collide; proved for files of one folder and plain paths of one server; the effects of a collision are proved, too"
  },
  {
   "property": "C26",
   "status": "partial",
   "theorems": [
    "Brel.C26_loads_partial",
    "Brel.C26_cycle_false"
   ],
   "note": "exact for documents with distinct cache names reaching finitely many URIs, cyclic references included; false for local references with .., which never end"
  },
  {
   "property": "C27",
   "status": "partial",
   "theorems": [
    "Brel.C27_clark_roundtrip_partial",
    "Brel.C27_clark_xml",
    "Brel.C27_prefix_roundtrip",
    "Brel.C27_prefix_declared",
    "Brel.C27_clark_roundtrip_false",
    "Brel.C27_default_namespace_false"
   ],
   "note": "false for Clark notation with several prefixes or a default namespace; exact condition proved; proved outright for prefix:local"
  },
  {
   "property": "C28",
   "status": "partial",
   "theorems": [
    "Brel.C28_search_elements",
    "Brel.C28_search_concepts",
    "Brel.C28_search_complete_partial",
    "Brel.C28_schema_names_registered",
    "Brel.C28_search_complete_false",
    "Brel.C28_clark_search_finds_nothing"
   ],
   "note": "sound; complete only for elements whose prefix is registered, false for schemas whose target namespace is the default namespace and for Clark texts"
  },
  {
   "property": "C29",
   "status": "partial",
   "theorems": [
    "Brel.C29_decimal",
    "Brel.C29_decimal_rejects",
    "Brel.C29_bad_scale",
    "Brel.C29_unit_partial",
    "Brel.C29_unit_rejects",
    "Brel.C29_unit_false",
    "Brel.C29_earlier_names",
    "Brel.C29_fixed_zero",
    "Brel.C29_earlier_zero_false",
    "Brel.C29_unknown_format"
   ],
   "note": "exact for all decimal formats and for two-digit hundredths; false for one-digit hundredths and for the earlier names of zero formats; zero gives the empty text (C30)"
  },
  {
   "property": "C30",
   "status": "partial",
   "theorems": [
    "Brel.C29_decimal",
    "Brel.C30_zero_false",
    "Brel.C30_integer_partial"
   ],
   "note": "canonical and readable for every nonzero number; zero is stored as an empty text"
  },
  {
   "property": "C31",
   "status": "partial",
   "theorems": [
    "Brel.C31_minus_partial",
    "Brel.C31_other_sign",
    "Brel.C31_empty_sign_false",
    "Brel.C31_zero_false",
    "Brel.C31_signed_scaled_partial",
    "Brel.C31_nil",
    "Brel.C31_nil_one_false",
    "Brel.C31_text_value"
   ],
   "note": "false for zero, an empty sign and xsi:nil=\"1\""
  },
  {
   "property": "C32",
   "status": "partial",
   "theorems": [
    "Brel.C32_numeric",
    "Brel.C32_named_partial",
    "Brel.C32_fact",
    "Brel.C32_japanese_day",
    "Brel.C32_japanese_month",
    "Brel.C32_era_fact",
    "Brel.C32_indian_false",
    "Brel.C32_german_false",
    "Brel.C32_dutch_false",
    "Brel.C32_lithuanian_false",
    "Brel.C32_slovenian_false",
    "Brel.C32_roman_false"
   ],
   "note": "all numeric formats and all formats with month names, for every text; false for some German, Dutch, Lithuanian months, Slovenian dates with a day, Roman months and the whole Indian calendar; the Japanese calendar is read right"
  },
  {
   "property": "C33",
   "status": "partial",
   "theorems": [
    "Brel.C33_chains",
    "Brel.C33_terminates_iff",
    "Brel.C33_acyclic_partial",
    "Brel.C33_cyclic_false",
    "Brel.C33_elements",
    "Brel.C33_accepted"
   ],
   "note": "false for continuations that form a circle: the parser runs forever; exact characterisation of termination, and termination without circles"
  },
  {
   "property": "C34",
   "status": "proved",
   "theorems": [
    "Brel.C34_text",
    "Brel.C34_value"
   ],
   "note": ""
  },
  {
   "property": "C35",
   "status": "partial",
   "theorems": [
    "Brel.C35_groups_partial",
    "Brel.C35_arcrole",
    "Brel.C35_linkrole_false"
   ],
   "note": "one network per pair of roles; false for the link role: it is always the arc role"
  },
  {
   "property": "C36",
   "status": "partial",
   "theorems": [
    "Brel.C36_defaults_partial",
    "Brel.C36_order_false",
    "Brel.C36_document_false"
   ],
   "note": "false without a readable order: UnboundLocalError"
  },
  {
   "property": "C37",
   "status": "partial",
   "theorems": [
    "Brel.C37_unique",
    "Brel.C37_kept_partial",
    "Brel.C37_lost_false"
   ],
   "note": "one prefix per group always; every group is kept when no prefix stands for two groups; false in general: of three groups with one prefix the second is lost"
  },
  {
   "property": "C38",
   "status": "partial",
   "theorems": [
    "Brel.C38_first_scheme",
    "Brel.C38_entity_partial",
    "Brel.C38_entity_false"
   ],
   "note": "exact: the scheme is that of the first context with this identifier; false when an identifier is used with two schemes"
  },
  {
   "property": "C39",
   "status": "partial",
   "theorems": [
    "Brel.C39_none_iff",
    "Brel.C39_content_partial",
    "Brel.C39_lookup_partial",
    "Brel.C39_reported_partial",
    "Brel.C39_iff_false",
    "Brel.C39_reported_false",
    "Brel.C39_comment_false",
    "Brel.C39_kind_false",
    "Brel.C39_unknown_typed_false"
   ],
   "note": "contents exact for filings whose texts have one meaning each; false: contexts with an invalid period or entity are still returned, an empty identifier is not reported, comments, unknown kinds of dimensions and unknown typed dimensions raise"
  },
  {
   "property": "C40",
   "status": "partial",
   "theorems": [
    "Brel.C40_simple",
    "Brel.C40_is_simple",
    "Brel.C40_divide",
    "Brel.C40_reported_partial",
    "Brel.C40_measures_false",
    "Brel.C40_empty_false",
    "Brel.C40_same_false",
    "Brel.C40_whitespace_false"
   ],
   "note": "well-formed units exact; false: further measures are dropped silently, empty numerators and two numerators raise, white space is not removed"
  },
  {
   "property": "C41",
   "status": "partial",
   "theorems": [
    "Brel.C41_xml_partial",
    "Brel.C41_fact",
    "Brel.C41_listed_partial",
    "Brel.C41_reported",
    "Brel.C41_no_id_false",
    "Brel.C41_duplicate_false",
    "Brel.C41_unit_false",
    "Brel.C41_context_false",
    "Brel.C41_unknown_unit_false",
    "Brel.C41_inline_partial",
    "Brel.C41_inline_reported",
    "Brel.C41_inline_fact",
    "Brel.C41_inline_elements",
    "Brel.C41_inline_unitless",
    "Brel.C41_prefix_false",
    "Brel.C41_root_false"
   ],
   "note": "XML instances: every element is stored or reported for all filings, exact contents under unambiguous texts; false: facts without id or with repeated ids are not listed, units of other documents are used, unknown contexts and units raise. Inline documents: facts exact for unambiguous contexts and the prefix ix; false: other prefixes, or a root that does not bind ix, lose facts without a report"
  },
  {
   "property": "C42",
   "status": "partial",
   "theorems": [
    "Brel.C42_component",
    "Brel.C42_refused",
    "Brel.C42_all",
    "Brel.C42_filing",
    "Brel.C42_prefix_false",
    "Brel.C42_unbound_false"
   ],
   "note": "exact component and reports whenever the prefix link is bound to the linkbase name space; false for documents that use another prefix"
  },
  {
   "property": "C43",
   "status": "partial",
   "theorems": [
    "Brel.C43_kinds",
    "Brel.C43_standard_partial",
    "Brel.C43_boolean_false",
    "Brel.C43_head_false",
    "Brel.C43_group_false"
   ],
   "note": "exact condition for every kind; agrees with the specifications for taxonomies written in the customary way; false: abstract=\"1\", elements of no substitution group, groups whose name merely contains the word"
  },
  {
   "property": "C44",
   "status": "partial",
   "theorems": [
    "Brel.C44_concept",
    "Brel.C44_boolean_false"
   ],
   "note": "exact; false for nillable=\"1\", a valid boolean"
  },
  {
   "property": "C45",
   "status": "partial",
   "theorems": [
    "Brel.C45_inherited",
    "Brel.C45_nearest",
    "Brel.C45_ends",
    "Brel.C45_cycle_false",
    "Brel.C45_cycle_link_false"
   ],
   "note": "exact for every link that is read, whatever its shape; links without cycles are read; false for cyclic trees, which end with a RecursionError"
  },
  {
   "property": "C46",
   "status": "partial",
   "theorems": [
    "Brel.C46_create",
    "Brel.C46_identifies",
    "Brel.C46_areas",
    "Brel.C46_short",
    "Brel.C46_sites",
    "Brel.C46_eight",
    "Brel.C46_sites_false",
    "Brel.C46_messages_false",
    "Brel.C46_history",
    "Brel.C46_partition"
   ],
   "note": "Proved: codes identify kinds, messages, history and filters, and which reporting calls work for all values. False of the code: eight calls raise ValueError instead of recording their error, and the messages for a missing start and a missing end date are swapped."
  },
  {
   "property": "C47",
   "status": "proved",
   "theorems": [
    "Brel.C47_constructed",
    "Brel.C47_getters",
    "Brel.C47_reachable"
   ],
   "note": ""
  },
  {
   "property": "C48",
   "status": "partial",
   "theorems": [
    "Brel.C48_partial",
    "Brel.C48_none_partial",
    "Brel.C48_footnotes",
    "Brel.C48_false"
   ],
   "note": "exact for references, contexts, units, continuations, facts that are made and footnotes; false for the ids of fact elements that are dropped"
  },
  {
   "property": "C49",
   "status": "proved",
   "theorems": [
    "Brel.C49_kinds",
    "Brel.C49_created",
    "Brel.C49_refused"
   ],
   "note": ""
  },
  {
   "property": "C50",
   "status": "partial",
   "theorems": [
    "Brel.C50_lines",
    "Brel.C50_node",
    "Brel.C50_parent",
    "Brel.C50_defined",
    "Brel.C50_cycle_false"
   ],
   "note": "exact for every network without cycles; cyclic networks cannot be printed"
  },
  {
   "property": "C51",
   "status": "partial",
   "theorems": [
    "Brel.C51_same_context_equal_characteristics_false",
    "Brel.C51_equal_characteristics_partial"
   ],
   "note": "false for explicit/typed dimensions of inline facts (deepcopy + identity equality); holds for period, entity and unit"
  },
  {
   "property": "C52",
   "status": "partial",
   "theorems": [
    "Brel.C52_tables_stored_false",
    "Brel.C52_tables_partial"
   ],
   "note": "the first table of every link role raises TypeError"
  },
  {
   "property": "C53",
   "status": "proved",
   "theorems": [
    "Brel.C53_networks"
   ],
   "note": ""
  },
  {
   "property": "C54",
   "status": "proved",
   "theorems": [
    "Brel.C54_lookup"
   ],
   "note": ""
  },
  {
   "property": "C55",
   "status": "partial",
   "theorems": [
    "Brel.C55_irrelevant_fact_partial",
    "Brel.C55_foreign_concept",
    "Brel.C55_breakdown_does_not_matter_false"
   ],
   "note": "proved for facts of foreign concepts; false for facts broken down by a further dimension"
  },
  {
   "property": "C56",
   "status": "partial",
   "theorems": [
    "Brel.C56_system_language_never_matches",
    "Brel.C56_system_language_selects_label_false",
    "Brel.C56_plain_code_partial"
   ],
   "note": "false for every locale name of the form ll_CC"
  },
  {
   "property": "C57",
   "status": "partial",
   "theorems": [
    "Brel.C57_element_by_text",
    "Brel.C57_concept_by_text",
    "Brel.C57_missing_is_none_false"
   ],
   "note": "exact success condition proved; the documented None for missing names is never returned"
  },
  {
   "property": "C58",
   "status": "partial",
   "theorems": [
    "Brel.C58_row_complete_partial",
    "Brel.C58_plain_row_complete",
    "Brel.C58_row_complete_false"
   ],
   "note": "false when two aspects share a label"
  },
  {
   "property": "C59",
   "status": "partial",
   "theorems": [
    "Brel.C59_filing_params_partial",
    "Brel.C59_library_params_partial",
    "Brel.C59_levels_independent",
    "Brel.C59_other_parameters_kept_false",
    "Brel.C59_library_languages"
   ],
   "note": "false: the setters replace the whole dictionary; exact final state proved"
  },
  {
   "property": "C60",
   "status": "partial",
   "theorems": [
    "Brel.C60_child_shows_its_arc_false",
    "Brel.C60_first_arc_partial",
    "Brel.C60_single_parent_partial"
   ],
   "note": "false for a locator with several parents: it shows the first arc of the document"
  },
  {
   "property": "C61",
   "status": "partial",
   "theorems": [
    "Brel.C61_children_order_determined_false",
    "Brel.C61_same_children_partial"
   ],
   "note": "false for equal orders; proved for presentation, calculation and logical definition networks with different orders"
  },
  {
   "property": "C62",
   "status": "partial",
   "theorems": [
    "Brel.C62_prohibited_arcs_excluded_false",
    "Brel.C62_use_ignored"
   ],
   "note": "false: the use attribute is never read"
  },
  {
   "property": "C63",
   "status": "partial",
   "theorems": [
    "Brel.C63_locator_respects_document_false",
    "Brel.C63_resolves_fragment_partial",
    "Brel.C63_unique_ids_partial"
   ],
   "note": "false: only the fragment counts; proved for ids unique over all documents"
  },
  {
   "property": "C64",
   "status": "partial",
   "theorems": [
    "Brel.C64_link_order_irrelevant_false",
    "Brel.C64_same_relations_partial"
   ],
   "note": "false for roots and nesting; objects and relations agree"
  },
  {
   "property": "C65",
   "status": "proved",
   "theorems": [
    "Brel.C65_labels",
    "Brel.C65_succeeds",
    "Brel.C65_label_without_arc_fails"
   ],
   "note": "for label links whose arcs do not lead to elements; a label without arc makes the parser fail"
  },
  {
   "property": "C66",
   "status": "partial",
   "theorems": [
    "Brel.C66_both_occurrences_shown_false",
    "Brel.C66_separate_locators_partial"
   ],
   "note": "false with a shared locator"
  },
  {
   "property": "C67",
   "status": "partial",
   "theorems": [
    "Brel.C67_every_end_in_a_network_false",
    "Brel.C67_below_unresolved_false",
    "Brel.C67_reachable_partial"
   ],
   "note": "false on cycles and below unresolved locators"
  },
  {
   "property": "C68",
   "status": "partial",
   "theorems": [
    "Brel.C68_footnote_text_complete_false",
    "Brel.C68_reference_parts_complete_false",
    "Brel.C68_text_partial",
    "Brel.C68_reference_parts_partial"
   ],
   "note": "false for footnotes with markup and repeated reference parts"
  },
  {
   "property": "C69",
   "status": "partial",
   "theorems": [
    "Brel.C69_objects",
    "Brel.C69_reported_false",
    "Brel.C69_tags",
    "Brel.C69_definition_twice"
   ],
   "note": "a wrong object is refused by an exception, not reported"
  },
  {
   "property": "C70",
   "status": "proved",
   "theorems": [
    "Brel.C70_accuracy",
    "Brel.C70_id"
   ],
   "note": ""
  },
  {
   "property": "C71",
   "status": "partial",
   "theorems": [
    "Brel.C71_nested_false",
    "Brel.C71_differs_false",
    "Brel.C71_nested_checks"
   ],
   "note": "false for every nested fact: the value is XML source; a nested fact with another format, scale or unit raises"
  },
  {
   "property": "C72",
   "status": "partial",
   "theorems": [
    "Brel.C32_numeric",
    "Brel.C32_named_partial",
    "Brel.C32_japanese_day",
    "Brel.C72_recurring_false",
    "Brel.C72_month_false",
    "Brel.C72_era_false"
   ],
   "note": "holds for formats with a year and months 1 to 12; false without a year, for months beyond 12 and for days outside a Japanese era"
  },
  {
   "property": "C73",
   "status": "proved",
   "theorems": [
    "Brel.C73_no_format",
    "Brel.C73_fixed",
    "Brel.C73_unsupported",
    "Brel.C32_fact"
   ],
   "note": ""
  },
  {
   "property": "C74",
   "status": "partial",
   "theorems": [
    "Brel.C74_source",
    "Brel.C74_escape_iff",
    "Brel.C74_value_partial",
    "Brel.C74_escape_false"
   ],
   "note": "exact: the value is a source of the content if and only if no text inside a child element contains a special character; otherwise that character is escaped twice"
  },
  {
   "property": "C75",
   "status": "proved",
   "theorems": [
    "Brel.C75_once"
   ],
   "note": ""
  },
  {
   "property": "C76",
   "status": "partial",
   "theorems": [
    "Brel.C76_structure",
    "Brel.C76_footnotes_partial",
    "Brel.C76_fact_false"
   ],
   "note": "false when a relationship leads to a fact whose value is not a truth value"
  },
  {
   "property": "C77",
   "status": "partial",
   "theorems": [
    "Brel.C77_reported",
    "Brel.C77_unknown_false"
   ],
   "note": "errors exact; false for unknown ids: an exception follows"
  },
  {
   "property": "C78",
   "status": "partial",
   "theorems": [
    "Brel.C78_data",
    "Brel.C78_no_id",
    "Brel.C78_content_false"
   ],
   "note": "false for the content: tags of the footnote and the text after it are included"
  },
  {
   "property": "C79",
   "status": "partial",
   "theorems": [
    "Brel.C79_order_false",
    "Brel.C76_structure"
   ],
   "note": "false when relationships of different facts share a footnote; children are sorted by the order of their nodes"
  },
  {
   "property": "C80",
   "status": "partial",
   "theorems": [
    "Brel.C80_dimensions_partial",
    "Brel.C39_reported_partial",
    "Brel.C80_prefix_false",
    "Brel.C80_repeated_false"
   ],
   "note": "false when a prefix is bound to several namespaces, and a repeated dimension is dropped silently"
  },
  {
   "property": "C81",
   "status": "proved",
   "theorems": [
    "Brel.C81_period"
   ],
   "note": "for date texts without spaces, as all texts of xs:date and xs:dateTime are"
  },
  {
   "property": "C82",
   "status": "partial",
   "theorems": [
    "Brel.C82_concept_partial",
    "Brel.C82_prefix_false"
   ],
   "note": "holds when the prefix agrees with the one of the taxonomy, false otherwise"
  },
  {
   "property": "C83",
   "status": "partial",
   "theorems": [
    "Brel.C83_headers",
    "Brel.C83_resources",
    "Brel.C83_hidden_partial",
    "Brel.C83_references_partial",
    "Brel.C83_hidden_false",
    "Brel.C83_references_false",
    "Brel.C83_prefix_false",
    "Brel.C83_comment_false"
   ],
   "note": "exact lists and counts whenever the parser returns; false: other prefixes are treated as foreign elements; comments and foreign children of hidden and references elements raise"
  },
  {
   "property": "C84",
   "status": "proved",
   "theorems": [
    "Brel.C84_networks"
   ],
   "note": "for every run of the two passes that returns; the reports made inside a link are those of C20"
  },
  {
   "property": "C85",
   "status": "proved",
   "theorems": [
    "Brel.C85_elements",
    "Brel.C85_created"
   ],
   "note": "names and name spaces free of braces, as XML demands"
  },
  {
   "property": "C86",
   "status": "partial",
   "theorems": [
    "Brel.C86_typed_partial",
    "Brel.C86_prefix_false",
    "Brel.C86_relative_false"
   ],
   "note": "exact for the prefix xbrldt; false for other prefixes and for relative references"
  },
  {
   "property": "C87",
   "status": "partial",
   "theorems": [
    "Brel.C87_written",
    "Brel.C87_found_partial",
    "Brel.C87_pairs_false",
    "Brel.C87_spaces_false",
    "Brel.C87_comment_false",
    "Brel.C87_entity_false"
   ],
   "note": "nothing is invented; nothing is missed outside of values of other references; false for several pairs in one schemaLocation, spaces around the equals sign, comments and entities"
  },
  {
   "property": "C88",
   "status": "partial",
   "theorems": [
    "Brel.C88_chosen",
    "Brel.C88_rules",
    "Brel.C88_repeated_false"
   ],
   "note": "exact; false: a repeated start text is not reported, the opening fails"
  },
  {
   "property": "C89",
   "status": "partial",
   "theorems": [
    "Brel.C89_folder",
    "Brel.C89_file",
    "Brel.C89_htm_false",
    "Brel.C89_zip_false",
    "Brel.C89_dot_false"
   ],
   "note": "exact for folders and files; false: archives cannot be opened, .htm files only in folders"
  },
  {
   "property": "C90",
   "status": "partial",
   "theorems": [
    "Brel.C90_chosen",
    "Brel.C90_default",
    "Brel.C90_latest_false"
   ],
   "note": "exact for the largest sum of numbers; false: the largest sum is not the latest date"
  },
  {
   "property": "C91",
   "status": "partial",
   "theorems": [
    "Brel.C91_tables",
    "Brel.C91_breakdowns",
    "Brel.C91_nodes",
    "Brel.C91_reads_partial",
    "Brel.C91_order_false",
    "Brel.C91_comment_false"
   ],
   "note": "structure exact for every link that is read; false: arcs without an integer order and comments raise"
  },
  {
   "property": "C92",
   "status": "partial",
   "theorems": [
    "Brel.C92_rules",
    "Brel.C92_aspect",
    "Brel.C92_dimension",
    "Brel.C92_boolean_false"
   ],
   "note": "exact; false for abstract=\"1\""
  },
  {
   "property": "C93",
   "status": "partial",
   "theorems": [
    "Brel.C93_found_partial",
    "Brel.C93_found_false",
    "Brel.C93_filters_false",
    "Brel.C93_concept_false",
    "Brel.C93_axis_false",
    "Brel.C93_source_false"
   ],
   "note": "false of the code in each respect, proved for all inputs; what is found is exact"
  },
  {
   "property": "C94",
   "status": "partial",
   "theorems": [
    "Brel.C94_elements",
    "Brel.C94_weight",
    "Brel.C94_fact_false",
    "Brel.C94_weight_false"
   ],
   "note": "proved for report elements and weights of up to seven characters; false: nothing is printed about facts, longer weights shift the columns"
  },
  {
   "property": "C95",
   "status": "proved",
   "theorems": [
    "Brel.C95_columns",
    "Brel.C95_rows",
    "Brel.C95_defined",
    "Brel.C95_fact"
   ],
   "note": "an aspect named id or value makes printing fail"
  },
  {
   "property": "C96",
   "status": "partial",
   "theorems": [
    "Brel.C96_accepted_partial"
   ],
   "note": "proved for filings whose texts have one meaning each (one scheme per identifier, one dimension per prefixed name, one unit per id across documents); without that the caches mix up elements, see C38_entity_false, C80_prefix_false, C41_unit_false"
  },
  {
   "property": "C97",
   "status": "proved",
   "theorems": [
    "Brel.C97_roundtrip",
    "Brel.C97_fact"
   ],
   "note": ""
  },
  {
   "property": "C98",
   "status": "partial",
   "theorems": [
    "Brel.C98_accepted_partial"
   ],
   "note": "proved for filings whose context texts have one meaning each (as C96) and whose facts can be read (the subject of C29 to C35); elements have to be written with the prefixes ix, link and xbrli, see C41_prefix_false and C83_prefix_false"
  },
  {
   "property": "C99",
   "status": "proved",
   "theorems": [
    "Brel.C99_reports",
    "Brel.C99_exact"
   ],
   "note": "for the continuations of every filing whose chains end, see C33 for those that do not"
  },
  {
   "property": "C100",
   "status": "partial",
   "theorems": [
    "Brel.C100_labels",
    "Brel.C100_role_optional_false",
    "Brel.C100_prefix_free_false"
   ],
   "note": "exact for every filing that is opened, if the prefix xlink is bound to XLink and label arcs do not lead to locators; false: a label without role makes opening fail, another prefix loses the labels"
  },
  {
   "property": "C101",
   "status": "proved",
   "theorems": [
    "Brel.C101_nothing_else",
    "Brel.C101_everything",
    "Brel.C101_one_network"
   ],
   "note": "for links of XBRL 2.1 in which the prefix xlink is bound to XLink"
  },
  {
   "property": "C102",
   "status": "partial",
   "theorems": [
    "Brel.C102_succeeds",
    "Brel.C102_reports",
    "Brel.C102_roles",
    "Brel.C102_silent",
    "Brel.C102_no_cycles",
    "Brel.C102_comment_false"
   ],
   "note": "valid: in addition to XBRL 2.1, resources have a role (C100_role_optional_false) and references contain no comments (C102_comment_false)"
  },
  {
   "property": "C103",
   "status": "partial",
   "theorems": [
    "Brel.C103_right",
    "Brel.C103_found_partial",
    "Brel.C103_refused",
    "Brel.C103_fresh_partial",
    "Brel.C103_dates_false",
    "Brel.C103_fresh_false"
   ],
   "note": "opening the chosen document is Filing.open (not part of this theorem); false: one filing without report date makes opening fail, metadata of up to two days are used"
  },
  {
   "property": "C104",
   "status": "partial",
   "theorems": [
    "Brel.C104_rows",
    "Brel.C104_no_language",
    "Brel.C104_plain",
    "Brel.C104_plain_false",
    "Brel.C104_label_false"
   ],
   "note": "rows exact for every language list with a usable language; false: without languages the definition network has a misspelt title; the label may be of any role"
  },
  {
   "property": "C105",
   "status": "partial",
   "theorems": [
    "Brel.C105_opens",
    "Brel.C105_search",
    "Brel.C105_facts_by_concept",
    "Brel.C105_role_optional_false"
   ],
   "note": "valid is as in C85, C96, C102 and C42, which is stricter than XBRL 2.1: a label without role makes opening fail"
  },
  {
   "property": "C106",
   "status": "partial",
   "theorems": [
    "Brel.C106_languages_partial",
    "Brel.C106_all_languages",
    "Brel.C106_label_languages",
    "Brel.C106_output_languages",
    "Brel.C106_root_language_false"
   ],
   "note": "exact for languages stated below the roots; false: a language that only the root of a document states is not offered"
  },
  {
   "property": "C107",
   "status": "proved",
   "theorems": [
    "Brel.C107_one_arc_role",
    "Brel.C107_nothing_else",
    "Brel.C107_everything"
   ],
   "note": "completeness for links whose arcs form no cycle and start at report elements"
  },
  {
   "property": "C108",
   "status": "proved",
   "theorems": [
    "Brel.C108_members",
    "Brel.C108_disjoint",
    "Brel.C108_complete"
   ],
   "note": ""
  },
  {
   "property": "C109",
   "status": "partial",
   "theorems": [
    "Brel.C109_reports",
    "Brel.C109_documents_partial",
    "Brel.C109_linktype_false",
    "Brel.C109_arcrole_false",
    "Brel.C109_prefix_false"
   ],
   "note": "the reports are exact, but false for valid references: every one is reported, since xlink:linktype is read instead of xlink:type; valid arc role references are reported twice"
  },
  {
   "property": "C110",
   "status": "partial",
   "theorems": [
    "Brel.C110_opens_partial"
   ],
   "note": "relationships must have an order (C36) and lead from facts to footnotes (C76); the reports about role references (C109) remain; the link role of a network of footnotes is wrong (C35)"
  },
  {
   "property": "C111",
   "status": "partial",
   "theorems": [
    "Brel.C111_xml_partial",
    "Brel.C111_inline_partial",
    "Brel.C111_refused"
   ],
   "note": "under the hypotheses of C26 (distinct cache names, no endless local references), C105 and C110, outside of which the code fails"
  },
  {
   "property": "C112",
   "status": "partial",
   "theorems": [
    "Brel.C112_split",
    "Brel.C112_decision",
    "Brel.C112_absolute_partial",
    "Brel.C112_fragment_false",
    "Brel.C112_words_false",
    "Brel.C112_role_false"
   ],
   "note": "exact for well-formed references; references without a path are refused, and words with spaces pass"
  },
  {
   "property": "C113",
   "status": "partial",
   "theorems": [
    "Brel.C113_getters",
    "Brel.C113_mirrors",
    "Brel.C113_defined",
    "Brel.C113_network",
    "Brel.C113_elements_false"
   ],
   "note": "the dictionary mirrors the shape, roles and names of a network, but does not say which elements, resources or facts the nodes point to"
  },
  {
   "property": "C114",
   "status": "partial",
   "theorems": [
    "Brel.C114_period",
    "Brel.C114_equivalence",
    "Brel.C114_entity_partial",
    "Brel.C114_entity_false",
    "Brel.C114_unit_false",
    "Brel.C114_context_false",
    "Brel.C114_concept_partial",
    "Brel.C114_concept_false"
   ],
   "note": "exact for periods, and for entities whose schemes have no brace; units and contexts are compared by id only, concepts with their prefixes"
  },
  {
   "property": "C115",
   "status": "partial",
   "theorems": [
    "Brel.C115_weights_partial",
    "Brel.C115_orders_partial",
    "Brel.C115_labels_partial",
    "Brel.C115_weights_false"
   ],
   "note": "exact if arcs of a link that lead to the same locator agree on the attribute, which is needed: C115_weights_false"
  },
  {
   "property": "C116",
   "status": "partial",
   "theorems": [
    "Brel.C116_balance_partial",
    "Brel.C116_balance_false"
   ],
   "note": "exact if arcs of a link that lead to the same locator agree on the weight, which is needed: C116_balance_false"
  },
  {
   "property": "C117",
   "status": "partial",
   "theorems": [
    "Brel.C117_added",
    "Brel.C117_history",
    "Brel.C117_again",
    "Brel.C117_encoding_false",
    "Brel.C117_local_encoding_false"
   ],
   "note": "Bytes are kept for every history; documents that are not in UTF-8 are refused (negations)."
  },
  {
   "property": "C118",
   "status": "partial",
   "theorems": [
    "Brel.C118_quiet_partial",
    "Brel.C118_whole",
    "Brel.C118_alone",
    "Brel.C118_interrupted_false",
    "Brel.C118_two_processes_false",
    "Brel.C118_three_processes_false"
   ],
   "note": "Holds whenever nobody is writing and nobody was ended while writing; false otherwise (negations). A document is read in one step of the model, and the behaviour of the file system (POSIX) is assumed."
  },
  {
   "property": "C119",
   "status": "proved",
   "theorems": [
    "Brel.C119_documents",
    "Brel.C119_same_result"
   ],
   "note": ""
  },
  {
   "property": "C120",
   "status": "partial",
   "theorems": [
    "Brel.C120_aggregation_partial",
    "Brel.C120_own_facts_partial",
    "Brel.C120_aggregation_false"
   ],
   "note": "exact if arcs of the link that lead to the same locator agree on the weight, which is needed: C120_aggregation_false; one calculation link per role; rational arithmetic"
  },
  {
   "property": "C121",
   "status": "partial",
   "theorems": [
    "Brel.C121_row_partial",
    "Brel.C121_default_partial",
    "Brel.C121_no_language",
    "Brel.C121_plain_partial",
    "Brel.C121_filing_partial",
    "Brel.C121_dimension_false",
    "Brel.C121_italian_false",
    "Brel.C121_table_false",
    "Brel.C121_unit_false",
    "Brel.C121_unprefixed_false"
   ],
   "note": "exact characterisation for facts whose dimensions have a prefix and whose unit ids have no colon; units are shown by id; rows can be missing, see the negations"
  },
  {
   "property": "C122",
   "status": "partial",
   "theorems": [
    "Brel.C122_row_partial",
    "Brel.C122_members_ignored",
    "Brel.C122_filing_partial",
    "Brel.C122_member_false"
   ],
   "note": "all but labels of members, which inline facts never show: C122_member_false"
  },
  {
   "property": "C123",
   "status": "partial",
   "theorems": [
    "Brel.C123_float",
    "Brel.C123_float_error",
    "Brel.C123_unique",
    "Brel.C123_value",
    "Brel.C123_exact_partial",
    "Brel.C123_exact_false"
   ],
   "note": "accepted texts and nearest double for all texts; the value is the stated number only if that is a double: C123_exact_false for 0.1. Trusted: CPython's float() rounds correctly, which the model states by rounding the exact rational"
  },
  {
   "property": "C124",
   "status": "partial",
   "theorems": [
    "Brel.C124_exact_partial",
    "Brel.C124_tolerance_partial",
    "Brel.C124_nan",
    "Brel.C124_nan_arithmetic",
    "Brel.C124_infinite_arithmetic",
    "Brel.C124_own_facts_partial",
    "Brel.C124_right_total_refused_false",
    "Brel.C124_wrong_total_accepted_false"
   ],
   "note": "exact if values and weights are multiples of powers of two that are small enough for all partial sums to be doubles, also for the own facts of opened filings; otherwise an accepted total is off by at most sumTolerance; without that both directions fail"
  },
  {
   "property": "C125",
   "status": "partial",
   "theorems": [
    "Brel.C125_own_lists_partial",
    "Brel.C125_untouched",
    "Brel.C125_last_change",
    "Brel.C125_private",
    "Brel.C125_values",
    "Brel.C125_components_false",
    "Brel.C125_errors_false",
    "Brel.C125_aspects_false",
    "Brel.C125_units_false",
    "Brel.C125_children_false"
   ],
   "note": "holds for lists that are made for the caller; lists that the filing keeps are handed out themselves, and for them the last change counts (C125_last_change)"
  },
  {
   "property": "C126",
   "status": "partial",
   "theorems": [
    "Brel.C126_valid",
    "Brel.C126_same_partial",
    "Brel.C126_weights_partial",
    "Brel.C126_orders_partial",
    "Brel.C126_preferred_labels_partial",
    "Brel.C126_balance_partial",
    "Brel.C126_aggregation_partial",
    "Brel.C126_search",
    "Brel.C126_facts_by_concept",
    "Brel.C126_path_partial",
    "Brel.C126_ids_false",
    "Brel.C126_children_false",
    "Brel.C126_catalog_false"
   ],
   "note": "if documents have distinct URIs and declarations distinct names and ids (ToldApart); with an id that two schemas use, the order of the documents decides what networks show, and the order of children with the same order attribute depends on the run"
  },
  {
   "property": "C127",
   "status": "partial",
   "theorems": [
    "Brel.C127_roundtrip",
    "Brel.C127_arcs_partial",
    "Brel.C127_names_false"
   ],
   "note": "for filings whose abstract elements and types of concepts avoid the two words by which brel recognises line items and members (C127_names_false), whose networks have no cycles and state every relation once; weights, orders and preferred labels if relations to the same report element agree in each network. The documents have one fixed layout (Spec/WrittenFiling.lean); typed dimensions have no type declaration."
  },
  {
   "property": "C128",
   "status": "partial",
   "theorems": [
    "Brel.C128_balance_partial",
    "Brel.C128_aggregation_partial",
    "Brel.C128_core_facts",
    "Brel.C128_amounts_partial",
    "Brel.C128_dimension_false",
    "Brel.C128_zero_false"
   ],
   "note": "balance: if the arcs to a locator agree in their weight; aggregation: one link per role, agreeing weights, no dimension named `concept`, exact numbers; amounts: decimal formats, no nested elements. A total with a fact that has a dimension never passes, because every inline fact has its own copy of its members (C128_dimension_false), nor does a fact that states zero, whose text becomes empty (C128_zero_false)."
  },
  {
   "property": "C129",
   "status": "partial",
   "theorems": [
    "Brel.C129_concept_partial",
    "Brel.C129_period",
    "Brel.C129_date",
    "Brel.C129_forever",
    "Brel.C129_expression_false",
    "Brel.C129_dimension_false",
    "Brel.C129_specified_false",
    "Brel.C129_label_false",
    "Brel.C129_tables_false"
   ],
   "note": "Filters for names and periods in the name spaces of 2014 are characterised exactly. Expressions make a filter disappear, filters for dimensions and filters in the name spaces of the specifications are never read, labels are read from the wrong attribute, and no table ever has a filter."
  },
  {
   "property": "C130",
   "status": "partial",
   "theorems": [
    "Brel.C130_elements_partial",
    "Brel.C130_elements_false",
    "Brel.C130_components",
    "Brel.C130_labels",
    "Brel.C130_inline_partial"
   ],
   "note": "Tables of components and labels as stated. The table of report elements is there exactly if every element has a label in a preferred language or the default language is preferred; a single element without one makes it raise an exception, or be empty if languages are not mixed. Types of typed dimensions must be written as XML demands. pandas is left out."
  },
  {
   "property": "C131",
   "status": "partial",
   "theorems": [
    "Brel.C131_component",
    "Brel.C131_component_defined",
    "Brel.C131_components",
    "Brel.C131_interrupted",
    "Brel.C131_deep",
    "Brel.C131_single",
    "Brel.C131_facts",
    "Brel.C131_unsupported_false",
    "Brel.C131_filing",
    "Brel.C131_all"
   ],
   "note": "As stated, for recursion limits above the number of nodes where all components of a filing are printed; but an unsupported object raises a TypeError where a ValueError is documented (C131_unsupported_false). How rich and PrettyTable draw what they are handed is left out."
  },
  {
   "property": "C132",
   "status": "partial",
   "theorems": [
    "Brel.C132_core_partial",
    "Brel.C132_by_name",
    "Brel.C132_by_text",
    "Brel.C132_reported",
    "Brel.C132_core_table_partial",
    "Brel.C132_core_table_false"
   ],
   "note": "Queries by concept and reported concepts as stated. Core facts and their table for documents whose dimensions are written with a prefix, whose dates are dates of the calendar and whose unit ids contain no colon. The table needs a preferred language with titles, and a label in a preferred language for every concept of a core fact; without one it is empty or an exception (C132_core_table_false). Inline filings are the subject of C133."
  },
  {
   "property": "C133",
   "status": "partial",
   "theorems": [
    "Brel.C133_core_partial",
    "Brel.C133_by_name_partial",
    "Brel.C133_by_text_partial",
    "Brel.C133_reported_partial",
    "Brel.C133_core_table_partial"
   ],
   "note": "For documents whose dimensions are written with a prefix, whose dates are dates of the calendar and whose unit ids contain no colon, and for an opened filing as C110_opens_partial provides it (valid documents, enough steps). The table needs a preferred language with titles, and a label in a preferred language for every concept of a core fact."
  },
  {
   "property": "C134",
   "status": "partial",
   "theorems": [
    "Brel.C134_xml_partial",
    "Brel.C134_inline_partial",
    "Brel.C134_text_partial",
    "Brel.C134_xml_text_partial",
    "Brel.C134_inline_text_partial",
    "Brel.C134_text_all",
    "Brel.C134_xml_texts_partial",
    "Brel.C134_inline_texts_partial"
   ],
   "note": "For documents whose dimensions are written with a prefix, whose dates are dates of the calendar and whose unit ids contain no colon; for inline filings as C110_opens_partial provides them. The texts of contexts are given for all facts, and written out for those without dimensions. The values of inline facts are the subject of C110."
  },
  {
   "property": "C135",
   "status": "partial",
   "theorems": [
    "Brel.C135_elements_partial",
    "Brel.C135_components",
    "Brel.C135_inline_partial"
   ],
   "note": "For elements: the attributes type of the documents are names as XML demands (TypeNames). For inline filings as C110_opens_partial provides them. pandas is left out: a table is the list of its rows. The table of core facts one language at a time is the subject of C136."
  },
  {
   "property": "C136",
   "status": "partial",
   "theorems": [
    "Brel.C136_facts_partial"
   ],
   "note": "For XML filings with the texts that C132 asks for (PlainTexts). Inline filings are not covered for several languages. pandas is left out: a table is the list of its rows."
  }
 ]
}
