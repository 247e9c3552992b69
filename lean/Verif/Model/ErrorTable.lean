import Verif.Model.Errors
import Verif.Model.Regex

/-! Generated by tools/gen_error_table.py from brel/errors/error_factory_registry.py and the calls of `insert` and `create` in brel. -/

namespace Brel

set_option maxRecDepth 8000 in
/-- brel/errors/error_factory_registry.py 12-117, one part of the dictionary. -/
def registryPart0 : List (String × ErrEntry) := [
  -- line 12
  ("MISSING_CONTEXT_PERIOD", ⟨.error, .generalInstance, "000", chars! "Context is missing a period child element", none⟩),
  -- line 19
  ("MISSING_CONTEXT_ENTITY", ⟨.error, .generalInstance, "001", chars! "Context is missing an entity child element", none⟩),
  -- line 26
  ("INVALID_DIMENSION_TYPE", ⟨.error, .generalInstance, "002", chars! "Dimension type '{dimension_type}' is not valid. It should either be 'explicitMember' or typedMember'.", none⟩),
  -- line 33
  ("INVALID_CONTEXT_PERIOD_DATE", ⟨.error, .generalInstance, "003", chars! "Date '{date}' is not a valid date.", none⟩),
  -- line 40
  ("DURATION_PERIOD_MISSING_START_DATE", ⟨.error, .generalInstance, "004", chars! "End date is missing from the duration period.", none⟩),
  -- line 47
  ("DURATION_PERIOD_MISSING_END_DATE", ⟨.error, .generalInstance, "005", chars! "Start date is missing from the duration period.", none⟩),
  -- line 54
  ("DURATION_PERIOD_START_AFTER_END", ⟨.error, .generalInstance, "006", chars! "Start date '{start_date}' is after end date '{end_date}'.", none⟩),
  -- line 61
  ("ENTITY_MISSING_IDENTIFIER_ELEMENT", ⟨.error, .generalInstance, "007", chars! "The entity element is missing an identifier child element", none⟩),
  -- line 68
  ("ENTITY_IDENTIFIER_MISSING_SCHEME", ⟨.error, .generalInstance, "008", chars! "The identifier element is missing a scheme attribute", none⟩),
  -- line 75
  ("ENTITY_IDENTIFIER_MISSING_VALUE", ⟨.error, .generalInstance, "009", chars! "The entity identifier element is missing its value.", none⟩),
  -- line 82
  ("INVALID_EXPLICIT_DIMENSION_VALUE", ⟨.error, .generalInstance, "010", chars! "Invalid dimension value of explicit dimension element: '{dimension}'.", none⟩),
  -- line 89
  ("MISSING_EXPLICIT_DIMENSION_MEMBER", ⟨.error, .generalInstance, "011", chars! "Missing dimension member for explicit dimension '{dimension}'.", none⟩),
  -- line 96
  ("INVALID_EXPLICIT_DIMENSION_MEMBER", ⟨.error, .generalInstance, "012", chars! "Invalid dimension member '{member}' for explicit dimension '{dimension}'.", none⟩),
  -- line 103
  ("INVALID_TYPED_DIMENSION_VALUE", ⟨.error, .generalInstance, "013", chars! "Invalid dimension value of typed dimension element: '{dimension}'.", none⟩),
  -- line 110
  ("MULTIPLE_TYPED_DIMENSION_ELEMENT_CHILDREN", ⟨.error, .generalInstance, "014", chars! "Typed dimension element '{dimension}' has more than one child element.", none⟩),
  -- line 117
  ("NO_TYPED_DIMENSION_ELEMENT_CHILDREN", ⟨.error, .generalInstance, "015", chars! "Typed dimension element '{dimension}' has no children but should have exactly one child", none⟩)]

set_option maxRecDepth 8000 in
/-- brel/errors/error_factory_registry.py 124-230, one part of the dictionary. -/
def registryPart1 : List (String × ErrEntry) := [
  -- line 124
  ("MISSING_TYPED_DIMENSION_VALUE", ⟨.error, .generalInstance, "016", chars! "There is no value provided for the typed dimension {dimension}.", none⟩),
  -- line 131
  ("INVALID_PRECISION_ATTRIBUTE_VALUE", ⟨.warning, .generalInstance, "017", chars! "Invalid precision attribute value '{precision}'.", none⟩),
  -- line 138
  ("INVALID_DECIMALS_ATTRIBUTE_VALUE", ⟨.warning, .generalInstance, "018", chars! "Invalid decimals attribute value '{decimals}'.", none⟩),
  -- line 145
  ("MISSING_FACT_VALUE", ⟨.warning, .generalInstance, "019", chars! "Fact has no value but the concept {concept} is not nillable", none⟩),
  -- line 152
  ("FACT_UNIT_MISMATCH", ⟨.error, .generalInstance, "020", chars! "Fact has unit {fact_unit} but should have unit {context_unit}", none⟩),
  -- line 159
  ("FACT_CONCEPT_MISMATCH", ⟨.error, .generalInstance, "021", chars! "Fact has concept {fact_concept} but should have concept {context_concept}", none⟩),
  -- line 166
  ("XML_UNIT_ELEMENT_WITHOUT_ONE_CHILD", ⟨.error, .xmlInstance, "001", chars! "Unit with ID '{id}' must have exactly one child element. Found {child_count}.", none⟩),
  -- line 173
  ("XML_DIVIDE_ELEMENT_WITHOUT_TWO_CHILDREN", ⟨.error, .xmlInstance, "002", chars! "Divide element of unit with with ID '{id}' must have exactly two children: unitNumerator and unitDenominator. Found {child_count} children, instead.", none⟩),
  -- line 180
  ("XML_INVALID_DIVIDE_ELEMENT_CHILDREN", ⟨.error, .xmlInstance, "003", chars! "Divide element of unit with ID '{id}' must have exactly two children: unitNumerator and unitDenominator. Found {child_tag} as a child.", none⟩),
  -- line 187
  ("XML_DUPLICATE_DIVIDE_ELEMENT_CHILDREN", ⟨.error, .xmlInstance, "004", chars! "The unit {id} has a divide element with two children with the same tag: lambda: ErrorInstance(tag}. One should be 'unitNumerator' and the other 'unitDenominator'", none⟩),
  -- line 194
  ("XML_INVALID_UNIT_ELEMENT_CHILDREN", ⟨.error, .xmlInstance, "005", chars! "Unit with ID '{id}' must have exactly one child element: 'measrue' or 'divide'. Found {child_tag} as a child.", none⟩),
  -- line 201
  ("XML_MISSING_UNIT_MEASURE", ⟨.error, .xmlInstance, "006", chars! "Unit measure element cannot be empty.", none⟩),
  -- line 208
  ("XML_FACT_INVALID_CONCEPT", ⟨.error, .xmlInstance, "100", chars! "Concept name {concept_name} is invalid.", none⟩),
  -- line 215
  ("XML_INVALID_FACT_CONTEXT_ID", ⟨.error, .xmlInstance, "101", chars! "Context ID {context_id} is not valid.", none⟩),
  -- line 222
  ("XML_INVALID_FACT_CONTEXT_ID", ⟨.error, .xmlInstance, "102", chars! "Unit ID {unit_id} is not a valid.", none⟩),
  -- line 230
  ("IXBRL_DUPLICATE_ELEMENT_ID", ⟨.error, .ixbrlInstance, "001", chars! "ID '{id}' has already been used.", none⟩)]

set_option maxRecDepth 8000 in
/-- brel/errors/error_factory_registry.py 237-345, one part of the dictionary. -/
def registryPart2 : List (String × ErrEntry) := [
  -- line 237
  ("IXBRL_ELEMENT_NOT_SUPPORTED", ⟨.warning, .ixbrlInstance, "002", chars! "Element '{tag}' is not yet supported. Ignoring for now.", none⟩),
  -- line 245
  ("IXBRL_HEADER_ELEMENT_IN_HEAD", ⟨.warning, .ixbrlInstance, "100", chars! "The ix:header element is not allowed in the head element.", none⟩),
  -- line 252
  ("IXBRL_INVALID_HEADER_CHILD", ⟨.warning, .ixbrlInstance, "101", chars! "The ix:header element must have one of the following children: ix:hidden, ix:resources, ix:references. Found {child_tag}.", none⟩),
  -- line 259
  ("IXBRL_MORE_THAN_ONE_HIDDEN_HEADER_CHILD", ⟨.error, .ixbrlInstance, "102", chars! "The ix:header element can have at most 1 ix:hidden element. Found {count}", none⟩),
  -- line 266
  ("IXBRL_MORE_THAN_ONE_RESOURCES_HEADER_CHILD", ⟨.error, .ixbrlInstance, "103", chars! "The ix:header element can have at most 1 ix:resources element. Found {count}", none⟩),
  -- line 273
  ("IXBRL_NO_HEADER_ELEMENTS", ⟨.error, .ixbrlInstance, "104", chars! "The IXBRL Document Set must have at least one ix:header element but 0 were found.", none⟩),
  -- line 281
  ("IXBRL_REFERENCES_ELEMENT_WITHOUT_CHILDREN", ⟨.warning, .ixbrlInstance, "200", chars! "The ix:references element must have at least one child element.", none⟩),
  -- line 288
  ("IXBRL_INVALID_REFERENCES_CHILD", ⟨.warning, .ixbrlInstance, "201", chars! "The ix:references element must have one of the following children: link:schemaRef, link:linkbaseRef. Found {children}.", none⟩),
  -- line 296
  ("IXBRL_NO_RESOURCES_ELEMENTS", ⟨.error, .ixbrlInstance, "300", chars! "The IXBRL Document Set must have at least one ix:resources element but 0 were found.", none⟩),
  -- line 303
  ("IXBRL_INVALID_RESOURCES_CHILD", ⟨.warning, .ixbrlInstance, "301", chars! "The ix:resources element must have one of the following children: link:roleRef, link:arcroleRef, xbrli:context, xbrli:unit. Found {child_tag}.", none⟩),
  -- line 310
  ("IXBRL_CONTEXT_WITHOUT_ID", ⟨.error, .ixbrlInstance, "360", chars! "Context does not have an id", none⟩),
  -- line 317
  ("IXBRL_UNIT_WITHOUT_ID", ⟨.error, .ixbrlInstance, "380", chars! "Unit does not have an id", none⟩),
  -- line 324
  ("IXBRL_INVALID_HIDDEN_ELEMENT", ⟨.warning, .ixbrlInstance, "400", chars! "The ix:hidden element must have one of the following children: link:roleRef, link:arcroleRef, xbrli:context, xbrli:unit. Found {child_tag}.", none⟩),
  -- line 331
  ("IXBRL_FACT_WITHOUT_CONTEXT", ⟨.error, .ixbrlInstance, "500", chars! "Fact with id {fact_id} does not have a context", none⟩),
  -- line 338
  ("IXBRL_INVALID_FACT_CONTEXT_ID", ⟨.error, .ixbrlInstance, "501", chars! "Context {context_id} is not valid.", none⟩),
  -- line 345
  ("IXBRL_INVALID_FACT_UNIT_ID", ⟨.error, .ixbrlInstance, "502", chars! "Unit {unit_id} for fact {fact_id} is not a valid.", none⟩)]

set_option maxRecDepth 8000 in
/-- brel/errors/error_factory_registry.py 352-459, one part of the dictionary. -/
def registryPart3 : List (String × ErrEntry) := [
  -- line 352
  ("IXBRL_FACT_WITHOUT_CONCEPT_NAME", ⟨.error, .ixbrlInstance, "503", chars! "Fact with id {fact_id} does not have a concept name", none⟩),
  -- line 359
  ("IXBRL_FACT_INVALID_CONCEPT", ⟨.error, .ixbrlInstance, "504", chars! "Fact with id {fact_id} uses an invalid concept name '{concept_name}'", none⟩),
  -- line 366
  ("IXBRL_NON_FRACTION_WITHOUT_UNIT", ⟨.warning, .ixbrlInstance, "505", chars! "ix:nonFraction fact with id {fact_id} does not have a unit.", none⟩),
  -- line 373
  ("IXBRL_MUTUALLY_EXCLUSIVE_ATTRIBUTES_IN_NON_FRACTION", ⟨.error, .ixbrlInstance, "506", chars! "Non-fraction fact cannot have more than one of: decimals, precision and xsi_nil attribute. Got more than one.", none⟩),
  -- line 380
  ("IXBRL_BOTH_TEXT_AND_CHILDREN_IN_NON_FRACTION", ⟨.error, .ixbrlInstance, "507", chars! "Non-fraction fact cannot have both text and children. Got both.", none⟩),
  -- line 387
  ("IXBRL_TEXT_OR_CHILDREN_WITH_NIL", ⟨.error, .ixbrlInstance, "508", chars! "Non-fraction fact cannot have both text and children when its xsi:nil attribute is set to true.", none⟩),
  -- line 394
  ("IXBRL_NO_TEXT_OR_CHILDREN_WITH_ABSENT_NIL_ATTRIBUTE", ⟨.error, .ixbrlInstance, "509", chars! "Non-fraction fact must have either text or children when its xsi:nil attribute is not set to true.", none⟩),
  -- line 401
  ("IXBRL_INVALID_SIGN_ATTRIBUTE_VALUE", ⟨.error, .ixbrlInstance, "510", chars! "Sign attribute value '{sign}' is not valid. If set, it should always be set to '-'.", none⟩),
  -- line 408
  ("IXBRL_MULTIPLE_NON_FRACTION_CHILDREN", ⟨.warning, .ixbrlInstance, "511", chars! "Non-fraction fact has more than one child element. Using the first child.", none⟩),
  -- line 415
  ("IXBRL_INVALID_NON_FRACTION_CHILD", ⟨.error, .ixbrlInstance, "512", chars! "Non-fraction facts can only have 1 non-fraction element as a child. Found {child_tag}.", none⟩),
  -- line 422
  ("IXBRL_NON_NUMERICAL_NON_FRACTION_FACT_VALUE", ⟨.error, .ixbrlInstance, "513", chars! "Non-fraction fact has a non-numeric value '{value}'.", none⟩),
  -- line 429
  ("IXBRL_NEGATIVE_NON_FRACTION_FACT_VALUE", ⟨.warning, .ixbrlInstance, "514", chars! "Non-fraction has a negative value '{value}'. This is not  allowed.", none⟩),
  -- line 436
  ("IXBRL_NIL_ATTRIBUTE_IN_NON_FRACTION_CHILD", ⟨.warning, .ixbrlInstance, "515", chars! "Non-fraction child of another non-fraction element has its nil attribute set to 'true'. This is not allowed.'.", none⟩),
  -- line 443
  ("IXBRL_DIFFERING_FORMAT_SCALE_OR_UNIT_FOR_NON_FRACTION_CHILD", ⟨.warning, .ixbrlInstance, "516", chars! "Non-fraction child of another non-fraction element has a different format, scale or unit.\nParent has the following format, scale and unit {parent_format), {parent_scale), {parent_unit}.\nThe child has the following format, scale and unit: lambda: ErrorInstance(this_format), {this_scale), {this_unit}", none⟩),
  -- line 452
  ("IXBRL_INVALID_NON_NUMERIC_FACT_ESCAPE_ATTRIBUTE_VALUE", ⟨.warning, .ixbrlInstance, "530", chars! "Non-numeric fact has an invalid escape attribute value '{value}'. Assuming it is set to 'true'", none⟩),
  -- line 459
  ("IXBRL_CONTINUATION_WITHOUT_ID", ⟨.error, .ixbrlInstance, "540", chars! "Continuation element has no id attribute.", none⟩)]

set_option maxRecDepth 8000 in
/-- brel/errors/error_factory_registry.py 466-572, one part of the dictionary. -/
def registryPart4 : List (String × ErrEntry) := [
  -- line 466
  ("IXBRL_REUSED_CONTINUATION", ⟨.warning, .ixbrlInstance, "541", chars! "The continuation element with id '{id}' has already been used. Trying to use it again in continuation chain of element with id '{element_id}'.", none⟩),
  -- line 473
  ("IXBRL_INVALID_CONTINUATION_ID", ⟨.error, .ixbrlInstance, "542", chars! "ID '{id}' in the continuation chain of the fact or footnote with id '{element_id}' does not exist.", none⟩),
  -- line 480
  ("IXBRL_INVALID_DESCENDANT_IN_CONTINUATION_CHAIN", ⟨.error, .ixbrlInstance, "543", chars! "In a continuation chain, no element can be a descendant of another element in that same chain. Element with id '{descendant_id}' isa descendant of element with id '{parent_id}', but they are part of the same continuation chain.", none⟩),
  -- line 488
  ("IXBRL_UNUSED_CONTINUATION_ELEMENTS", ⟨.warning, .ixbrlInstance, "544", chars! "Continuation elements with the following IDs {element_ids} were unused.", none⟩),
  -- line 495
  ("IXBRL_FOOTNOTE_WITHOUT_ID", ⟨.error, .ixbrlInstance, "550", chars! "Footnote element has no id attribute.", none⟩),
  -- line 502
  ("IXBRL_INVALID_FOOTNOTE_ROLE", ⟨.error, .ixbrlInstance, "551", chars! "Footnote element with id {id} has an invalid URI for its footnoteRole attribute '{role}'.", none⟩),
  -- line 509
  ("IXBRL_FOOTNOTE_WITHOUT_LANGUAGE", ⟨.error, .ixbrlInstance, "552", chars! "Footnote element with id {id} has no xml:lang attribute in scope.", none⟩),
  -- line 516
  ("IXBRL_RELATIONSHIP_WITHOUT_FROMREFS", ⟨.error, .ixbrlInstance, "560", chars! "Relationship element has no fromRefs attribute.", none⟩),
  -- line 523
  ("IXBRL_RELATIONSHIP_WITHOUT_TOREFS", ⟨.error, .ixbrlInstance, "561", chars! "Relationship element has no toRefs attribute.", none⟩),
  -- line 530
  ("IXBRL_RELATIONSHIP_REPEATED_ID", ⟨.error, .ixbrlInstance, "562", chars! "A token in the fromRefs attribute of the relationship element is reused in its toRefs attribute.", none⟩),
  -- line 537
  ("IXBRL_RELATIONSHIP_INVALID_FACT_ID_IN_FROMREFS", ⟨.error, .ixbrlInstance, "563", chars! "The following IDs in the fromRefs attribute of the relationship element do not point to a fact: {invalid_ids}.", none⟩),
  -- line 544
  ("IXBRL_RELATIONSHIP_INVALID_FACT_OR_FOOTNOTE_ID_IN_TOREFS", ⟨.error, .ixbrlInstance, "564", chars! "The following IDs in the toRefs attribute of the relationship element do not point to a fact or a footnote: {invalid_ids}.", none⟩),
  -- line 551
  ("IXBRL_RELATIONSHIP_MIXED_FACT_AND_FOOTNOTES_IN_TOREFS", ⟨.warning, .ixbrlInstance, "565", chars! "The toRefs attribute of the relationship element contains a mix of facts and footnotes. This is not allowed.", none⟩),
  -- line 558
  ("IXBRL_RELATIONSHIP_INVALID_ARCROLE", ⟨.error, .ixbrlInstance, "566", chars! "Relationship element has an invalid arcrole attribute '{arcrole}'. The arcrole must be a valid URI", none⟩),
  -- line 565
  ("IXBRL_RELATIONSHIP_INVALID_LINKROLE", ⟨.error, .ixbrlInstance, "567", chars! "Relationship element has an invalid linkrole attribute '{linkrole}'. The linkrole must be a valid URI", none⟩),
  -- line 572
  ("IXBRL_RELATIONSHIP_INVALID_ORDER", ⟨.error, .ixbrlInstance, "568", chars! "Relationship element has an invalid order attribute '{order}'. The order must be a valid floating-point number.", none⟩)]

set_option maxRecDepth 8000 in
/-- brel/errors/error_factory_registry.py 579-685, one part of the dictionary. -/
def registryPart5 : List (String × ErrEntry) := [
  -- line 579
  ("UNSUPPORTED_DATE_FORMAT", ⟨.error, .ixbrlInstance, "600", chars! "Unknown date format '{format}'.", none⟩),
  -- line 586
  ("DATE_DOES_NOT_MATCH_EXPECTED_FORMAT", ⟨.error, .ixbrlInstance, "601", chars! "Date '{date}' does not match the expected format '{format}'.", none⟩),
  -- line 593
  ("YEAR_PRESENT_IN_RECURRING_DATE", ⟨.error, .ixbrlInstance, "602", chars! "Year should not be present in recurring date: '{date}'.", none⟩),
  -- line 600
  ("MONTH_OR_DAY_NOT_PRESENT_IN_RECURRING_DATE", ⟨.error, .ixbrlInstance, "603", chars! "Month and day should both be present in recurring date: '{date}'.", none⟩),
  -- line 607
  ("YEAR_OR_MONTH_NOT_PRESENT_IN_NON_RECURRING_DATE", ⟨.error, .ixbrlInstance, "604", chars! "Year and month should both be present in non-recurring date: '{date}'.", none⟩),
  -- line 614
  ("DAY_NOT_PRESENT_IN_FULL_DATE", ⟨.error, .ixbrlInstance, "605", chars! "Day should be present in full date: '{date}'.", none⟩),
  -- line 621
  ("INVALID_GREGORIAN_DATE", ⟨.error, .ixbrlInstance, "606", chars! "Invalid gregorian date: '{date}'.", none⟩),
  -- line 628
  ("INVALID_JAPANESE_IMPERIAL_DATE", ⟨.error, .ixbrlInstance, "607", chars! "Invalid Japanese imperial date: '{date}'. Out of bounds for the era.", none⟩),
  -- line 635
  ("UNSUPPORTED_LITERAL_FACT_FORMAT", ⟨.error, .ixbrlInstance, "608", chars! "Unsupported literal fact format '{format}'.", none⟩),
  -- line 642
  ("UNSUPPORTED_NON_NUMERIC_FACT_FORMAT", ⟨.error, .ixbrlInstance, "609", chars! "Unsupported non-numeric fact format '{format}'.", none⟩),
  -- line 649
  ("UNSUPPORTED_NON_FRACTION_FACT_FORMAT", ⟨.error, .ixbrlInstance, "620", chars! "Unsupported non-fraction fact format '{format}'.", none⟩),
  -- line 656
  ("NUMBER_DOES_NOT_MATCH_EXPECTED_FORMAT", ⟨.error, .ixbrlInstance, "621", chars! "Number '{number}' does not match the expected format '{format}'.", none⟩),
  -- line 663
  ("INVALID_SCALE_ATTRIBUTE_VALUE", ⟨.warning, .ixbrlInstance, "622", chars! "Invalid scale attribute value '{scale}'. Assuming scale=0.", none⟩),
  -- line 671
  ("ROLEREF_INVALID_LINKTYPE", ⟨.error, .generalLinkbase, "100", chars! "The link:(arc)roleRef element has an invalid xlink:linktype attribute '{linktype}'. This must always be set to 'simple'", none⟩),
  -- line 678
  ("ROLEREF_MISSING_HREF_ATTRIBUTE", ⟨.error, .generalLinkbase, "101", chars! "The link:(arc)roleRef element has a missing xlink:href attribute.", none⟩),
  -- line 685
  ("ROLEREF_INVALID_HREF_ATTRIBUTE", ⟨.error, .generalLinkbase, "102", chars! "The link:(arc)roleRef element has an invalid xlink:href attribute '{href}'. It should always be a valid URI.", none⟩)]

set_option maxRecDepth 8000 in
/-- brel/errors/error_factory_registry.py 692-804, one part of the dictionary. -/
def registryPart6 : List (String × ErrEntry) := [
  -- line 692
  ("ROLEREF_MISSING_ROLE_URI_ATTRIBUTE", ⟨.error, .generalLinkbase, "103", chars! "The link:(arc)roleRef element has a missing roleURI attribute.", none⟩),
  -- line 699
  ("ROLEREF_INVALID_ROLE_URI_ATTRIBUTE", ⟨.error, .generalLinkbase, "104", chars! "The link:(arc)roleRef element has an invalid roleURI attribute '{role_uri}'. It should always be a valid URI.", none⟩),
  -- line 706
  ("ROLEREF_EMPTY_ROLE_ATTRIBUTE", ⟨.error, .generalLinkbase, "105", chars! "If the xlink:role attribute is present in a link:(arc)roleRef element, it must not be empty.", none⟩),
  -- line 713
  ("XML_UNSUPPORTED_RESOURCE_TAG", ⟨.error, .generalLinkbase, "200", chars! "The tag '{tag}' is not a supported resource type.", none⟩),
  -- line 720
  ("XML_REFERENCED_LOCATOR_ELEMENT_NOT_FOUND", ⟨.error, .generalLinkbase, "300", chars! "The referenced locator element with ID '{elem_id}' could not be found.", none⟩),
  -- line 727
  ("XML_UNSUPPORTED_REFERENCED_ELEMENT_TYPE", ⟨.error, .generalLinkbase, "301", chars! "The referenced element type must be a 'resource' or a 'locator'. {type} not a supported type.", none⟩),
  -- line 734
  ("UNSUPPORTED_LINK_TYPE", ⟨.error, .generalLinkbase, "400", chars! "The link type {type} is not supported. Supported linkbase types are 'presentation/calculation/definition/label/reference/footnoteLink'.", none⟩),
  -- line 741
  ("DUPLICATE_LINKBASE_ARC", ⟨.warning, .generalLinkbase, "401", chars! "The arc going from '{arc_from}' to '{arc_to} is defined multiple times.", none⟩),
  -- line 748
  ("MISSING_LINK_ROLE", ⟨.error, .generalLinkbase, "402", chars! "A standard link element is required to have an xlink:role attribute.", none⟩),
  -- line 756
  ("MISSING_LABEL_LANGUAGE", ⟨.error, .labelNetwork, "001", chars! "The label element has no xml:lang attribute in scope.", none⟩),
  -- line 764
  ("XML_MISSING_FOOTNOTE_LANGUAGE", ⟨.error, .footnoteNetwork, "001", chars! "The footnote element has no xml:lang attribute in scope.", none⟩),
  -- line 772
  ("INVALID_CATALOG_ROOT_NODE", ⟨.error, .taxonomyPackage, "000", chars! "The root node of the catalog should be a <{{urn:oasis:names:tc:entity:xmlns:xml:catalog}}catalog> element.", (some ⟨"http://xbrl.org/2016/taxonomy-package/errors", "tpe", "invalidCatalogFile"⟩)⟩),
  -- line 780
  ("REWRITE_URI_MISSING_ATTRIBUTE", ⟨.error, .taxonomyPackage, "001", chars! "The rewriteURI element is missing either a 'uriStaratString' or a 'rewritePrefix' attribute.", (some ⟨"http://xbrl.org/2016/taxonomy-package/errors", "tpe", "invalidCatalogFile"⟩)⟩),
  -- line 788
  ("MULTIPLE_REWRITE_URIS_FOR_START_STRING", ⟨.error, .taxonomyPackage, "002", chars! "The catalog contains multiple rewriteURI elements with equivalent 'uriStartString' URIs: lambda: ErrorInstance(uri}", (some ⟨"http://xbrl.org/2016/taxonomy-package/errors", "tpe", "multipleRewriteURIsForStartString"⟩)⟩),
  -- line 797
  ("MULTIPLE_PRESENTATION_NETWORKS_IN_COMPONENT", ⟨.warning, .validation, "000", chars! "Component {linkrole_uri} has more than one presentation network.", none⟩),
  -- line 804
  ("MULTIPLE_CALCULATION_NETWORKS_IN_COMPONENT", ⟨.warning, .validation, "001", chars! "Component {linkrole_uri} has more than one calculation network.", none⟩)]

set_option maxRecDepth 8000 in
/-- brel/errors/error_factory_registry.py 811-890, one part of the dictionary. -/
def registryPart7 : List (String × ErrEntry) := [
  -- line 811
  ("MULTIPLE_DEFINITION_NETWORKS_IN_COMPONENT", ⟨.warning, .validation, "002", chars! "Component {linkrole_uri} has more than one definition network.", none⟩),
  -- line 819
  ("PRESENTATION_NETWORK_IN_COMPONENT_WITHOUT_USEDON_ELEMENT", ⟨.warning, .schemaDefinition, "000", chars! "Component {linkrole_uri} has a presentation network but without an appropriate usedOn element in its schema.", none⟩),
  -- line 826
  ("CALCULATION_NETWORK_IN_COMPONENT_WITHOUT_USEDON_ELEMENT", ⟨.warning, .schemaDefinition, "001", chars! "Component {linkrole_uri} has a calculation network but without an appropriate usedOn element in its schema.", none⟩),
  -- line 833
  ("DEFINITION_NETWORK_IN_COMPONENT_WITHOUT_USEDON_ELEMENT", ⟨.warning, .schemaDefinition, "002", chars! "Component {linkrole_uri} has a definition network but without an appropriate usedOn element in its schema.", none⟩),
  -- line 840
  ("REFERENCED_SCHEMA_ELEMENT_NOT_FOUND", ⟨.error, .schemaDefinition, "100", chars! "The referenced schema element with ID '{ref_id}' could not be found in the schema with name {ref_schema_name}.", none⟩),
  -- line 847
  ("INVALID_CONCEPT_PERIOD_TYPE", ⟨.error, .schemaDefinition, "200", chars! "The concept period type '{period_type}' for concept {concept_name} is not valid. Valid values are 'instant' and 'duration'.", none⟩),
  -- line 854
  ("INVALID_CONCEPT_BALANCE_TYPE", ⟨.error, .schemaDefinition, "201", chars! "The concept balance type '{balance_type}' for concept {concept_name} is not valid. Valid values are 'credit' and 'debit'.", none⟩),
  -- line 861
  ("INVALID_CONCEPT_NILLABLE_VALUE", ⟨.error, .schemaDefinition, "202", chars! "The concept nillable value '{nillable_value}' for concept {concept_name} is not valid. Valid values are 'true' and 'false'.", none⟩),
  -- line 868
  ("MISSING_CONCEPT_DATA_TYPE", ⟨.error, .schemaDefinition, "203", chars! "Concept {concept_name} is missing a data type.", none⟩),
  -- line 876
  ("QNAME_NAMESPACE_NOT_IN_ELEMENT_SCOPE", ⟨.error, .misc, "000", chars! "QName namespace '{namespace}' is not in element scope", none⟩),
  -- line 883
  ("QNAME_MISSING_NAMESPACE", ⟨.error, .misc, "001", chars! "QName '{local_name}' is missing a namespace (and a default one is not provided)", none⟩),
  -- line 890
  ("UNAVAILABLE_REMOTE_FILE", ⟨.error, .misc, "100", chars! "The remote file with '{uri}' could not be found. The web page returned status code {status_code}.", none⟩)]

/-- brel/errors/error_factory_registry.py 12-897: the entries of the dictionary, in the order they are written. -/
def registryEntries : List (String × ErrEntry) :=
  registryPart0 ++ registryPart1 ++ registryPart2 ++ registryPart3 ++ registryPart4 ++ registryPart5 ++ registryPart6 ++ registryPart7

/-- The calls that make a report: file, line of the code, code, names of the arguments for the message. -/
def reportSites : List Site := [
  ⟨"brel/parsers/XHMTL/elements/parse_continuation_chain.py", 28, "IXBRL_CONTINUATION_WITHOUT_ID", []⟩,
  ⟨"brel/parsers/XHMTL/elements/parse_continuation_chain.py", 35, "IXBRL_DUPLICATE_ELEMENT_ID", ["id"]⟩,
  ⟨"brel/parsers/XHMTL/elements/parse_continuation_chain.py", 77, "IXBRL_REUSED_CONTINUATION", ["id", "element_id"]⟩,
  ⟨"brel/parsers/XHMTL/elements/parse_continuation_chain.py", 86, "IXBRL_INVALID_CONTINUATION_ID", ["id", "element_id"]⟩,
  ⟨"brel/parsers/XHMTL/elements/parse_continuation_chain.py", 106, "IXBRL_INVALID_DESCENDANT_IN_CONTINUATION_CHAIN", ["descendant_id", "parent_id"]⟩,
  ⟨"brel/parsers/XHMTL/elements/parse_continuation_chain.py", 117, "IXBRL_UNUSED_CONTINUATION_ELEMENTS", ["element_ids"]⟩,
  ⟨"brel/parsers/XHMTL/elements/parse_header.py", 20, "IXBRL_HEADER_ELEMENT_IN_HEAD", []⟩,
  ⟨"brel/parsers/XHMTL/elements/parse_header.py", 39, "IXBRL_INVALID_HEADER_CHILD", ["child_tag"]⟩,
  ⟨"brel/parsers/XHMTL/elements/parse_header.py", 46, "IXBRL_MORE_THAN_ONE_HIDDEN_HEADER_CHILD", ["count"]⟩,
  ⟨"brel/parsers/XHMTL/elements/parse_header.py", 53, "IXBRL_MORE_THAN_ONE_RESOURCES_HEADER_CHILD", ["count"]⟩,
  ⟨"brel/parsers/XHMTL/elements/parse_hidden.py", 21, "IXBRL_ELEMENT_NOT_SUPPORTED", ["tag"]⟩,
  ⟨"brel/parsers/XHMTL/elements/parse_hidden.py", 25, "IXBRL_INVALID_HIDDEN_ELEMENT", ["tag"]⟩,
  ⟨"brel/parsers/XHMTL/elements/parse_non_fraction.py", 56, "IXBRL_NIL_ATTRIBUTE_IN_NON_FRACTION_CHILD", []⟩,
  ⟨"brel/parsers/XHMTL/elements/parse_non_fraction.py", 73, "IXBRL_DIFFERING_FORMAT_SCALE_OR_UNIT_FOR_NON_FRACTION_CHILD", ["this_format", "this_scale", "this_unit", "parent_format", "parent_scale", "parent_unit"]⟩,
  ⟨"brel/parsers/XHMTL/elements/parse_non_fraction.py", 93, "IXBRL_INVALID_SIGN_ATTRIBUTE_VALUE", ["sign"]⟩,
  ⟨"brel/parsers/XHMTL/elements/parse_non_fraction.py", 109, "IXBRL_NON_NUMERICAL_NON_FRACTION_FACT_VALUE", ["value"]⟩,
  ⟨"brel/parsers/XHMTL/elements/parse_non_fraction.py", 118, "IXBRL_NEGATIVE_NON_FRACTION_FACT_VALUE", ["value"]⟩,
  ⟨"brel/parsers/XHMTL/elements/parse_non_fraction.py", 151, "IXBRL_DUPLICATE_ELEMENT_ID", ["id"]⟩,
  ⟨"brel/parsers/XHMTL/elements/parse_non_fraction.py", 165, "INVALID_DECIMALS_ATTRIBUTE_VALUE", ["decimals"]⟩,
  ⟨"brel/parsers/XHMTL/elements/parse_non_fraction.py", 175, "INVALID_PRECISION_ATTRIBUTE_VALUE", ["precision"]⟩,
  ⟨"brel/parsers/XHMTL/elements/parse_non_fraction.py", 190, "IXBRL_MUTUALLY_EXCLUSIVE_ATTRIBUTES_IN_NON_FRACTION", ["id"]⟩,
  ⟨"brel/parsers/XHMTL/elements/parse_non_fraction.py", 203, "IXBRL_BOTH_TEXT_AND_CHILDREN_IN_NON_FRACTION", []⟩,
  ⟨"brel/parsers/XHMTL/elements/parse_non_fraction.py", 207, "IXBRL_TEXT_OR_CHILDREN_WITH_NIL", []⟩,
  ⟨"brel/parsers/XHMTL/elements/parse_non_fraction.py", 211, "IXBRL_NO_TEXT_OR_CHILDREN_WITH_ABSENT_NIL_ATTRIBUTE", []⟩,
  ⟨"brel/parsers/XHMTL/elements/parse_non_fraction.py", 228, "IXBRL_MULTIPLE_NON_FRACTION_CHILDREN", []⟩,
  ⟨"brel/parsers/XHMTL/elements/parse_non_fraction.py", 234, "IXBRL_INVALID_NON_FRACTION_CHILD", ["child_tag"]⟩,
  ⟨"brel/parsers/XHMTL/elements/parse_non_numeric.py", 86, "IXBRL_DUPLICATE_ELEMENT_ID", ["id"]⟩,
  ⟨"brel/parsers/XHMTL/elements/parse_non_numeric.py", 95, "IXBRL_INVALID_NON_NUMERIC_FACT_ESCAPE_ATTRIBUTE_VALUE", ["value"]⟩,
  ⟨"brel/parsers/XHMTL/elements/parse_references.py", 23, "IXBRL_DUPLICATE_ELEMENT_ID", ["id"]⟩,
  ⟨"brel/parsers/XHMTL/elements/parse_references.py", 30, "IXBRL_REFERENCES_ELEMENT_WITHOUT_CHILDREN", []⟩,
  ⟨"brel/parsers/XHMTL/elements/parse_references.py", 38, "IXBRL_INVALID_REFERENCES_CHILD", ["child_tag"]⟩,
  ⟨"brel/parsers/XHMTL/elements/parse_resources.py", 34, "IXBRL_INVALID_RESOURCES_CHILD", ["child_tag"]⟩,
  ⟨"brel/parsers/XHMTL/networks/xhtml_parse_footnote_network.py", 37, "IXBRL_FOOTNOTE_WITHOUT_ID", []⟩,
  ⟨"brel/parsers/XHMTL/networks/xhtml_parse_footnote_network.py", 42, "IXBRL_DUPLICATE_ELEMENT_ID", ["id"]⟩,
  ⟨"brel/parsers/XHMTL/networks/xhtml_parse_footnote_network.py", 52, "IXBRL_INVALID_FOOTNOTE_ROLE", ["id", "role"]⟩,
  ⟨"brel/parsers/XHMTL/networks/xhtml_parse_footnote_network.py", 65, "IXBRL_FOOTNOTE_WITHOUT_LANGUAGE", ["id"]⟩,
  ⟨"brel/parsers/XHMTL/networks/xhtml_parse_footnote_network.py", 107, "IXBRL_RELATIONSHIP_WITHOUT_FROMREFS", []⟩,
  ⟨"brel/parsers/XHMTL/networks/xhtml_parse_footnote_network.py", 115, "IXBRL_RELATIONSHIP_WITHOUT_TOREFS", []⟩,
  ⟨"brel/parsers/XHMTL/networks/xhtml_parse_footnote_network.py", 136, "IXBRL_RELATIONSHIP_REPEATED_ID", []⟩,
  ⟨"brel/parsers/XHMTL/networks/xhtml_parse_footnote_network.py", 149, "IXBRL_RELATIONSHIP_INVALID_FACT_ID_IN_FROMREFS", ["invalid_ids"]⟩,
  ⟨"brel/parsers/XHMTL/networks/xhtml_parse_footnote_network.py", 162, "IXBRL_RELATIONSHIP_INVALID_FACT_OR_FOOTNOTE_ID_IN_TOREFS", ["invalid_ids"]⟩,
  ⟨"brel/parsers/XHMTL/networks/xhtml_parse_footnote_network.py", 171, "IXBRL_RELATIONSHIP_MIXED_FACT_AND_FOOTNOTES_IN_TOREFS", []⟩,
  ⟨"brel/parsers/XHMTL/networks/xhtml_parse_footnote_network.py", 184, "IXBRL_RELATIONSHIP_INVALID_ARCROLE", ["arcrole"]⟩,
  ⟨"brel/parsers/XHMTL/networks/xhtml_parse_footnote_network.py", 197, "IXBRL_RELATIONSHIP_INVALID_LINKROLE", ["linkrole"]⟩,
  ⟨"brel/parsers/XHMTL/networks/xhtml_parse_footnote_network.py", 211, "IXBRL_RELATIONSHIP_INVALID_ORDER", ["order"]⟩,
  ⟨"brel/parsers/XHMTL/networks/xhtml_parse_footnote_network.py", 379, "ROLEREF_INVALID_LINKTYPE", ["linktype"]⟩,
  ⟨"brel/parsers/XHMTL/networks/xhtml_parse_footnote_network.py", 384, "ROLEREF_MISSING_HREF_ATTRIBUTE", []⟩,
  ⟨"brel/parsers/XHMTL/networks/xhtml_parse_footnote_network.py", 389, "ROLEREF_INVALID_HREF_ATTRIBUTE", ["href"]⟩,
  ⟨"brel/parsers/XHMTL/networks/xhtml_parse_footnote_network.py", 395, "ROLEREF_MISSING_ROLE_URI_ATTRIBUTE", []⟩,
  ⟨"brel/parsers/XHMTL/networks/xhtml_parse_footnote_network.py", 399, "ROLEREF_INVALID_ROLE_URI_ATTRIBUTE", ["role_uri"]⟩,
  ⟨"brel/parsers/XHMTL/networks/xhtml_parse_footnote_network.py", 407, "ROLEREF_EMPTY_ROLE_ATTRIBUTE", []⟩,
  ⟨"brel/parsers/XHMTL/xhtml_parse_facts.py", 76, "IXBRL_NO_HEADER_ELEMENTS", []⟩,
  ⟨"brel/parsers/XHMTL/xhtml_parse_facts.py", 79, "IXBRL_NO_RESOURCES_ELEMENTS", []⟩,
  ⟨"brel/parsers/XHMTL/xhtml_parse_facts.py", 94, "IXBRL_CONTEXT_WITHOUT_ID", []⟩,
  ⟨"brel/parsers/XHMTL/xhtml_parse_facts.py", 99, "IXBRL_DUPLICATE_ELEMENT_ID", ["id"]⟩,
  ⟨"brel/parsers/XHMTL/xhtml_parse_facts.py", 111, "IXBRL_DUPLICATE_ELEMENT_ID", ["id"]⟩,
  ⟨"brel/parsers/XHMTL/xhtml_parse_facts.py", 124, "IXBRL_UNIT_WITHOUT_ID", []⟩,
  ⟨"brel/parsers/XHMTL/xhtml_parse_facts.py", 128, "IXBRL_DUPLICATE_ELEMENT_ID", ["id"]⟩,
  ⟨"brel/parsers/XHMTL/xhtml_parse_facts.py", 176, "IXBRL_FACT_WITHOUT_CONCEPT_NAME", ["fact_id"]⟩,
  ⟨"brel/parsers/XHMTL/xhtml_parse_facts.py", 189, "IXBRL_FACT_INVALID_CONCEPT", ["concept_name", "fact_id"]⟩,
  ⟨"brel/parsers/XHMTL/xhtml_parse_facts.py", 211, "IXBRL_INVALID_FACT_UNIT_ID", ["unit_id", "fact_id"]⟩,
  ⟨"brel/parsers/XHMTL/xhtml_parse_facts.py", 218, "IXBRL_NON_FRACTION_WITHOUT_UNIT", ["fact_id"]⟩,
  ⟨"brel/parsers/XHMTL/xhtml_parse_facts.py", 227, "IXBRL_FACT_WITHOUT_CONTEXT", ["fact_id"]⟩,
  ⟨"brel/parsers/XHMTL/xhtml_parse_facts.py", 236, "IXBRL_INVALID_FACT_CONTEXT_ID", ["context_id"]⟩,
  ⟨"brel/parsers/XHMTL/xhtml_parse_transformation_registry.py", 613, "UNSUPPORTED_DATE_FORMAT", ["format"]⟩,
  ⟨"brel/parsers/XHMTL/xhtml_parse_transformation_registry.py", 621, "DATE_DOES_NOT_MATCH_EXPECTED_FORMAT", ["date", "format"]⟩,
  ⟨"brel/parsers/XHMTL/xhtml_parse_transformation_registry.py", 774, "YEAR_PRESENT_IN_RECURRING_DATE", ["date"]⟩,
  ⟨"brel/parsers/XHMTL/xhtml_parse_transformation_registry.py", 778, "MONTH_OR_DAY_NOT_PRESENT_IN_RECURRING_DATE", ["date"]⟩,
  ⟨"brel/parsers/XHMTL/xhtml_parse_transformation_registry.py", 784, "YEAR_OR_MONTH_NOT_PRESENT_IN_NON_RECURRING_DATE", ["date"]⟩,
  ⟨"brel/parsers/XHMTL/xhtml_parse_transformation_registry.py", 791, "DAY_NOT_PRESENT_IN_FULL_DATE", ["date"]⟩,
  ⟨"brel/parsers/XHMTL/xhtml_parse_transformation_registry.py", 800, "INVALID_GREGORIAN_DATE", ["date"]⟩,
  ⟨"brel/parsers/XHMTL/xhtml_parse_transformation_registry.py", 806, "INVALID_JAPANESE_IMPERIAL_DATE", ["date"]⟩,
  ⟨"brel/parsers/XHMTL/xhtml_parse_transformation_registry.py", 866, "UNSUPPORTED_LITERAL_FACT_FORMAT", ["format"]⟩,
  ⟨"brel/parsers/XHMTL/xhtml_parse_transformation_registry.py", 913, "UNSUPPORTED_NON_FRACTION_FACT_FORMAT", ["format"]⟩,
  ⟨"brel/parsers/XHMTL/xhtml_parse_transformation_registry.py", 921, "NUMBER_DOES_NOT_MATCH_EXPECTED_FORMAT", ["number", "format"]⟩,
  ⟨"brel/parsers/XHMTL/xhtml_parse_transformation_registry.py", 976, "INVALID_SCALE_ATTRIBUTE_VALUE", ["scale"]⟩,
  ⟨"brel/parsers/XHMTL/xhtml_parse_transformation_registry.py", 1056, "UNSUPPORTED_NON_NUMERIC_FACT_FORMAT", ["format"]⟩,
  ⟨"brel/parsers/XML/characteristics/xml_parse_entity.py", 40, "ENTITY_MISSING_IDENTIFIER_ELEMENT", []⟩,
  ⟨"brel/parsers/XML/characteristics/xml_parse_entity.py", 46, "ENTITY_IDENTIFIER_MISSING_SCHEME", []⟩,
  ⟨"brel/parsers/XML/characteristics/xml_parse_explicit_dimension.py", 58, "INVALID_EXPLICIT_DIMENSION_VALUE", ["dimension"]⟩,
  ⟨"brel/parsers/XML/characteristics/xml_parse_explicit_dimension.py", 68, "MISSING_EXPLICIT_DIMENSION_MEMBER", ["dimension"]⟩,
  ⟨"brel/parsers/XML/characteristics/xml_parse_explicit_dimension.py", 77, "INVALID_EXPLICIT_DIMENSION_MEMBER", ["member", "dimension"]⟩,
  ⟨"brel/parsers/XML/characteristics/xml_parse_period.py", 30, "INVALID_CONTEXT_PERIOD_DATE", ["date"]⟩,
  ⟨"brel/parsers/XML/characteristics/xml_parse_period.py", 95, "DURATION_PERIOD_START_AFTER_END", ["start_date", "end_date"]⟩,
  ⟨"brel/parsers/XML/characteristics/xml_parse_period.py", 125, "DURATION_PERIOD_MISSING_START_DATE", []⟩,
  ⟨"brel/parsers/XML/characteristics/xml_parse_period.py", 133, "DURATION_PERIOD_MISSING_END_DATE", []⟩,
  ⟨"brel/parsers/XML/characteristics/xml_parse_typed_dimension.py", 70, "INVALID_TYPED_DIMENSION_VALUE", ["dimension"]⟩,
  ⟨"brel/parsers/XML/characteristics/xml_parse_typed_dimension.py", 81, "MULTIPLE_TYPED_DIMENSION_ELEMENT_CHILDREN", ["dimension"]⟩,
  ⟨"brel/parsers/XML/characteristics/xml_parse_typed_dimension.py", 88, "NO_TYPED_DIMENSION_ELEMENT_CHILDREN", ["dimension"]⟩,
  ⟨"brel/parsers/XML/characteristics/xml_parse_typed_dimension.py", 98, "MISSING_TYPED_DIMENSION_VALUE", ["dimension"]⟩,
  ⟨"brel/parsers/XML/characteristics/xml_parse_unit.py", 34, "XML_MISSING_UNIT_MEASURE", []⟩,
  ⟨"brel/parsers/XML/characteristics/xml_parse_unit.py", 60, "IXBRL_DUPLICATE_ELEMENT_ID", ["id"]⟩,
  ⟨"brel/parsers/XML/characteristics/xml_parse_unit.py", 70, "XML_UNIT_ELEMENT_WITHOUT_ONE_CHILD", ["id", "child_count"]⟩,
  ⟨"brel/parsers/XML/characteristics/xml_parse_unit.py", 90, "XML_DIVIDE_ELEMENT_WITHOUT_TWO_CHILDREN", ["id", "child_count"]⟩,
  ⟨"brel/parsers/XML/characteristics/xml_parse_unit.py", 104, "XML_INVALID_DIVIDE_ELEMENT_CHILDREN", ["id", "child_tag"]⟩,
  ⟨"brel/parsers/XML/characteristics/xml_parse_unit.py", 123, "XML_DUPLICATE_DIVIDE_ELEMENT_CHILDREN", ["id", "tag"]⟩,
  ⟨"brel/parsers/XML/characteristics/xml_parse_unit.py", 130, "XML_INVALID_UNIT_ELEMENT_CHILDREN", ["id", "child_tag"]⟩,
  ⟨"brel/parsers/XML/networks/xml_extended_link_parser.py", 68, "XML_REFERENCED_LOCATOR_ELEMENT_NOT_FOUND", ["elem_id"]⟩,
  ⟨"brel/parsers/XML/networks/xml_extended_link_parser.py", 78, "XML_UNSUPPORTED_REFERENCED_ELEMENT_TYPE", ["type"]⟩,
  ⟨"brel/parsers/XML/networks/xml_extended_link_parser.py", 112, "UNSUPPORTED_LINK_TYPE", ["type"]⟩,
  ⟨"brel/parsers/XML/networks/xml_extended_link_parser.py", 130, "DUPLICATE_LINKBASE_ARC", ["arc_from", "arc_to"]⟩,
  ⟨"brel/parsers/XML/networks/xml_networks_parser.py", 97, "MISSING_LINK_ROLE", []⟩,
  ⟨"brel/parsers/XML/networks/xml_resource_parser.py", 41, "MISSING_LABEL_LANGUAGE", []⟩,
  ⟨"brel/parsers/XML/networks/xml_resource_parser.py", 51, "XML_MISSING_FOOTNOTE_LANGUAGE", []⟩,
  ⟨"brel/parsers/XML/networks/xml_resource_parser.py", 64, "XML_UNSUPPORTED_RESOURCE_TAG", ["tag"]⟩,
  ⟨"brel/parsers/XML/xml_component_parser.py", 53, "PRESENTATION_NETWORK_IN_COMPONENT_WITHOUT_USEDON_ELEMENT", ["linkrole_uri"]⟩,
  ⟨"brel/parsers/XML/xml_component_parser.py", 62, "CALCULATION_NETWORK_IN_COMPONENT_WITHOUT_USEDON_ELEMENT", ["linkrole_uri"]⟩,
  ⟨"brel/parsers/XML/xml_component_parser.py", 71, "DEFINITION_NETWORK_IN_COMPONENT_WITHOUT_USEDON_ELEMENT", ["linkrole_uri"]⟩,
  ⟨"brel/parsers/XML/xml_component_parser.py", 94, "MULTIPLE_PRESENTATION_NETWORKS_IN_COMPONENT", ["linkrole_uri"]⟩,
  ⟨"brel/parsers/XML/xml_component_parser.py", 100, "MULTIPLE_CALCULATION_NETWORKS_IN_COMPONENT", ["linkrole_uri"]⟩,
  ⟨"brel/parsers/XML/xml_component_parser.py", 106, "MULTIPLE_DEFINITION_NETWORKS_IN_COMPONENT", ["linkrole_uri"]⟩,
  ⟨"brel/parsers/XML/xml_context_parser.py", 48, "MISSING_CONTEXT_PERIOD", []⟩,
  ⟨"brel/parsers/XML/xml_context_parser.py", 53, "MISSING_CONTEXT_ENTITY", []⟩,
  ⟨"brel/parsers/XML/xml_context_parser.py", 94, "INVALID_DIMENSION_TYPE", []⟩,
  ⟨"brel/parsers/XML/xml_facts_parser.py", 57, "MISSING_FACT_VALUE", ["concept"]⟩,
  ⟨"brel/parsers/XML/xml_facts_parser.py", 68, "FACT_UNIT_MISMATCH", ["fact_unit", "context_unit"]⟩,
  ⟨"brel/parsers/XML/xml_facts_parser.py", 77, "FACT_CONCEPT_MISMATCH", ["fact_concept", "context_concept"]⟩,
  ⟨"brel/parsers/XML/xml_facts_parser.py", 110, "XML_FACT_INVALID_CONCEPT", ["concept_name"]⟩,
  ⟨"brel/parsers/XML/xml_facts_parser.py", 136, "XML_INVALID_FACT_UNIT_ID", ["unit_id"]⟩,
  ⟨"brel/parsers/XML/xml_facts_parser.py", 167, "XML_INVALID_FACT_CONTEXT_ID", ["context_id"]⟩,
  ⟨"brel/parsers/XML/xml_parse_catalog.py", 21, "INVALID_CATALOG_ROOT_NODE", []⟩,
  ⟨"brel/parsers/XML/xml_parse_catalog.py", 30, "REWRITE_URI_MISSING_ATTRIBUTE", []⟩,
  ⟨"brel/parsers/XML/xml_parse_catalog.py", 36, "MULTIPLE_REWRITE_URIS_FOR_START_STRING", ["uri"]⟩,
  ⟨"brel/parsers/XML/xml_report_element_parser.py", 101, "REFERENCED_SCHEMA_ELEMENT_NOT_FOUND", ["ref_id", "ref_schema_name"]⟩,
  ⟨"brel/reportelements/concept.py", 291, "INVALID_CONCEPT_PERIOD_TYPE", ["concept_name", "period_type"]⟩,
  ⟨"brel/reportelements/concept.py", 306, "INVALID_CONCEPT_BALANCE_TYPE", ["concept_name", "balance_type"]⟩,
  ⟨"brel/reportelements/concept.py", 321, "INVALID_CONCEPT_NILLABLE_VALUE", ["concept_name", "nillable_value"]⟩,
  ⟨"brel/reportelements/concept.py", 335, "MISSING_CONCEPT_DATA_TYPE", ["concept_name"]⟩,
  ⟨"brel/services/file/file_service.py", 58, "UNAVAILABLE_REMOTE_FILE", ["uri", "status_code"]⟩]

end Brel
