{
 "claims": [
  {
   "property": "C01",
   "status": "proved",
   "theorems": [
    "Soapfish.C01_integer_range"
   ],
   "note": ""
  },
  {
   "property": "C02",
   "status": "proved",
   "theorems": [
    "Soapfish.C02_integer_roundtrip"
   ],
   "note": ""
  },
  {
   "property": "C03",
   "status": "proved",
   "theorems": [
    "Soapfish.C03_integer_facets",
    "Soapfish.C03_base_facets",
    "Soapfish.C03_fixed_bound_ignored"
   ],
   "note": ""
  },
  {
   "property": "C04",
   "status": "proved",
   "theorems": [
    "Soapfish.C04_integer_text"
   ],
   "note": "text 'nil' reads as None"
  },
  {
   "property": "C05",
   "status": "proved",
   "theorems": [
    "Soapfish.C05_string_facets",
    "Soapfish.C05_normal_form_exists",
    "Soapfish.C05_non_string"
   ],
   "note": ""
  },
  {
   "property": "C06",
   "status": "proved",
   "theorems": [
    "Soapfish.C06_accept_idempotent"
   ],
   "note": ""
  },
  {
   "property": "C07",
   "status": "proved",
   "theorems": [
    "Soapfish.C07_whitespace",
    "Soapfish.C07_replace_length",
    "Soapfish.C07_collapse_chars"
   ],
   "note": ""
  },
  {
   "property": "C08",
   "status": "proved",
   "theorems": [
    "Soapfish.C08_pattern_whole",
    "Soapfish.C08_pattern_exact",
    "Soapfish.C08_alternation_prefix"
   ],
   "note": "for the regular-expression fragment of Verif/Regex.lean"
  },
  {
   "property": "C09",
   "status": "proved",
   "theorems": [
    "Soapfish.C09_boolean_accept",
    "Soapfish.C09_boolean_roundtrip",
    "Soapfish.C09_boolean_text",
    "Soapfish.C09_boolean_render",
    "Soapfish.C09_boolean_int"
   ],
   "note": ""
  },
  {
   "property": "C10",
   "status": "proved",
   "theorems": [
    "Soapfish.C10_date_roundtrip"
   ],
   "note": ""
  },
  {
   "property": "C11",
   "status": "proved",
   "theorems": [
    "Soapfish.C11_date_text"
   ],
   "note": ""
  },
  {
   "property": "C12",
   "status": "proved",
   "theorems": [
    "Soapfish.C12_early_years"
   ],
   "note": ""
  },
  {
   "property": "C13",
   "status": "proved",
   "theorems": [
    "Soapfish.C13_offset_text",
    "Soapfish.C13_whole_minutes",
    "Soapfish.C13_injective"
   ],
   "note": ""
  },
  {
   "property": "C14",
   "status": "proved",
   "theorems": [
    "Soapfish.C14_datetime_roundtrip",
    "Soapfish.C14_datetime_naive",
    "Soapfish.C14_datetime_micro",
    "Soapfish.C14_time_roundtrip",
    "Soapfish.C14_time_naive"
   ],
   "note": "relative to IsoCanonical, the stated behaviour of iso8601.parse_date on canonical texts"
  },
  {
   "property": "C15",
   "status": "proved",
   "theorems": [
    "Soapfish.C15_decimal_facets",
    "Soapfish.C15_nan_passes_bounds"
   ],
   "note": "floats are identified with their shortest decimal text; bounds and enumeration are finite numbers"
  },
  {
   "property": "C16",
   "status": "proved",
   "theorems": [
    "Soapfish.C16_float_roundtrip",
    "Soapfish.C16_int_roundtrip",
    "Soapfish.C16_fraction_zero"
   ],
   "note": "floats are identified with their shortest decimal text; the last theorem covers |i| < 10^16"
  },
  {
   "property": "C17",
   "status": "proved",
   "theorems": [
    "Soapfish.C17_maxOccurs_roundtrip",
    "Soapfish.C17_maxOccurs_text"
   ],
   "note": ""
  },
  {
   "property": "C21",
   "status": "proved",
   "theorems": [
    "Soapfish.C21_occurrence_limits",
    "Soapfish.C21_violation_raises"
   ],
   "note": ""
  },
  {
   "property": "C22",
   "status": "proved",
   "theorems": [
    "Soapfish.C22_required_attribute_missing",
    "Soapfish.C22_required_attribute_valueError",
    "Soapfish.C22_required_attribute_present",
    "Soapfish.C22_optional_attribute_omitted"
   ],
   "note": ""
  },
  {
   "property": "C23",
   "status": "proved",
   "theorems": [
    "Soapfish.C23_children_in_declaration_order",
    "Soapfish.C23_order"
   ],
   "note": ""
  },
  {
   "property": "C24",
   "status": "proved",
   "theorems": [
    "Soapfish.C24_assign",
    "Soapfish.C24_only_nil",
    "Soapfish.C24_append",
    "Soapfish.C24_list_assignment_unchecked",
    "Soapfish.C24_render",
    "Soapfish.C24_read",
    "Soapfish.C24_nil_name"
   ],
   "note": "the fourth theorem is the exception: a whole list assigned to a list field is not checked"
  },
  {
   "property": "C26",
   "status": "proved",
   "theorems": [
    "Soapfish.C26_qualification"
   ],
   "note": ""
  },
  {
   "property": "C27",
   "status": "proved",
   "theorems": [
    "Soapfish.C27_namespaces"
   ],
   "note": ""
  },
  {
   "property": "C28",
   "status": "proved",
   "theorems": [
    "Soapfish.C28_C29_irrelevant_changes",
    "Soapfish.C28_unknown_inserted",
    "Soapfish.C28_processing_instruction"
   ],
   "note": "the last theorem is the exception: processing instructions raise TypeError"
  },
  {
   "property": "C29",
   "status": "proved",
   "theorems": [
    "Soapfish.C28_C29_irrelevant_changes",
    "Soapfish.C29_last_occurrence",
    "Soapfish.C29_list_in_document_order"
   ],
   "note": ""
  },
  {
   "property": "C31",
   "status": "proved",
   "theorems": [
    "Soapfish.C31_chosen_field",
    "Soapfish.C31_other_fields"
   ],
   "note": ""
  },
  {
   "property": "C32",
   "status": "proved",
   "theorems": [
    "Soapfish.C32_missing_element",
    "Soapfish.C32_attribute"
   ],
   "note": ""
  },
  {
   "property": "C33",
   "status": "proved",
   "theorems": [
    "Soapfish.C33_parsed_values_are_well_typed"
   ],
   "note": ""
  },
  {
   "property": "C25",
   "status": "proved",
   "theorems": [
    "Soapfish.C25_roundtrip",
    "Soapfish.C25_strings",
    "Soapfish.C25_none_string",
    "Soapfish.C25_booleans",
    "Soapfish.C25_integers",
    "Soapfish.C25_dates",
    "Soapfish.C25_floats",
    "Soapfish.C25_empty_string"
   ],
   "note": "instances of exactly the declared classes; the exception is the empty string, which reads back as None"
  },
  {
   "property": "C30",
   "status": "proved",
   "theorems": [
    "Soapfish.C30_tagname_attribute_lost",
    "Soapfish.C30_other_attributes_kept"
   ],
   "note": "for classes without groups"
  },
  {
   "property": "C18",
   "status": "proved",
   "theorems": [
    "Soapfish.C18_fields_accepted",
    "Soapfish.C18_accepted_unchanged",
    "Soapfish.C18_failing_assignment",
    "Soapfish.C18_assignment",
    "Soapfish.C18_constructor_frame"
   ],
   "note": "'accepts unchanged' is stated for all types but Decimal, see C06 and C16"
  },
  {
   "property": "C19",
   "status": "proved",
   "theorems": [
    "Soapfish.C19_list_content",
    "Soapfish.C19_failing_append"
   ],
   "note": ""
  },
  {
   "property": "C20",
   "status": "proved",
   "theorems": [
    "Soapfish.C20_names",
    "Soapfish.C20_undeclared_assignment",
    "Soapfish.C20_undeclared_argument",
    "Soapfish.C18_constructor_frame"
   ],
   "note": ""
  },
  {
   "property": "C35",
   "status": "proved",
   "theorems": [
    "Soapfish.C35_separate",
    "Soapfish.C35_fresh",
    "Soapfish.C35_group_lists_shared"
   ],
   "note": "the last theorem is the exception: lists of groups are shared"
  },
  {
   "property": "C34",
   "status": "proved",
   "theorems": [
    "Soapfish.C34_equivalence",
    "Soapfish.C34_hash",
    "Soapfish.C34_strict_total_order",
    "Soapfish.C34_operators_agree",
    "Soapfish.C34_built_unequal",
    "Soapfish.C34_built_order",
    "Soapfish.C34_built_subclass",
    "Soapfish.C34_parsed_keeps_element",
    "Soapfish.C34_equal_documents",
    "Soapfish.C34_built_hash"
   ],
   "note": "for every function in the place of etree.tostring"
  },
  {
   "property": "C36",
   "status": "proved",
   "theorems": [
    "Soapfish.C36_all_fields",
    "Soapfish.C36_parts",
    "Soapfish.C36_names_distinct",
    "Soapfish.C36_subclass",
    "Soapfish.C36_alias"
   ],
   "note": "the last theorem is the exception: one descriptor under two names"
  },
  {
   "property": "C37",
   "status": "proved",
   "theorems": [
    "Soapfish.C37_wsdl",
    "Soapfish.C37_xsd",
    "Soapfish.C37_soap",
    "Soapfish.C37_bad",
    "Soapfish.C37_no_call"
   ],
   "note": ""
  },
  {
   "property": "C38",
   "status": "proved",
   "theorems": [
    "Soapfish.C38_C39_unique",
    "Soapfish.C38_C39_called",
    "Soapfish.C38_unknown"
   ],
   "note": ""
  },
  {
   "property": "C39",
   "status": "proved",
   "theorems": [
    "Soapfish.C38_C39_unique",
    "Soapfish.C38_C39_called",
    "Soapfish.C39_unknown",
    "Soapfish.C39_no_group"
   ],
   "note": "the last theorem is the AttributeError case"
  },
  {
   "property": "C40",
   "status": "proved",
   "theorems": [
    "Soapfish.C40_only_checked"
   ],
   "note": ""
  },
  {
   "property": "C41",
   "status": "proved",
   "theorems": [
    "Soapfish.C41_pass_through",
    "Soapfish.C41_nesting",
    "Soapfish.C41_stop"
   ],
   "note": ""
  },
  {
   "property": "C42",
   "status": "proved",
   "theorems": [
    "Soapfish.C42_fault",
    "Soapfish.C42_illegal"
   ],
   "note": "the second theorem is the exception: characters XML does not allow"
  },
  {
   "property": "C43",
   "status": "proved",
   "theorems": [
    "Soapfish.C43_propagates"
   ],
   "note": ""
  },
  {
   "property": "C44",
   "status": "proved",
   "theorems": [
    "Soapfish.C44_result",
    "Soapfish.C44_soap_error",
    "Soapfish.C44_other_error",
    "Soapfish.C44_logger",
    "Soapfish.C44_answer"
   ],
   "note": ""
  },
  {
   "property": "C45",
   "status": "proved",
   "theorems": [
    "Soapfish.C45_soap",
    "Soapfish.C37_bad",
    "Soapfish.C48_not_found"
   ],
   "note": ""
  },
  {
   "property": "C46",
   "status": "proved",
   "theorems": [
    "Soapfish.C46_soap",
    "Soapfish.C46_wsdl",
    "Soapfish.C46_xsd",
    "Soapfish.C46_calls",
    "Soapfish.C46_no_xsd_response",
    "Soapfish.C46_names"
   ],
   "note": ""
  },
  {
   "property": "C47",
   "status": "proved",
   "theorems": [
    "Soapfish.C47_served",
    "Soapfish.C47_unique",
    "Soapfish.C47_no_dollar",
    "Soapfish.C47_no_host"
   ],
   "note": ""
  },
  {
   "property": "C48",
   "status": "proved",
   "theorems": [
    "Soapfish.C48_found",
    "Soapfish.C48_not_found",
    "Soapfish.C48_name"
   ],
   "note": ""
  },
  {
   "property": "C49",
   "status": "proved",
   "theorems": [
    "Soapfish.C49_rejected",
    "Soapfish.C49_body",
    "Soapfish.C49_malformed",
    "Soapfish.C49_lax"
   ],
   "note": ""
  },
  {
   "property": "C50",
   "status": "proved",
   "theorems": [
    "Soapfish.C50_read11",
    "Soapfish.C50_soap11",
    "Soapfish.C50_soap12",
    "Soapfish.C50_django",
    "Soapfish.C50_wsgi",
    "Soapfish.C50_no_variable"
   ],
   "note": "C50_wsgi and C50_no_variable: under plain WSGI the header is never seen by that name"
  },
  {
   "property": "C51",
   "status": "proved",
   "theorems": [
    "Soapfish.C51_fault"
   ],
   "note": ""
  },
  {
   "property": "C52",
   "status": "proved",
   "theorems": [
    "Soapfish.C52_client",
    "Soapfish.C52_class",
    "Soapfish.C52_request",
    "Soapfish.C52_answer",
    "Soapfish.C52_served",
    "Soapfish.C52_call"
   ],
   "note": "transport is assumed to preserve documents up to what serialisation does (Back); validity of the request is a hypothesis"
  },
  {
   "property": "C53",
   "status": "proved",
   "theorems": [
    "Soapfish.C53_fault",
    "Soapfish.C53_method"
   ],
   "note": ""
  },
  {
   "property": "C54",
   "status": "proved",
   "theorems": [
    "Soapfish.C52_request",
    "Soapfish.C52_answer",
    "Soapfish.C54_namespace"
   ],
   "note": ""
  },
  {
   "property": "C55",
   "status": "proved",
   "theorems": [
    "Soapfish.C55_lookup",
    "Soapfish.C55_lower_case"
   ],
   "note": ""
  },
  {
   "property": "C60",
   "status": "proved",
   "theorems": [
    "Soapfish.C60_version",
    "Soapfish.C60_other"
   ],
   "note": ""
  },
  {
   "property": "C69",
   "status": "proved",
   "theorems": [
    "Soapfish.C69_default",
    "Soapfish.C69_given"
   ],
   "note": ""
  },
  {
   "property": "C57",
   "status": "proved",
   "theorems": [
    "Soapfish.C57_once",
    "Soapfish.C57_only",
    "Soapfish.C57_all",
    "Soapfish.C57_terminates"
   ],
   "note": "Locations identify schemas in C57_all; two schemas without a location are taken for one (example in Props/Schemas)."
  },
  {
   "property": "C58",
   "status": "proved",
   "theorems": [
    "Soapfish.C58_found",
    "Soapfish.C58_missing",
    "Soapfish.C58_list",
    "Soapfish.C58_acyclic",
    "Soapfish.C58_cyclic"
   ],
   "note": ""
  },
  {
   "property": "C59",
   "status": "proved",
   "theorems": [
    "Soapfish.C59_method",
    "Soapfish.C59_no_method",
    "Soapfish.C59_route"
   ],
   "note": ""
  },
  {
   "property": "C71",
   "status": "proved",
   "theorems": [
    "Soapfish.C71_decoded",
    "Soapfish.C71_served"
   ],
   "note": ""
  },
  {
   "property": "C56",
   "status": "proved",
   "theorems": [
    "Soapfish.C56_length",
    "Soapfish.C56_none",
    "Soapfish.C56_beyond",
    "Soapfish.C56_invalid",
    "Soapfish.C56_negative"
   ],
   "note": ""
  },
  {
   "property": "C68",
   "status": "proved",
   "theorems": [
    "Soapfish.C68_remove",
    "Soapfish.C68_uncapitalize",
    "Soapfish.C68_idempotent",
    "Soapfish.C68_keyword",
    "Soapfish.C68_clash",
    "Soapfish.C68_use"
   ],
   "note": "Letter case is modelled for ASCII letters."
  },
  {
   "property": "C70",
   "status": "proved",
   "theorems": [
    "Soapfish.C70_reply",
    "Soapfish.C70_first",
    "Soapfish.C70_no_action",
    "Soapfish.C70_class",
    "Soapfish.C70_written"
   ],
   "note": ""
  },
  {
   "property": "C72",
   "status": "proved",
   "theorems": [
    "Soapfish.C72_wsgi",
    "Soapfish.C72_status",
    "Soapfish.C72_fault",
    "Soapfish.C72_bad",
    "Soapfish.C72_django",
    "Soapfish.C72_flask",
    "Soapfish.C72_headers"
   ],
   "note": ""
  },
  {
   "property": "C73",
   "status": "proved",
   "theorems": [
    "Soapfish.C73_prefixed",
    "Soapfish.C73_unprefixed",
    "Soapfish.C73_colons",
    "Soapfish.C73_sources",
    "Soapfish.C73_ambiguous"
   ],
   "note": ""
  },
  {
   "property": "C66",
   "status": "proved",
   "theorems": [
    "Soapfish.C66_permutation",
    "Soapfish.C66_ordered",
    "Soapfish.C66_leaves",
    "Soapfish.C66_chain"
   ],
   "note": "C66_leaves covers imports of schemas that import nothing; C66_chain shows that the order is wrong beyond that"
  },
  {
   "property": "C67",
   "status": "proved",
   "theorems": [
    "Soapfish.C67_url",
    "Soapfish.C67_file",
    "Soapfish.C67_same"
   ],
   "note": ""
  },
  {
   "property": "C74",
   "status": "proved",
   "theorems": [
    "Soapfish.C74_kept",
    "Soapfish.C74_rewrite",
    "Soapfish.C74_same"
   ],
   "note": ""
  },
  {
   "property": "C75",
   "status": "proved",
   "theorems": [
    "Soapfish.C75_merged",
    "Soapfish.C75_sound"
   ],
   "note": ""
  },
  {
   "property": "C76",
   "status": "proved",
   "theorems": [
    "Soapfish.C76_sibling",
    "Soapfish.C76_cycle"
   ],
   "note": ""
  },
  {
   "property": "C77",
   "status": "proved",
   "theorems": [
    "Soapfish.C77_bases_first",
    "Soapfish.C77_prefixed",
    "Soapfish.C77_grandchild",
    "Soapfish.C77_missing",
    "Soapfish.C77_neither",
    "Soapfish.C77_neither_later"
   ],
   "note": "list.sort is modelled by insertion; the comparison is shown to be a consistent order where an order is claimed"
  },
  {
   "property": "C78",
   "status": "proved",
   "theorems": [
    "Soapfish.C78_includes",
    "Soapfish.C78_root_twice"
   ],
   "note": ""
  },
  {
   "property": "C62",
   "status": "proved",
   "theorems": [
    "Soapfish.C62_follows",
    "Soapfish.C62_document",
    "Soapfish.C62_unbounded_list"
   ],
   "note": "a list with maxOccurs=0 is excluded: the library does not enforce that bound"
  },
  {
   "property": "C63",
   "status": "proved",
   "theorems": [
    "Soapfish.C63_builtin",
    "Soapfish.C63_user"
   ],
   "note": ""
  },
  {
   "property": "C64",
   "status": "proved",
   "theorems": [
    "Soapfish.C64_in_place"
   ],
   "note": ""
  },
  {
   "property": "C65",
   "status": "proved",
   "theorems": [
    "Soapfish.C65_attributes"
   ],
   "note": ""
  },
  {
   "property": "C79",
   "status": "proved",
   "theorems": [
    "Soapfish.C79_document",
    "Soapfish.C79_exceptions",
    "Soapfish.C79_namespace"
   ],
   "note": ""
  },
  {
   "property": "C80",
   "status": "proved",
   "theorems": [
    "Soapfish.C80_resolves",
    "Soapfish.C80_foreign_dangles"
   ],
   "note": ""
  },
  {
   "property": "C61",
   "status": "proved",
   "theorems": [
    "Soapfish.C61_resolves",
    "Soapfish.C61_lookup",
    "Soapfish.Ex.C61_duplicates",
    "Soapfish.Ex.C61_colon"
   ],
   "note": ""
  },
  {
   "property": "C81",
   "status": "proved",
   "theorems": [
    "Soapfish.C81_document",
    "Soapfish.C81_exceptions"
   ],
   "note": "namespace prefix declarations are not part of the document model"
  },
  {
   "property": "C82",
   "status": "proved",
   "theorems": [
    "Soapfish.C82_schema",
    "Soapfish.C82_service"
   ],
   "note": ""
  },
  {
   "property": "C83",
   "status": "proved",
   "theorems": [
    "Soapfish.C83_misplaced",
    "Soapfish.C83_elsewhere"
   ],
   "note": ""
  },
  {
   "property": "C85",
   "status": "proved",
   "theorems": [
    "Soapfish.C85_roundtrip",
    "Soapfish.C85_names"
   ],
   "note": "executing generated code is modelled statement by statement; serialisation is the relation Back of Verif/Xml.lean"
  },
  {
   "property": "C84",
   "status": "proved",
   "theorems": [
    "Soapfish.C84_text",
    "Soapfish.C84_ignored",
    "Soapfish.C84_integer",
    "Soapfish.C84_decimal",
    "Soapfish.C84_in_place_text",
    "Soapfish.C84_in_place_integer",
    "Soapfish.C84_in_place_enumeration"
   ],
   "note": "for texts that need no escaping in the generated code; the meaning of patterns is a parameter"
  },
  {
   "property": "C86",
   "status": "proved",
   "theorems": [
    "Soapfish.C86_named",
    "Soapfish.C86_fields",
    "Soapfish.C86_split",
    "Soapfish.C86_class",
    "Soapfish.C86_create_params",
    "Soapfish.C86_create",
    "Soapfish.C86_create_never",
    "Soapfish.C86_instances"
   ],
   "note": "for complex types that are not derived or extensions, and whose elements and attributes have names; class names in the code and names in the class must be distinct"
  },
  {
   "property": "C87",
   "status": "proved",
   "theorems": [
    "Soapfish.C87_valid",
    "Soapfish.C87_document",
    "Soapfish.Ex.C87_missing_element",
    "Soapfish.Ex.C87_missing_items"
   ],
   "note": "types checked: strings, URIs, booleans, integers, dates, times, and single restrictions of strings and URIs by enumeration and pattern; complex types with a sequence, and extensions of such"
  },
  {
   "property": "C88",
   "status": "proved",
   "theorems": [
    "Soapfish.C88_reads",
    "Soapfish.Ex.C88_empty_text",
    "Soapfish.Ex.C88_keyword_attribute"
   ],
   "note": "types as in C87; the names of classes of simple types must be different; the parser of date texts is a parameter that must read canonical dates"
  },
  {
   "property": "C89",
   "status": "proved",
   "theorems": [
    "Soapfish.C89_extends",
    "Soapfish.C89_assign",
    "Soapfish.C89_written",
    "Soapfish.C89_sliced",
    "Soapfish.Ex.C89_not_valid"
   ],
   "note": "C89_written and C89_sliced hold for all classes with the fields of a base class and others behind them, whether generated or not"
  },
  {
   "property": "C90",
   "status": "proved",
   "theorems": [
    "Soapfish.C90_location",
    "Soapfish.C90_exact",
    "Soapfish.C90_addresses",
    "Soapfish.C90_relative",
    "Soapfish.C90_templated",
    "Soapfish.Ex.C90_dollar"
   ],
   "note": "urllib.parse.urlparse and urlunparse are modelled; the check of bracketed and non-ASCII hosts is a parameter"
  },
  {
   "property": "C91",
   "status": "proved",
   "theorems": [
    "Soapfish.C91_roundtrip",
    "Soapfish.C91_methods",
    "Soapfish.C91_stub"
   ],
   "note": "hashlib's digest in schema names is a parameter with five characters; reading of XML text is as in C82"
  },
  {
   "property": "C92",
   "status": "proved",
   "theorems": [
    "Soapfish.C92_services",
    "Soapfish.C92_schemas",
    "Soapfish.C92_headers"
   ],
   "note": "the document is given as the description read by wsdl2py (as in C82), without imports; hashlib's digest is a parameter; that of a class generated for an output type nothing is said"
  },
  {
   "property": "C93",
   "status": "proved",
   "theorems": [
    "Soapfish.C93_documents",
    "Soapfish.C93_all",
    "Soapfish.C93_links",
    "Soapfish.C93_follow",
    "Soapfish.C93_plus",
    "Soapfish.C93_missing",
    "Soapfish.C93_makeable"
   ],
   "note": "what lxml makes of a schema document is a parameter; the recursion limit must be at least 12 and larger than the number of locations"
  },
  {
   "property": "C94",
   "status": "proved",
   "theorems": [
    "Soapfish.C94_services",
    "Soapfish.C94_calls",
    "Soapfish.C94_call"
   ],
   "note": "that a running program has the service that the generated code describes (classes numbered, functions filled in) is the relation Runs of Verif/Spec/Twin.lean; schemas without imports and includes; both programs over the same table of classes"
  },
  {
   "property": "C95",
   "status": "proved",
   "theorems": [
    "Soapfish.C95_answered",
    "Soapfish.C95_shielded",
    "Soapfish.C95_empty",
    "Soapfish.C95_comment",
    "Soapfish.C95_header_comment",
    "Soapfish.C95_nil_header",
    "Soapfish.C95_nil_body",
    "Soapfish.C95_instruction"
   ],
   "note": "lxml's validation is a parameter that succeeds or fails; texts of exceptions, actions and names must be writable in XML; a request without action for an element declared only for other purposes is C39_no_group; the recursion limit is not reached by the classes of SOAP messages"
  },
  {
   "property": "C96",
   "status": "proved",
   "theorems": [
    "Soapfish.C96_never",
    "Soapfish.C96_recursion",
    "Soapfish.C96_loop",
    "Soapfish.C96_exactly",
    "Soapfish.C96_import"
   ],
   "note": "the recursion limit counts nested calls of classes; the document theorem is about complex types made of layers of plain content with distinct field names"
  },
  {
   "property": "C97",
   "status": "proved",
   "theorems": [
    "Soapfish.C97_sound",
    "Soapfish.C97_exact",
    "Soapfish.C97_types",
    "Soapfish.C97_conflict",
    "Soapfish.C97_inner"
   ],
   "note": "documents are trees of elements with their namespace declarations; no element declares a prefix twice, as XML demands"
  },
  {
   "property": "C98",
   "status": "proved",
   "theorems": [
    "Soapfish.C98_again",
    "Soapfish.C98_parse",
    "Soapfish.C98_parse_error",
    "Soapfish.C98_new",
    "Soapfish.C98_shared"
   ],
   "note": "declared defaults are atoms or NIL; objects of one field descriptor have one identity; the instances made when the type of a field is evaluated are left out of the heap; the elements that instances were parsed from are left out of comparisons"
  },
  {
   "property": "C99",
   "status": "proved",
   "theorems": [
    "Soapfish.C99_required",
    "Soapfish.C99_unchecked"
   ],
   "note": "lxml's validation is a parameter; assumed is only that valid elements are declared and have the required children; no globally declared element is nillable; the unchecked case is about classes of elements and lists"
  },
  {
   "property": "C100",
   "status": "proved",
   "theorems": [
    "Soapfish.C100_alone",
    "Soapfish.C100_done"
   ],
   "note": "what happens between two accesses to request objects is one step; methods, middlewares and hooks make no request objects of their own; the lists shared by groups (C98_shared) and lxml's validator objects are not part of this model"
  },
  {
   "property": "C101",
   "status": "proved",
   "theorems": [
    "Soapfish.C101_reads",
    "Soapfish.C101_toPy",
    "Soapfish.C101_injection"
   ],
   "note": "Python's reader is modelled for the part of the language that the templates use and rejects the rest; the number of empty lines is not that of the templates; the preamble, locations and the code of imported documents are left out"
  },
  {
   "property": "C102",
   "status": "proved",
   "theorems": [
    "Soapfish.C102_reads",
    "Soapfish.C102_injection"
   ],
   "note": "documents without imports; Python's reader is modelled for the part of the language that the templates use (repeated keyword arguments are not rejected); a null character in an address is excluded; the time in the preamble is a text without line breaks"
  },
  {
   "property": "C103",
   "status": "proved",
   "theorems": [
    "Soapfish.C103_write",
    "Soapfish.C103_counterpart",
    "Soapfish.C103_read",
    "Soapfish.C103_call"
   ],
   "note": "without headers; defaults of fields are the same simple value on both sides; transport preserves documents up to what serialisation does (Back), validity of the request is a hypothesis, as in C52"
  },
  {
   "property": "C104",
   "status": "proved",
   "theorems": [
    "Soapfish.C104_classes",
    "Soapfish.C104_documents",
    "Soapfish.Ex.C104_zero"
   ],
   "note": "schemas without imports, groups and attributes; elements have no defaults and no namespaces of their own; Python's patterns and iso8601 are parameters"
  },
  {
   "property": "C105",
   "status": "proved",
   "theorems": [
    "Soapfish.C105_call",
    "Soapfish.C105_client"
   ],
   "note": "operations without headers; the limits of C91 (service) and C104 (schema) apply; transport and validity as in C103"
  },
  {
   "property": "C106",
   "status": "proved",
   "theorems": [
    "Soapfish.C106_defined",
    "Soapfish.C106_fields",
    "Soapfish.C106_attributeGroup",
    "Soapfish.C106_group",
    "Soapfish.C106_list"
   ],
   "note": "complex types that are not derived; references with a prefix of the XML Schema namespace are not covered; references whose own element also has a type are not covered by C106_fields"
  },
  {
   "property": "C107",
   "status": "proved",
   "theorems": [
    "Soapfish.C107_written",
    "Soapfish.C107_read",
    "Soapfish.ExPub.C107_open"
   ],
   "note": "schemas without attributes, choices and types restricted in place, which the XSD document shows but C87's notion of validity does not cover; Python's patterns and iso8601 are parameters"
  },
  {
   "property": "C108",
   "status": "proved",
   "theorems": [
    "Soapfish.C108_request",
    "Soapfish.C108_call"
   ],
   "note": "operations without headers; input elements with named complex types; the limits of C105 and C107 apply; lxml's validator is a parameter that is assumed to accept valid documents"
  },
  {
   "property": "C109",
   "status": "proved",
   "theorems": [
    "Soapfish.C109_written",
    "Soapfish.C109_back",
    "Soapfish.C109_read",
    "Soapfish.C109_refused",
    "Soapfish.C109_same",
    "Soapfish.C109_program"
   ],
   "note": "top-level elements with named complex types; the limits of C107 apply; lxml's reader, writer and validator are parameters; texts survive as described by Back, without text between elements but white space"
  },
  {
   "property": "C110",
   "status": "proved",
   "theorems": [
    "Soapfish.C110_written",
    "Soapfish.C110_back",
    "Soapfish.C110_refused",
    "Soapfish.C110_list",
    "Soapfish.C110_names"
   ],
   "note": "the field has no namespace of its own in C110_written and C110_back, which are about fields with complex types"
  },
  {
   "property": "C111",
   "status": "proved",
   "theorems": [
    "Soapfish.C111_served",
    "Soapfish.C111_call",
    "Soapfish.C111_partners"
   ],
   "note": "dispatchers without middlewares and hooks; documents that survive transport and valid requests are assumed, as in C52 and C103; the method uses only the header of the request and its parameter"
  },
  {
   "property": "C112",
   "status": "proved",
   "theorems": [
    "Soapfish.C112_named",
    "Soapfish.C112_nameless",
    "Soapfish.C112_classes",
    "Soapfish.C112_early",
    "Soapfish.C112_schemaless"
   ],
   "note": "without a hook for SOAP requests; the middleware of C112_early uses only the request it is called with"
  },
  {
   "property": "C113",
   "status": "proved",
   "theorems": [
    "Soapfish.C113_dates",
    "Soapfish.C113_order",
    "Soapfish.C113_plain",
    "Soapfish.C113_datetimes",
    "Soapfish.C113_others",
    "Soapfish.C113_field",
    "Soapfish.C113_read"
   ],
   "note": "offsets are those of datetime.timezone objects; objects of other classes with attributes year, month, day and tzinfo are not modelled"
  },
  {
   "property": "C114",
   "status": "proved",
   "theorems": [
    "Soapfish.C114_contract"
   ],
   "note": "the limits of C107 apply; top-level elements with named complex types; dispatchers without middlewares and hooks; messages without header; lxml's validator is a parameter that is assumed to accept valid documents"
  },
  {
   "property": "C115",
   "status": "proved",
   "theorems": [
    "Soapfish.C115_new",
    "Soapfish.C115_construct",
    "Soapfish.C115_read",
    "Soapfish.C115_write"
   ],
   "note": "the recursion limit is counted in nested complex types, not in Python frames"
  },
  {
   "property": "C116",
   "status": "proved",
   "theorems": [
    "Soapfish.C116_text",
    "Soapfish.C116_element",
    "Soapfish.C116_lost",
    "Soapfish.C116_attribute"
   ],
   "note": "C116_lost: classes whose fields are elements, lists and attributes; C116_element and C116_attribute: classes that are no choices"
  },
  {
   "property": "C117",
   "status": "proved",
   "theorems": [
    "Soapfish.C117_code",
    "Soapfish.C117_refused",
    "Soapfish.C117_order",
    "Soapfish.C117_circle",
    "Soapfish.C117_found",
    "Soapfish.C117_schemas",
    "Soapfish.C117_single"
   ],
   "note": "local documents; MD5 is a parameter, and that no two names collide is an assumption where it matters; C117_schemas is about target namespaces that need no escapes; classes of the documents are those of the other properties about generated code"
  },
  {
   "property": "C118",
   "status": "proved",
   "theorems": [
    "Soapfish.C118_written",
    "Soapfish.C118_emptied",
    "Soapfish.C118_refused",
    "Soapfish.C118_same",
    "Soapfish.C118_module",
    "Soapfish.C118_chain"
   ],
   "note": "arguments are those that argparse gives; links are not followed; texts are bytes, as characters; C118_chain is about local documents as in C117"
  },
  {
   "property": "C119",
   "status": "proved",
   "theorems": [
    "Soapfish.C119_loaded",
    "Soapfish.C119_found",
    "Soapfish.C119_sorted",
    "Soapfish.C119_leaves",
    "Soapfish.C119_chain",
    "Soapfish.C119_circle"
   ],
   "note": "schemas have target namespaces of their own; MD5 is a parameter; C119_found is about the variables of schemas, the classes are those of the other properties about generated code"
  },
  {
   "property": "C120",
   "status": "proved",
   "theorems": [
    "Soapfish.C120_code",
    "Soapfish.C120_copies",
    "Soapfish.C120_found",
    "Soapfish.C120_loaded",
    "Soapfish.C120_outside"
   ],
   "note": "local documents as in C117; the description of the WSDL document is that after WSDL imports have been merged; C120_loaded is about schemas that have target namespaces of their own"
  },
  {
   "property": "C121",
   "status": "proved",
   "theorems": [
    "Soapfish.C121_reads",
    "Soapfish.C121_reads_special",
    "Soapfish.C121_double",
    "Soapfish.C121_decimal",
    "Soapfish.C121_int_bool",
    "Soapfish.C121_decimal_object"
   ],
   "note": "floats are modelled by their shortest decimal text; rounding beyond 15 digits and overflow to infinity are not modelled"
  },
  {
   "property": "C122",
   "status": "proved",
   "theorems": [
    "Soapfish.C122_server",
    "Soapfish.C122_join",
    "Soapfish.C122_only",
    "Soapfish.C122_all",
    "Soapfish.C122_wrong",
    "Soapfish.C122_right",
    "Soapfish.C122_directory",
    "Soapfish.C122_local"
   ],
   "note": "http and https; host names in ASCII without brackets; names without ; ? # and white space; urllib.parse.urljoin is modelled from the standard library, its check of host names is a parameter"
  },
  {
   "property": "C123",
   "status": "proved",
   "theorems": [
    "Soapfish.C123_stored",
    "Soapfish.C123_append",
    "Soapfish.C123_characters",
    "Soapfish.C123_not_iterable",
    "Soapfish.C123_unreadable",
    "Soapfish.C123_numbers",
    "Soapfish.C123_words"
   ],
   "note": "C123_unreadable is about classes that are no Choice; tuples and other iterables are not modelled as values"
  },
  {
   "property": "C124",
   "status": "proved",
   "theorems": [
    "Soapfish.C124_unread",
    "Soapfish.C124_lost",
    "Soapfish.C124_several"
   ],
   "note": "complex types as in C86; documents with a target namespace"
  },
  {
   "property": "C125",
   "status": "proved",
   "theorems": [
    "Soapfish.C125_same",
    "Soapfish.C125_accept",
    "Soapfish.C125_accept_parse",
    "Soapfish.C125_accept_items",
    "Soapfish.C125_render",
    "Soapfish.C125_render_inside",
    "Soapfish.C125_methods",
    "Soapfish.C125_generated",
    "Soapfish.C125_create"
   ],
   "note": "C125_accept: elements whose default is not NIL; C125_generated: elements with a type of their own in complex types that are not derived; further names that the library looks up (_meta, _find_field, SCHEMA and others) are not treated"
  },
  {
   "property": "C126",
   "status": "proved",
   "theorems": [
    "Soapfish.C126_written",
    "Soapfish.C126_rejected",
    "Soapfish.C126_read"
   ],
   "note": "classes with a sequence whose groups use other names than their elements; C126_read: classes that are no Choice, elements directly in a group"
  },
  {
   "property": "C127",
   "status": "proved",
   "theorems": [
    "Soapfish.C127_fields",
    "Soapfish.C127_left_out",
    "Soapfish.C127_written",
    "Soapfish.C127_repeated"
   ],
   "note": "the base is in the same document, with layers as in C86; no element called create; C127_left_out and C127_written: elements that occur once"
  },
  {
   "property": "C128",
   "status": "proved",
   "theorems": [
    "Soapfish.C128_decimal_text",
    "Soapfish.C128_one_meaning"
   ],
   "note": "floats are modelled by their shortest decimal text; rounding beyond 15 digits and overflow to infinity are not modelled"
  },
  {
   "property": "C129",
   "status": "proved",
   "theorems": [
    "Soapfish.C129_digits",
    "Soapfish.C129_lost",
    "Soapfish.C129_exist",
    "Soapfish.C129_always"
   ],
   "note": "local documents as in C117; hashlib's digest is a parameter"
  },
  {
   "property": "C130",
   "status": "proved",
   "theorems": [
    "Soapfish.C130_base",
    "Soapfish.C130_builtin",
    "Soapfish.C130_circle",
    "Soapfish.C130_defined"
   ],
   "note": "documents whose classes have distinct names; a document on its own, without includes"
  },
  {
   "property": "C131",
   "status": "proved",
   "theorems": [
    "Soapfish.C131_element",
    "Soapfish.C131_type",
    "Soapfish.C131_lost"
   ],
   "note": "contents of named attributes and elements; a local document on its own, without includes"
  },
  {
   "property": "C132",
   "status": "proved",
   "theorems": [
    "Soapfish.C132_join",
    "Soapfish.C132_directory",
    "Soapfish.C132_asked",
    "Soapfish.C132_none"
   ],
   "note": "queries of characters that urljoin leaves alone (QueryText); the web is a parameter"
  },
  {
   "property": "C133",
   "status": "proved",
   "theorems": [
    "Soapfish.C133_written",
    "Soapfish.C133_rejected",
    "Soapfish.C133_ignored",
    "Soapfish.C133_shared"
   ],
   "note": "header classes of one schema, parts with elements of this schema itself; without use_wsa"
  },
  {
   "property": "C134",
   "status": "proved",
   "theorems": [
    "Soapfish.C134_same",
    "Soapfish.C134_code",
    "Soapfish.C134_union",
    "Soapfish.C134_empty"
   ],
   "note": "a document on its own, without includes; C134_empty for classes with distinct names"
  },
  {
   "property": "C135",
   "status": "proved",
   "theorems": [
    "Soapfish.C135_code",
    "Soapfish.C135_unread",
    "Soapfish.C135_documents"
   ],
   "note": "a description without imports; the SOAP version is given; C135_documents asks that both documents are read"
  },
  {
   "property": "C136",
   "status": "proved",
   "theorems": [
    "Soapfish.C136_versions",
    "Soapfish.C136_sent"
   ],
   "note": "the xpath expression of get_version_from_xml is modelled as children of children"
  },
  {
   "property": "C137",
   "status": "proved",
   "theorems": [
    "Soapfish.C137_dispatch",
    "Soapfish.C137_answer",
    "Soapfish.C137_call",
    "Soapfish.C137_action",
    "Soapfish.C137_fault11",
    "Soapfish.C137_fault12",
    "Soapfish.C137_reported"
   ],
   "note": "ordinary messages: at most a Header, then a Body with one child, not marked nil; the Header element is the same in both"
  },
  {
   "property": "C138",
   "status": "proved",
   "theorems": [
    "Soapfish.C138_once",
    "Soapfish.C138_calls",
    "Soapfish.C138_status",
    "Soapfish.C138_page",
    "Soapfish.C138_call"
   ],
   "note": "requests.post is a function given from outside; redirects and the like are part of it"
  }
 ]
}