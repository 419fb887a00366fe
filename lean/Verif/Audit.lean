import Verif.Props.Action
import Verif.Props.Adapters
import Verif.Props.Answer
import Verif.Props.Assigned
import Verif.Props.Calls
import Verif.Props.Choices
import Verif.Props.CodeExtension
import Verif.Props.CodeFields
import Verif.Props.CodeReads
import Verif.Props.CodeTypes
import Verif.Props.CodeValid
import Verif.Props.Collisions
import Verif.Props.Compare
import Verif.Props.Contract
import Verif.Props.DateObj
import Verif.Props.DateTimes
import Verif.Props.Dates
import Verif.Props.Depth
import Verif.Props.Derived
import Verif.Props.Described
import Verif.Props.Dispatch
import Verif.Props.Encoding
import Verif.Props.Endpoint
import Verif.Props.Envelopes
import Verif.Props.Exchange
import Verif.Props.Fetched
import Verif.Props.Files
import Verif.Props.FloatText
import Verif.Props.Generate
import Verif.Props.Groups
import Verif.Props.HeaderClasses
import Verif.Props.HeaderSchema
import Verif.Props.Headers
import Verif.Props.Heap
import Verif.Props.Hidden
import Verif.Props.History
import Verif.Props.Imports
import Verif.Props.Includes
import Verif.Props.Inline
import Verif.Props.Integers
import Verif.Props.Loaded
import Verif.Props.Main
import Verif.Props.Meta
import Verif.Props.Mixed
import Verif.Props.Names
import Verif.Props.Namespaces
import Verif.Props.Nil
import Verif.Props.Numbers
import Verif.Props.Numerals
import Verif.Props.Order
import Verif.Props.Overlooked
import Verif.Props.OverlookedWsdl
import Verif.Props.Paired
import Verif.Props.Parse
import Verif.Props.ParseTypes
import Verif.Props.Paths
import Verif.Props.Published
import Verif.Props.Recursion
import Verif.Props.References
import Verif.Props.Rely
import Verif.Props.Remote
import Verif.Props.Render
import Verif.Props.Reported
import Verif.Props.Restricted
import Verif.Props.Robust
import Verif.Props.RoundTrip
import Verif.Props.RoundTripCode
import Verif.Props.SameName
import Verif.Props.Schemas
import Verif.Props.Serve
import Verif.Props.Served
import Verif.Props.Service
import Verif.Props.Shown
import Verif.Props.Strings
import Verif.Props.Text
import Verif.Props.Threads
import Verif.Props.Twin
import Verif.Props.Unanswered
import Verif.Props.Unused
import Verif.Props.Validated
import Verif.Props.Whole
import Verif.Props.Wsa
import Verif.Props.Wsdl
import Verif.Props.WsdlFiles
import Verif.Props.WsdlText
/-
The axioms of every theorem listed in MANIFEST.json.
-/
#print axioms Soapfish.C01_integer_range
#print axioms Soapfish.C02_integer_roundtrip
#print axioms Soapfish.C03_integer_facets
#print axioms Soapfish.C03_base_facets
#print axioms Soapfish.C03_fixed_bound_ignored
#print axioms Soapfish.C04_integer_text
#print axioms Soapfish.C05_string_facets
#print axioms Soapfish.C05_normal_form_exists
#print axioms Soapfish.C05_non_string
#print axioms Soapfish.C06_accept_idempotent
#print axioms Soapfish.C07_whitespace
#print axioms Soapfish.C07_replace_length
#print axioms Soapfish.C07_collapse_chars
#print axioms Soapfish.C08_pattern_whole
#print axioms Soapfish.C08_pattern_exact
#print axioms Soapfish.C08_alternation_prefix
#print axioms Soapfish.C09_boolean_accept
#print axioms Soapfish.C09_boolean_roundtrip
#print axioms Soapfish.C09_boolean_text
#print axioms Soapfish.C09_boolean_render
#print axioms Soapfish.C09_boolean_int
#print axioms Soapfish.C10_date_roundtrip
#print axioms Soapfish.C11_date_text
#print axioms Soapfish.C12_early_years
#print axioms Soapfish.C13_offset_text
#print axioms Soapfish.C13_whole_minutes
#print axioms Soapfish.C13_injective
#print axioms Soapfish.C14_datetime_roundtrip
#print axioms Soapfish.C14_datetime_naive
#print axioms Soapfish.C14_datetime_micro
#print axioms Soapfish.C14_time_roundtrip
#print axioms Soapfish.C14_time_naive
#print axioms Soapfish.C15_decimal_facets
#print axioms Soapfish.C15_nan_passes_bounds
#print axioms Soapfish.C16_float_roundtrip
#print axioms Soapfish.C16_int_roundtrip
#print axioms Soapfish.C16_fraction_zero
#print axioms Soapfish.C17_maxOccurs_roundtrip
#print axioms Soapfish.C17_maxOccurs_text
#print axioms Soapfish.C21_occurrence_limits
#print axioms Soapfish.C21_violation_raises
#print axioms Soapfish.C22_required_attribute_missing
#print axioms Soapfish.C22_required_attribute_valueError
#print axioms Soapfish.C22_required_attribute_present
#print axioms Soapfish.C22_optional_attribute_omitted
#print axioms Soapfish.C23_children_in_declaration_order
#print axioms Soapfish.C23_order
#print axioms Soapfish.C24_assign
#print axioms Soapfish.C24_only_nil
#print axioms Soapfish.C24_append
#print axioms Soapfish.C24_list_assignment_unchecked
#print axioms Soapfish.C24_render
#print axioms Soapfish.C24_read
#print axioms Soapfish.C24_nil_name
#print axioms Soapfish.C26_qualification
#print axioms Soapfish.C27_namespaces
#print axioms Soapfish.C28_C29_irrelevant_changes
#print axioms Soapfish.C28_unknown_inserted
#print axioms Soapfish.C28_processing_instruction
#print axioms Soapfish.C29_last_occurrence
#print axioms Soapfish.C29_list_in_document_order
#print axioms Soapfish.C31_chosen_field
#print axioms Soapfish.C31_other_fields
#print axioms Soapfish.C32_missing_element
#print axioms Soapfish.C32_attribute
#print axioms Soapfish.C33_parsed_values_are_well_typed
#print axioms Soapfish.C25_roundtrip
#print axioms Soapfish.C25_strings
#print axioms Soapfish.C25_none_string
#print axioms Soapfish.C25_booleans
#print axioms Soapfish.C25_integers
#print axioms Soapfish.C25_dates
#print axioms Soapfish.C25_floats
#print axioms Soapfish.C25_empty_string
#print axioms Soapfish.C30_tagname_attribute_lost
#print axioms Soapfish.C30_other_attributes_kept
#print axioms Soapfish.C18_fields_accepted
#print axioms Soapfish.C18_accepted_unchanged
#print axioms Soapfish.C18_failing_assignment
#print axioms Soapfish.C18_assignment
#print axioms Soapfish.C18_constructor_frame
#print axioms Soapfish.C19_list_content
#print axioms Soapfish.C19_failing_append
#print axioms Soapfish.C20_names
#print axioms Soapfish.C20_undeclared_assignment
#print axioms Soapfish.C20_undeclared_argument
#print axioms Soapfish.C35_separate
#print axioms Soapfish.C35_fresh
#print axioms Soapfish.C35_group_lists_shared
#print axioms Soapfish.C34_equivalence
#print axioms Soapfish.C34_hash
#print axioms Soapfish.C34_strict_total_order
#print axioms Soapfish.C34_operators_agree
#print axioms Soapfish.C34_built_unequal
#print axioms Soapfish.C34_built_order
#print axioms Soapfish.C34_built_subclass
#print axioms Soapfish.C34_parsed_keeps_element
#print axioms Soapfish.C34_equal_documents
#print axioms Soapfish.C34_built_hash
#print axioms Soapfish.C36_all_fields
#print axioms Soapfish.C36_parts
#print axioms Soapfish.C36_names_distinct
#print axioms Soapfish.C36_subclass
#print axioms Soapfish.C36_alias
#print axioms Soapfish.C37_wsdl
#print axioms Soapfish.C37_xsd
#print axioms Soapfish.C37_soap
#print axioms Soapfish.C37_bad
#print axioms Soapfish.C37_no_call
#print axioms Soapfish.C38_C39_unique
#print axioms Soapfish.C38_C39_called
#print axioms Soapfish.C38_unknown
#print axioms Soapfish.C39_unknown
#print axioms Soapfish.C39_no_group
#print axioms Soapfish.C40_only_checked
#print axioms Soapfish.C41_pass_through
#print axioms Soapfish.C41_nesting
#print axioms Soapfish.C41_stop
#print axioms Soapfish.C42_fault
#print axioms Soapfish.C42_illegal
#print axioms Soapfish.C43_propagates
#print axioms Soapfish.C44_result
#print axioms Soapfish.C44_soap_error
#print axioms Soapfish.C44_other_error
#print axioms Soapfish.C44_logger
#print axioms Soapfish.C44_answer
#print axioms Soapfish.C45_soap
#print axioms Soapfish.C48_not_found
#print axioms Soapfish.C46_soap
#print axioms Soapfish.C46_wsdl
#print axioms Soapfish.C46_xsd
#print axioms Soapfish.C46_calls
#print axioms Soapfish.C46_no_xsd_response
#print axioms Soapfish.C46_names
#print axioms Soapfish.C47_served
#print axioms Soapfish.C47_unique
#print axioms Soapfish.C47_no_dollar
#print axioms Soapfish.C47_no_host
#print axioms Soapfish.C48_found
#print axioms Soapfish.C48_name
#print axioms Soapfish.C49_rejected
#print axioms Soapfish.C49_body
#print axioms Soapfish.C49_malformed
#print axioms Soapfish.C49_lax
#print axioms Soapfish.C50_read11
#print axioms Soapfish.C50_soap11
#print axioms Soapfish.C50_soap12
#print axioms Soapfish.C50_django
#print axioms Soapfish.C50_wsgi
#print axioms Soapfish.C50_no_variable
#print axioms Soapfish.C51_fault
#print axioms Soapfish.C52_client
#print axioms Soapfish.C52_class
#print axioms Soapfish.C52_request
#print axioms Soapfish.C52_answer
#print axioms Soapfish.C52_served
#print axioms Soapfish.C52_call
#print axioms Soapfish.C53_fault
#print axioms Soapfish.C53_method
#print axioms Soapfish.C54_namespace
#print axioms Soapfish.C55_lookup
#print axioms Soapfish.C55_lower_case
#print axioms Soapfish.C60_version
#print axioms Soapfish.C60_other
#print axioms Soapfish.C69_default
#print axioms Soapfish.C69_given
#print axioms Soapfish.C57_once
#print axioms Soapfish.C57_only
#print axioms Soapfish.C57_all
#print axioms Soapfish.C57_terminates
#print axioms Soapfish.C58_found
#print axioms Soapfish.C58_missing
#print axioms Soapfish.C58_list
#print axioms Soapfish.C58_acyclic
#print axioms Soapfish.C58_cyclic
#print axioms Soapfish.C59_method
#print axioms Soapfish.C59_no_method
#print axioms Soapfish.C59_route
#print axioms Soapfish.C71_decoded
#print axioms Soapfish.C71_served
#print axioms Soapfish.C56_length
#print axioms Soapfish.C56_none
#print axioms Soapfish.C56_beyond
#print axioms Soapfish.C56_invalid
#print axioms Soapfish.C56_negative
#print axioms Soapfish.C68_remove
#print axioms Soapfish.C68_uncapitalize
#print axioms Soapfish.C68_idempotent
#print axioms Soapfish.C68_keyword
#print axioms Soapfish.C68_clash
#print axioms Soapfish.C68_use
#print axioms Soapfish.C70_reply
#print axioms Soapfish.C70_first
#print axioms Soapfish.C70_no_action
#print axioms Soapfish.C70_class
#print axioms Soapfish.C70_written
#print axioms Soapfish.C72_wsgi
#print axioms Soapfish.C72_status
#print axioms Soapfish.C72_fault
#print axioms Soapfish.C72_bad
#print axioms Soapfish.C72_django
#print axioms Soapfish.C72_flask
#print axioms Soapfish.C72_headers
#print axioms Soapfish.C73_prefixed
#print axioms Soapfish.C73_unprefixed
#print axioms Soapfish.C73_colons
#print axioms Soapfish.C73_sources
#print axioms Soapfish.C73_ambiguous
#print axioms Soapfish.C66_permutation
#print axioms Soapfish.C66_ordered
#print axioms Soapfish.C66_leaves
#print axioms Soapfish.C66_chain
#print axioms Soapfish.C67_url
#print axioms Soapfish.C67_file
#print axioms Soapfish.C67_same
#print axioms Soapfish.C74_kept
#print axioms Soapfish.C74_rewrite
#print axioms Soapfish.C74_same
#print axioms Soapfish.C75_merged
#print axioms Soapfish.C75_sound
#print axioms Soapfish.C76_sibling
#print axioms Soapfish.C76_cycle
#print axioms Soapfish.C77_bases_first
#print axioms Soapfish.C77_prefixed
#print axioms Soapfish.C77_grandchild
#print axioms Soapfish.C77_missing
#print axioms Soapfish.C77_neither
#print axioms Soapfish.C77_neither_later
#print axioms Soapfish.C78_includes
#print axioms Soapfish.C78_root_twice
#print axioms Soapfish.C62_follows
#print axioms Soapfish.C62_document
#print axioms Soapfish.C62_unbounded_list
#print axioms Soapfish.C63_builtin
#print axioms Soapfish.C63_user
#print axioms Soapfish.C64_in_place
#print axioms Soapfish.C65_attributes
#print axioms Soapfish.C79_document
#print axioms Soapfish.C79_exceptions
#print axioms Soapfish.C79_namespace
#print axioms Soapfish.C80_resolves
#print axioms Soapfish.C80_foreign_dangles
#print axioms Soapfish.C61_resolves
#print axioms Soapfish.C61_lookup
#print axioms Soapfish.Ex.C61_duplicates
#print axioms Soapfish.Ex.C61_colon
#print axioms Soapfish.C81_document
#print axioms Soapfish.C81_exceptions
#print axioms Soapfish.C82_schema
#print axioms Soapfish.C82_service
#print axioms Soapfish.C83_misplaced
#print axioms Soapfish.C83_elsewhere
#print axioms Soapfish.C85_roundtrip
#print axioms Soapfish.C85_names
#print axioms Soapfish.C84_text
#print axioms Soapfish.C84_ignored
#print axioms Soapfish.C84_integer
#print axioms Soapfish.C84_decimal
#print axioms Soapfish.C84_in_place_text
#print axioms Soapfish.C84_in_place_integer
#print axioms Soapfish.C84_in_place_enumeration
#print axioms Soapfish.C86_named
#print axioms Soapfish.C86_fields
#print axioms Soapfish.C86_split
#print axioms Soapfish.C86_class
#print axioms Soapfish.C86_create_params
#print axioms Soapfish.C86_create
#print axioms Soapfish.C86_create_never
#print axioms Soapfish.C86_instances
#print axioms Soapfish.C87_valid
#print axioms Soapfish.C87_document
#print axioms Soapfish.Ex.C87_missing_element
#print axioms Soapfish.Ex.C87_missing_items
#print axioms Soapfish.C88_reads
#print axioms Soapfish.Ex.C88_empty_text
#print axioms Soapfish.Ex.C88_keyword_attribute
#print axioms Soapfish.C89_extends
#print axioms Soapfish.C89_assign
#print axioms Soapfish.C89_written
#print axioms Soapfish.C89_sliced
#print axioms Soapfish.Ex.C89_not_valid
#print axioms Soapfish.C90_location
#print axioms Soapfish.C90_exact
#print axioms Soapfish.C90_addresses
#print axioms Soapfish.C90_relative
#print axioms Soapfish.C90_templated
#print axioms Soapfish.Ex.C90_dollar
#print axioms Soapfish.C91_roundtrip
#print axioms Soapfish.C91_methods
#print axioms Soapfish.C91_stub
#print axioms Soapfish.C92_services
#print axioms Soapfish.C92_schemas
#print axioms Soapfish.C92_headers
#print axioms Soapfish.C93_documents
#print axioms Soapfish.C93_all
#print axioms Soapfish.C93_links
#print axioms Soapfish.C93_follow
#print axioms Soapfish.C93_plus
#print axioms Soapfish.C93_missing
#print axioms Soapfish.C93_makeable
#print axioms Soapfish.C94_services
#print axioms Soapfish.C94_calls
#print axioms Soapfish.C94_call
#print axioms Soapfish.C95_answered
#print axioms Soapfish.C95_shielded
#print axioms Soapfish.C95_empty
#print axioms Soapfish.C95_comment
#print axioms Soapfish.C95_header_comment
#print axioms Soapfish.C95_nil_header
#print axioms Soapfish.C95_nil_body
#print axioms Soapfish.C95_instruction
#print axioms Soapfish.C96_never
#print axioms Soapfish.C96_recursion
#print axioms Soapfish.C96_loop
#print axioms Soapfish.C96_exactly
#print axioms Soapfish.C96_import
#print axioms Soapfish.C97_sound
#print axioms Soapfish.C97_exact
#print axioms Soapfish.C97_types
#print axioms Soapfish.C97_conflict
#print axioms Soapfish.C97_inner
#print axioms Soapfish.C98_again
#print axioms Soapfish.C98_parse
#print axioms Soapfish.C98_parse_error
#print axioms Soapfish.C98_new
#print axioms Soapfish.C98_shared
#print axioms Soapfish.C99_required
#print axioms Soapfish.C99_unchecked
#print axioms Soapfish.C100_alone
#print axioms Soapfish.C100_done
#print axioms Soapfish.C101_reads
#print axioms Soapfish.C101_toPy
#print axioms Soapfish.C101_injection
#print axioms Soapfish.C102_reads
#print axioms Soapfish.C102_injection
#print axioms Soapfish.C103_write
#print axioms Soapfish.C103_counterpart
#print axioms Soapfish.C103_read
#print axioms Soapfish.C103_call
#print axioms Soapfish.C104_classes
#print axioms Soapfish.C104_documents
#print axioms Soapfish.Ex.C104_zero
#print axioms Soapfish.C105_call
#print axioms Soapfish.C105_client
#print axioms Soapfish.C106_defined
#print axioms Soapfish.C106_fields
#print axioms Soapfish.C106_attributeGroup
#print axioms Soapfish.C106_group
#print axioms Soapfish.C106_list
#print axioms Soapfish.C107_written
#print axioms Soapfish.C107_read
#print axioms Soapfish.ExPub.C107_open
#print axioms Soapfish.C108_request
#print axioms Soapfish.C108_call
#print axioms Soapfish.C109_written
#print axioms Soapfish.C109_back
#print axioms Soapfish.C109_read
#print axioms Soapfish.C109_refused
#print axioms Soapfish.C109_same
#print axioms Soapfish.C109_program
#print axioms Soapfish.C110_written
#print axioms Soapfish.C110_back
#print axioms Soapfish.C110_refused
#print axioms Soapfish.C110_list
#print axioms Soapfish.C110_names
#print axioms Soapfish.C111_served
#print axioms Soapfish.C111_call
#print axioms Soapfish.C111_partners
#print axioms Soapfish.C112_named
#print axioms Soapfish.C112_nameless
#print axioms Soapfish.C112_classes
#print axioms Soapfish.C112_early
#print axioms Soapfish.C112_schemaless
#print axioms Soapfish.C113_dates
#print axioms Soapfish.C113_order
#print axioms Soapfish.C113_plain
#print axioms Soapfish.C113_datetimes
#print axioms Soapfish.C113_others
#print axioms Soapfish.C113_field
#print axioms Soapfish.C113_read
#print axioms Soapfish.C114_contract
#print axioms Soapfish.C115_new
#print axioms Soapfish.C115_construct
#print axioms Soapfish.C115_read
#print axioms Soapfish.C115_write
#print axioms Soapfish.C116_text
#print axioms Soapfish.C116_element
#print axioms Soapfish.C116_lost
#print axioms Soapfish.C116_attribute
#print axioms Soapfish.C117_code
#print axioms Soapfish.C117_refused
#print axioms Soapfish.C117_order
#print axioms Soapfish.C117_circle
#print axioms Soapfish.C117_found
#print axioms Soapfish.C117_schemas
#print axioms Soapfish.C117_single
#print axioms Soapfish.C118_written
#print axioms Soapfish.C118_emptied
#print axioms Soapfish.C118_refused
#print axioms Soapfish.C118_same
#print axioms Soapfish.C118_module
#print axioms Soapfish.C118_chain
#print axioms Soapfish.C119_loaded
#print axioms Soapfish.C119_found
#print axioms Soapfish.C119_sorted
#print axioms Soapfish.C119_leaves
#print axioms Soapfish.C119_chain
#print axioms Soapfish.C119_circle
#print axioms Soapfish.C120_code
#print axioms Soapfish.C120_copies
#print axioms Soapfish.C120_found
#print axioms Soapfish.C120_loaded
#print axioms Soapfish.C120_outside
#print axioms Soapfish.C121_reads
#print axioms Soapfish.C121_reads_special
#print axioms Soapfish.C121_double
#print axioms Soapfish.C121_decimal
#print axioms Soapfish.C121_int_bool
#print axioms Soapfish.C121_decimal_object
#print axioms Soapfish.C122_server
#print axioms Soapfish.C122_join
#print axioms Soapfish.C122_only
#print axioms Soapfish.C122_all
#print axioms Soapfish.C122_wrong
#print axioms Soapfish.C122_right
#print axioms Soapfish.C122_directory
#print axioms Soapfish.C122_local
#print axioms Soapfish.C123_stored
#print axioms Soapfish.C123_append
#print axioms Soapfish.C123_characters
#print axioms Soapfish.C123_not_iterable
#print axioms Soapfish.C123_unreadable
#print axioms Soapfish.C123_numbers
#print axioms Soapfish.C123_words
#print axioms Soapfish.C124_unread
#print axioms Soapfish.C124_lost
#print axioms Soapfish.C124_several
#print axioms Soapfish.C125_same
#print axioms Soapfish.C125_accept
#print axioms Soapfish.C125_accept_parse
#print axioms Soapfish.C125_accept_items
#print axioms Soapfish.C125_render
#print axioms Soapfish.C125_render_inside
#print axioms Soapfish.C125_methods
#print axioms Soapfish.C125_generated
#print axioms Soapfish.C125_create
#print axioms Soapfish.C126_written
#print axioms Soapfish.C126_rejected
#print axioms Soapfish.C126_read
#print axioms Soapfish.C127_fields
#print axioms Soapfish.C127_left_out
#print axioms Soapfish.C127_written
#print axioms Soapfish.C127_repeated
#print axioms Soapfish.C128_decimal_text
#print axioms Soapfish.C128_one_meaning
#print axioms Soapfish.C129_digits
#print axioms Soapfish.C129_lost
#print axioms Soapfish.C129_exist
#print axioms Soapfish.C129_always
#print axioms Soapfish.C130_base
#print axioms Soapfish.C130_builtin
#print axioms Soapfish.C130_circle
#print axioms Soapfish.C130_defined
#print axioms Soapfish.C131_element
#print axioms Soapfish.C131_type
#print axioms Soapfish.C131_lost
#print axioms Soapfish.C132_join
#print axioms Soapfish.C132_directory
#print axioms Soapfish.C132_asked
#print axioms Soapfish.C132_none
#print axioms Soapfish.C133_written
#print axioms Soapfish.C133_rejected
#print axioms Soapfish.C133_ignored
#print axioms Soapfish.C133_shared
#print axioms Soapfish.C134_same
#print axioms Soapfish.C134_code
#print axioms Soapfish.C134_union
#print axioms Soapfish.C134_empty
#print axioms Soapfish.C135_code
#print axioms Soapfish.C135_unread
#print axioms Soapfish.C135_documents
#print axioms Soapfish.C136_versions
#print axioms Soapfish.C136_sent
#print axioms Soapfish.C137_dispatch
#print axioms Soapfish.C137_answer
#print axioms Soapfish.C137_call
#print axioms Soapfish.C137_action
#print axioms Soapfish.C137_fault11
#print axioms Soapfish.C137_fault12
#print axioms Soapfish.C137_reported
#print axioms Soapfish.C138_once
#print axioms Soapfish.C138_calls
#print axioms Soapfish.C138_status
#print axioms Soapfish.C138_page
#print axioms Soapfish.C138_call
