axioms: Classical.choice, Quot.sound, propext
  C01_call_appends
  C01_notes_only_grow
  C01_positions_kept
  C02_add_variables
  C02_child_variables
  C02_message_type_bound
  C04_detail_source
  C04_backtick_count
  C06_variables_bound_partial
  C06_every_note_can_be_rendered_partial
  C06_content_not_allowed_cannot
  C06_long_lifetime_cannot
  C07_witnesses
  C07_calls_return_partial
  C08_headers
  C08_trailers
  C09_size
  C09_section
  C09_field
  C10_name
  C10_value
  C11_alone
  C11_accepted_partial
  C11_refers
  C11_offsets_partial
  C11_violated
  C12_case_insensitive
  C12_same_outcome
  C12_keys
  C12_same_handler
  C13_value_partial
  C13_counterexample
  C13_notes_request
  C13_notes_response
  C14_value
  C14_notes
  C15_entry
  C15_notes
  C15_notes_only
  C16_notes
  C17_value
  C17_repeat
  C18_joined
  C18_value
  C18_vary
  C18_division
  C19_segments
  C19_elements
  C19_lines
  C20_inGrammar
  C20_startsInGrammar
  C20_syntax_notes
  C21_pinpoint
  C22_checks
  C22_sf_value
  C22_json_value
  C22_sf_error
  C22_json_error
  C23_unknown
  C23_known
  C24_length_and_hash
  C24_chunking_irrelevant
  C25_sample
  C26_content_length_verdict
  C26_unparsed_is_incorrect
  C26_no_verdict
  C27_content_not_allowed
  C27_only_then
  C28_gzip_header_chunking
  C29_gzip_header_bad
  C29_gzip_header_incomplete
  C30_decompression_bounded
  C33_never_stored
  C33_facts
  C34_private_not_shared
  C35_flags
  C35_flags_agree_partial
  C35_unstorable_flags_stay_on
  C35_shared_only_flag_stays_on
  C36_age
  C37_lifetimes
  C38_one_freshness_verdict
  C39_stale_verdict
  C40_only_what_it_owns
  C41_nonstandard
  C41_status_variable
  C42_report
  C42_unexpected_continue
  C42_upgrade_not_requested
  C42_created_safe_method
  C42_created_without_location
  C42_partial_not_requested
  C42_partial_without_range
  C42_redirect_without_location
  C42_no_date_304
  C42_header_should_not_be_in_304
  C42_method_in_allow
  C42_method_not_allowed
  C42_not_acceptable
  C42_precondition_failed
  C42_416_without_range
  C42_expectation_failed
  C42_plain_notes
  C42_allow_list
  C43_line
  C44_request_report
  C44_response_report
  C44_preflight_request
  C44_preflight_response
  C44_preflight_only_names
  C45_report
  C45_verdict
  C45_no_origin
  C45_origin_text
  C46_charset_verdict_partial
  C46_at_most_one
  C46_no_type
  C46_199_is_checked
  C46_content_type
  C47_mismatch
  C47_no_type
  C48_status_line
  C48_request_line
  C50_total
  C50_params
  C50_plain
  C51_media_type
  C51_bad_iff
  C52_bad_syntax
  C52_date
  C52_timegm
  C52_next_day
  C52_notes
  C52_recorded
  C54_content_length_partial
  C54_digits
  C54_counterexample
  C55_age_partial
  C55_counterexample
  C56_value
  C56_element_notes
  C56_value_notes
  C56_pre_post
  C56_report
  C57_report
  C57_vary_notes
  C57_vary_value
  C58_verdict
  C58_value
  C59_cookies
  C59_no_name
  C60_report
  C60_line_notes
  C60_repeated
  C60_unrecognised
  C60_bad_date
  C60_too_long
  C60_cookie_repeated
  C60_hardened
  C61_secure
  C61_domain
  C61_path_partial
  C61_path_fails
  C62_accepts_partial
  C62_usual_form
  C62_year_first_counterexample
  C62_february_counterexample
  C63_content_range_accepted
  C63_content_range_rejected
  C63_range
  C63_content_range
  C63_range_report
  C63_content_range_report
  C63_range_accepted
  C63_range_rejected
  C64_nosniff_partial
  C64_frame_options_partial
  C64_counterexample
  C66_output
  C68_default_partial
  C68_violated
  C69_accepted_partial
  C69_fails
  C70_empty_path_fails
  C70_fails
  C71_token
  C71_quoted_string
  C72_request_body
  C72_response_body
  C73_prints_findings
  C74_referrer_policy
  C75_embedder_policy
  C75_opener_policy
  C75_resource_policy
  C76_clear_site_data
  C77_csp
  C78_expect
  C78_via
  C78_pragma
  C78_max_forwards
  C78_content_language
  C78_server
  C78_accept_ranges
  C79_location
  C80_transfer_encoding
  C80_transfer_encoding_response
  C81_backslash_fails
  C81_space_fails
  C81_disposition_partial
  C82_accept
  C82_accept_language
  C82_weight
  C82_precision_fails
  C83_accept_patch
  C83_accept_post
  C84_server_timing
  C85_alt_svc
  C86_link
  C87_content_encoding
  C87_unknown_request
  C87_content_encoding_response
  C88_reporting_endpoints
  C88_speculation_rules
  C89_type_fails
  C89_accept_ch
  C89_cache_groups
  C89_cache_group_invalidation
  C89_available_dictionary
  C89_use_as_dictionary
  C89_cdn_cache_control
  C90_sunset
  C90_deprecation
  C91_last_modified_partial
  C91_date_partial
  C91_order_of_age_matters
  C91_order_of_date_matters
  C92_origin
  C92_origin_value
  C92_max_age
  C92_max_age_value
  C93_same_origin_fails
  C93_referer
  C94_order_matters
  C94_both_partial
  C95_cache_status
  C95_proxy_status
  C96_permissions_policy
  C97_nel
  C97_report_to
  C98_accept_query
  C99_request_end
  C100_embedder_endpoint
  C100_opener_endpoint
  C101_accept_ch
  C102_available_dictionary
  C102_content_encoding
  C103_nel
  C104_csp_endpoints
  C104_whole_response
  C105_caching_report
  C106_codings_partial
  C106_decoder_reports_errors_partial
  C106_message_reports_errors_partial
  C106_length_fails
  C107_named
  C107_unnecessary
  C108_one_reading
  C108_display
  C108_bounded
  C108_printable
  C108_text
  C109_one_reading
  C109_iri
  C109_uri_partial
  C109_hopeless
  C109_allowed
  C109_unchanged
  C109_idempotent
  C109_authority_fails
  C110_description
  C110_none
  C110_any_case
  C111_at_end
  C111_whole
  C111_context
  C111_message_type
  C112_lines_and_syntax
  C113_status_line
  C113_request_line
  C113_length
  C113_content_type
  C113_charset
  C113_response_order
  C113_request_order
  C114_parse_error_stays_in_code
  C114_bad_syntax_shows_one_character
  C114_status_is_exposed
  C114_missing_fields_are_exposed
  C114_unclosed_span
  C114_wire_data_stays_in_code_partial
  C115_params
  C115_written
  C116_media_names
  C116_content_type
  C117_summary
  C117_detail
  C117_clock
  C117_last_modified
  C117_caching
  C118_lists
  C118_texts
  C118_lowered
  C118_etag
  C118_frame_options
  C118_credentials
  C118_alt_svc
  C118_keep_alive
  C118_clear_site_data
  C118_csp
  C118_location
  C118_unread
  C119_params
  C119_pairs
  C119_disposition
  C119_accept
  C119_accept_language
  C119_weights
  C119_accept_query
  C120_uncoded
  C120_coded
  C120_decoded
  C121_threads
  C121_table
  C121_ends
  C122_order
  C122_request
  C122_added
  C122_head_needed
  C123_grammar
  C123_in_grammar
  C123_wider_strictly
  C123_notes
  C124_grammar
  C124_reported
  C124_refused
  C125_returns
  C125_returns_dropped
  C125_alone
  C125_dropped
  C126_lines
  C126_same
  C126_complete
  C126_returns
  C127_returns
  C127_order
  C127_swap
  C128_order_partial
  C128_sub_notes
  C128_whole_partial
  C128_whole_sub_notes
  C128_order_fails
axioms: Quot.sound, propext
  C03_category
  C05_lines
  C05_backticks
  C16_table
  C19_stripped
  C23_case_insensitive
  C23_canonical
  C23_aliases_partial
  C23_aliases_violated
  C29_gzip_header_ok
  C31_failed_decoder_silent
  C32_pipeline_stages
  C32_known_codings
  C32_decoded_content
  C43_other
  C43_pieces
  C49_roundtrip
  C51_bad_syntax
  C53_by1024
  C59_empty_not_recorded
  C59_no_equals
  C60_path
  C64_any_case
  C67_request
  C67_request_bad
  C67_response
  C67_response_bad
  C70_accepted_partial
  C114_syntax_problem_form
  C123_wider
  C123_narrower
  C124_only_uris
  C124_plain_uris
axioms: none
  C49_unquoted
  C53_plain
  C65_restored
  C65_scope
  C86_semicolon
axioms: propext
  C03_mkNote
  C13_broken_classes
  C22_sf_kept
  C32_last_coding_first
  C43_append
  C49_unquote
  C52_epoch
  C63_content_range_unnoted
  C63_range_unnoted
  C69_difference
  C70_differences
  C123_lists
  C123_same
