{
 "claims": [
  {
   "property": "C01",
   "status": "proved",
   "theorems": [
    "HL.Props.C01_call_appends",
    "HL.Props.C01_notes_only_grow",
    "HL.Props.C01_positions_kept"
   ],
   "note": ""
  },
  {
   "property": "C02",
   "status": "proved",
   "theorems": [
    "HL.Props.C02_add_variables",
    "HL.Props.C02_child_variables",
    "HL.Props.C02_message_type_bound"
   ],
   "note": ""
  },
  {
   "property": "C03",
   "status": "proved",
   "theorems": [
    "HL.Props.C03_category",
    "HL.Props.C03_mkNote"
   ],
   "note": ""
  },
  {
   "property": "C04",
   "status": "proved",
   "theorems": [
    "HL.Props.C04_detail_source",
    "HL.Props.C04_backtick_count"
   ],
   "note": ""
  },
  {
   "property": "C05",
   "status": "proved",
   "theorems": [
    "HL.Props.C05_lines",
    "HL.Props.C05_backticks"
   ],
   "note": ""
  },
  {
   "property": "C06",
   "status": "partial",
   "theorems": [
    "HL.Props.C06_variables_bound_partial",
    "HL.Props.C06_every_note_can_be_rendered_partial",
    "HL.Props.C06_content_not_allowed_cannot",
    "HL.Props.C06_long_lifetime_cannot"
   ],
   "note": "Every note binds the variables of its templates, except CONTENT_NOT_ALLOWED, for which the property is false of the code (C06_content_not_allowed_cannot): its summary uses %(message)s, which is never bound. It is also false of times and durations over 999999999 days (C06_long_lifetime_cannot, F71: RelativeTime.__str__ raises OverflowError), which the theorem excludes."
  },
  {
   "property": "C07",
   "status": "partial",
   "theorems": [
    "HL.Props.C07_witnesses",
    "HL.Props.C07_calls_return_partial"
   ],
   "note": "False of the code as stated: C07_witnesses gives eight raising sequences. Proved: every sequence of calls on a new linter returns, whatever the bytes, the chunking and the related request, under OrdinaryCalls (header and trailer lines given at most once; no padded field names; none of six fields whose evaluators let library exceptions out; a usable charset; Age readable if both times are known) and Contract (which exceptions the libraries raise)."
  },
  {
   "property": "C08",
   "status": "proved",
   "theorems": [
    "HL.Props.C08_headers",
    "HL.Props.C08_trailers"
   ],
   "note": ""
  },
  {
   "property": "C09",
   "status": "proved",
   "theorems": [
    "HL.Props.C09_size",
    "HL.Props.C09_section",
    "HL.Props.C09_field"
   ],
   "note": ""
  },
  {
   "property": "C10",
   "status": "proved",
   "theorems": [
    "HL.Props.C10_name",
    "HL.Props.C10_value"
   ],
   "note": ""
  },
  {
   "property": "C11",
   "status": "partial",
   "theorems": [
    "HL.Props.C11_alone",
    "HL.Props.C11_accepted_partial",
    "HL.Props.C11_refers",
    "HL.Props.C11_offsets_partial",
    "HL.Props.C11_violated"
   ],
   "note": "False of the code when a line is rejected before it (C11_violated: the counter is not advanced). Proved in full: what the number is (C11_alone: the notes of every class about offset-k are those that the lines with k accepted lines before them get when processed alone; C11_refers: every offset number belongs to a line), hence the property itself when every line is accepted (C11_accepted_partial, C11_offsets_partial)."
  },
  {
   "property": "C12",
   "status": "proved",
   "theorems": [
    "HL.Props.C12_case_insensitive",
    "HL.Props.C12_same_outcome",
    "HL.Props.C12_keys",
    "HL.Props.C12_same_handler"
   ],
   "note": ""
  },
  {
   "property": "C13",
   "status": "partial",
   "theorems": [
    "HL.Props.C13_value_partial",
    "HL.Props.C13_broken_classes",
    "HL.Props.C13_counterexample",
    "HL.Props.C13_notes_request",
    "HL.Props.C13_notes_response"
   ],
   "note": "The notes are proved in full. 'parsed maps to None' is false for Set-Cookie in a request and Cookie in a response (C13_counterexample); proved for all other fields."
  },
  {
   "property": "C14",
   "status": "proved",
   "theorems": [
    "HL.Props.C14_value",
    "HL.Props.C14_notes"
   ],
   "note": ""
  },
  {
   "property": "C15",
   "status": "proved",
   "theorems": [
    "HL.Props.C15_entry",
    "HL.Props.C15_notes",
    "HL.Props.C15_notes_only"
   ],
   "note": ""
  },
  {
   "property": "C16",
   "status": "proved",
   "theorems": [
    "HL.Props.C16_notes",
    "HL.Props.C16_table"
   ],
   "note": ""
  },
  {
   "property": "C17",
   "status": "proved",
   "theorems": [
    "HL.Props.C17_value",
    "HL.Props.C17_repeat"
   ],
   "note": ""
  },
  {
   "property": "C18",
   "status": "proved",
   "theorems": [
    "HL.Props.C18_joined",
    "HL.Props.C18_value",
    "HL.Props.C18_vary",
    "HL.Props.C18_division"
   ],
   "note": ""
  },
  {
   "property": "C19",
   "status": "proved",
   "theorems": [
    "HL.Props.C19_segments",
    "HL.Props.C19_elements",
    "HL.Props.C19_lines",
    "HL.Props.C19_stripped"
   ],
   "note": ""
  },
  {
   "property": "C20",
   "status": "proved",
   "theorems": [
    "HL.Props.C20_inGrammar",
    "HL.Props.C20_startsInGrammar",
    "HL.Props.C20_syntax_notes"
   ],
   "note": ""
  },
  {
   "property": "C21",
   "status": "proved",
   "theorems": [
    "HL.Props.C21_pinpoint"
   ],
   "note": ""
  },
  {
   "property": "C22",
   "status": "proved",
   "theorems": [
    "HL.Props.C22_checks",
    "HL.Props.C22_sf_value",
    "HL.Props.C22_sf_kept",
    "HL.Props.C22_json_value",
    "HL.Props.C22_sf_error",
    "HL.Props.C22_json_error"
   ],
   "note": ""
  },
  {
   "property": "C23",
   "status": "partial",
   "theorems": [
    "HL.Props.C23_case_insensitive",
    "HL.Props.C23_canonical",
    "HL.Props.C23_unknown",
    "HL.Props.C23_known",
    "HL.Props.C23_aliases_partial",
    "HL.Props.C23_aliases_violated"
   ],
   "note": "Case-insensitivity, known and unknown names proved in full. 'Every alias resolves' is false of the code (C23_aliases_violated: aliases with hyphens or a leading underscore are never found); proved for the aliases without hyphens and leading underscore whose target has a parser module."
  },
  {
   "property": "C24",
   "status": "proved",
   "theorems": [
    "HL.Props.C24_length_and_hash",
    "HL.Props.C24_chunking_irrelevant"
   ],
   "note": ""
  },
  {
   "property": "C25",
   "status": "proved",
   "theorems": [
    "HL.Props.C25_sample"
   ],
   "note": ""
  },
  {
   "property": "C26",
   "status": "proved",
   "theorems": [
    "HL.Props.C26_content_length_verdict",
    "HL.Props.C26_unparsed_is_incorrect",
    "HL.Props.C26_no_verdict"
   ],
   "note": ""
  },
  {
   "property": "C27",
   "status": "proved",
   "theorems": [
    "HL.Props.C27_content_not_allowed",
    "HL.Props.C27_only_then"
   ],
   "note": ""
  },
  {
   "property": "C28",
   "status": "proved",
   "theorems": [
    "HL.Props.C28_gzip_header_chunking"
   ],
   "note": ""
  },
  {
   "property": "C29",
   "status": "proved",
   "theorems": [
    "HL.Props.C29_gzip_header_ok",
    "HL.Props.C29_gzip_header_bad",
    "HL.Props.C29_gzip_header_incomplete"
   ],
   "note": ""
  },
  {
   "property": "C30",
   "status": "proved",
   "theorems": [
    "HL.Props.C30_decompression_bounded"
   ],
   "note": ""
  },
  {
   "property": "C31",
   "status": "proved",
   "theorems": [
    "HL.Props.C31_failed_decoder_silent"
   ],
   "note": ""
  },
  {
   "property": "C32",
   "status": "proved",
   "theorems": [
    "HL.Props.C32_pipeline_stages",
    "HL.Props.C32_last_coding_first",
    "HL.Props.C32_known_codings",
    "HL.Props.C32_decoded_content"
   ],
   "note": ""
  },
  {
   "property": "C33",
   "status": "proved",
   "theorems": [
    "HL.Props.C33_never_stored",
    "HL.Props.C33_facts"
   ],
   "note": ""
  },
  {
   "property": "C34",
   "status": "proved",
   "theorems": [
    "HL.Props.C34_private_not_shared"
   ],
   "note": ""
  },
  {
   "property": "C35",
   "status": "partial",
   "theorems": [
    "HL.Props.C35_flags",
    "HL.Props.C35_flags_agree_partial",
    "HL.Props.C35_unstorable_flags_stay_on",
    "HL.Props.C35_shared_only_flag_stays_on"
   ],
   "note": "False of the code (C35_unstorable_flags_stay_on, C35_shared_only_flag_stays_on). Proved: exactly when the flags are on (C35_flags), and agreement in all other cases."
  },
  {
   "property": "C36",
   "status": "proved",
   "theorems": [
    "HL.Props.C36_age"
   ],
   "note": ""
  },
  {
   "property": "C37",
   "status": "proved",
   "theorems": [
    "HL.Props.C37_lifetimes"
   ],
   "note": ""
  },
  {
   "property": "C38",
   "status": "proved",
   "theorems": [
    "HL.Props.C38_one_freshness_verdict"
   ],
   "note": ""
  },
  {
   "property": "C39",
   "status": "proved",
   "theorems": [
    "HL.Props.C39_stale_verdict"
   ],
   "note": ""
  },
  {
   "property": "C40",
   "status": "proved",
   "theorems": [
    "HL.Props.C40_only_what_it_owns"
   ],
   "note": ""
  },
  {
   "property": "C41",
   "status": "proved",
   "theorems": [
    "HL.Props.C41_nonstandard",
    "HL.Props.C41_status_variable"
   ],
   "note": ""
  },
  {
   "property": "C42",
   "status": "proved",
   "theorems": [
    "HL.Props.C42_report",
    "HL.Props.C42_unexpected_continue",
    "HL.Props.C42_upgrade_not_requested",
    "HL.Props.C42_created_safe_method",
    "HL.Props.C42_created_without_location",
    "HL.Props.C42_partial_not_requested",
    "HL.Props.C42_partial_without_range",
    "HL.Props.C42_redirect_without_location",
    "HL.Props.C42_no_date_304",
    "HL.Props.C42_header_should_not_be_in_304",
    "HL.Props.C42_method_in_allow",
    "HL.Props.C42_method_not_allowed",
    "HL.Props.C42_not_acceptable",
    "HL.Props.C42_precondition_failed",
    "HL.Props.C42_416_without_range",
    "HL.Props.C42_expectation_failed",
    "HL.Props.C42_plain_notes",
    "HL.Props.C42_allow_list"
   ],
   "note": ""
  },
  {
   "property": "C43",
   "status": "proved",
   "theorems": [
    "HL.Props.C43_append",
    "HL.Props.C43_other",
    "HL.Props.C43_line",
    "HL.Props.C43_pieces"
   ],
   "note": ""
  },
  {
   "property": "C44",
   "status": "proved",
   "theorems": [
    "HL.Props.C44_request_report",
    "HL.Props.C44_response_report",
    "HL.Props.C44_preflight_request",
    "HL.Props.C44_preflight_response",
    "HL.Props.C44_preflight_only_names"
   ],
   "note": ""
  },
  {
   "property": "C45",
   "status": "proved",
   "theorems": [
    "HL.Props.C45_report",
    "HL.Props.C45_verdict",
    "HL.Props.C45_no_origin",
    "HL.Props.C45_origin_text"
   ],
   "note": ""
  },
  {
   "property": "C46",
   "status": "partial",
   "theorems": [
    "HL.Props.C46_charset_verdict_partial",
    "HL.Props.C46_at_most_one",
    "HL.Props.C46_no_type",
    "HL.Props.C46_199_is_checked",
    "HL.Props.C46_content_type"
   ],
   "note": "False of the code for status 199 (C46_199_is_checked: range(100, 199)). Proved: the exact verdict in all cases, at most one note, none without a type."
  },
  {
   "property": "C47",
   "status": "proved",
   "theorems": [
    "HL.Props.C47_mismatch",
    "HL.Props.C47_no_type"
   ],
   "note": ""
  },
  {
   "property": "C48",
   "status": "proved",
   "theorems": [
    "HL.Props.C48_status_line",
    "HL.Props.C48_request_line"
   ],
   "note": ""
  },
  {
   "property": "C49",
   "status": "proved",
   "theorems": [
    "HL.Props.C49_unquote",
    "HL.Props.C49_roundtrip",
    "HL.Props.C49_unquoted"
   ],
   "note": ""
  },
  {
   "property": "C50",
   "status": "proved",
   "theorems": [
    "HL.Props.C50_total",
    "HL.Props.C50_params",
    "HL.Props.C50_plain"
   ],
   "note": ""
  },
  {
   "property": "C51",
   "status": "proved",
   "theorems": [
    "HL.Props.C51_bad_syntax",
    "HL.Props.C51_media_type",
    "HL.Props.C51_bad_iff"
   ],
   "note": ""
  },
  {
   "property": "C52",
   "status": "proved",
   "theorems": [
    "HL.Props.C52_bad_syntax",
    "HL.Props.C52_date",
    "HL.Props.C52_timegm",
    "HL.Props.C52_epoch",
    "HL.Props.C52_next_day",
    "HL.Props.C52_notes",
    "HL.Props.C52_recorded"
   ],
   "note": ""
  },
  {
   "property": "C53",
   "status": "proved",
   "theorems": [
    "HL.Props.C53_by1024",
    "HL.Props.C53_plain"
   ],
   "note": ""
  },
  {
   "property": "C54",
   "status": "partial",
   "theorems": [
    "HL.Props.C54_content_length_partial",
    "HL.Props.C54_digits",
    "HL.Props.C54_counterexample"
   ],
   "note": "int() accepts more than decimal integers (+5, 1_0, -5; C54_counterexample). Proved: the exact behaviour in terms of int()'s grammar (IntText), and the property itself for texts of ASCII digits (C54_digits)."
  },
  {
   "property": "C55",
   "status": "partial",
   "theorems": [
    "HL.Props.C55_age_partial",
    "HL.Props.C55_counterexample"
   ],
   "note": "int() accepts 1_0 as ten (C55_counterexample). Proved: the exact behaviour in terms of int()'s grammar (IntText)."
  },
  {
   "property": "C56",
   "status": "proved",
   "theorems": [
    "HL.Props.C56_value",
    "HL.Props.C56_element_notes",
    "HL.Props.C56_value_notes",
    "HL.Props.C56_pre_post",
    "HL.Props.C56_report"
   ],
   "note": ""
  },
  {
   "property": "C57",
   "status": "proved",
   "theorems": [
    "HL.Props.C57_report",
    "HL.Props.C57_vary_notes",
    "HL.Props.C57_vary_value"
   ],
   "note": ""
  },
  {
   "property": "C58",
   "status": "proved",
   "theorems": [
    "HL.Props.C58_verdict",
    "HL.Props.C58_value"
   ],
   "note": ""
  },
  {
   "property": "C59",
   "status": "proved",
   "theorems": [
    "HL.Props.C59_cookies",
    "HL.Props.C59_no_name",
    "HL.Props.C59_empty_not_recorded",
    "HL.Props.C59_no_equals"
   ],
   "note": ""
  },
  {
   "property": "C60",
   "status": "proved",
   "theorems": [
    "HL.Props.C60_report",
    "HL.Props.C60_line_notes",
    "HL.Props.C60_repeated",
    "HL.Props.C60_unrecognised",
    "HL.Props.C60_bad_date",
    "HL.Props.C60_too_long",
    "HL.Props.C60_cookie_repeated",
    "HL.Props.C60_hardened",
    "HL.Props.C60_path"
   ],
   "note": ""
  },
  {
   "property": "C61",
   "status": "partial",
   "theorems": [
    "HL.Props.C61_secure",
    "HL.Props.C61_domain",
    "HL.Props.C61_path_partial",
    "HL.Props.C61_path_fails"
   ],
   "note": "The path rule is false of the code when the cookie gives several Paths (C61_path_fails). Proved: Secure and Domain rules in full, the path rule when there is at most one Path."
  },
  {
   "property": "C62",
   "status": "partial",
   "theorems": [
    "HL.Props.C62_accepts_partial",
    "HL.Props.C62_usual_form",
    "HL.Props.C62_year_first_counterexample",
    "HL.Props.C62_february_counterexample"
   ],
   "note": "Proved: the exact set of strings accepted and the time each denotes (Says). Missing: that set differs from RFC 6265's (C62_year_first_counterexample, C62_february_counterexample)."
  },
  {
   "property": "C63",
   "status": "proved",
   "theorems": [
    "HL.Props.C63_content_range_accepted",
    "HL.Props.C63_content_range_rejected",
    "HL.Props.C63_content_range_unnoted",
    "HL.Props.C63_range",
    "HL.Props.C63_content_range",
    "HL.Props.C63_range_report",
    "HL.Props.C63_content_range_report",
    "HL.Props.C63_range_accepted",
    "HL.Props.C63_range_rejected",
    "HL.Props.C63_range_unnoted"
   ],
   "note": ""
  },
  {
   "property": "C64",
   "status": "partial",
   "theorems": [
    "HL.Props.C64_nosniff_partial",
    "HL.Props.C64_frame_options_partial",
    "HL.Props.C64_any_case",
    "HL.Props.C64_counterexample"
   ],
   "note": "nosniff is compared case-sensitively and DENY/SAMEORIGIN are searched as substrings (C64_counterexample). Proved: the exact condition for each verdict."
  },
  {
   "property": "C65",
   "status": "proved",
   "theorems": [
    "HL.Props.C65_restored",
    "HL.Props.C65_scope"
   ],
   "note": ""
  },
  {
   "property": "C66",
   "status": "proved",
   "theorems": [
    "HL.Props.C66_output"
   ],
   "note": ""
  },
  {
   "property": "C67",
   "status": "proved",
   "theorems": [
    "HL.Props.C67_request",
    "HL.Props.C67_request_bad",
    "HL.Props.C67_response",
    "HL.Props.C67_response_bad"
   ],
   "note": ""
  },
  {
   "property": "C68",
   "status": "partial",
   "theorems": [
    "HL.Props.C68_default_partial",
    "HL.Props.C68_violated"
   ],
   "note": "-i request and -i response always raise (C68_violated: the option's text is compared with enum members). Proved: without -i a response is linted."
  },
  {
   "property": "C69",
   "status": "partial",
   "theorems": [
    "HL.Props.C69_difference",
    "HL.Props.C69_accepted_partial",
    "HL.Props.C69_fails"
   ],
   "note": "False of the code (C69_fails: the pattern for alphanum is '{ALPHA}|{DIGIT}', not an f-string). Proved: the exact language accepted."
  },
  {
   "property": "C70",
   "status": "partial",
   "theorems": [
    "HL.Props.C70_differences",
    "HL.Props.C70_accepted_partial",
    "HL.Props.C70_empty_path_fails",
    "HL.Props.C70_fails"
   ],
   "note": "False of the code (C70_fails, C70_empty_path_fails). Proved: where the grammar differs from RFC 3986's (C70_differences) and that it agrees elsewhere."
  },
  {
   "property": "C71",
   "status": "proved",
   "theorems": [
    "HL.Props.C71_token",
    "HL.Props.C71_quoted_string"
   ],
   "note": ""
  },
  {
   "property": "C72",
   "status": "proved",
   "theorems": [
    "HL.Props.C72_request_body",
    "HL.Props.C72_response_body"
   ],
   "note": ""
  },
  {
   "property": "C73",
   "status": "proved",
   "theorems": [
    "HL.Props.C73_prints_findings"
   ],
   "note": ""
  },
  {
   "property": "C74",
   "status": "proved",
   "theorems": [
    "HL.Props.C74_referrer_policy"
   ],
   "note": ""
  },
  {
   "property": "C75",
   "status": "proved",
   "theorems": [
    "HL.Props.C75_embedder_policy",
    "HL.Props.C75_opener_policy",
    "HL.Props.C75_resource_policy"
   ],
   "note": "Under ItemShape: http_sf returns a (value, parameters) pair for every Item it accepts."
  },
  {
   "property": "C76",
   "status": "proved",
   "theorems": [
    "HL.Props.C76_clear_site_data"
   ],
   "note": ""
  },
  {
   "property": "C77",
   "status": "proved",
   "theorems": [
    "HL.Props.C77_csp"
   ],
   "note": ""
  },
  {
   "property": "C78",
   "status": "proved",
   "theorems": [
    "HL.Props.C78_expect",
    "HL.Props.C78_via",
    "HL.Props.C78_pragma",
    "HL.Props.C78_max_forwards",
    "HL.Props.C78_content_language",
    "HL.Props.C78_server",
    "HL.Props.C78_accept_ranges"
   ],
   "note": ""
  },
  {
   "property": "C79",
   "status": "proved",
   "theorems": [
    "HL.Props.C79_location"
   ],
   "note": ""
  },
  {
   "property": "C80",
   "status": "proved",
   "theorems": [
    "HL.Props.C80_transfer_encoding",
    "HL.Props.C80_transfer_encoding_response"
   ],
   "note": ""
  },
  {
   "property": "C81",
   "status": "partial",
   "theorems": [
    "HL.Props.C81_backslash_fails",
    "HL.Props.C81_space_fails",
    "HL.Props.C81_disposition_partial"
   ],
   "note": "False of the code: a backslash in filename is not reported (C81_backslash_fails; the code looks for two backslashes, in filename* only), and a disposition followed by a space is called unknown (C81_space_fails). Proved: the exact condition of each report, in terms of the text before the first semicolon and the last value of each parameter."
  },
  {
   "property": "C82",
   "status": "proved",
   "theorems": [
    "HL.Props.C82_accept",
    "HL.Props.C82_accept_language",
    "HL.Props.C82_weight",
    "HL.Props.C82_precision_fails"
   ],
   "note": "The documented 'at most 3 digits of precision' is not what the code tests (C82_precision_fails); the property only claims what is stated."
  },
  {
   "property": "C83",
   "status": "proved",
   "theorems": [
    "HL.Props.C83_accept_patch",
    "HL.Props.C83_accept_post"
   ],
   "note": ""
  },
  {
   "property": "C84",
   "status": "proved",
   "theorems": [
    "HL.Props.C84_server_timing"
   ],
   "note": "dur is a number if float() takes it (isFloat)."
  },
  {
   "property": "C85",
   "status": "proved",
   "theorems": [
    "HL.Props.C85_alt_svc"
   ],
   "note": ""
  },
  {
   "property": "C86",
   "status": "proved",
   "theorems": [
    "HL.Props.C86_semicolon",
    "HL.Props.C86_link"
   ],
   "note": "The target of a link is what precedes the first semicolon, without its brackets: a target with a semicolon is cut short (C86_semicolon; F57)."
  },
  {
   "property": "C87",
   "status": "proved",
   "theorems": [
    "HL.Props.C87_content_encoding",
    "HL.Props.C87_unknown_request",
    "HL.Props.C87_content_encoding_response"
   ],
   "note": ""
  },
  {
   "property": "C88",
   "status": "proved",
   "theorems": [
    "HL.Props.C88_reporting_endpoints",
    "HL.Props.C88_speculation_rules"
   ],
   "note": "Under ListShape/DictShape (what http_sf returns for Lists and Dictionaries)."
  },
  {
   "property": "C89",
   "status": "proved",
   "theorems": [
    "HL.Props.C89_type_fails",
    "HL.Props.C89_accept_ch",
    "HL.Props.C89_cache_groups",
    "HL.Props.C89_cache_group_invalidation",
    "HL.Props.C89_available_dictionary",
    "HL.Props.C89_use_as_dictionary",
    "HL.Props.C89_cdn_cache_control"
   ],
   "note": "Under ItemShape/ListShape/DictShape (what http_sf returns). For Use-As-Dictionary the type demanded is the one the code demands: type must be a String there, while RFC 9842 has a Token (C89_type_fails, F58)."
  },
  {
   "property": "C90",
   "status": "proved",
   "theorems": [
    "HL.Props.C90_sunset",
    "HL.Props.C90_deprecation"
   ],
   "note": "Dates as the date library reads them (env.parsedate), in Deprecation under ItemShape."
  },
  {
   "property": "C91",
   "status": "partial",
   "theorems": [
    "HL.Props.C91_last_modified_partial",
    "HL.Props.C91_date_partial",
    "HL.Props.C91_order_of_age_matters",
    "HL.Props.C91_order_of_date_matters"
   ],
   "note": "The last sentence is false of the code (C91_order_of_age_matters, C91_order_of_date_matters): Age and Date are only taken into account if they come before the field. Proved: the exact verdict in terms of the fields that come before."
  },
  {
   "property": "C92",
   "status": "proved",
   "theorems": [
    "HL.Props.C92_origin",
    "HL.Props.C92_origin_value",
    "HL.Props.C92_max_age",
    "HL.Props.C92_max_age_value"
   ],
   "note": ""
  },
  {
   "property": "C93",
   "status": "proved",
   "theorems": [
    "HL.Props.C93_same_origin_fails",
    "HL.Props.C93_referer"
   ],
   "note": "Hosts are compared as written: the same origin in another case, or with its default port, counts as another (C93_same_origin_fails, F59)."
  },
  {
   "property": "C94",
   "status": "partial",
   "theorems": [
    "HL.Props.C94_order_matters",
    "HL.Props.C94_both_partial"
   ],
   "note": "False of the code when Transfer-Encoding comes after Content-Length (C94_order_matters, F39). Proved: reported exactly when it comes before."
  },
  {
   "property": "C95",
   "status": "proved",
   "theorems": [
    "HL.Props.C95_cache_status",
    "HL.Props.C95_proxy_status"
   ],
   "note": "Under ListShape. hit=?0, stored=?0 and collapsed=?0 make process_headers raise (F46); the theorems are about sections that were processed."
  },
  {
   "property": "C96",
   "status": "proved",
   "theorems": [
    "HL.Props.C96_permissions_policy"
   ],
   "note": "Under DictShape (what http_sf returns for Dictionaries)."
  },
  {
   "property": "C97",
   "status": "proved",
   "theorems": [
    "HL.Props.C97_nel",
    "HL.Props.C97_report_to"
   ],
   "note": "Under JsonShape: json.loads of a text in square brackets returns a list. NaN and infinities are not modelled."
  },
  {
   "property": "C98",
   "status": "proved",
   "theorems": [
    "HL.Props.C98_accept_query"
   ],
   "note": "Under ListShape."
  },
  {
   "property": "C99",
   "status": "proved",
   "theorems": [
    "HL.Props.C99_request_end"
   ],
   "note": ""
  },
  {
   "property": "C100",
   "status": "proved",
   "theorems": [
    "HL.Props.C100_embedder_endpoint",
    "HL.Props.C100_opener_endpoint"
   ],
   "note": "Under ItemShape and DictShape, and Unpadded headers (no field name with blanks at its end: F1/F2); Ended says that the message was linted with calls that did not raise."
  },
  {
   "property": "C101",
   "status": "proved",
   "theorems": [
    "HL.Props.C101_accept_ch"
   ],
   "note": "Under ListShape and Unpadded headers. Storable as the linter found it (C33-C40)."
  },
  {
   "property": "C102",
   "status": "proved",
   "theorems": [
    "HL.Props.C102_available_dictionary",
    "HL.Props.C102_content_encoding"
   ],
   "note": "Under ItemShape (requests) and Unpadded headers."
  },
  {
   "property": "C103",
   "status": "proved",
   "theorems": [
    "HL.Props.C103_nel"
   ],
   "note": "Under JsonShape and DictShape, and Unpadded headers."
  },
  {
   "property": "C104",
   "status": "proved",
   "theorems": [
    "HL.Props.C104_csp_endpoints",
    "HL.Props.C104_whole_response"
   ],
   "note": "Under DictShape and Unpadded headers. The sub-notes go to the first policy's note even when it is another field's (F10)."
  },
  {
   "property": "C105",
   "status": "proved",
   "theorems": [
    "HL.Props.C105_caching_report"
   ],
   "note": "Durations are rendered by relative_time, which is not modelled beyond its arguments. FactsOf holds of some facts for every reachable response with tidy names (C33_facts)."
  },
  {
   "property": "C106",
   "status": "partial",
   "theorems": [
    "HL.Props.C106_codings_partial",
    "HL.Props.C106_decoder_reports_errors_partial",
    "HL.Props.C106_message_reports_errors_partial",
    "HL.Props.C106_length_fails"
   ],
   "note": "The number of bytes is wrong in the code (C106_length_fails, F61: the bytes received so far, with the chunk at fault). Proved: all the rest, and what the number is. For one coding and (C106_codings_partial) for several, each of whose decoders reports the errors of its own decompressor."
  },
  {
   "property": "C107",
   "status": "proved",
   "theorems": [
    "HL.Props.C107_named",
    "HL.Props.C107_unnecessary"
   ],
   "note": ""
  },
  {
   "property": "C108",
   "status": "proved",
   "theorems": [
    "HL.Props.C108_one_reading",
    "HL.Props.C108_display",
    "HL.Props.C108_bounded",
    "HL.Props.C108_printable",
    "HL.Props.C108_text"
   ],
   "note": "str.isprintable is a parameter; C106 says which bytes are displayed."
  },
  {
   "property": "C109",
   "status": "partial",
   "theorems": [
    "HL.Props.C109_one_reading",
    "HL.Props.C109_iri",
    "HL.Props.C109_uri_partial",
    "HL.Props.C109_hopeless",
    "HL.Props.C109_allowed",
    "HL.Props.C109_unchanged",
    "HL.Props.C109_idempotent",
    "HL.Props.C109_authority_fails"
   ],
   "note": "False of the authority (C109_authority_fails, F62: what follows its first colon is not converted, and user information is taken for the host). Proved: all the rest, and what becomes of the authority. urlsplit, urlunsplit and IDNA are parameters."
  },
  {
   "property": "C110",
   "status": "proved",
   "theorems": [
    "HL.Props.C110_description",
    "HL.Props.C110_none",
    "HL.Props.C110_any_case"
   ],
   "note": ""
  },
  {
   "property": "C111",
   "status": "proved",
   "theorems": [
    "HL.Props.C111_at_end",
    "HL.Props.C111_whole",
    "HL.Props.C111_context",
    "HL.Props.C111_message_type"
   ],
   "note": ""
  },
  {
   "property": "C112",
   "status": "proved",
   "theorems": [
    "HL.Props.C112_lines_and_syntax"
   ],
   "note": ""
  },
  {
   "property": "C113",
   "status": "proved",
   "theorems": [
    "HL.Props.C113_status_line",
    "HL.Props.C113_request_line",
    "HL.Props.C113_length",
    "HL.Props.C113_content_type",
    "HL.Props.C113_charset",
    "HL.Props.C113_response_order",
    "HL.Props.C113_request_order"
   ],
   "note": ""
  },
  {
   "property": "C114",
   "status": "partial",
   "theorems": [
    "HL.Props.C114_parse_error_stays_in_code",
    "HL.Props.C114_bad_syntax_shows_one_character",
    "HL.Props.C114_syntax_problem_form",
    "HL.Props.C114_status_is_exposed",
    "HL.Props.C114_missing_fields_are_exposed",
    "HL.Props.C114_unclosed_span",
    "HL.Props.C114_wire_data_stays_in_code_partial"
   ],
   "note": "False of the code: Cache-Status and Proxy-Status, Accept-CH and ENCODING_UNWANTED let data of the message out (C114_status_is_exposed, C114_missing_fields_are_exposed, C114_unclosed_span; F64-F66). Proved of all classes but two: notes whose values are single lines (OneLiners), the variables listed in NoteId.exposed being assumed harmless; those two and BAD_SYNTAX_DETAILED have theorems of their own. The reader of Markdown (markup) is a specification of paragraphs, code spans and code blocks, not of the whole of python-markdown; texts with two backticks in a row are not judged; gettext is assumed to be the identity."
  },
  {
   "property": "C115",
   "status": "proved",
   "theorems": [
    "HL.Props.C115_params",
    "HL.Props.C115_written"
   ],
   "note": ""
  },
  {
   "property": "C116",
   "status": "proved",
   "theorems": [
    "HL.Props.C116_media_names",
    "HL.Props.C116_content_type"
   ],
   "note": ""
  },
  {
   "property": "C117",
   "status": "proved",
   "theorems": [
    "HL.Props.C117_summary",
    "HL.Props.C117_detail",
    "HL.Props.C117_clock",
    "HL.Props.C117_last_modified",
    "HL.Props.C117_caching"
   ],
   "note": "Babel's wording of a time difference is a parameter; times over 999999999 days cannot be shown (F71, C06). Summaries of particular notes are stated for the identity translation."
  },
  {
   "property": "C118",
   "status": "proved",
   "theorems": [
    "HL.Props.C118_lists",
    "HL.Props.C118_texts",
    "HL.Props.C118_lowered",
    "HL.Props.C118_etag",
    "HL.Props.C118_frame_options",
    "HL.Props.C118_credentials",
    "HL.Props.C118_alt_svc",
    "HL.Props.C118_keep_alive",
    "HL.Props.C118_clear_site_data",
    "HL.Props.C118_csp",
    "HL.Props.C118_location",
    "HL.Props.C118_unread"
   ],
   "note": ""
  },
  {
   "property": "C119",
   "status": "proved",
   "theorems": [
    "HL.Props.C119_params",
    "HL.Props.C119_pairs",
    "HL.Props.C119_disposition",
    "HL.Props.C119_accept",
    "HL.Props.C119_accept_language",
    "HL.Props.C119_weights",
    "HL.Props.C119_accept_query"
   ],
   "note": ""
  },
  {
   "property": "C120",
   "status": "proved",
   "theorems": [
    "HL.Props.C120_uncoded",
    "HL.Props.C120_coded",
    "HL.Props.C120_decoded"
   ],
   "note": ""
  },
  {
   "property": "C121",
   "status": "proved",
   "theorems": [
    "HL.Props.C121_threads",
    "HL.Props.C121_table",
    "HL.Props.C121_ends"
   ],
   "note": ""
  },
  {
   "property": "C122",
   "status": "proved",
   "theorems": [
    "HL.Props.C122_order",
    "HL.Props.C122_request",
    "HL.Props.C122_added",
    "HL.Props.C122_head_needed"
   ],
   "note": ""
  },
  {
   "property": "C123",
   "status": "proved",
   "theorems": [
    "HL.Props.C123_grammar",
    "HL.Props.C123_in_grammar",
    "HL.Props.C123_lists",
    "HL.Props.C123_same",
    "HL.Props.C123_wider",
    "HL.Props.C123_narrower",
    "HL.Props.C123_wider_strictly",
    "HL.Props.C123_notes"
   ],
   "note": "Characters up to U+00FF: case folding of re.IGNORECASE beyond Latin-1 (U+017F, U+212A, ...) is not modelled. The differences from the RFCs are the fields of Abnf.Reading."
  },
  {
   "property": "C124",
   "status": "proved",
   "theorems": [
    "HL.Props.C124_grammar",
    "HL.Props.C124_only_uris",
    "HL.Props.C124_plain_uris",
    "HL.Props.C124_reported",
    "HL.Props.C124_refused"
   ],
   "note": ""
  },
  {
   "property": "C125",
   "status": "proved",
   "theorems": [
    "HL.Props.C125_returns",
    "HL.Props.C125_returns_dropped",
    "HL.Props.C125_alone",
    "HL.Props.C125_dropped"
   ],
   "note": ""
  },
  {
   "property": "C126",
   "status": "proved",
   "theorems": [
    "HL.Props.C126_lines",
    "HL.Props.C126_same",
    "HL.Props.C126_complete",
    "HL.Props.C126_returns"
   ],
   "note": ""
  },
  {
   "property": "C127",
   "status": "proved",
   "theorems": [
    "HL.Props.C127_returns",
    "HL.Props.C127_order",
    "HL.Props.C127_swap"
   ],
   "note": ""
  },
  {
   "property": "C128",
   "status": "partial",
   "theorems": [
    "HL.Props.C128_order_partial",
    "HL.Props.C128_sub_notes",
    "HL.Props.C128_whole_partial",
    "HL.Props.C128_whole_sub_notes",
    "HL.Props.C128_order_fails"
   ],
   "note": "False of the sub-notes of the two Content-Security-Policy fields (C128_order_fails, F78: a missing endpoint is reported under the note of whichever policy came first, also when it is the other's). Proved: all but these sub-notes (CSP_REPORT_TO_MISSING) in every case, and these too when neither of these fields was sent, in the headers or the trailers. For calls after the headers that feed content and finish, with any trailers; that the second section can be processed is a hypothesis, which C128_whole_partial and C128_whole_sub_notes remove for a whole message whose calls are ordinary (as in C07)."
  }
 ]
}