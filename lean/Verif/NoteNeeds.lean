import Verif.Note

/-!
GENERATED by tools/gen_needs.py: the variables each note class's templates refer to.
-/

namespace HL

/-- the names a template refers to (`none`: not a valid template) -/
def tplNames (s : Str) : Option (List Str) := (tpl s).map tplVars

/-- the variables a note's summary and text refer to, as a table -/
def NoteId.needs : NoteId → List Str
  | .STORE_METHOD_UNCACHEABLE => [str "method"]
  | .STORE_PUBLIC_AUTH => [str "directive"]
  | .CURRENT_AGE => [str "age"]
  | .FRESHNESS_FRESH => [str "freshness_left", str "current_age", str "freshness_lifetime"]
  | .FRESHNESS_SHARED_PRIVATE => [str "private_status", str "fresh_left", str "shared_status", str "share_left", str "fresh_lifetime", str "share_lifetime"]
  | .FRESHNESS_STALE_ALREADY => [str "current_age", str "freshness_lifetime"]
  | .CHARSET_MISMATCH => [str "declared_charset", str "detected_charset"]
  | .CHARSET_IMPLICIT_MISMATCH => [str "declared_charset", str "media_type", str "detected_charset"]
  | .CHARSET_UNDECODABLE => [str "declared_charset", str "detected_charset"]
  | .BAD_GZIP => [str "gzip_error"]
  | .BAD_ZLIB => [str "zlib_error", str "ok_zlib_len", str "chunk_sample"]
  | .BAD_BROTLI => [str "brotli_error", str "ok_brotli_len", str "chunk_sample"]
  | .CONTENT_TYPE_MISMATCH => [str "declared_type", str "sniffed_type"]
  | .CL_INCORRECT => [str "content_length"]
  | .CONTENT_NOT_ALLOWED => [str "message"]
  | .REQUEST_CONTENT_NOT_DEFINED => [str "method"]
  | .URI_TOO_LONG => [str "uri_len"]
  | .HEADER_SHOULD_NOT_BE_IN_304 => [str "headers"]
  | .CREATED_SAFE_METHOD => [str "method"]
  | .REDIRECT_WITHOUT_LOCATION => [str "status"]
  | .STATUS_DEPRECATED => [str "status"]
  | .STATUS_RESERVED => [str "status"]
  | .STATUS_NONSTANDARD => [str "status"]
  | .STATUS_METHOD_NOT_ALLOWED => [str "method"]
  | .STATUS_405_METHOD_IN_ALLOW => [str "method"]
  | .STATUS_URI_TOO_LONG => [str "uri_len", str "status"]
  | .FIELD_NAME_BAD_SYNTAX => [str "field_name"]
  | .BAD_SYNTAX => [str "field_name", str "ref_uri"]
  | .BAD_SYNTAX_DETAILED => [str "field_name", str "ref_uri", str "problem"]
  | .REQUEST_HDR_IN_RESPONSE => [str "field_name"]
  | .RESPONSE_HDR_IN_REQUEST => [str "field_name"]
  | .FIELD_DEPRECATED => [str "field_name", str "deprecation_ref"]
  | .CORS_PREFLIGHT_REQ_METHOD_WRONG => [str "field_name", str "method"]
  | .CORS_PREFLIGHT_REQ_NO_ORIGIN => [str "field_name"]
  | .CORS_PREFLIGHT_REQ_NO_METHOD => [str "field_name"]
  | .CORS_PREFLIGHT_ONLY => [str "headers"]
  | .CORS_ORIGIN_MATCH => [str "origin"]
  | .CORS_ORIGIN_MISMATCH => [str "acao_value", str "origin"]
  | .BAD_JSON => [str "field_name", str "error"]
  | .FIELD_TOO_LARGE => [str "field_name", str "field_size"]
  | .FIELD_SECTION_TOO_LARGE => [str "field_type", str "section_size"]
  | .FIELD_NAME_ENCODING => [str "field_name"]
  | .FIELD_VALUE_ENCODING => [str "field_name"]
  | .SINGLE_HEADER_REPEAT => [str "field_name"]
  | .DUPLICATE_KEY => [str "field_name", str "context", str "key"]
  | .STRUCTURED_FIELD_PARSE_ERROR => [str "field_name", str "problem", str "context"]
  | .UNNECESSARY_HEADER => [str "header_name"]
  | .MEDIA_TYPE_BAD_NAME => [str "field_name", str "value"]
  | .MEDIA_TYPE_LONG_NAME => [str "field_name", str "value"]
  | .PARAM_REPEATS => [str "param", str "field_name"]
  | .PARAM_SINGLE_QUOTED => [str "param", str "field_name", str "param_val", str "param_val_unquoted"]
  | .PARAM_STAR_BAD => [str "param", str "field_name"]
  | .PARAM_STAR_QUOTED => [str "param", str "field_name"]
  | .PARAM_STAR_ERROR => [str "param", str "field_name"]
  | .PARAM_STAR_NOCHARSET => [str "param", str "field_name"]
  | .PARAM_STAR_CHARSET => [str "param", str "field_name", str "enc"]
  | .BAD_DATE_SYNTAX => [str "field_name"]
  | .DATE_OBSOLETE => [str "field_name"]
  | .BAD_Q_VALUE_accept => [str "media_type"]
  | .ACCEPT_BAD_SYNTAX => [str "value", str "ref_uri"]
  | .ACCEPT_CH_MISSING_VARY => [str "missing_fields"]
  | .ACCEPT_CH_BAD_TYPE => [str "ref_uri"]
  | .ACCEPT_LANGUAGE_BAD_SYNTAX => [str "ref_uri"]
  | .ACCEPT_PATCH_BAD_SYNTAX => [str "value", str "ref_uri"]
  | .ACCEPT_POST_BAD_SYNTAX => [str "value", str "ref_uri"]
  | .ACCEPT_QUERY_BAD_TYPE => [str "value"]
  | .ACCEPT_QUERY_BAD_SYNTAX => [str "value", str "ref_uri"]
  | .AVAILABLE_DICTIONARY_BAD_TYPE => [str "got"]
  | .CC_SHOULD_NOT_HAVE_VALUE => [str "directive"]
  | .CC_BAD_VALUE_TYPE => [str "directive", str "expected_type", str "value"]
  | .CC_MAX_AGE_TOO_LARGE => [str "directive"]
  | .CC_MISCAP => [str "directive", str "directive_lower"]
  | .CC_DUP => [str "directive"]
  | .CC_CONFLICTING => [str "directive", str "conflicts"]
  | .CC_WRONG_MESSAGE => [str "directive", str "message_type", str "other_message"]
  | .CHECK_POST_PRE => [str "post_check", str "pre_check"]
  | .CACHE_GROUP_INVALIDATION_BAD_TYPE => [str "field_name", str "got"]
  | .CACHE_GROUP_INVALIDATION_IGNORED => [str "method"]
  | .CACHE_GROUPS_BAD_TYPE => [str "field_name", str "got"]
  | .CACHE_STATUS => [str "status"]
  | .CACHE_STATUS_UNKNOWN_PARAM => [str "param"]
  | .CACHE_STATUS_BAD_PARAM_VAL => [str "param", str "value"]
  | .BAD_CDN_CC_TYPE => [str "bad_directive", str "expected_type"]
  | .CSD_PRESENT => [str "values"]
  | .CSD_UNKNOWN_VALUE => [str "value"]
  | .CSD_UNQUOTED => [str "values"]
  | .DISPOSITION_UNKNOWN => [str "disposition"]
  | .ENCODING_UNWANTED => [str "coding"]
  | .CONTENT_LANGUAGE_DUP => [str "lang"]
  | .RANGE_MISSING_HYPHEN => [str "value"]
  | .RANGE_INVALID_INTEGER => [str "value"]
  | .CONTENT_SECURITY_POLICY => [str "report_only", str "report_only_text"]
  | .CSP_UNSAFE_INLINE => [str "directives_list"]
  | .CSP_UNSAFE_EVAL => [str "directives_list"]
  | .CSP_HTTP_URI => [str "field_name", str "directives_list"]
  | .CSP_DUPLICATE_DIRECTIVE => [str "field_name", str "directives_list"]
  | .CSP_WIDE_OPEN => [str "report_only_text", str "directives_list"]
  | .CSP_REPORT_TO_MISSING => [str "endpoint", str "report_only_text"]
  | .COEP_REQUIRE_CORP => [str "report_only", str "report_only_text"]
  | .COEP_CREDENTIALLESS => [str "report_only", str "report_only_text"]
  | .COEP_UNSAFE_NONE => [str "report_only", str "report_only_text"]
  | .CROSS_ORIGIN_EMBEDDER_POLICY_BAD_VALUE => [str "field_name"]
  | .COEP_REPORT_TO_MISSING => [str "endpoint", str "report_only"]
  | .COOP_SAME_ORIGIN => [str "report_only", str "report_only_text"]
  | .COOP_SAME_ORIGIN_ALLOW_POPUPS => [str "report_only", str "report_only_text"]
  | .COOP_UNSAFE_NONE => [str "report_only", str "report_only_text"]
  | .CROSS_ORIGIN_OPENER_POLICY_BAD_VALUE => [str "field_name"]
  | .COOP_REPORT_TO_MISSING => [str "endpoint", str "report_only"]
  | .CORP_SAME_ORIGIN => [str "report_only_text"]
  | .CORP_SAME_SITE => [str "report_only_text"]
  | .CORP_CROSS_ORIGIN => [str "report_only_text"]
  | .CROSS_ORIGIN_RESOURCE_POLICY_BAD_VALUE => [str "value"]
  | .DATE_INCORRECT => [str "clock_skew_string"]
  | .DEPRECATION_PAST => [str "date"]
  | .DEPRECATION_FUTURE => [str "date"]
  | .DEPRECATION_BAD_TYPE => [str "item_type"]
  | .EXPECT_UNKNOWN => [str "expectation"]
  | .LM_PRESENT => [str "last_modified_string"]
  | .LINK_RESOURCE_HINTS => [str "hints", str "detail_lines"]
  | .LINK_BAD_HINT_TARGET => [str "rel", str "link", str "scheme"]
  | .LINK_BAD_ANCHOR => [str "link", str "anchor"]
  | .LINK_BAD_TYPE => [str "link", str "type"]
  | .LOCATION_NOT_ABSOLUTE => [str "full_uri"]
  | .NEL_MISSING_KEY => [str "key"]
  | .NEL_BAD_TYPE => [str "key", str "expected"]
  | .NEL_BAD_VALUE => [str "key", str "details"]
  | .NEL_CONFIGURED => [str "endpoints"]
  | .NEL_REPORT_TO_MISSING => [str "value"]
  | .BAD_ORIGIN_SYNTAX => [str "value"]
  | .PERMISSIONS_POLICY_WILDCARD => [str "feature"]
  | .PERMISSIONS_POLICY_INVALID_VALUE => [str "feature"]
  | .PERMISSIONS_POLICY_UNKNOWN_TOKEN => [str "token"]
  | .PERMISSIONS_POLICY_QUOTED_KEYWORD => [str "value"]
  | .PERMISSIONS_POLICY_INVALID_ITEM_TYPE => [str "item"]
  | .PROXY_STATUS => [str "status"]
  | .PROXY_STATUS_UNKNOWN_PARAM => [str "param"]
  | .PROXY_STATUS_BAD_PARAM_VAL => [str "param", str "value"]
  | .RANGE_BAD_SYNTAX => [str "problem", str "ref_uri"]
  | .REFERRER_POLICY_STRICT => [str "policy"]
  | .REFERRER_POLICY_UNKNOWN => [str "policy"]
  | .REFERRER_POLICY_MULTIPLE => [str "effective"]
  | .REPORT_TO_MISSING_KEY => [str "key"]
  | .REPORT_TO_BAD_TYPE => [str "key", str "expected"]
  | .ENDPOINT_NOT_SECURE => [str "name", str "url"]
  | .BAD_REPORTING_ENDPOINT_SYNTAX => [str "name", str "value", str "found_type"]
  | .SERVER_TOO_LONG => [str "server_length"]
  | .SERVER_TIMING_BAD_PARAM => [str "param", str "metric", str "value"]
  | .SERVER_TIMING_MISSING_DUR => [str "metric"]
  | .SERVER_TIMING_MISSING_DESC => [str "metric"]
  | .SET_COOKIE_BAD_DATE => [str "cookie_name"]
  | .SET_COOKIE_EMPTY_MAX_AGE => [str "cookie_name"]
  | .SET_COOKIE_LEADING_ZERO_MAX_AGE => [str "cookie_name"]
  | .SET_COOKIE_NON_DIGIT_MAX_AGE => [str "cookie_name"]
  | .SET_COOKIE_EMPTY_DOMAIN => [str "cookie_name"]
  | .SET_COOKIE_NOT_SECURE => [str "cookie_name"]
  | .SET_COOKIE_UNKNOWN_ATTRIBUTE => [str "cookie_name", str "attribute"]
  | .SET_COOKIE_UNKNOWN_ATTRIBUTE_VALUE => [str "cookie_name", str "attribute_name", str "attribute_value"]
  | .SET_COOKIE_PARTITIONED_NO_SECURE => [str "cookie_name"]
  | .SET_COOKIE_TOO_LARGE => [str "cookie_name"]
  | .SET_COOKIE_VALUE_TOO_LARGE => [str "cookie_name", str "set_cookie_value_length"]
  | .SET_COOKIE_LIFETIME_TOO_LONG => [str "cookie_name", str "duration"]
  | .SET_COOKIE_PREFIX_SECURE_MISSING => [str "cookie_name"]
  | .SET_COOKIE_PREFIX_HOST_BAD_DOMAIN => [str "cookie_name"]
  | .SET_COOKIE_PREFIX_HOST_BAD_PATH => [str "cookie_name"]
  | .SET_COOKIE_ATTRIBUTE_DUP => [str "cookie_name", str "attribute"]
  | .SET_COOKIE_HARDENED => [str "cookie_names"]
  | .SET_COOKIE_NAME_DUP => [str "cookie_names"]
  | .SPECULATION_RULE_NOT_SECURE => [str "url"]
  | .SPECULATION_RULES_BAD_TYPE => [str "value", str "found_type"]
  | .HSTS_DUPLICATE_DIRECTIVE => [str "directive"]
  | .HSTS_BAD_MAX_AGE => [str "max_age"]
  | .HSTS_VALUE_NOT_ALLOWED => [str "directive"]
  | .TRANSFER_CODING_UNWANTED => [str "coding"]
  | .USE_AS_DICTIONARY_BAD_TYPE => [str "field_name", str "param", str "expected", str "got"]
  | .VARY_COMPLEX => [str "vary_count"]
  | _ => []

/-- where a note class is defined: the `field` package (`line`: the classes added by
the code common to all field lines; `frame`: by the code common to all fields of a kind; `cors`: by the checks of preflights), or one of the modules cache.py, charset.py,
content_encoding.py, content_type.py, message.py, status.py -/
inductive Origin where
  | line | frame | field | cors | cache | charset | encoding | contentType | message | status
  deriving DecidableEq, Repr

/-- the part of the code that adds notes of the class -/
def NoteId.origin : NoteId → Origin
  | .DATE_CLOCKLESS | .DATE_CLOCKLESS_BAD_HDR | .STORE_METHOD_UNCACHEABLE | .STORE_NO_STORE | .STORE_PRIVATE_CC | .STORE_PRIVATE_PUBLIC_CONFLICT
  | .STORE_PRIVATE_AUTH | .STORE_PUBLIC_AUTH | .STORE_PUBLIC_UNNECESSARY | .STORE_STORABLE | .STORE_STORABLE_SHARED_ONLY | .STORE_UNSTORABLE
  | .FRESHNESS_NO_CACHE | .FRESHNESS_NO_CACHE_NO_VALIDATOR | .CURRENT_AGE | .FRESHNESS_FRESH | .FRESHNESS_SHARED_PRIVATE | .FRESHNESS_STALE_ALREADY
  | .FRESHNESS_HEURISTIC | .FRESHNESS_NONE | .STALE_SERVABLE | .STALE_IF_ERROR | .STALE_WHILE_REVALIDATE | .FRESH_MUST_REVALIDATE
  | .STALE_MUST_REVALIDATE | .FRESH_PROXY_REVALIDATE | .STALE_PROXY_REVALIDATE | .CC_AND_EXPIRES => .cache
  | .CHARSET_MISMATCH | .CHARSET_IMPLICIT_MISMATCH | .CHARSET_UNDECODABLE => .charset
  | .DECOMPRESSION_LIMIT | .BAD_GZIP | .BAD_ZLIB | .BAD_BROTLI => .encoding
  | .CONTENT_TYPE_MISMATCH => .contentType
  | .CL_CORRECT | .CL_INCORRECT | .CONTENT_NOT_ALLOWED | .REQUEST_CONTENT_NOT_DEFINED | .URI_TOO_LONG | .URI_BAD_SYNTAX
  | .STATUS_CODE_NON_NUMERIC | .STATUS_PHRASE_ENCODING | .MISSING_USER_AGENT => .message
  | .NO_DATE_304 | .HEADER_SHOULD_NOT_BE_IN_304 | .UNEXPECTED_CONTINUE | .UPGRADE_NOT_REQUESTED | .CREATED_SAFE_METHOD | .CREATED_WITHOUT_LOCATION
  | .PARTIAL_WITHOUT_RANGE | .PARTIAL_NOT_REQUESTED | .REDIRECT_WITHOUT_LOCATION | .STATUS_DEPRECATED | .STATUS_RESERVED | .STATUS_NONSTANDARD
  | .STATUS_BAD_REQUEST | .STATUS_FORBIDDEN | .STATUS_METHOD_NOT_ALLOWED | .STATUS_405_METHOD_IN_ALLOW | .STATUS_NOT_FOUND | .STATUS_NOT_ACCEPTABLE
  | .STATUS_406_WITHOUT_NEGOTIATION | .STATUS_CONFLICT | .STATUS_GONE | .STATUS_REQUEST_ENTITY_TOO_LARGE | .STATUS_URI_TOO_LONG | .STATUS_UNSUPPORTED_MEDIA_TYPE
  | .STATUS_IM_A_TEAPOT | .STATUS_INTERNAL_SERVICE_ERROR | .STATUS_NOT_IMPLEMENTED | .STATUS_BAD_GATEWAY | .STATUS_SERVICE_UNAVAILABLE | .STATUS_GATEWAY_TIMEOUT
  | .STATUS_VERSION_NOT_SUPPORTED | .STATUS_PRECONDITION_FAILED | .STATUS_EXPECTATION_FAILED | .STATUS_412_WITHOUT_PRECONDITION | .STATUS_416_WITHOUT_RANGE | .STATUS_417_WITHOUT_EXPECT
  | .STATUS_417_WITH_100_CONTINUE | .STATUS_EARLY_HINTS | .STATUS_UPLOAD_RESUMPTION_SUPPORTED | .STATUS_ALREADY_REPORTED | .STATUS_MISDIRECTED_REQUEST | .STATUS_TOO_EARLY
  | .STATUS_PRECONDITION_REQUIRED | .STATUS_TOO_MANY_REQUESTS | .STATUS_REQUEST_HEADER_FIELDS_TOO_LARGE | .STATUS_UNAVAILABLE_FOR_LEGAL_REASONS | .STATUS_LOOP_DETECTED | .STATUS_NETWORK_AUTHENTICATION_REQUIRED => .status
  | .FIELD_TOO_LARGE | .FIELD_SECTION_TOO_LARGE | .FIELD_NAME_ENCODING | .FIELD_VALUE_ENCODING | .FIELD_NAME_BAD_SYNTAX
  | .RESPONSE_HDR_IN_REQUEST | .REQUEST_HDR_IN_RESPONSE | .FIELD_DEPRECATED => .line
  | .SINGLE_HEADER_REPEAT | .BAD_SYNTAX | .BAD_SYNTAX_DETAILED | .STRUCTURED_FIELD_PARSE_ERROR | .BAD_JSON
  | .DUPLICATE_KEY => .frame
  | .CORS_PREFLIGHT_REQUEST | .CORS_PREFLIGHT_REQ_METHOD_WRONG | .CORS_PREFLIGHT_REQ_NO_ORIGIN | .CORS_PREFLIGHT_REQ_NO_METHOD
  | .CORS_PREFLIGHT_RESPONSE | .CORS_PREFLIGHT_ONLY | .ACAO_MULTIPLE_VALUES => .cors
  | _ => .field

/-- every class is in the list -/
theorem NoteId.mem_all (c : NoteId) : c ∈ NoteId.all := by
  have h : NoteId.all[c.ctorIdx]? = some c := by cases c <;> rfl
  exact List.mem_of_getElem? h

/-- the table is right: every template is well formed and refers only to the variables listed -/
theorem NoteId.needs_all : (NoteId.all.all fun c =>
    match tplNames c.summary, tplNames c.text with
    | some a, some b => (a ++ b).all (c.needs.contains ·)
    | _, _ => false) = true := by decide +kernel

end HL
