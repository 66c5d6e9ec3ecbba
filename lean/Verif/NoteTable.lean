import Verif.Py

/-!
GENERATED by tools/gen_notes.py: one constructor per `Note` subclass in /repo/httplint (read as text).
Classes that share a name are suffixed with their module.  `summary` and `text` are the `%`-format
templates `_summary` and `_text` (English; note.py:102-103 default them to the empty string).
-/

namespace HL

/-- note.py:41-52 -/
inductive Cat where
  | GENERAL | CONNECTION | SECURITY | CORS | COOKIES | CONNEG | CACHING | VALIDATION | RANGE
  deriving DecidableEq, Repr, Inhabited

/-- note.py:55-61 -/
inductive Level where
  | GOOD | WARN | BAD | INFO
  deriving DecidableEq, Repr, Inhabited

/-- the `Note` subclasses -/
inductive NoteId where
  /-- cache.py:260 -/
  | DATE_CLOCKLESS
  /-- cache.py:269 -/
  | DATE_CLOCKLESS_BAD_HDR
  /-- cache.py:279 -/
  | STORE_METHOD_UNCACHEABLE
  /-- cache.py:287 -/
  | STORE_NO_STORE
  /-- cache.py:295 -/
  | STORE_PRIVATE_CC
  /-- cache.py:305 -/
  | STORE_PRIVATE_PUBLIC_CONFLICT
  /-- cache.py:315 -/
  | STORE_PRIVATE_AUTH
  /-- cache.py:326 -/
  | STORE_PUBLIC_AUTH
  /-- cache.py:338 -/
  | STORE_PUBLIC_UNNECESSARY
  /-- cache.py:352 -/
  | STORE_STORABLE
  /-- cache.py:362 -/
  | STORE_STORABLE_SHARED_ONLY
  /-- cache.py:377 -/
  | STORE_UNSTORABLE
  /-- cache.py:390 -/
  | FRESHNESS_NO_CACHE
  /-- cache.py:400 -/
  | FRESHNESS_NO_CACHE_NO_VALIDATOR
  /-- cache.py:414 -/
  | CURRENT_AGE
  /-- cache.py:424 -/
  | FRESHNESS_FRESH
  /-- cache.py:433 -/
  | FRESHNESS_SHARED_PRIVATE
  /-- cache.py:450 -/
  | FRESHNESS_STALE_ALREADY
  /-- cache.py:467 -/
  | FRESHNESS_HEURISTIC
  /-- cache.py:483 -/
  | FRESHNESS_NONE
  /-- cache.py:500 -/
  | STALE_SERVABLE
  /-- cache.py:512 -/
  | STALE_IF_ERROR
  /-- cache.py:524 -/
  | STALE_WHILE_REVALIDATE
  /-- cache.py:535 -/
  | FRESH_MUST_REVALIDATE
  /-- cache.py:547 -/
  | STALE_MUST_REVALIDATE
  /-- cache.py:559 -/
  | FRESH_PROXY_REVALIDATE
  /-- cache.py:573 -/
  | STALE_PROXY_REVALIDATE
  /-- cache.py:587 -/
  | CC_AND_EXPIRES
  /-- charset.py:142 -/
  | CHARSET_MISMATCH
  /-- charset.py:153 -/
  | CHARSET_IMPLICIT_MISMATCH
  /-- charset.py:165 -/
  | CHARSET_UNDECODABLE
  /-- content_encoding.py:242 -/
  | DECOMPRESSION_LIMIT
  /-- content_encoding.py:251 -/
  | BAD_GZIP
  /-- content_encoding.py:261 -/
  | BAD_ZLIB
  /-- content_encoding.py:276 -/
  | BAD_BROTLI
  /-- content_type.py:7 -/
  | CONTENT_TYPE_MISMATCH
  /-- message.py:316 -/
  | CL_CORRECT
  /-- message.py:325 -/
  | CL_INCORRECT
  /-- message.py:337 -/
  | CONTENT_NOT_ALLOWED
  /-- message.py:347 -/
  | REQUEST_CONTENT_NOT_DEFINED
  /-- message.py:358 -/
  | URI_TOO_LONG
  /-- message.py:367 -/
  | URI_BAD_SYNTAX
  /-- message.py:376 -/
  | STATUS_CODE_NON_NUMERIC
  /-- message.py:384 -/
  | STATUS_PHRASE_ENCODING
  /-- message.py:392 -/
  | MISSING_USER_AGENT
  /-- status.py:316 -/
  | NO_DATE_304
  /-- status.py:325 -/
  | HEADER_SHOULD_NOT_BE_IN_304
  /-- status.py:339 -/
  | UNEXPECTED_CONTINUE
  /-- status.py:356 -/
  | UPGRADE_NOT_REQUESTED
  /-- status.py:368 -/
  | CREATED_SAFE_METHOD
  /-- status.py:383 -/
  | CREATED_WITHOUT_LOCATION
  /-- status.py:394 -/
  | PARTIAL_WITHOUT_RANGE
  /-- status.py:405 -/
  | PARTIAL_NOT_REQUESTED
  /-- status.py:416 -/
  | REDIRECT_WITHOUT_LOCATION
  /-- status.py:425 -/
  | STATUS_DEPRECATED
  /-- status.py:434 -/
  | STATUS_RESERVED
  /-- status.py:443 -/
  | STATUS_NONSTANDARD
  /-- status.py:453 -/
  | STATUS_BAD_REQUEST
  /-- status.py:461 -/
  | STATUS_FORBIDDEN
  /-- status.py:469 -/
  | STATUS_METHOD_NOT_ALLOWED
  /-- status.py:478 -/
  | STATUS_405_METHOD_IN_ALLOW
  /-- status.py:490 -/
  | STATUS_NOT_FOUND
  /-- status.py:498 -/
  | STATUS_NOT_ACCEPTABLE
  /-- status.py:509 -/
  | STATUS_406_WITHOUT_NEGOTIATION
  /-- status.py:521 -/
  | STATUS_CONFLICT
  /-- status.py:529 -/
  | STATUS_GONE
  /-- status.py:537 -/
  | STATUS_REQUEST_ENTITY_TOO_LARGE
  /-- status.py:545 -/
  | STATUS_URI_TOO_LONG
  /-- status.py:553 -/
  | STATUS_UNSUPPORTED_MEDIA_TYPE
  /-- status.py:561 -/
  | STATUS_IM_A_TEAPOT
  /-- status.py:575 -/
  | STATUS_INTERNAL_SERVICE_ERROR
  /-- status.py:583 -/
  | STATUS_NOT_IMPLEMENTED
  /-- status.py:591 -/
  | STATUS_BAD_GATEWAY
  /-- status.py:599 -/
  | STATUS_SERVICE_UNAVAILABLE
  /-- status.py:607 -/
  | STATUS_GATEWAY_TIMEOUT
  /-- status.py:615 -/
  | STATUS_VERSION_NOT_SUPPORTED
  /-- status.py:623 -/
  | STATUS_PRECONDITION_FAILED
  /-- status.py:633 -/
  | STATUS_EXPECTATION_FAILED
  /-- status.py:642 -/
  | STATUS_412_WITHOUT_PRECONDITION
  /-- status.py:654 -/
  | STATUS_416_WITHOUT_RANGE
  /-- status.py:665 -/
  | STATUS_417_WITHOUT_EXPECT
  /-- status.py:676 -/
  | STATUS_417_WITH_100_CONTINUE
  /-- status.py:688 -/
  | STATUS_EARLY_HINTS
  /-- status.py:697 -/
  | STATUS_UPLOAD_RESUMPTION_SUPPORTED
  /-- status.py:706 -/
  | STATUS_ALREADY_REPORTED
  /-- status.py:715 -/
  | STATUS_MISDIRECTED_REQUEST
  /-- status.py:724 -/
  | STATUS_TOO_EARLY
  /-- status.py:733 -/
  | STATUS_PRECONDITION_REQUIRED
  /-- status.py:742 -/
  | STATUS_TOO_MANY_REQUESTS
  /-- status.py:751 -/
  | STATUS_REQUEST_HEADER_FIELDS_TOO_LARGE
  /-- status.py:760 -/
  | STATUS_UNAVAILABLE_FOR_LEGAL_REASONS
  /-- status.py:769 -/
  | STATUS_LOOP_DETECTED
  /-- status.py:778 -/
  | STATUS_NETWORK_AUTHENTICATION_REQUIRED
  /-- field/__init__.py:162 -/
  | FIELD_NAME_BAD_SYNTAX
  /-- field/__init__.py:174 -/
  | BAD_SYNTAX
  /-- field/__init__.py:189 -/
  | BAD_SYNTAX_DETAILED
  /-- field/__init__.py:204 -/
  | REQUEST_HDR_IN_RESPONSE
  /-- field/__init__.py:213 -/
  | RESPONSE_HDR_IN_REQUEST
  /-- field/__init__.py:222 -/
  | FIELD_DEPRECATED
  /-- field/cors.py:136 -/
  | CORS_PREFLIGHT_REQUEST
  /-- field/cors.py:147 -/
  | CORS_PREFLIGHT_REQ_METHOD_WRONG
  /-- field/cors.py:158 -/
  | CORS_PREFLIGHT_REQ_NO_ORIGIN
  /-- field/cors.py:169 -/
  | CORS_PREFLIGHT_REQ_NO_METHOD
  /-- field/cors.py:180 -/
  | CORS_PREFLIGHT_RESPONSE
  /-- field/cors.py:191 -/
  | CORS_PREFLIGHT_ONLY
  /-- field/cors.py:207 -/
  | ACAO_MULTIPLE_VALUES
  /-- field/cors.py:216 -/
  | ACAC_NOT_TRUE
  /-- field/cors.py:225 -/
  | CORS_ORIGIN_MATCH
  /-- field/cors.py:235 -/
  | CORS_ORIGIN_MISMATCH
  /-- field/cors.py:246 -/
  | CORS_ORIGIN_NULL
  /-- field/cors.py:255 -/
  | CORS_ORIGIN_STAR
  /-- field/json_field.py:35 -/
  | BAD_JSON
  /-- field/section.py:101 -/
  | FIELD_TOO_LARGE
  /-- field/section.py:109 -/
  | FIELD_SECTION_TOO_LARGE
  /-- field/section.py:118 -/
  | FIELD_NAME_ENCODING
  /-- field/section.py:126 -/
  | FIELD_VALUE_ENCODING
  /-- field/singleton_field.py:49 -/
  | SINGLE_HEADER_REPEAT
  /-- field/structured_field.py:87 -/
  | DUPLICATE_KEY
  /-- field/structured_field.py:95 -/
  | STRUCTURED_FIELD_PARSE_ERROR
  /-- field/unnecessary.py:42 -/
  | UNNECESSARY_HEADER
  /-- field/utils.py:310 -/
  | MEDIA_TYPE_BAD_NAME
  /-- field/utils.py:324 -/
  | MEDIA_TYPE_LONG_NAME
  /-- field/utils.py:336 -/
  | PARAM_REPEATS
  /-- field/utils.py:345 -/
  | PARAM_SINGLE_QUOTED
  /-- field/utils.py:357 -/
  | PARAM_STAR_BAD
  /-- field/utils.py:369 -/
  | PARAM_STAR_QUOTED
  /-- field/utils.py:381 -/
  | PARAM_STAR_ERROR
  /-- field/utils.py:393 -/
  | PARAM_STAR_NOCHARSET
  /-- field/utils.py:405 -/
  | PARAM_STAR_CHARSET
  /-- field/utils.py:417 -/
  | BAD_DATE_SYNTAX
  /-- field/utils.py:430 -/
  | DATE_OBSOLETE
  /-- field/parsers/accept.py:66 -/
  | BAD_Q_VALUE_accept
  /-- field/parsers/accept.py:74 -/
  | ACCEPT_BAD_SYNTAX
  /-- field/parsers/accept_ch.py:67 -/
  | ACCEPT_CH_IN_PLAIN_HTTP
  /-- field/parsers/accept_ch.py:77 -/
  | ACCEPT_CH_MISSING_VARY
  /-- field/parsers/accept_ch.py:89 -/
  | ACCEPT_CH_BAD_TYPE
  /-- field/parsers/accept_language.py:67 -/
  | BAD_Q_VALUE_accept_language
  /-- field/parsers/accept_language.py:75 -/
  | ACCEPT_LANGUAGE_BAD_SYNTAX
  /-- field/parsers/accept_patch.py:31 -/
  | ACCEPT_PATCH_BAD_SYNTAX
  /-- field/parsers/accept_post.py:38 -/
  | ACCEPT_POST_BAD_SYNTAX
  /-- field/parsers/accept_query.py:55 -/
  | ACCEPT_QUERY_BAD_TYPE
  /-- field/parsers/accept_query.py:65 -/
  | ACCEPT_QUERY_BAD_SYNTAX
  /-- field/parsers/accept_ranges.py:29 -/
  | UNKNOWN_RANGE
  /-- field/parsers/access_control_max_age.py:38 -/
  | CORS_MAX_AGE_INVALID
  /-- field/parsers/access_control_max_age.py:47 -/
  | CORS_MAX_AGE_NEGATIVE
  /-- field/parsers/age.py:37 -/
  | AGE_NOT_INT
  /-- field/parsers/age.py:46 -/
  | AGE_NEGATIVE
  /-- field/parsers/age.py:55 -/
  | AGE_LARGE
  /-- field/parsers/alt_svc.py:48 -/
  | ALTSVC_CLEAR_LIST
  /-- field/parsers/available_dictionary.py:45 -/
  | AVAILABLE_DICTIONARY_MISSING_AE
  /-- field/parsers/available_dictionary.py:59 -/
  | AVAILABLE_DICTIONARY_BAD_TYPE
  /-- field/parsers/cache_control.py:201 -/
  | CC_SHOULD_NOT_HAVE_VALUE
  /-- field/parsers/cache_control.py:208 -/
  | CC_BAD_VALUE_TYPE
  /-- field/parsers/cache_control.py:218 -/
  | CC_MAX_AGE_TOO_LARGE
  /-- field/parsers/cache_control.py:227 -/
  | CC_MISCAP
  /-- field/parsers/cache_control.py:238 -/
  | CC_DUP
  /-- field/parsers/cache_control.py:248 -/
  | CC_CONFLICTING
  /-- field/parsers/cache_control.py:261 -/
  | CC_WRONG_MESSAGE
  /-- field/parsers/cache_control.py:270 -/
  | CHECK_SINGLE
  /-- field/parsers/cache_control.py:285 -/
  | CHECK_ALL_ZERO
  /-- field/parsers/cache_control.py:302 -/
  | CHECK_POST_BIGGER
  /-- field/parsers/cache_control.py:316 -/
  | CHECK_POST_ZERO
  /-- field/parsers/cache_control.py:331 -/
  | CHECK_POST_PRE
  /-- field/parsers/cache_group_invalidation.py:46 -/
  | CACHE_GROUP_INVALIDATION_BAD_TYPE
  /-- field/parsers/cache_group_invalidation.py:54 -/
  | CACHE_GROUP_INVALIDATION_IGNORED
  /-- field/parsers/cache_groups.py:39 -/
  | CACHE_GROUPS_BAD_TYPE
  /-- field/parsers/cache_status.py:95 -/
  | CACHE_STATUS
  /-- field/parsers/cache_status.py:106 -/
  | CACHE_STATUS_UNKNOWN_PARAM
  /-- field/parsers/cache_status.py:115 -/
  | CACHE_STATUS_BAD_PARAM_VAL
  /-- field/parsers/cdn_cache_control.py:73 -/
  | BAD_CDN_CC_TYPE
  /-- field/parsers/cdn_cache_control.py:80 -/
  | CDN_CACHE_CONTROL_PRESENT
  /-- field/parsers/clear_site_data.py:59 -/
  | CSD_PRESENT
  /-- field/parsers/clear_site_data.py:71 -/
  | CSD_UNKNOWN_VALUE
  /-- field/parsers/clear_site_data.py:80 -/
  | CSD_EMPTY
  /-- field/parsers/clear_site_data.py:88 -/
  | CSD_UNQUOTED
  /-- field/parsers/content_disposition.py:47 -/
  | DISPOSITION_UNKNOWN
  /-- field/parsers/content_disposition.py:57 -/
  | DISPOSITION_OMITS_FILENAME
  /-- field/parsers/content_disposition.py:69 -/
  | DISPOSITION_FILENAME_PERCENT
  /-- field/parsers/content_disposition.py:88 -/
  | DISPOSITION_FILENAME_PATH_CHAR
  /-- field/parsers/content_encoding.py:60 -/
  | DICTIONARY_COMPRESSED_MISSING_VARY
  /-- field/parsers/content_encoding.py:76 -/
  | ENCODING_UNWANTED
  /-- field/parsers/content_language.py:38 -/
  | CONTENT_LANGUAGE_DUP
  /-- field/parsers/content_length.py:42 -/
  | CL_BAD_SYNTAX
  /-- field/parsers/content_length.py:50 -/
  | CL_AND_TE_PRESENT
  /-- field/parsers/content_length.py:61 -/
  | CL_TOO_LARGE
  /-- field/parsers/content_range.py:121 -/
  | CONTENT_RANGE_MEANINGLESS
  /-- field/parsers/content_range.py:133 -/
  | CONTENT_RANGE_MISSING_UNIT
  /-- field/parsers/content_range.py:147 -/
  | CONTENT_RANGE_INVALID_ASTERISK
  /-- field/parsers/content_range.py:156 -/
  | CONTENT_RANGE_MISSING_SLASH
  /-- field/parsers/content_range.py:169 -/
  | RANGE_MISSING_HYPHEN
  /-- field/parsers/content_range.py:177 -/
  | RANGE_INVALID_INTEGER
  /-- field/parsers/content_range.py:185 -/
  | RANGE_INVALID_content_range
  /-- field/parsers/content_range.py:194 -/
  | CONTENT_RANGE_UNSATISFIED_BAD_SC
  /-- field/parsers/content_range.py:208 -/
  | CONTENT_RANGE_UNKNOWN_LENGTH
  /-- field/parsers/content_security_policy.py:182 -/
  | CONTENT_SECURITY_POLICY
  /-- field/parsers/content_security_policy.py:191 -/
  | CSP_UNSAFE_INLINE
  /-- field/parsers/content_security_policy.py:206 -/
  | CSP_UNSAFE_EVAL
  /-- field/parsers/content_security_policy.py:220 -/
  | CSP_HTTP_URI
  /-- field/parsers/content_security_policy.py:233 -/
  | CSP_DUPLICATE_DIRECTIVE
  /-- field/parsers/content_security_policy.py:245 -/
  | CSP_DEPRECATED_REPORT_URI
  /-- field/parsers/content_security_policy.py:256 -/
  | CSP_WIDE_OPEN
  /-- field/parsers/content_security_policy.py:270 -/
  | CSP_REPORT_TO_MISSING
  /-- field/parsers/cross_origin_embedder_policy.py:87 -/
  | COEP_REQUIRE_CORP
  /-- field/parsers/cross_origin_embedder_policy.py:98 -/
  | COEP_CREDENTIALLESS
  /-- field/parsers/cross_origin_embedder_policy.py:110 -/
  | COEP_UNSAFE_NONE
  /-- field/parsers/cross_origin_embedder_policy.py:125 -/
  | CROSS_ORIGIN_EMBEDDER_POLICY_BAD_VALUE
  /-- field/parsers/cross_origin_embedder_policy.py:135 -/
  | COEP_REPORT_TO_MISSING
  /-- field/parsers/cross_origin_embedder_policy_report_only.py:34 -/
  | COEP_REPORT_ONLY_DUPLICATE
  /-- field/parsers/cross_origin_opener_policy.py:87 -/
  | COOP_SAME_ORIGIN
  /-- field/parsers/cross_origin_opener_policy.py:98 -/
  | COOP_SAME_ORIGIN_ALLOW_POPUPS
  /-- field/parsers/cross_origin_opener_policy.py:109 -/
  | COOP_UNSAFE_NONE
  /-- field/parsers/cross_origin_opener_policy.py:123 -/
  | CROSS_ORIGIN_OPENER_POLICY_BAD_VALUE
  /-- field/parsers/cross_origin_opener_policy.py:133 -/
  | COOP_REPORT_TO_MISSING
  /-- field/parsers/cross_origin_opener_policy_report_only.py:34 -/
  | COOP_REPORT_ONLY_DUPLICATE
  /-- field/parsers/cross_origin_resource_policy.py:40 -/
  | CORP_SAME_ORIGIN
  /-- field/parsers/cross_origin_resource_policy.py:51 -/
  | CORP_SAME_SITE
  /-- field/parsers/cross_origin_resource_policy.py:62 -/
  | CORP_CROSS_ORIGIN
  /-- field/parsers/cross_origin_resource_policy.py:73 -/
  | CROSS_ORIGIN_RESOURCE_POLICY_BAD_VALUE
  /-- field/parsers/date.py:45 -/
  | DATE_CORRECT
  /-- field/parsers/date.py:54 -/
  | DATE_INCORRECT
  /-- field/parsers/date.py:73 -/
  | AGE_PENALTY
  /-- field/parsers/deprecation.py:45 -/
  | DEPRECATION_PAST
  /-- field/parsers/deprecation.py:53 -/
  | DEPRECATION_FUTURE
  /-- field/parsers/deprecation.py:61 -/
  | DEPRECATION_TRUE
  /-- field/parsers/deprecation.py:69 -/
  | DEPRECATION_BAD_TYPE
  /-- field/parsers/expect.py:35 -/
  | EXPECT_UNKNOWN
  /-- field/parsers/expect.py:43 -/
  | EXPECT_HTTP_1_0
  /-- field/parsers/last_modified.py:43 -/
  | LM_FUTURE
  /-- field/parsers/last_modified.py:53 -/
  | LM_PRESENT
  /-- field/parsers/link.py:84 -/
  | LINK_RESOURCE_HINTS
  /-- field/parsers/link.py:100 -/
  | LINK_BAD_HINT_TARGET
  /-- field/parsers/link.py:109 -/
  | LINK_REV
  /-- field/parsers/link.py:121 -/
  | LINK_BAD_ANCHOR
  /-- field/parsers/link.py:132 -/
  | LINK_BAD_TYPE
  /-- field/parsers/location.py:47 -/
  | LOCATION_UNDEFINED
  /-- field/parsers/location.py:62 -/
  | LOCATION_NOT_ABSOLUTE
  /-- field/parsers/max_forwards.py:11 -/
  | MAX_FORWARDS_IGNORED
  /-- field/parsers/nel.py:139 -/
  | NEL_BAD_STRUCTURE
  /-- field/parsers/nel.py:148 -/
  | NEL_MISSING_KEY
  /-- field/parsers/nel.py:156 -/
  | NEL_BAD_TYPE
  /-- field/parsers/nel.py:164 -/
  | NEL_BAD_VALUE
  /-- field/parsers/nel.py:173 -/
  | NEL_CONFIGURED
  /-- field/parsers/nel.py:186 -/
  | NEL_REPORT_TO_MISSING
  /-- field/parsers/origin.py:60 -/
  | BAD_ORIGIN_SYNTAX
  /-- field/parsers/origin.py:69 -/
  | ORIGIN_MULTIPLE_VALUES
  /-- field/parsers/permissions_policy.py:74 -/
  | PERMISSIONS_POLICY_PRESENT
  /-- field/parsers/permissions_policy.py:82 -/
  | PERMISSIONS_POLICY_WILDCARD
  /-- field/parsers/permissions_policy.py:91 -/
  | PERMISSIONS_POLICY_INVALID_VALUE
  /-- field/parsers/permissions_policy.py:100 -/
  | PERMISSIONS_POLICY_UNKNOWN_TOKEN
  /-- field/parsers/permissions_policy.py:109 -/
  | PERMISSIONS_POLICY_QUOTED_KEYWORD
  /-- field/parsers/permissions_policy.py:118 -/
  | PERMISSIONS_POLICY_INVALID_ITEM_TYPE
  /-- field/parsers/pragma.py:34 -/
  | PRAGMA_OTHER
  /-- field/parsers/proxy_status.py:113 -/
  | PROXY_STATUS
  /-- field/parsers/proxy_status.py:124 -/
  | PROXY_STATUS_UNKNOWN_PARAM
  /-- field/parsers/proxy_status.py:133 -/
  | PROXY_STATUS_BAD_PARAM_VAL
  /-- field/parsers/range.py:94 -/
  | RANGE_INVALID_range
  /-- field/parsers/range.py:103 -/
  | RANGE_BAD_SYNTAX
  /-- field/parsers/referer.py:49 -/
  | REFERER_SECURE_TO_INSECURE
  /-- field/parsers/referer.py:61 -/
  | REFERER_SECURE_TO_DIFFERENT_ORIGIN
  /-- field/parsers/referrer_policy.py:43 -/
  | REFERRER_POLICY_STRICT
  /-- field/parsers/referrer_policy.py:53 -/
  | REFERRER_POLICY_UNSAFE
  /-- field/parsers/referrer_policy.py:63 -/
  | REFERRER_POLICY_UNKNOWN
  /-- field/parsers/referrer_policy.py:72 -/
  | REFERRER_POLICY_EMPTY
  /-- field/parsers/referrer_policy.py:81 -/
  | REFERRER_POLICY_MULTIPLE
  /-- field/parsers/report_to.py:50 -/
  | REPORT_TO_BAD_STRUCTURE
  /-- field/parsers/report_to.py:59 -/
  | REPORT_TO_MISSING_KEY
  /-- field/parsers/report_to.py:67 -/
  | REPORT_TO_BAD_TYPE
  /-- field/parsers/reporting_endpoints.py:44 -/
  | ENDPOINT_NOT_SECURE
  /-- field/parsers/reporting_endpoints.py:52 -/
  | BAD_REPORTING_ENDPOINT_SYNTAX
  /-- field/parsers/server.py:36 -/
  | SERVER_TOO_LONG
  /-- field/parsers/server_timing.py:61 -/
  | SERVER_TIMING_BAD_PARAM
  /-- field/parsers/server_timing.py:71 -/
  | SERVER_TIMING_MISSING_DUR
  /-- field/parsers/server_timing.py:82 -/
  | SERVER_TIMING_MISSING_DESC
  /-- field/parsers/set_cookie.py:399 -/
  | SET_COOKIE_NO_NAME
  /-- field/parsers/set_cookie.py:409 -/
  | SET_COOKIE_BAD_DATE
  /-- field/parsers/set_cookie.py:418 -/
  | SET_COOKIE_EMPTY_MAX_AGE
  /-- field/parsers/set_cookie.py:428 -/
  | SET_COOKIE_LEADING_ZERO_MAX_AGE
  /-- field/parsers/set_cookie.py:438 -/
  | SET_COOKIE_NON_DIGIT_MAX_AGE
  /-- field/parsers/set_cookie.py:448 -/
  | SET_COOKIE_EMPTY_DOMAIN
  /-- field/parsers/set_cookie.py:461 -/
  | SET_COOKIE_NOT_SECURE
  /-- field/parsers/set_cookie.py:473 -/
  | SET_COOKIE_UNKNOWN_ATTRIBUTE
  /-- field/parsers/set_cookie.py:483 -/
  | SET_COOKIE_PRIORITY
  /-- field/parsers/set_cookie.py:492 -/
  | SET_COOKIE_VERSION
  /-- field/parsers/set_cookie.py:506 -/
  | SET_COOKIE_UNKNOWN_ATTRIBUTE_VALUE
  /-- field/parsers/set_cookie.py:516 -/
  | SET_COOKIE_PARTITIONED_NO_SECURE
  /-- field/parsers/set_cookie.py:530 -/
  | SET_COOKIE_TOO_LARGE
  /-- field/parsers/set_cookie.py:540 -/
  | SET_COOKIE_VALUE_TOO_LARGE
  /-- field/parsers/set_cookie.py:556 -/
  | SET_COOKIE_LIFETIME_TOO_LONG
  /-- field/parsers/set_cookie.py:567 -/
  | SET_COOKIE_PREFIX_SECURE_MISSING
  /-- field/parsers/set_cookie.py:578 -/
  | SET_COOKIE_PREFIX_HOST_BAD_DOMAIN
  /-- field/parsers/set_cookie.py:588 -/
  | SET_COOKIE_PREFIX_HOST_BAD_PATH
  /-- field/parsers/set_cookie.py:598 -/
  | SET_COOKIE_ATTRIBUTE_DUP
  /-- field/parsers/set_cookie.py:608 -/
  | SET_COOKIE_HARDENED
  /-- field/parsers/set_cookie.py:620 -/
  | SET_COOKIE_NAME_DUP
  /-- field/parsers/speculation_rules.py:44 -/
  | SPECULATION_RULE_NOT_SECURE
  /-- field/parsers/speculation_rules.py:52 -/
  | SPECULATION_RULES_BAD_TYPE
  /-- field/parsers/strict_transport_security.py:154 -/
  | HSTS_VALID
  /-- field/parsers/strict_transport_security.py:163 -/
  | HSTS_INVALID
  /-- field/parsers/strict_transport_security.py:174 -/
  | HSTS_NO_MAX_AGE
  /-- field/parsers/strict_transport_security.py:182 -/
  | HSTS_MAX_AGE_ZERO
  /-- field/parsers/strict_transport_security.py:191 -/
  | HSTS_SHORT_MAX_AGE
  /-- field/parsers/strict_transport_security.py:199 -/
  | HSTS_SUBDOMAINS
  /-- field/parsers/strict_transport_security.py:208 -/
  | HSTS_NO_SUBDOMAINS
  /-- field/parsers/strict_transport_security.py:221 -/
  | HSTS_PRELOAD
  /-- field/parsers/strict_transport_security.py:234 -/
  | HSTS_PRELOAD_NOT_SUITABLE
  /-- field/parsers/strict_transport_security.py:246 -/
  | HSTS_NO_PRELOAD
  /-- field/parsers/strict_transport_security.py:258 -/
  | HSTS_DUPLICATE_DIRECTIVE
  /-- field/parsers/strict_transport_security.py:267 -/
  | HSTS_TRAILING_SEMICOLON
  /-- field/parsers/strict_transport_security.py:277 -/
  | HSTS_OVER_HTTP
  /-- field/parsers/strict_transport_security.py:286 -/
  | HSTS_BAD_MAX_AGE
  /-- field/parsers/strict_transport_security.py:295 -/
  | HSTS_VALUE_NOT_ALLOWED
  /-- field/parsers/sunset.py:25 -/
  | SUNSET_PAST
  /-- field/parsers/transfer_encoding.py:68 -/
  | TRANSFER_CODING_IDENTITY
  /-- field/parsers/transfer_encoding.py:79 -/
  | TRANSFER_CODING_UNWANTED
  /-- field/parsers/transfer_encoding.py:91 -/
  | TRANSFER_CODING_PARAM
  /-- field/parsers/use_as_dictionary.py:78 -/
  | USE_AS_DICTIONARY_BAD_TYPE
  /-- field/parsers/use_as_dictionary.py:86 -/
  | USE_AS_DICTIONARY_BAD_MATCH_DEST
  /-- field/parsers/vary.py:41 -/
  | VARY_ASTERISK
  /-- field/parsers/vary.py:50 -/
  | VARY_USER_AGENT
  /-- field/parsers/vary.py:65 -/
  | VARY_HOST
  /-- field/parsers/vary.py:81 -/
  | VARY_NEGOTIATE
  /-- field/parsers/vary.py:93 -/
  | VARY_DUPLICATE
  /-- field/parsers/vary.py:104 -/
  | VARY_COMPLEX
  /-- field/parsers/via.py:27 -/
  | VIA_PRESENT
  /-- field/parsers/x_content_type_options.py:24 -/
  | CONTENT_TYPE_OPTIONS
  /-- field/parsers/x_content_type_options.py:41 -/
  | CONTENT_TYPE_OPTIONS_UNKNOWN
  /-- field/parsers/x_frame_options.py:49 -/
  | FRAME_OPTIONS_DENY
  /-- field/parsers/x_frame_options.py:66 -/
  | FRAME_OPTIONS_SAMEORIGIN
  /-- field/parsers/x_frame_options.py:83 -/
  | FRAME_OPTIONS_UNKNOWN
  deriving DecidableEq, Repr, Inhabited

namespace NoteId

/-- the class attribute `category` -/
def cat : NoteId → Cat
  | DATE_CLOCKLESS => .GENERAL
  | DATE_CLOCKLESS_BAD_HDR => .CACHING
  | STORE_METHOD_UNCACHEABLE => .CACHING
  | STORE_NO_STORE => .CACHING
  | STORE_PRIVATE_CC => .CACHING
  | STORE_PRIVATE_PUBLIC_CONFLICT => .CACHING
  | STORE_PRIVATE_AUTH => .CACHING
  | STORE_PUBLIC_AUTH => .CACHING
  | STORE_PUBLIC_UNNECESSARY => .CACHING
  | STORE_STORABLE => .CACHING
  | STORE_STORABLE_SHARED_ONLY => .CACHING
  | STORE_UNSTORABLE => .CACHING
  | FRESHNESS_NO_CACHE => .CACHING
  | FRESHNESS_NO_CACHE_NO_VALIDATOR => .CACHING
  | CURRENT_AGE => .CACHING
  | FRESHNESS_FRESH => .CACHING
  | FRESHNESS_SHARED_PRIVATE => .CACHING
  | FRESHNESS_STALE_ALREADY => .CACHING
  | FRESHNESS_HEURISTIC => .CACHING
  | FRESHNESS_NONE => .CACHING
  | STALE_SERVABLE => .CACHING
  | STALE_IF_ERROR => .CACHING
  | STALE_WHILE_REVALIDATE => .CACHING
  | FRESH_MUST_REVALIDATE => .CACHING
  | STALE_MUST_REVALIDATE => .CACHING
  | FRESH_PROXY_REVALIDATE => .CACHING
  | STALE_PROXY_REVALIDATE => .CACHING
  | CC_AND_EXPIRES => .CACHING
  | CHARSET_MISMATCH => .GENERAL
  | CHARSET_IMPLICIT_MISMATCH => .GENERAL
  | CHARSET_UNDECODABLE => .GENERAL
  | DECOMPRESSION_LIMIT => .CONNEG
  | BAD_GZIP => .CONNEG
  | BAD_ZLIB => .CONNEG
  | BAD_BROTLI => .CONNEG
  | CONTENT_TYPE_MISMATCH => .GENERAL
  | CL_CORRECT => .GENERAL
  | CL_INCORRECT => .GENERAL
  | CONTENT_NOT_ALLOWED => .GENERAL
  | REQUEST_CONTENT_NOT_DEFINED => .GENERAL
  | URI_TOO_LONG => .GENERAL
  | URI_BAD_SYNTAX => .GENERAL
  | STATUS_CODE_NON_NUMERIC => .GENERAL
  | STATUS_PHRASE_ENCODING => .GENERAL
  | MISSING_USER_AGENT => .GENERAL
  | NO_DATE_304 => .VALIDATION
  | HEADER_SHOULD_NOT_BE_IN_304 => .GENERAL
  | UNEXPECTED_CONTINUE => .GENERAL
  | UPGRADE_NOT_REQUESTED => .GENERAL
  | CREATED_SAFE_METHOD => .GENERAL
  | CREATED_WITHOUT_LOCATION => .GENERAL
  | PARTIAL_WITHOUT_RANGE => .GENERAL
  | PARTIAL_NOT_REQUESTED => .GENERAL
  | REDIRECT_WITHOUT_LOCATION => .GENERAL
  | STATUS_DEPRECATED => .GENERAL
  | STATUS_RESERVED => .GENERAL
  | STATUS_NONSTANDARD => .GENERAL
  | STATUS_BAD_REQUEST => .GENERAL
  | STATUS_FORBIDDEN => .GENERAL
  | STATUS_METHOD_NOT_ALLOWED => .GENERAL
  | STATUS_405_METHOD_IN_ALLOW => .GENERAL
  | STATUS_NOT_FOUND => .GENERAL
  | STATUS_NOT_ACCEPTABLE => .GENERAL
  | STATUS_406_WITHOUT_NEGOTIATION => .GENERAL
  | STATUS_CONFLICT => .GENERAL
  | STATUS_GONE => .GENERAL
  | STATUS_REQUEST_ENTITY_TOO_LARGE => .GENERAL
  | STATUS_URI_TOO_LONG => .GENERAL
  | STATUS_UNSUPPORTED_MEDIA_TYPE => .GENERAL
  | STATUS_IM_A_TEAPOT => .GENERAL
  | STATUS_INTERNAL_SERVICE_ERROR => .GENERAL
  | STATUS_NOT_IMPLEMENTED => .GENERAL
  | STATUS_BAD_GATEWAY => .GENERAL
  | STATUS_SERVICE_UNAVAILABLE => .GENERAL
  | STATUS_GATEWAY_TIMEOUT => .GENERAL
  | STATUS_VERSION_NOT_SUPPORTED => .GENERAL
  | STATUS_PRECONDITION_FAILED => .GENERAL
  | STATUS_EXPECTATION_FAILED => .GENERAL
  | STATUS_412_WITHOUT_PRECONDITION => .GENERAL
  | STATUS_416_WITHOUT_RANGE => .GENERAL
  | STATUS_417_WITHOUT_EXPECT => .GENERAL
  | STATUS_417_WITH_100_CONTINUE => .GENERAL
  | STATUS_EARLY_HINTS => .GENERAL
  | STATUS_UPLOAD_RESUMPTION_SUPPORTED => .GENERAL
  | STATUS_ALREADY_REPORTED => .GENERAL
  | STATUS_MISDIRECTED_REQUEST => .GENERAL
  | STATUS_TOO_EARLY => .GENERAL
  | STATUS_PRECONDITION_REQUIRED => .GENERAL
  | STATUS_TOO_MANY_REQUESTS => .GENERAL
  | STATUS_REQUEST_HEADER_FIELDS_TOO_LARGE => .GENERAL
  | STATUS_UNAVAILABLE_FOR_LEGAL_REASONS => .GENERAL
  | STATUS_LOOP_DETECTED => .GENERAL
  | STATUS_NETWORK_AUTHENTICATION_REQUIRED => .GENERAL
  | FIELD_NAME_BAD_SYNTAX => .GENERAL
  | BAD_SYNTAX => .GENERAL
  | BAD_SYNTAX_DETAILED => .GENERAL
  | REQUEST_HDR_IN_RESPONSE => .GENERAL
  | RESPONSE_HDR_IN_REQUEST => .GENERAL
  | FIELD_DEPRECATED => .GENERAL
  | CORS_PREFLIGHT_REQUEST => .CORS
  | CORS_PREFLIGHT_REQ_METHOD_WRONG => .CORS
  | CORS_PREFLIGHT_REQ_NO_ORIGIN => .CORS
  | CORS_PREFLIGHT_REQ_NO_METHOD => .CORS
  | CORS_PREFLIGHT_RESPONSE => .CORS
  | CORS_PREFLIGHT_ONLY => .CORS
  | ACAO_MULTIPLE_VALUES => .CORS
  | ACAC_NOT_TRUE => .CORS
  | CORS_ORIGIN_MATCH => .CORS
  | CORS_ORIGIN_MISMATCH => .CORS
  | CORS_ORIGIN_NULL => .CORS
  | CORS_ORIGIN_STAR => .CORS
  | BAD_JSON => .GENERAL
  | FIELD_TOO_LARGE => .GENERAL
  | FIELD_SECTION_TOO_LARGE => .GENERAL
  | FIELD_NAME_ENCODING => .GENERAL
  | FIELD_VALUE_ENCODING => .GENERAL
  | SINGLE_HEADER_REPEAT => .GENERAL
  | DUPLICATE_KEY => .GENERAL
  | STRUCTURED_FIELD_PARSE_ERROR => .GENERAL
  | UNNECESSARY_HEADER => .GENERAL
  | MEDIA_TYPE_BAD_NAME => .GENERAL
  | MEDIA_TYPE_LONG_NAME => .GENERAL
  | PARAM_REPEATS => .GENERAL
  | PARAM_SINGLE_QUOTED => .GENERAL
  | PARAM_STAR_BAD => .GENERAL
  | PARAM_STAR_QUOTED => .GENERAL
  | PARAM_STAR_ERROR => .GENERAL
  | PARAM_STAR_NOCHARSET => .GENERAL
  | PARAM_STAR_CHARSET => .GENERAL
  | BAD_DATE_SYNTAX => .GENERAL
  | DATE_OBSOLETE => .GENERAL
  | BAD_Q_VALUE_accept => .CONNEG
  | ACCEPT_BAD_SYNTAX => .CONNEG
  | ACCEPT_CH_IN_PLAIN_HTTP => .CONNEG
  | ACCEPT_CH_MISSING_VARY => .CONNEG
  | ACCEPT_CH_BAD_TYPE => .CONNEG
  | BAD_Q_VALUE_accept_language => .CONNEG
  | ACCEPT_LANGUAGE_BAD_SYNTAX => .CONNEG
  | ACCEPT_PATCH_BAD_SYNTAX => .GENERAL
  | ACCEPT_POST_BAD_SYNTAX => .GENERAL
  | ACCEPT_QUERY_BAD_TYPE => .GENERAL
  | ACCEPT_QUERY_BAD_SYNTAX => .GENERAL
  | UNKNOWN_RANGE => .RANGE
  | CORS_MAX_AGE_INVALID => .CORS
  | CORS_MAX_AGE_NEGATIVE => .CORS
  | AGE_NOT_INT => .CACHING
  | AGE_NEGATIVE => .CACHING
  | AGE_LARGE => .CACHING
  | ALTSVC_CLEAR_LIST => .CONNECTION
  | AVAILABLE_DICTIONARY_MISSING_AE => .GENERAL
  | AVAILABLE_DICTIONARY_BAD_TYPE => .GENERAL
  | CC_SHOULD_NOT_HAVE_VALUE => .CACHING
  | CC_BAD_VALUE_TYPE => .CACHING
  | CC_MAX_AGE_TOO_LARGE => .CACHING
  | CC_MISCAP => .CACHING
  | CC_DUP => .CACHING
  | CC_CONFLICTING => .CACHING
  | CC_WRONG_MESSAGE => .CACHING
  | CHECK_SINGLE => .CACHING
  | CHECK_ALL_ZERO => .CACHING
  | CHECK_POST_BIGGER => .CACHING
  | CHECK_POST_ZERO => .CACHING
  | CHECK_POST_PRE => .CACHING
  | CACHE_GROUP_INVALIDATION_BAD_TYPE => .GENERAL
  | CACHE_GROUP_INVALIDATION_IGNORED => .GENERAL
  | CACHE_GROUPS_BAD_TYPE => .GENERAL
  | CACHE_STATUS => .CACHING
  | CACHE_STATUS_UNKNOWN_PARAM => .CACHING
  | CACHE_STATUS_BAD_PARAM_VAL => .CACHING
  | BAD_CDN_CC_TYPE => .CACHING
  | CDN_CACHE_CONTROL_PRESENT => .CACHING
  | CSD_PRESENT => .SECURITY
  | CSD_UNKNOWN_VALUE => .SECURITY
  | CSD_EMPTY => .SECURITY
  | CSD_UNQUOTED => .SECURITY
  | DISPOSITION_UNKNOWN => .GENERAL
  | DISPOSITION_OMITS_FILENAME => .GENERAL
  | DISPOSITION_FILENAME_PERCENT => .GENERAL
  | DISPOSITION_FILENAME_PATH_CHAR => .GENERAL
  | DICTIONARY_COMPRESSED_MISSING_VARY => .CONNEG
  | ENCODING_UNWANTED => .CONNEG
  | CONTENT_LANGUAGE_DUP => .GENERAL
  | CL_BAD_SYNTAX => .GENERAL
  | CL_AND_TE_PRESENT => .GENERAL
  | CL_TOO_LARGE => .GENERAL
  | CONTENT_RANGE_MEANINGLESS => .RANGE
  | CONTENT_RANGE_MISSING_UNIT => .RANGE
  | CONTENT_RANGE_INVALID_ASTERISK => .RANGE
  | CONTENT_RANGE_MISSING_SLASH => .RANGE
  | RANGE_MISSING_HYPHEN => .RANGE
  | RANGE_INVALID_INTEGER => .RANGE
  | RANGE_INVALID_content_range => .RANGE
  | CONTENT_RANGE_UNSATISFIED_BAD_SC => .RANGE
  | CONTENT_RANGE_UNKNOWN_LENGTH => .RANGE
  | CONTENT_SECURITY_POLICY => .SECURITY
  | CSP_UNSAFE_INLINE => .SECURITY
  | CSP_UNSAFE_EVAL => .SECURITY
  | CSP_HTTP_URI => .SECURITY
  | CSP_DUPLICATE_DIRECTIVE => .SECURITY
  | CSP_DEPRECATED_REPORT_URI => .SECURITY
  | CSP_WIDE_OPEN => .SECURITY
  | CSP_REPORT_TO_MISSING => .SECURITY
  | COEP_REQUIRE_CORP => .SECURITY
  | COEP_CREDENTIALLESS => .SECURITY
  | COEP_UNSAFE_NONE => .SECURITY
  | CROSS_ORIGIN_EMBEDDER_POLICY_BAD_VALUE => .SECURITY
  | COEP_REPORT_TO_MISSING => .SECURITY
  | COEP_REPORT_ONLY_DUPLICATE => .SECURITY
  | COOP_SAME_ORIGIN => .SECURITY
  | COOP_SAME_ORIGIN_ALLOW_POPUPS => .SECURITY
  | COOP_UNSAFE_NONE => .SECURITY
  | CROSS_ORIGIN_OPENER_POLICY_BAD_VALUE => .SECURITY
  | COOP_REPORT_TO_MISSING => .SECURITY
  | COOP_REPORT_ONLY_DUPLICATE => .SECURITY
  | CORP_SAME_ORIGIN => .SECURITY
  | CORP_SAME_SITE => .SECURITY
  | CORP_CROSS_ORIGIN => .SECURITY
  | CROSS_ORIGIN_RESOURCE_POLICY_BAD_VALUE => .SECURITY
  | DATE_CORRECT => .GENERAL
  | DATE_INCORRECT => .GENERAL
  | AGE_PENALTY => .GENERAL
  | DEPRECATION_PAST => .GENERAL
  | DEPRECATION_FUTURE => .GENERAL
  | DEPRECATION_TRUE => .GENERAL
  | DEPRECATION_BAD_TYPE => .GENERAL
  | EXPECT_UNKNOWN => .GENERAL
  | EXPECT_HTTP_1_0 => .GENERAL
  | LM_FUTURE => .GENERAL
  | LM_PRESENT => .GENERAL
  | LINK_RESOURCE_HINTS => .GENERAL
  | LINK_BAD_HINT_TARGET => .GENERAL
  | LINK_REV => .GENERAL
  | LINK_BAD_ANCHOR => .GENERAL
  | LINK_BAD_TYPE => .GENERAL
  | LOCATION_UNDEFINED => .GENERAL
  | LOCATION_NOT_ABSOLUTE => .GENERAL
  | MAX_FORWARDS_IGNORED => .GENERAL
  | NEL_BAD_STRUCTURE => .GENERAL
  | NEL_MISSING_KEY => .GENERAL
  | NEL_BAD_TYPE => .GENERAL
  | NEL_BAD_VALUE => .GENERAL
  | NEL_CONFIGURED => .GENERAL
  | NEL_REPORT_TO_MISSING => .GENERAL
  | BAD_ORIGIN_SYNTAX => .CORS
  | ORIGIN_MULTIPLE_VALUES => .CORS
  | PERMISSIONS_POLICY_PRESENT => .SECURITY
  | PERMISSIONS_POLICY_WILDCARD => .SECURITY
  | PERMISSIONS_POLICY_INVALID_VALUE => .SECURITY
  | PERMISSIONS_POLICY_UNKNOWN_TOKEN => .SECURITY
  | PERMISSIONS_POLICY_QUOTED_KEYWORD => .SECURITY
  | PERMISSIONS_POLICY_INVALID_ITEM_TYPE => .SECURITY
  | PRAGMA_OTHER => .GENERAL
  | PROXY_STATUS => .CACHING
  | PROXY_STATUS_UNKNOWN_PARAM => .CACHING
  | PROXY_STATUS_BAD_PARAM_VAL => .CACHING
  | RANGE_INVALID_range => .RANGE
  | RANGE_BAD_SYNTAX => .RANGE
  | REFERER_SECURE_TO_INSECURE => .SECURITY
  | REFERER_SECURE_TO_DIFFERENT_ORIGIN => .SECURITY
  | REFERRER_POLICY_STRICT => .SECURITY
  | REFERRER_POLICY_UNSAFE => .SECURITY
  | REFERRER_POLICY_UNKNOWN => .SECURITY
  | REFERRER_POLICY_EMPTY => .SECURITY
  | REFERRER_POLICY_MULTIPLE => .SECURITY
  | REPORT_TO_BAD_STRUCTURE => .GENERAL
  | REPORT_TO_MISSING_KEY => .GENERAL
  | REPORT_TO_BAD_TYPE => .GENERAL
  | ENDPOINT_NOT_SECURE => .SECURITY
  | BAD_REPORTING_ENDPOINT_SYNTAX => .GENERAL
  | SERVER_TOO_LONG => .GENERAL
  | SERVER_TIMING_BAD_PARAM => .GENERAL
  | SERVER_TIMING_MISSING_DUR => .GENERAL
  | SERVER_TIMING_MISSING_DESC => .GENERAL
  | SET_COOKIE_NO_NAME => .COOKIES
  | SET_COOKIE_BAD_DATE => .COOKIES
  | SET_COOKIE_EMPTY_MAX_AGE => .COOKIES
  | SET_COOKIE_LEADING_ZERO_MAX_AGE => .COOKIES
  | SET_COOKIE_NON_DIGIT_MAX_AGE => .COOKIES
  | SET_COOKIE_EMPTY_DOMAIN => .COOKIES
  | SET_COOKIE_NOT_SECURE => .COOKIES
  | SET_COOKIE_UNKNOWN_ATTRIBUTE => .COOKIES
  | SET_COOKIE_PRIORITY => .COOKIES
  | SET_COOKIE_VERSION => .COOKIES
  | SET_COOKIE_UNKNOWN_ATTRIBUTE_VALUE => .COOKIES
  | SET_COOKIE_PARTITIONED_NO_SECURE => .COOKIES
  | SET_COOKIE_TOO_LARGE => .COOKIES
  | SET_COOKIE_VALUE_TOO_LARGE => .COOKIES
  | SET_COOKIE_LIFETIME_TOO_LONG => .COOKIES
  | SET_COOKIE_PREFIX_SECURE_MISSING => .COOKIES
  | SET_COOKIE_PREFIX_HOST_BAD_DOMAIN => .COOKIES
  | SET_COOKIE_PREFIX_HOST_BAD_PATH => .COOKIES
  | SET_COOKIE_ATTRIBUTE_DUP => .COOKIES
  | SET_COOKIE_HARDENED => .COOKIES
  | SET_COOKIE_NAME_DUP => .COOKIES
  | SPECULATION_RULE_NOT_SECURE => .SECURITY
  | SPECULATION_RULES_BAD_TYPE => .GENERAL
  | HSTS_VALID => .SECURITY
  | HSTS_INVALID => .SECURITY
  | HSTS_NO_MAX_AGE => .SECURITY
  | HSTS_MAX_AGE_ZERO => .SECURITY
  | HSTS_SHORT_MAX_AGE => .SECURITY
  | HSTS_SUBDOMAINS => .SECURITY
  | HSTS_NO_SUBDOMAINS => .SECURITY
  | HSTS_PRELOAD => .SECURITY
  | HSTS_PRELOAD_NOT_SUITABLE => .SECURITY
  | HSTS_NO_PRELOAD => .SECURITY
  | HSTS_DUPLICATE_DIRECTIVE => .SECURITY
  | HSTS_TRAILING_SEMICOLON => .SECURITY
  | HSTS_OVER_HTTP => .SECURITY
  | HSTS_BAD_MAX_AGE => .SECURITY
  | HSTS_VALUE_NOT_ALLOWED => .SECURITY
  | SUNSET_PAST => .GENERAL
  | TRANSFER_CODING_IDENTITY => .CONNECTION
  | TRANSFER_CODING_UNWANTED => .CONNECTION
  | TRANSFER_CODING_PARAM => .CONNECTION
  | USE_AS_DICTIONARY_BAD_TYPE => .GENERAL
  | USE_AS_DICTIONARY_BAD_MATCH_DEST => .GENERAL
  | VARY_ASTERISK => .CACHING
  | VARY_USER_AGENT => .CACHING
  | VARY_HOST => .CACHING
  | VARY_NEGOTIATE => .CONNEG
  | VARY_DUPLICATE => .CACHING
  | VARY_COMPLEX => .CACHING
  | VIA_PRESENT => .GENERAL
  | CONTENT_TYPE_OPTIONS => .SECURITY
  | CONTENT_TYPE_OPTIONS_UNKNOWN => .SECURITY
  | FRAME_OPTIONS_DENY => .SECURITY
  | FRAME_OPTIONS_SAMEORIGIN => .SECURITY
  | FRAME_OPTIONS_UNKNOWN => .SECURITY

/-- the class attribute `level` -/
def level : NoteId → Level
  | DATE_CLOCKLESS => .WARN
  | DATE_CLOCKLESS_BAD_HDR => .BAD
  | STORE_METHOD_UNCACHEABLE => .INFO
  | STORE_NO_STORE => .INFO
  | STORE_PRIVATE_CC => .INFO
  | STORE_PRIVATE_PUBLIC_CONFLICT => .BAD
  | STORE_PRIVATE_AUTH => .INFO
  | STORE_PUBLIC_AUTH => .INFO
  | STORE_PUBLIC_UNNECESSARY => .WARN
  | STORE_STORABLE => .INFO
  | STORE_STORABLE_SHARED_ONLY => .INFO
  | STORE_UNSTORABLE => .INFO
  | FRESHNESS_NO_CACHE => .INFO
  | FRESHNESS_NO_CACHE_NO_VALIDATOR => .WARN
  | CURRENT_AGE => .INFO
  | FRESHNESS_FRESH => .GOOD
  | FRESHNESS_SHARED_PRIVATE => .GOOD
  | FRESHNESS_STALE_ALREADY => .INFO
  | FRESHNESS_HEURISTIC => .WARN
  | FRESHNESS_NONE => .INFO
  | STALE_SERVABLE => .INFO
  | STALE_IF_ERROR => .INFO
  | STALE_WHILE_REVALIDATE => .INFO
  | FRESH_MUST_REVALIDATE => .INFO
  | STALE_MUST_REVALIDATE => .INFO
  | FRESH_PROXY_REVALIDATE => .INFO
  | STALE_PROXY_REVALIDATE => .INFO
  | CC_AND_EXPIRES => .INFO
  | CHARSET_MISMATCH => .WARN
  | CHARSET_IMPLICIT_MISMATCH => .WARN
  | CHARSET_UNDECODABLE => .BAD
  | DECOMPRESSION_LIMIT => .BAD
  | BAD_GZIP => .BAD
  | BAD_ZLIB => .BAD
  | BAD_BROTLI => .BAD
  | CONTENT_TYPE_MISMATCH => .WARN
  | CL_CORRECT => .GOOD
  | CL_INCORRECT => .BAD
  | CONTENT_NOT_ALLOWED => .BAD
  | REQUEST_CONTENT_NOT_DEFINED => .BAD
  | URI_TOO_LONG => .WARN
  | URI_BAD_SYNTAX => .BAD
  | STATUS_CODE_NON_NUMERIC => .BAD
  | STATUS_PHRASE_ENCODING => .BAD
  | MISSING_USER_AGENT => .WARN
  | NO_DATE_304 => .WARN
  | HEADER_SHOULD_NOT_BE_IN_304 => .WARN
  | UNEXPECTED_CONTINUE => .BAD
  | UPGRADE_NOT_REQUESTED => .BAD
  | CREATED_SAFE_METHOD => .WARN
  | CREATED_WITHOUT_LOCATION => .BAD
  | PARTIAL_WITHOUT_RANGE => .BAD
  | PARTIAL_NOT_REQUESTED => .BAD
  | REDIRECT_WITHOUT_LOCATION => .BAD
  | STATUS_DEPRECATED => .BAD
  | STATUS_RESERVED => .BAD
  | STATUS_NONSTANDARD => .BAD
  | STATUS_BAD_REQUEST => .WARN
  | STATUS_FORBIDDEN => .INFO
  | STATUS_METHOD_NOT_ALLOWED => .INFO
  | STATUS_405_METHOD_IN_ALLOW => .WARN
  | STATUS_NOT_FOUND => .INFO
  | STATUS_NOT_ACCEPTABLE => .INFO
  | STATUS_406_WITHOUT_NEGOTIATION => .WARN
  | STATUS_CONFLICT => .INFO
  | STATUS_GONE => .INFO
  | STATUS_REQUEST_ENTITY_TOO_LARGE => .INFO
  | STATUS_URI_TOO_LONG => .BAD
  | STATUS_UNSUPPORTED_MEDIA_TYPE => .INFO
  | STATUS_IM_A_TEAPOT => .WARN
  | STATUS_INTERNAL_SERVICE_ERROR => .INFO
  | STATUS_NOT_IMPLEMENTED => .INFO
  | STATUS_BAD_GATEWAY => .INFO
  | STATUS_SERVICE_UNAVAILABLE => .INFO
  | STATUS_GATEWAY_TIMEOUT => .INFO
  | STATUS_VERSION_NOT_SUPPORTED => .BAD
  | STATUS_PRECONDITION_FAILED => .INFO
  | STATUS_EXPECTATION_FAILED => .INFO
  | STATUS_412_WITHOUT_PRECONDITION => .WARN
  | STATUS_416_WITHOUT_RANGE => .WARN
  | STATUS_417_WITHOUT_EXPECT => .WARN
  | STATUS_417_WITH_100_CONTINUE => .INFO
  | STATUS_EARLY_HINTS => .INFO
  | STATUS_UPLOAD_RESUMPTION_SUPPORTED => .INFO
  | STATUS_ALREADY_REPORTED => .INFO
  | STATUS_MISDIRECTED_REQUEST => .INFO
  | STATUS_TOO_EARLY => .INFO
  | STATUS_PRECONDITION_REQUIRED => .INFO
  | STATUS_TOO_MANY_REQUESTS => .INFO
  | STATUS_REQUEST_HEADER_FIELDS_TOO_LARGE => .INFO
  | STATUS_UNAVAILABLE_FOR_LEGAL_REASONS => .INFO
  | STATUS_LOOP_DETECTED => .INFO
  | STATUS_NETWORK_AUTHENTICATION_REQUIRED => .INFO
  | FIELD_NAME_BAD_SYNTAX => .BAD
  | BAD_SYNTAX => .WARN
  | BAD_SYNTAX_DETAILED => .BAD
  | REQUEST_HDR_IN_RESPONSE => .BAD
  | RESPONSE_HDR_IN_REQUEST => .BAD
  | FIELD_DEPRECATED => .WARN
  | CORS_PREFLIGHT_REQUEST => .INFO
  | CORS_PREFLIGHT_REQ_METHOD_WRONG => .BAD
  | CORS_PREFLIGHT_REQ_NO_ORIGIN => .BAD
  | CORS_PREFLIGHT_REQ_NO_METHOD => .BAD
  | CORS_PREFLIGHT_RESPONSE => .INFO
  | CORS_PREFLIGHT_ONLY => .BAD
  | ACAO_MULTIPLE_VALUES => .BAD
  | ACAC_NOT_TRUE => .BAD
  | CORS_ORIGIN_MATCH => .INFO
  | CORS_ORIGIN_MISMATCH => .INFO
  | CORS_ORIGIN_NULL => .INFO
  | CORS_ORIGIN_STAR => .INFO
  | BAD_JSON => .BAD
  | FIELD_TOO_LARGE => .WARN
  | FIELD_SECTION_TOO_LARGE => .WARN
  | FIELD_NAME_ENCODING => .BAD
  | FIELD_VALUE_ENCODING => .WARN
  | SINGLE_HEADER_REPEAT => .BAD
  | DUPLICATE_KEY => .WARN
  | STRUCTURED_FIELD_PARSE_ERROR => .BAD
  | UNNECESSARY_HEADER => .INFO
  | MEDIA_TYPE_BAD_NAME => .WARN
  | MEDIA_TYPE_LONG_NAME => .WARN
  | PARAM_REPEATS => .WARN
  | PARAM_SINGLE_QUOTED => .WARN
  | PARAM_STAR_BAD => .BAD
  | PARAM_STAR_QUOTED => .BAD
  | PARAM_STAR_ERROR => .BAD
  | PARAM_STAR_NOCHARSET => .WARN
  | PARAM_STAR_CHARSET => .WARN
  | BAD_DATE_SYNTAX => .BAD
  | DATE_OBSOLETE => .WARN
  | BAD_Q_VALUE_accept => .WARN
  | ACCEPT_BAD_SYNTAX => .BAD
  | ACCEPT_CH_IN_PLAIN_HTTP => .WARN
  | ACCEPT_CH_MISSING_VARY => .WARN
  | ACCEPT_CH_BAD_TYPE => .BAD
  | BAD_Q_VALUE_accept_language => .WARN
  | ACCEPT_LANGUAGE_BAD_SYNTAX => .BAD
  | ACCEPT_PATCH_BAD_SYNTAX => .BAD
  | ACCEPT_POST_BAD_SYNTAX => .BAD
  | ACCEPT_QUERY_BAD_TYPE => .BAD
  | ACCEPT_QUERY_BAD_SYNTAX => .BAD
  | UNKNOWN_RANGE => .WARN
  | CORS_MAX_AGE_INVALID => .BAD
  | CORS_MAX_AGE_NEGATIVE => .BAD
  | AGE_NOT_INT => .BAD
  | AGE_NEGATIVE => .BAD
  | AGE_LARGE => .WARN
  | ALTSVC_CLEAR_LIST => .BAD
  | AVAILABLE_DICTIONARY_MISSING_AE => .WARN
  | AVAILABLE_DICTIONARY_BAD_TYPE => .WARN
  | CC_SHOULD_NOT_HAVE_VALUE => .BAD
  | CC_BAD_VALUE_TYPE => .BAD
  | CC_MAX_AGE_TOO_LARGE => .WARN
  | CC_MISCAP => .WARN
  | CC_DUP => .WARN
  | CC_CONFLICTING => .WARN
  | CC_WRONG_MESSAGE => .WARN
  | CHECK_SINGLE => .WARN
  | CHECK_ALL_ZERO => .WARN
  | CHECK_POST_BIGGER => .WARN
  | CHECK_POST_ZERO => .BAD
  | CHECK_POST_PRE => .INFO
  | CACHE_GROUP_INVALIDATION_BAD_TYPE => .WARN
  | CACHE_GROUP_INVALIDATION_IGNORED => .WARN
  | CACHE_GROUPS_BAD_TYPE => .WARN
  | CACHE_STATUS => .INFO
  | CACHE_STATUS_UNKNOWN_PARAM => .INFO
  | CACHE_STATUS_BAD_PARAM_VAL => .WARN
  | BAD_CDN_CC_TYPE => .BAD
  | CDN_CACHE_CONTROL_PRESENT => .INFO
  | CSD_PRESENT => .GOOD
  | CSD_UNKNOWN_VALUE => .WARN
  | CSD_EMPTY => .WARN
  | CSD_UNQUOTED => .INFO
  | DISPOSITION_UNKNOWN => .WARN
  | DISPOSITION_OMITS_FILENAME => .WARN
  | DISPOSITION_FILENAME_PERCENT => .WARN
  | DISPOSITION_FILENAME_PATH_CHAR => .WARN
  | DICTIONARY_COMPRESSED_MISSING_VARY => .WARN
  | ENCODING_UNWANTED => .WARN
  | CONTENT_LANGUAGE_DUP => .INFO
  | CL_BAD_SYNTAX => .BAD
  | CL_AND_TE_PRESENT => .BAD
  | CL_TOO_LARGE => .WARN
  | CONTENT_RANGE_MEANINGLESS => .WARN
  | CONTENT_RANGE_MISSING_UNIT => .BAD
  | CONTENT_RANGE_INVALID_ASTERISK => .BAD
  | CONTENT_RANGE_MISSING_SLASH => .BAD
  | RANGE_MISSING_HYPHEN => .BAD
  | RANGE_INVALID_INTEGER => .BAD
  | RANGE_INVALID_content_range => .BAD
  | CONTENT_RANGE_UNSATISFIED_BAD_SC => .WARN
  | CONTENT_RANGE_UNKNOWN_LENGTH => .INFO
  | CONTENT_SECURITY_POLICY => .GOOD
  | CSP_UNSAFE_INLINE => .WARN
  | CSP_UNSAFE_EVAL => .WARN
  | CSP_HTTP_URI => .WARN
  | CSP_DUPLICATE_DIRECTIVE => .WARN
  | CSP_DEPRECATED_REPORT_URI => .WARN
  | CSP_WIDE_OPEN => .WARN
  | CSP_REPORT_TO_MISSING => .WARN
  | COEP_REQUIRE_CORP => .GOOD
  | COEP_CREDENTIALLESS => .GOOD
  | COEP_UNSAFE_NONE => .WARN
  | CROSS_ORIGIN_EMBEDDER_POLICY_BAD_VALUE => .BAD
  | COEP_REPORT_TO_MISSING => .WARN
  | COEP_REPORT_ONLY_DUPLICATE => .WARN
  | COOP_SAME_ORIGIN => .GOOD
  | COOP_SAME_ORIGIN_ALLOW_POPUPS => .GOOD
  | COOP_UNSAFE_NONE => .WARN
  | CROSS_ORIGIN_OPENER_POLICY_BAD_VALUE => .BAD
  | COOP_REPORT_TO_MISSING => .WARN
  | COOP_REPORT_ONLY_DUPLICATE => .WARN
  | CORP_SAME_ORIGIN => .GOOD
  | CORP_SAME_SITE => .GOOD
  | CORP_CROSS_ORIGIN => .INFO
  | CROSS_ORIGIN_RESOURCE_POLICY_BAD_VALUE => .WARN
  | DATE_CORRECT => .GOOD
  | DATE_INCORRECT => .BAD
  | AGE_PENALTY => .WARN
  | DEPRECATION_PAST => .WARN
  | DEPRECATION_FUTURE => .WARN
  | DEPRECATION_TRUE => .WARN
  | DEPRECATION_BAD_TYPE => .BAD
  | EXPECT_UNKNOWN => .WARN
  | EXPECT_HTTP_1_0 => .INFO
  | LM_FUTURE => .BAD
  | LM_PRESENT => .INFO
  | LINK_RESOURCE_HINTS => .GOOD
  | LINK_BAD_HINT_TARGET => .WARN
  | LINK_REV => .WARN
  | LINK_BAD_ANCHOR => .WARN
  | LINK_BAD_TYPE => .WARN
  | LOCATION_UNDEFINED => .WARN
  | LOCATION_NOT_ABSOLUTE => .INFO
  | MAX_FORWARDS_IGNORED => .WARN
  | NEL_BAD_STRUCTURE => .BAD
  | NEL_MISSING_KEY => .WARN
  | NEL_BAD_TYPE => .WARN
  | NEL_BAD_VALUE => .WARN
  | NEL_CONFIGURED => .GOOD
  | NEL_REPORT_TO_MISSING => .WARN
  | BAD_ORIGIN_SYNTAX => .BAD
  | ORIGIN_MULTIPLE_VALUES => .WARN
  | PERMISSIONS_POLICY_PRESENT => .GOOD
  | PERMISSIONS_POLICY_WILDCARD => .WARN
  | PERMISSIONS_POLICY_INVALID_VALUE => .WARN
  | PERMISSIONS_POLICY_UNKNOWN_TOKEN => .WARN
  | PERMISSIONS_POLICY_QUOTED_KEYWORD => .WARN
  | PERMISSIONS_POLICY_INVALID_ITEM_TYPE => .WARN
  | PRAGMA_OTHER => .WARN
  | PROXY_STATUS => .INFO
  | PROXY_STATUS_UNKNOWN_PARAM => .INFO
  | PROXY_STATUS_BAD_PARAM_VAL => .WARN
  | RANGE_INVALID_range => .BAD
  | RANGE_BAD_SYNTAX => .BAD
  | REFERER_SECURE_TO_INSECURE => .BAD
  | REFERER_SECURE_TO_DIFFERENT_ORIGIN => .WARN
  | REFERRER_POLICY_STRICT => .GOOD
  | REFERRER_POLICY_UNSAFE => .WARN
  | REFERRER_POLICY_UNKNOWN => .WARN
  | REFERRER_POLICY_EMPTY => .INFO
  | REFERRER_POLICY_MULTIPLE => .WARN
  | REPORT_TO_BAD_STRUCTURE => .BAD
  | REPORT_TO_MISSING_KEY => .WARN
  | REPORT_TO_BAD_TYPE => .WARN
  | ENDPOINT_NOT_SECURE => .WARN
  | BAD_REPORTING_ENDPOINT_SYNTAX => .BAD
  | SERVER_TOO_LONG => .INFO
  | SERVER_TIMING_BAD_PARAM => .WARN
  | SERVER_TIMING_MISSING_DUR => .INFO
  | SERVER_TIMING_MISSING_DESC => .INFO
  | SET_COOKIE_NO_NAME => .BAD
  | SET_COOKIE_BAD_DATE => .WARN
  | SET_COOKIE_EMPTY_MAX_AGE => .WARN
  | SET_COOKIE_LEADING_ZERO_MAX_AGE => .WARN
  | SET_COOKIE_NON_DIGIT_MAX_AGE => .WARN
  | SET_COOKIE_EMPTY_DOMAIN => .WARN
  | SET_COOKIE_NOT_SECURE => .WARN
  | SET_COOKIE_UNKNOWN_ATTRIBUTE => .WARN
  | SET_COOKIE_PRIORITY => .WARN
  | SET_COOKIE_VERSION => .WARN
  | SET_COOKIE_UNKNOWN_ATTRIBUTE_VALUE => .WARN
  | SET_COOKIE_PARTITIONED_NO_SECURE => .WARN
  | SET_COOKIE_TOO_LARGE => .BAD
  | SET_COOKIE_VALUE_TOO_LARGE => .INFO
  | SET_COOKIE_LIFETIME_TOO_LONG => .WARN
  | SET_COOKIE_PREFIX_SECURE_MISSING => .BAD
  | SET_COOKIE_PREFIX_HOST_BAD_DOMAIN => .BAD
  | SET_COOKIE_PREFIX_HOST_BAD_PATH => .BAD
  | SET_COOKIE_ATTRIBUTE_DUP => .WARN
  | SET_COOKIE_HARDENED => .GOOD
  | SET_COOKIE_NAME_DUP => .WARN
  | SPECULATION_RULE_NOT_SECURE => .WARN
  | SPECULATION_RULES_BAD_TYPE => .BAD
  | HSTS_VALID => .GOOD
  | HSTS_INVALID => .BAD
  | HSTS_NO_MAX_AGE => .BAD
  | HSTS_MAX_AGE_ZERO => .WARN
  | HSTS_SHORT_MAX_AGE => .WARN
  | HSTS_SUBDOMAINS => .INFO
  | HSTS_NO_SUBDOMAINS => .WARN
  | HSTS_PRELOAD => .GOOD
  | HSTS_PRELOAD_NOT_SUITABLE => .BAD
  | HSTS_NO_PRELOAD => .INFO
  | HSTS_DUPLICATE_DIRECTIVE => .WARN
  | HSTS_TRAILING_SEMICOLON => .INFO
  | HSTS_OVER_HTTP => .WARN
  | HSTS_BAD_MAX_AGE => .BAD
  | HSTS_VALUE_NOT_ALLOWED => .BAD
  | SUNSET_PAST => .WARN
  | TRANSFER_CODING_IDENTITY => .INFO
  | TRANSFER_CODING_UNWANTED => .BAD
  | TRANSFER_CODING_PARAM => .WARN
  | USE_AS_DICTIONARY_BAD_TYPE => .WARN
  | USE_AS_DICTIONARY_BAD_MATCH_DEST => .WARN
  | VARY_ASTERISK => .WARN
  | VARY_USER_AGENT => .WARN
  | VARY_HOST => .WARN
  | VARY_NEGOTIATE => .INFO
  | VARY_DUPLICATE => .WARN
  | VARY_COMPLEX => .WARN
  | VIA_PRESENT => .INFO
  | CONTENT_TYPE_OPTIONS => .GOOD
  | CONTENT_TYPE_OPTIONS_UNKNOWN => .WARN
  | FRAME_OPTIONS_DENY => .GOOD
  | FRAME_OPTIONS_SAMEORIGIN => .GOOD
  | FRAME_OPTIONS_UNKNOWN => .WARN

/-- the class attribute `_summary` -/
def summary : NoteId → Str
  | DATE_CLOCKLESS => str "This response doesn't have a Date header."
  | DATE_CLOCKLESS_BAD_HDR => str "This response has an Expires or Last-Modified header, but no Date."
  | STORE_METHOD_UNCACHEABLE => str "Responses to the %(method)s method can't be stored by caches."
  | STORE_NO_STORE => str "This response can't be stored by caches."
  | STORE_PRIVATE_CC => str "This response allows only private caches to store it."
  | STORE_PRIVATE_PUBLIC_CONFLICT => str "This response contains both the `public` and `private` Cache-Control directives."
  | STORE_PRIVATE_AUTH => str "This response can only be stored by private caches, because the request was authenticated."
  | STORE_PUBLIC_AUTH => str "This response can be stored by all caches, even though the request was authenticated."
  | STORE_PUBLIC_UNNECESSARY => str "Cache-Control: public is probably not necessary."
  | STORE_STORABLE => str "This response allows all caches to store it."
  | STORE_STORABLE_SHARED_ONLY => str "This response allows only shared caches to store it."
  | STORE_UNSTORABLE => str "This response cannot be stored by caches."
  | FRESHNESS_NO_CACHE => str "This response cannot be served from cache without validation."
  | FRESHNESS_NO_CACHE_NO_VALIDATOR => str "This response cannot be served from cache without validation, and doesn't have a validator."
  | CURRENT_AGE => str "This response has already been cached for %(age)s."
  | FRESHNESS_FRESH => str "This response is fresh for %(freshness_left)s."
  | FRESHNESS_SHARED_PRIVATE => str "This response is %(private_status)s for %(fresh_left)s (%(shared_status)s for %(share_left)s in shared caches)."
  | FRESHNESS_STALE_ALREADY => str "This response is stale."
  | FRESHNESS_HEURISTIC => str "This response allows caches to assign their own freshness lifetimes to it."
  | FRESHNESS_NONE => str "This response cannot be considered fresh by caches."
  | STALE_SERVABLE => str "In exceptional circumstances, caches can serve this response stale."
  | STALE_IF_ERROR => str "If an error occurs, caches can serve this response stale."
  | STALE_WHILE_REVALIDATE => str "This response can be served stale from a cache while it is being revalidated."
  | FRESH_MUST_REVALIDATE => str "This response cannot be served by a cache once it becomes stale."
  | STALE_MUST_REVALIDATE => str "This response cannot be served by a cache now that it is stale."
  | FRESH_PROXY_REVALIDATE => str "This response cannot be served by a shared cache once it becomes stale."
  | STALE_PROXY_REVALIDATE => str "This response cannot be served by a shared cache now that it is stale."
  | CC_AND_EXPIRES => str "Cache-Control: max-age and Expires are both present."
  | CHARSET_MISMATCH => str "The declared character encoding doesn't match the content."
  | CHARSET_IMPLICIT_MISMATCH => str "The content isn't %(declared_charset)s, as required for %(media_type)s."
  | CHARSET_UNDECODABLE => str "The content can't be decoded using the declared character encoding."
  | DECOMPRESSION_LIMIT => str "This message was truncated because it decompressed to more than 100MB."
  | BAD_GZIP => str "This message was compressed, but the GZIP header wasn't valid."
  | BAD_ZLIB => str "This message was compressed using GZip, but the data was corrupt."
  | BAD_BROTLI => str "This message was compressed using Brotli, but the data was corrupt."
  | CONTENT_TYPE_MISMATCH => str "The content doesn't match the declared Content-Type."
  | CL_CORRECT => str "The Content-Length header is correct."
  | CL_INCORRECT => str "The Content-Length header is incorrect."
  | CONTENT_NOT_ALLOWED => str "%(message)s can not have content."
  | REQUEST_CONTENT_NOT_DEFINED => str "The %(method)s doesn't define any meaning for content."
  | URI_TOO_LONG => str "The URI is very long (%(uri_len)s characters)."
  | URI_BAD_SYNTAX => str "The URI's syntax isn't valid."
  | STATUS_CODE_NON_NUMERIC => str "The status code is not an integer."
  | STATUS_PHRASE_ENCODING => str "The status phrase contains non-ASCII characters."
  | MISSING_USER_AGENT => str "The User-Agent header is missing."
  | NO_DATE_304 => str "304 (Not Modified) responses need to have a Date header."
  | HEADER_SHOULD_NOT_BE_IN_304 => str "This 304 (Not Modified) response contains headers that should not be sent."
  | UNEXPECTED_CONTINUE => str "A 100 (Continue) response was sent when it wasn't asked for."
  | UPGRADE_NOT_REQUESTED => str "The protocol was upgraded without being requested."
  | CREATED_SAFE_METHOD => str "A new resource was created in response to a safe request."
  | CREATED_WITHOUT_LOCATION => str "A new resource was created without its location being sent."
  | PARTIAL_WITHOUT_RANGE => str "This response is partial, but doesn't have a Content-Range header."
  | PARTIAL_NOT_REQUESTED => str "A partial response was sent when it wasn't requested."
  | REDIRECT_WITHOUT_LOCATION => str "Redirects need to have a Location header."
  | STATUS_DEPRECATED => str "The %(status)s status code is deprecated."
  | STATUS_RESERVED => str "The %(status)s status code is reserved."
  | STATUS_NONSTANDARD => str "%(status)s is not a standard HTTP status code."
  | STATUS_BAD_REQUEST => str "The server didn't understand the request."
  | STATUS_FORBIDDEN => str "The server has forbidden this request."
  | STATUS_METHOD_NOT_ALLOWED => str "The resource does not allow the %(method)s method."
  | STATUS_405_METHOD_IN_ALLOW => str "%(method)s is not allowed, but the resource lists it in Allow."
  | STATUS_NOT_FOUND => str "The resource could not be found."
  | STATUS_NOT_ACCEPTABLE => str "The resource cannot produce a response that is acceptable to the client."
  | STATUS_406_WITHOUT_NEGOTIATION => str "The 406 (Not Acceptable) status code appears to be misused."
  | STATUS_CONFLICT => str "The request conflicted with the state of the resource."
  | STATUS_GONE => str "The resource is gone."
  | STATUS_REQUEST_ENTITY_TOO_LARGE => str "The request content was too large for the server."
  | STATUS_URI_TOO_LONG => str "The server won't accept a URI this long %(uri_len)s."
  | STATUS_UNSUPPORTED_MEDIA_TYPE => str "The resource doesn't support this media type in requests."
  | STATUS_IM_A_TEAPOT => str "The server returned 418 (I'm a Teapot), an easter egg defined in RFC 2324."
  | STATUS_INTERNAL_SERVICE_ERROR => str "There was a general server error."
  | STATUS_NOT_IMPLEMENTED => str "The server doesn't implement the request method."
  | STATUS_BAD_GATEWAY => str "An intermediary encountered an error."
  | STATUS_SERVICE_UNAVAILABLE => str "The server is temporarily unavailable."
  | STATUS_GATEWAY_TIMEOUT => str "An intermediary timed out."
  | STATUS_VERSION_NOT_SUPPORTED => str "The request HTTP version isn't supported."
  | STATUS_PRECONDITION_FAILED => str "The request precondition failed."
  | STATUS_EXPECTATION_FAILED => str "The request expectation failed."
  | STATUS_412_WITHOUT_PRECONDITION => str "The request didn't have any preconditions."
  | STATUS_416_WITHOUT_RANGE => str "The request didn't have a Range header."
  | STATUS_417_WITHOUT_EXPECT => str "The request didn't have an Expect header."
  | STATUS_417_WITH_100_CONTINUE => str "The server couldn't meet the 100-continue expectation."
  | STATUS_EARLY_HINTS => str "The server sent early hints."
  | STATUS_UPLOAD_RESUMPTION_SUPPORTED => str "The server supports upload resumption."
  | STATUS_ALREADY_REPORTED => str "The members of a DAV binding have already been enumerated."
  | STATUS_MISDIRECTED_REQUEST => str "The request was directed at a server that is not able to produce a response."
  | STATUS_TOO_EARLY => str "The server is unwilling to risk processing a request that might be replayed."
  | STATUS_PRECONDITION_REQUIRED => str "The origin server requires the request to be conditional."
  | STATUS_TOO_MANY_REQUESTS => str "The client has sent too many requests in a given amount of time."
  | STATUS_REQUEST_HEADER_FIELDS_TOO_LARGE => str "The server is unwilling to process the request because its headers are too large."
  | STATUS_UNAVAILABLE_FOR_LEGAL_REASONS => str "The resource is unavailable for legal reasons."
  | STATUS_LOOP_DETECTED => str "The server terminated an operation because it encountered an infinite loop."
  | STATUS_NETWORK_AUTHENTICATION_REQUIRED => str "The client needs to authenticate to gain network access."
  | FIELD_NAME_BAD_SYNTAX => str "\"%(field_name)s\" is not a valid field name."
  | BAD_SYNTAX => str "The %(field_name)s field value doesn't conform to its specified syntax."
  | BAD_SYNTAX_DETAILED => str "The %(field_name)s field value doesn't conform to its specified syntax."
  | REQUEST_HDR_IN_RESPONSE => str "\"%(field_name)s\" isn't valid in a response."
  | RESPONSE_HDR_IN_REQUEST => str "\"%(field_name)s\" isn't valid in a request."
  | FIELD_DEPRECATED => str "The %(field_name)s header is deprecated."
  | CORS_PREFLIGHT_REQUEST => str "This is a CORS preflight request."
  | CORS_PREFLIGHT_REQ_METHOD_WRONG => str "The %(field_name)s header requires the OPTIONS method."
  | CORS_PREFLIGHT_REQ_NO_ORIGIN => str "The %(field_name)s header requires the Origin header."
  | CORS_PREFLIGHT_REQ_NO_METHOD => str "The %(field_name)s header requires the Access-Control-Request-Method header."
  | CORS_PREFLIGHT_RESPONSE => str "This is a CORS preflight response."
  | CORS_PREFLIGHT_ONLY => str "CORS headers are only allowed in preflight responses."
  | ACAO_MULTIPLE_VALUES => str "Access-Control-Allow-Origin should not have multiple values."
  | ACAC_NOT_TRUE => str "Access-Control-Allow-Credentials must be 'true'."
  | CORS_ORIGIN_MATCH => str "The Access-Control-Allow-Origin header allows the requesting origin."
  | CORS_ORIGIN_MISMATCH => str "The Access-Control-Allow-Origin header does not allow the requesting origin."
  | CORS_ORIGIN_NULL => str "The Access-Control-Allow-Origin header does not allow any origin."
  | CORS_ORIGIN_STAR => str "The Access-Control-Allow-Origin header allows any origin."
  | BAD_JSON => str "The %(field_name)s header value isn't valid JSON."
  | FIELD_TOO_LARGE => str "The %(field_name)s field is very large (%(field_size)s bytes)."
  | FIELD_SECTION_TOO_LARGE => str "The %(field_type)s section is very large (%(section_size)s bytes)."
  | FIELD_NAME_ENCODING => str "The %(field_name)s field's name contains non-ASCII characters."
  | FIELD_VALUE_ENCODING => str "The %(field_name)s field's value contains non-ASCII characters."
  | SINGLE_HEADER_REPEAT => str "Only one %(field_name)s field is allowed in a message."
  | DUPLICATE_KEY => str "In %(field_name)s, the %(context)s key '%(key)s' is duplicated."
  | STRUCTURED_FIELD_PARSE_ERROR => str "The %(field_name)s field value isn't a valid Structured Field."
  | UNNECESSARY_HEADER => str "The %(header_name)s header can probably be removed."
  | MEDIA_TYPE_BAD_NAME => str "The %(field_name)s field's media type name isn't registrable."
  | MEDIA_TYPE_LONG_NAME => str "The %(field_name)s field's media type name is too long."
  | PARAM_REPEATS => str "The '%(param)s' parameter repeats in the %(field_name)s header."
  | PARAM_SINGLE_QUOTED => str "The '%(param)s' parameter on the %(field_name)s header is single-quoted."
  | PARAM_STAR_BAD => str "The %(param)s* parameter isn't allowed on the %(field_name)s field."
  | PARAM_STAR_QUOTED => str "The '%(param)s' parameter's value cannot be quoted."
  | PARAM_STAR_ERROR => str "The %(param)s parameter's value is invalid."
  | PARAM_STAR_NOCHARSET => str "The %(param)s parameter's value doesn't define an encoding."
  | PARAM_STAR_CHARSET => str "The %(param)s parameter's value uses an encoding other than UTF-8."
  | BAD_DATE_SYNTAX => str "The %(field_name)s header's value isn't a valid date."
  | DATE_OBSOLETE => str "The %(field_name)s header's value uses an obsolete format."
  | BAD_Q_VALUE_accept => str "The q value on '%(media_type)s' is invalid."
  | ACCEPT_BAD_SYNTAX => str "The Accept header contains a value that is not a media range."
  | ACCEPT_CH_IN_PLAIN_HTTP => str "Accept-CH is ignored over plain HTTP."
  | ACCEPT_CH_MISSING_VARY => str "Accept-CH lists fields that are missing from Vary."
  | ACCEPT_CH_BAD_TYPE => str "The Accept-CH header isn't a List of Tokens."
  | BAD_Q_VALUE_accept_language => str "The q value on '{language}' is invalid."
  | ACCEPT_LANGUAGE_BAD_SYNTAX => str "The Accept-Language header isn't valid."
  | ACCEPT_PATCH_BAD_SYNTAX => str "The Accept-Patch header contains a value that is not a media type."
  | ACCEPT_POST_BAD_SYNTAX => str "The Accept-Post header contains a value that is not a media type."
  | ACCEPT_QUERY_BAD_TYPE => str "The Accept-Query header contains a value that isn't a media range."
  | ACCEPT_QUERY_BAD_SYNTAX => str "The Accept-Query header contains a value that is not a media range."
  | UNKNOWN_RANGE => str "This response advertises support for non-standard range-units."
  | CORS_MAX_AGE_INVALID => str "Access-Control-Max-Age must be an integer."
  | CORS_MAX_AGE_NEGATIVE => str "Access-Control-Max-Age must be non-negative."
  | AGE_NOT_INT => str "The Age header's value should be an integer."
  | AGE_NEGATIVE => str "The Age headers' value must be a positive integer."
  | AGE_LARGE => str "The Age header's value is very large."
  | ALTSVC_CLEAR_LIST => str "The Alt-Svc 'clear' token cannot be used with other values."
  | AVAILABLE_DICTIONARY_MISSING_AE => str "This request advertises a dictionary for compression, but the client doesn't support it."
  | AVAILABLE_DICTIONARY_BAD_TYPE => str "The Available-Dictionary header has an invalid type."
  | CC_SHOULD_NOT_HAVE_VALUE => str "The %(directive)s cache directive does not accept a value."
  | CC_BAD_VALUE_TYPE => str "The %(directive)s cache directive's value is incorrect."
  | CC_MAX_AGE_TOO_LARGE => str "The %(directive)s cache directive is very large."
  | CC_MISCAP => str "The %(directive)s cache directive has non-lowercase characters."
  | CC_DUP => str "The %(directive)s cache directive appears more than once."
  | CC_CONFLICTING => str "The %(directive)s cache directive overrides other directives."
  | CC_WRONG_MESSAGE => str "The %(directive)s cache directive has no meaning in a %(message_type)s."
  | CHECK_SINGLE => str "Only one of the pre-check and post-check cache directives is present."
  | CHECK_ALL_ZERO => str "The pre-check and post-check cache directives are both '0'."
  | CHECK_POST_BIGGER => str "The post-check cache directive's value is larger than pre-check's."
  | CHECK_POST_ZERO => str "The post-check cache directive's value is '0'."
  | CHECK_POST_PRE => str "This response may be refreshed in the background by Internet Explorer."
  | CACHE_GROUP_INVALIDATION_BAD_TYPE => str "Cache groups need to be strings."
  | CACHE_GROUP_INVALIDATION_IGNORED => str "The Cache-Group-Invalidation header is ignored for %(method)s requests."
  | CACHE_GROUPS_BAD_TYPE => str "Cache groups need to be strings."
  | CACHE_STATUS => str "Detailed information about caching is available."
  | CACHE_STATUS_UNKNOWN_PARAM => str "The Cache-Status header has an unknown parameter '%(param)s'."
  | CACHE_STATUS_BAD_PARAM_VAL => str "The Cache-Status header has an unknown value for '%(param)s'."
  | BAD_CDN_CC_TYPE => str "The %(bad_directive)s CDN cache directive's value is incorrect."
  | CDN_CACHE_CONTROL_PRESENT => str "This response targets cache directives to Content Delivery Networks."
  | CSD_PRESENT => str "This response clears browser-side data for this origin."
  | CSD_UNKNOWN_VALUE => str "The Clear-Site-Data header contains an unknown value '%(value)s'."
  | CSD_EMPTY => str "The Clear-Site-Data header has an empty value."
  | CSD_UNQUOTED => str "Clear-Site-Data contains unquoted values."
  | DISPOSITION_UNKNOWN => str "The '%(disposition)s' Content-Disposition isn't known."
  | DISPOSITION_OMITS_FILENAME => str "The Content-Disposition header doesn't have a 'filename' parameter."
  | DISPOSITION_FILENAME_PERCENT => str "The 'filename' parameter on the Content-Disposition header contains a '%%' character."
  | DISPOSITION_FILENAME_PATH_CHAR => str "The filename in the Content-Disposition header contains a path character."
  | DICTIONARY_COMPRESSED_MISSING_VARY => str "This response is compressed with a dictionary,but is missing Vary: Available-Dictionary."
  | ENCODING_UNWANTED => str "This response uses the '%(coding)s' content-coding, but it wasn't requested."
  | CONTENT_LANGUAGE_DUP => str "The %(lang)s language tag appears more than once."
  | CL_BAD_SYNTAX => str "Content-Length should be an integer."
  | CL_AND_TE_PRESENT => str "Content-Length and Transfer-Encoding should not be present together."
  | CL_TOO_LARGE => str "The Content-Length header is very large."
  | CONTENT_RANGE_MEANINGLESS => str "This response shouldn't have a Content-Range header."
  | CONTENT_RANGE_MISSING_UNIT => str "The Content-Range header is missing a unit (e.g., 'bytes')."
  | CONTENT_RANGE_INVALID_ASTERISK => str "The Content-Range header invalidly uses wildcards."
  | CONTENT_RANGE_MISSING_SLASH => str "The Content-Range header is missing a slash separator."
  | RANGE_MISSING_HYPHEN => str "The Content-Range header is missing a hyphen."
  | RANGE_INVALID_INTEGER => str "The Content-Range header contains a non-integer value."
  | RANGE_INVALID_content_range => str "The Content-Range header is invalid."
  | CONTENT_RANGE_UNSATISFIED_BAD_SC => str "The Content-Range header indicates an unsatisfied range, but the status code is 206."
  | CONTENT_RANGE_UNKNOWN_LENGTH => str "The Content-Range header indicates an unknown total length."
  | CONTENT_SECURITY_POLICY => str "This response sets a Content Security Policy%(report_only)s."
  | CSP_UNSAFE_INLINE => str "Inline scripts are allowed."
  | CSP_UNSAFE_EVAL => str "Unsafe script evaluation is allowed."
  | CSP_HTTP_URI => str "Loading from insecure HTTP sources is allowed."
  | CSP_DUPLICATE_DIRECTIVE => str "Duplicate directives are present."
  | CSP_DEPRECATED_REPORT_URI => str "The deprecated report-uri directive is used."
  | CSP_WIDE_OPEN => str "All sources are allowed in one or more directives."
  | CSP_REPORT_TO_MISSING => str "The report-to endpoint '%(endpoint)s' is not defined."
  | COEP_REQUIRE_CORP => str "This response requires resources to have a CORP header%(report_only)s."
  | COEP_CREDENTIALLESS => str "This response loads cross-origin resources without credentials%(report_only)s."
  | COEP_UNSAFE_NONE => str "This response allows loading cross-origin resources without restriction%(report_only)s."
  | CROSS_ORIGIN_EMBEDDER_POLICY_BAD_VALUE => str "This response's %(field_name)s has an invalid value."
  | COEP_REPORT_TO_MISSING => str "The report-to endpoint '%(endpoint)s' is not defined%(report_only)s."
  | COEP_REPORT_ONLY_DUPLICATE => str "This response has both enforcing and report-only COEP headers."
  | COOP_SAME_ORIGIN => str "This response isolates the browsing context to the same origin%(report_only)s."
  | COOP_SAME_ORIGIN_ALLOW_POPUPS => str "This response isolates the browsing context but allows popups%(report_only)s."
  | COOP_UNSAFE_NONE => str "This response allows sharing the browsing context with cross-origin documents%(report_only)s."
  | CROSS_ORIGIN_OPENER_POLICY_BAD_VALUE => str "This response's %(field_name)s has an invalid value."
  | COOP_REPORT_TO_MISSING => str "The report-to endpoint '%(endpoint)s' is not defined%(report_only)s."
  | COOP_REPORT_ONLY_DUPLICATE => str "This response has both enforcing and report-only COOP headers."
  | CORP_SAME_ORIGIN => str "This response is only available for reading to requests from the same origin."
  | CORP_SAME_SITE => str "This response is available for reading to requests from the same site."
  | CORP_CROSS_ORIGIN => str "This response is available for reading to requests from all origins."
  | CROSS_ORIGIN_RESOURCE_POLICY_BAD_VALUE => str "Cross-Origin-Resource-Policy has an invalid value."
  | DATE_CORRECT => str "The server's clock is correct."
  | DATE_INCORRECT => str "The server's clock is %(clock_skew_string)s."
  | AGE_PENALTY => str "It appears that the Date header has been changed by an intermediary."
  | DEPRECATION_PAST => str "The resource has been deprecated."
  | DEPRECATION_FUTURE => str "The resource will be deprecated."
  | DEPRECATION_TRUE => str "The resource is deprecated."
  | DEPRECATION_BAD_TYPE => str "The Deprecation header value is invalid."
  | EXPECT_UNKNOWN => str "The '%(expectation)s' expectation is not supported."
  | EXPECT_HTTP_1_0 => str "The Expect header is not supported in HTTP/1.0."
  | LM_FUTURE => str "The Last-Modified time is in the future."
  | LM_PRESENT => str "The resource last changed %(last_modified_string)s."
  | LINK_RESOURCE_HINTS => str "This response provides resource hints (%(hints)s)."
  | LINK_BAD_HINT_TARGET => str "The %(rel)s Link target uses an unsupported scheme."
  | LINK_REV => str "The 'rev' parameter on the Link header is deprecated."
  | LINK_BAD_ANCHOR => str "The 'anchor' parameter on the %(link)s Link header isn't a URI."
  | LINK_BAD_TYPE => str "The 'type' parameter on the %(link)s Link header isn't a media type."
  | LOCATION_UNDEFINED => str "This status code doesn't define any meaning for the Location header."
  | LOCATION_NOT_ABSOLUTE => str "The Location header contains a relative URI."
  | MAX_FORWARDS_IGNORED => str "The Max-Forwards header is ignored for this method."
  | NEL_BAD_STRUCTURE => str "The NEL header has an invalid structure."
  | NEL_MISSING_KEY => str "The NEL policy is missing the '%(key)s' key."
  | NEL_BAD_TYPE => str "The NEL policy has an invalid type for '%(key)s'."
  | NEL_BAD_VALUE => str "The NEL policy has an invalid value for '%(key)s'."
  | NEL_CONFIGURED => str "Network Error Logging is configured for this response."
  | NEL_REPORT_TO_MISSING => str "The reporting endpoint '%(value)s' is not defined."
  | BAD_ORIGIN_SYNTAX => str "%(value)s is not a valid origin."
  | ORIGIN_MULTIPLE_VALUES => str "The Origin header contains multiple values."
  | PERMISSIONS_POLICY_PRESENT => str "This response sets a Permissions Policy."
  | PERMISSIONS_POLICY_WILDCARD => str "The '%(feature)s' feature is allowed for all origins."
  | PERMISSIONS_POLICY_INVALID_VALUE => str "The value for '%(feature)s' should be an Inner List or the token '*'."
  | PERMISSIONS_POLICY_UNKNOWN_TOKEN => str "'%(token)s' is not valid in an allowlist."
  | PERMISSIONS_POLICY_QUOTED_KEYWORD => str "The value '%(value)s' looks like a keyword but is a string."
  | PERMISSIONS_POLICY_INVALID_ITEM_TYPE => str "The item '%(item)s' is not a valid type for an allowlist."
  | PRAGMA_OTHER => str "The Pragma header is being used in an undefined way."
  | PROXY_STATUS => str "Information about intermediaries is available."
  | PROXY_STATUS_UNKNOWN_PARAM => str "The Proxy-Status header has an unknown parameter '%(param)s'."
  | PROXY_STATUS_BAD_PARAM_VAL => str "The Proxy-Status header has an unknown value for '%(param)s'."
  | RANGE_INVALID_range => str "The Range header is invalid."
  | RANGE_BAD_SYNTAX => str "The Range header value isn't valid."
  | REFERER_SECURE_TO_INSECURE => str "The Referer header is sent from a secure origin to an insecure target."
  | REFERER_SECURE_TO_DIFFERENT_ORIGIN => str "The Referer header is sent from a secure origin to a different origin."
  | REFERRER_POLICY_STRICT => str "This response's Referrer-Policy ('%(policy)s') restricts referrer leakage."
  | REFERRER_POLICY_UNSAFE => str "This response's Referrer-Policy allows unsafe URLs."
  | REFERRER_POLICY_UNKNOWN => str "The Referrer-Policy value '%(policy)s' is unknown."
  | REFERRER_POLICY_EMPTY => str "No valid Referrer-Policy found."
  | REFERRER_POLICY_MULTIPLE => str "Multiple Referrer-Policy values found; only '%(effective)s' is used."
  | REPORT_TO_BAD_STRUCTURE => str "The Report-To header value has an invalid structure."
  | REPORT_TO_MISSING_KEY => str "The Report-To header value is missing the '%(key)s' key."
  | REPORT_TO_BAD_TYPE => str "The Report-To header has an invalid type for '%(key)s'."
  | ENDPOINT_NOT_SECURE => str "The %(name)s reporting endpoint is not secure."
  | BAD_REPORTING_ENDPOINT_SYNTAX => str "The %(name)s reporting endpoint is invalid."
  | SERVER_TOO_LONG => str "The Server header is long."
  | SERVER_TIMING_BAD_PARAM => str "The '%(param)s' parameter on the '%(metric)s' metric has a non-numeric value."
  | SERVER_TIMING_MISSING_DUR => str "The '%(metric)s' metric is missing the 'dur' parameter."
  | SERVER_TIMING_MISSING_DESC => str "The '%(metric)s' metric is missing the 'desc' parameter."
  | SET_COOKIE_NO_NAME => str "This response has a Set-Cookie header without a cookie-name."
  | SET_COOKIE_BAD_DATE => str "The %(cookie_name)s cookie has an invalid Expires date."
  | SET_COOKIE_EMPTY_MAX_AGE => str "The %(cookie_name)s cookie has an empty Max-Age."
  | SET_COOKIE_LEADING_ZERO_MAX_AGE => str "The %(cookie_name)s cookie has a Max-Age with a leading zero."
  | SET_COOKIE_NON_DIGIT_MAX_AGE => str "The %(cookie_name)s cookie has a non-numeric Max-Age."
  | SET_COOKIE_EMPTY_DOMAIN => str "The %(cookie_name)s cookie has an empty domain."
  | SET_COOKIE_NOT_SECURE => str "The %(cookie_name)s cookie is missing the Secure attribute."
  | SET_COOKIE_UNKNOWN_ATTRIBUTE => str "The %(cookie_name)s cookie has an unknown attribute, '%(attribute)s'."
  | SET_COOKIE_PRIORITY => str "The 'Priority' Set-Cookie attribute is deprecated."
  | SET_COOKIE_VERSION => str "The 'Version Set-Cookie attribute is deprecated."
  | SET_COOKIE_UNKNOWN_ATTRIBUTE_VALUE => str "The %(cookie_name)s cookie has an unknown '%(attribute_name)s' attribute value."
  | SET_COOKIE_PARTITIONED_NO_SECURE => str "The %(cookie_name)s cookie has the Partitioned attribute but is missing the Secure attribute."
  | SET_COOKIE_TOO_LARGE => str "The %(cookie_name)s Set-Cookie header is too large."
  | SET_COOKIE_VALUE_TOO_LARGE => str "The %(cookie_name)s Set-Cookie value is large."
  | SET_COOKIE_LIFETIME_TOO_LONG => str "The %(cookie_name)s Set-Cookie header has a lifetime that is too long."
  | SET_COOKIE_PREFIX_SECURE_MISSING => str "The %(cookie_name)s Set-Cookie header requires the Secure attribute."
  | SET_COOKIE_PREFIX_HOST_BAD_DOMAIN => str "The %(cookie_name)s Set-Cookie header has a __Host- prefix but sets a Domain."
  | SET_COOKIE_PREFIX_HOST_BAD_PATH => str "The %(cookie_name)s Set-Cookie header has a __Host- prefix but does not set Path=/."
  | SET_COOKIE_ATTRIBUTE_DUP => str "The %(cookie_name)s Set-Cookie header has duplicate '%(attribute)s' attributes."
  | SET_COOKIE_HARDENED => str "This response sets cookies restricted with Secure, HttpOnly, and SameSite."
  | SET_COOKIE_NAME_DUP => str "This response sets duplicate cookies."
  | SPECULATION_RULE_NOT_SECURE => str "The speculation rule URL is not secure."
  | SPECULATION_RULES_BAD_TYPE => str "The speculation rule value is invalid."
  | HSTS_VALID => str "Strict Transport Security (HSTS) is enabled."
  | HSTS_INVALID => str "This response's Strict Transport Security (HSTS) header is invalid."
  | HSTS_NO_MAX_AGE => str "There is no max-age directive."
  | HSTS_MAX_AGE_ZERO => str "The max-age is 0."
  | HSTS_SHORT_MAX_AGE => str "The max-age is less than one year."
  | HSTS_SUBDOMAINS => str "HSTS applies to subdomains."
  | HSTS_NO_SUBDOMAINS => str "HSTS doesn't apply to subdomains."
  | HSTS_PRELOAD => str "Browser preloading is allowed."
  | HSTS_PRELOAD_NOT_SUITABLE => str "Browser preloading is allowed, but this policy isn't suitable for it."
  | HSTS_NO_PRELOAD => str "Browser preloading isn't allowed."
  | HSTS_DUPLICATE_DIRECTIVE => str "The HSTS header contains a duplicate directive."
  | HSTS_TRAILING_SEMICOLON => str "The Strict-Transport-Security header has a trailing semicolon."
  | HSTS_OVER_HTTP => str "The HSTS header is sent over HTTP."
  | HSTS_BAD_MAX_AGE => str "The max-age directive in the HSTS header is invalid."
  | HSTS_VALUE_NOT_ALLOWED => str "The %(directive)s directive in the HSTS header must not have a value."
  | SUNSET_PAST => str "The resource has Sunset."
  | TRANSFER_CODING_IDENTITY => str "The identity transfer-coding isn't necessary."
  | TRANSFER_CODING_UNWANTED => str "This response uses the '%(coding)s' transfer-coding, but it wasn't requested."
  | TRANSFER_CODING_PARAM => str "This message had parameters on its transfer-codings."
  | USE_AS_DICTIONARY_BAD_TYPE => str "The %(field_name)s parameter '%(param)s' has an invalid type."
  | USE_AS_DICTIONARY_BAD_MATCH_DEST => str "The match-dest parameter has an invalid type."
  | VARY_ASTERISK => str "Vary: * effectively makes this response uncacheable."
  | VARY_USER_AGENT => str "Vary: User-Agent can cause cache inefficiency."
  | VARY_HOST => str "Vary: Host is not necessary."
  | VARY_NEGOTIATE => str "Transparent Content Negotiation is not widely supported."
  | VARY_DUPLICATE => str "The Vary header contains duplicate values."
  | VARY_COMPLEX => str "This resource varies in %(vary_count)s ways."
  | VIA_PRESENT => str "One or more intermediaries are present."
  | CONTENT_TYPE_OPTIONS => str "This response instructs browsers not to 'sniff' its media type."
  | CONTENT_TYPE_OPTIONS_UNKNOWN => str "X-Content-Type-Options contains an unknown value."
  | FRAME_OPTIONS_DENY => str "This response prevents browsers from rendering it within a frame."
  | FRAME_OPTIONS_SAMEORIGIN => str "This response prevents browsers from rendering it within a frame on another site."
  | FRAME_OPTIONS_UNKNOWN => str "The X-Frame-Options header contains an unknown value."

/-- the class attribute `_text` -/
def text : NoteId → Str
  | DATE_CLOCKLESS => str "Although HTTP allows a server not to send a `Date` header in responses if it doesn't have a local\nclock, this can make calculation of a stored response's age inexact."
  | DATE_CLOCKLESS_BAD_HDR => str "Because both the `Expires` and `Last-Modified` headers are date-based, it's necessary to send when\nthe message was generated in `Date` for them to be useful; otherwise, clock drift, transit times\nbetween nodes as well as caching could skew their application."
  | STORE_METHOD_UNCACHEABLE => str ""
  | STORE_NO_STORE => str "The `Cache-Control: no-store` directive indicates that this response can't be stored by a cache."
  | STORE_PRIVATE_CC => str "The `Cache-Control: private` directive indicates that the response can only be stored by caches\nthat are specific to a single user; for example, a browser cache. Shared caches, such as those in\nproxies, cannot store it."
  | STORE_PRIVATE_PUBLIC_CONFLICT => str "`Cache-Control: public` and `Cache-Control: private` conflict; they should not occur on the same message.\n\nConservative caches will ignore `public` and honor `private`, but this cannot be relied upon."
  | STORE_PRIVATE_AUTH => str "Because the request was authenticated and this response doesn't contain a `Cache-Control: public`\ndirective, this response can only be stored by caches that are specific to a single user; for\nexample, a browser cache. Shared caches, such as those in proxies, cannot store it."
  | STORE_PUBLIC_AUTH => str "Usually, responses to authenticated requests can't be stored by shared caches. However, because\nThis response contains a `Cache-Control: %(directive)s` directive, it can be stored by all caches,\nincluding shared caches (like those in proxies)."
  | STORE_PUBLIC_UNNECESSARY => str "The `Cache-Control: public` directive allows caches to store and use responses\nin some circumstances when they would otherwise not be able to.\n\nFor example, it allows responses to authenticated requests to be stored by shared caches.\n\nOther responses **do not need to contain `public`**; it does not make the\nresponse \"more cacheable\", and only makes the response headers larger."
  | STORE_STORABLE => str "A cache can store this response; it may or may not be able to use it to satisfy a particular\nrequest."
  | STORE_STORABLE_SHARED_ONLY => str "A shared cache can store this response; it may or may not be able to use it to satisfy a\nparticular request.\n\nPrivate caches cannot store it, because there is no explicit freshness information\n(such as Cache-Control: max-age), and the status code is not heuristically cacheable.\n\nNote that a cache extension might override this behaviour."
  | STORE_UNSTORABLE => str "While caches can store many kinds of response as being heuristically cacheable -- that is,\nthey can store them without explicit caching directives like Cache-Control:max-age, this\nreponse's status code is not defined as being heuristically cacheable, and other directives\nthat would allow it to be stored (such as Cache-Control: public) are not present.\n\nNote that a cache extension might override this behaviour."
  | FRESHNESS_NO_CACHE => str "The `Cache-Control: no-cache` directive means that while caches can store this\nresponse, they cannot use it to satisfy a request unless it has been validated (either with an\n`If-None-Match` or `If-Modified-Since` conditional) for that request."
  | FRESHNESS_NO_CACHE_NO_VALIDATOR => str "The `Cache-Control: no-cache` directive means that while caches can store this response, they\ncannot use it to satisfy a request unless it has been validated (either with an `If-None-Match` or\n`If-Modified-Since` conditional) for that request.\n\nThis response doesn't have a `Last-Modified` or `ETag` header, so it effectively can't be used by a\ncache. `Cache-Control: no-store` is more appropriate."
  | CURRENT_AGE => str "HTTP defines an algorithm that uses the `Age` header, `Date` header, and local time observations to\ndetermine the age of a response. As a result, caches might use a value other than that in the `Age`\nheader to determine how old the response is -- and therefore how much longer it can be used."
  | FRESHNESS_FRESH => str "A response can be considered fresh when its age (here, %(current_age)s) is less than its freshness\nlifetime (in this case, %(freshness_lifetime)s)."
  | FRESHNESS_SHARED_PRIVATE => str "This response has different freshness lifetimes for private (e.g., browser) and shared (e.g., proxy)\ncaches.\n\nPrivate caches can consider it fresh for %(fresh_lifetime)s (until %(fresh_left)s from\nnow).\n\nShared caches can consider it fresh for %(share_lifetime)s (until %(share_left)s from now)."
  | FRESHNESS_STALE_ALREADY => str "A HTTP response is stale when its age (here, %(current_age)s) is equal to or exceeds\nits freshness lifetime (in this case, %(freshness_lifetime)s).\n\nThere are a few reasons why a cache might serve a stale response:\n\n* HTTP allows stale responses to be used to satisfy requests in exceptional circumstances;\ne.g., when they lose contact with the origin server. This is subject to a number of requirements.\n* Response directives like `stale-if-error` and `stale-while-revalidate` explicitly allow stale\n  responses to be used in particular circumstances.\n* Some caches are configured to ignore the response's freshness directives."
  | FRESHNESS_HEURISTIC => str "When a response doesn't have explicit freshness information (like a `Cache-Control: max-age`\ndirective, or `Expires` header), caches are allowed to estimate how fresh it is using a heuristic\n(provided that the status code allows it).\n\nCaches often do this using the `Last-Modified` header. For example, if a response was last modified a\nweek ago, a cache might consider it fresh for a day.\n\nConsider adding a `Cache-Control: max-age` header; otherwise, it may be cached for longer or shorter\nthan you'd like."
  | FRESHNESS_NONE => str "This response doesn't have explicit freshness information (like a ` Cache-Control: max-age`\ndirective, or `Expires` header), and this status code doesn't allow caches to calculate their own.\n\nAdditionally, its status code doesn't allow caches to assign their own freshness lifetimes to it.\n\nTherefore, while caches might be allowed to store it, they generally can't use it, unless it can be\nserved stale.\n\nAs a result, many caches will not store the response at all, because it is not generally useful to do\nso."
  | STALE_SERVABLE => str "HTTP allows stale responses to be served in some circumstances; for example, if the origin\nserver can't be contacted, a stale response can be used even if it doesn't have explicit freshness\ninformation available.\n\nThis behaviour can be prevented by using the `Cache-Control: must-revalidate` response directive."
  | STALE_IF_ERROR => str "The `stale-if-error` cache directive allows a cache to return a stale response when an error\n(e.g., a 500 Internal Server Error, or a network timeout) is encountered while attempting to\nrevalidate it.\n\nSee [RFC 5861](https://www.rfc-editor.org/rfc/rfc5861) for more information."
  | STALE_WHILE_REVALIDATE => str "The `stale-while-revalidate` cache directive allows a cache to serve a stale response while a\nrevalidation request is happening in the background.\n\nSee [RFC 5861](https://www.rfc-editor.org/rfc/rfc5861) for more information."
  | FRESH_MUST_REVALIDATE => str "The `Cache-Control: must-revalidate` directive forbids caches from using stale responses to satisfy\nrequests.\n\nFor example, caches often use stale responses when they cannot connect to the origin server; when\nthis directive is present, they will return an error rather than a stale response."
  | STALE_MUST_REVALIDATE => str "The `Cache-Control: must-revalidate` directive forbids caches from using stale responses to satisfy\nrequests.\n\nFor example, caches often use stale responses when they cannot connect to the origin server; when\nthis directive is present, they will return an error rather than a stale response."
  | FRESH_PROXY_REVALIDATE => str "The presence of the `Cache-Control: proxy-revalidate` and/or `s-maxage` directives forbids shared\ncaches (e.g., proxy caches) from using stale responses to satisfy requests.\n\nFor example, caches often use stale responses when they cannot connect to the origin server; when\nthis directive is present, they will return an error rather than a stale response.\n\nThese directives do not affect private caches; for example, those in browsers."
  | STALE_PROXY_REVALIDATE => str "The presence of the `Cache-Control: proxy-revalidate` and/or `s-maxage` directives forbids shared\ncaches (e.g., proxy caches) from using stale responses to satisfy requests.\n\nFor example, caches often use stale responses when they cannot connect to the origin server; when\nthis directive is present, they will return an error rather than a stale response.\n\nThese directives do not affect private caches; for example, those in browsers."
  | CC_AND_EXPIRES => str "The `Cache-Control: max-age` directive and the `Expires` header are both present.\n\n`max-age` takes precedence over `Expires`, so `Expires` is redundant and can be removed."
  | CHARSET_MISMATCH => str "The `Content-Type` header declares the character encoding as `%(declared_charset)s`,\nbut the content appears to be encoded as `%(detected_charset)s`.\n\nRecipients that trust the declared charset might misinterpret the content."
  | CHARSET_IMPLICIT_MISMATCH => str "The `%(media_type)s` media type requires content to be encoded as\n`%(declared_charset)s`, but the content appears to be `%(detected_charset)s`.\n\nRecipients might interpret this content as `%(declared_charset)s` regardless\nof what was sent, so non-ASCII characters may be misrendered."
  | CHARSET_UNDECODABLE => str "The content was declared as `%(declared_charset)s` (either explicitly or by\nthe media type's definition), but it cannot be decoded using that encoding;\nit looks more like `%(detected_charset)s`.\n\nThis will likely cause decoding errors in recipients."
  | DECOMPRESSION_LIMIT => str "httplint limits decompressed content to 100MB to avoid resource exhaustion. This message\nexceeded that limit and was not fully decoded."
  | BAD_GZIP => str "GZip-compressed responses have a header that contains metadata. Here, that header wasn't valid;\nthe error encountered was \"`%(gzip_error)s`\"."
  | BAD_ZLIB => str "GZip-compressed responses use zlib compression to reduce the number of bytes transferred on the\nwire. However, this response could not be decompressed; the error encountered was\n\"`%(zlib_error)s`\".\n\n%(ok_zlib_len)s bytes were decompressed successfully before this; the erroneous chunk starts with (in hex):\n\n    %(chunk_sample)s\n"
  | BAD_BROTLI => str "Brotli-compressed responses use brotli compression to reduce the number of bytes transferred on the\nwire. However, this response could not be decompressed; the error encountered was\n\"`%(brotli_error)s`\".\n\n%(ok_brotli_len)s bytes were decompressed successfully before this; the erroneous chunk starts with (in hex):\n\n    %(chunk_sample)s\n"
  | CONTENT_TYPE_MISMATCH => str "The `Content-Type` header declares the content as `%(declared_type)s`, but it looks like\n`%(sniffed_type)s`."
  | CL_CORRECT => str "`Content-Length` is used by HTTP to delimit messages; that is, to mark the end of one message and\nthe beginning of the next."
  | CL_INCORRECT => str "`Content-Length` is used by HTTP to delimit messages; that is, to mark the end of one message and\nthe beginning of the next. An incorrect `Content-Length` can cause security and interoperability\nissues.\n\nThe actual content size was %(content_length)s bytes."
  | CONTENT_NOT_ALLOWED => str ""
  | REQUEST_CONTENT_NOT_DEFINED => str "There are no defined semantics for content in %(method)s requests. While HTTP's framing layer\nallows content to appear, that does not mean it is valid for every request method, and\nincluding content in a %(method)s request can cause interoperability and security issues.\n"
  | URI_TOO_LONG => str "Long URIs aren't supported by some implementations, including proxies. A reasonable upper size\nlimit is 8192 characters."
  | URI_BAD_SYNTAX => str "This isn't a valid URI. See\n[RFC3986](http://www.ietf.org/rfc/rfc3986.txt) for more information."
  | STATUS_CODE_NON_NUMERIC => str "This isn't a valid status code; it needs to be an ASCII integer."
  | STATUS_PHRASE_ENCODING => str "The status phrase can only contain ASCII characters."
  | MISSING_USER_AGENT => str "Clients SHOULD send a `User-Agent` header field.\n\nSee [RFC 9110 Section 10.1.5](https://www.rfc-editor.org/rfc/rfc9110.html#section-10.1.5)\nfor details."
  | NO_DATE_304 => str "HTTP requires `304 (Not Modified)` responses to have a `Date` header in all but the most unusual\ncircumstances."
  | HEADER_SHOULD_NOT_BE_IN_304 => str "These headers are representation metadata that should not be sent in a 304 response unless\nthey are being used to guide cache updates:\n\n%(headers)s\n\nSee [RFC 9110 Section 15.4.5](https://www.rfc-editor.org/rfc/rfc9110.html#section-15.4.5) for\nmore information."
  | UNEXPECTED_CONTINUE => str "HTTP allows clients to ask a server if a request containing content (e.g., uploading a large file)\nwill succeed before sending it, using a mechanism called \"Expect/continue\".\n\nWhen used, the client sends an `Expect: 100-continue`, in the request headers, and if the server is\nwilling to process it, it will send a `100 (Continue)` status code to indicate that the request\nshould continue.\n\nThis response has a `100 (Continue)` status code, but the request did not ask for it using the\n`Expect` request header. Sending this status code without it being requested can cause\ninteroperability problems."
  | UPGRADE_NOT_REQUESTED => str "HTTP defines the `Upgrade` header as a means of negotiating a change of protocol; i.e., it\nallows you to switch the protocol on a given connection from HTTP to something else.\n\nThis response was upgraded, but the request did not contain an `Upgrade` header field.\n"
  | CREATED_SAFE_METHOD => str "The `201 (Created)` status code indicates that the request created a new resource.\n\nHowever, the request method used (%(method)s) is defined as a \"safe\" method; that is, it\nshould not have any side effects.\n\nCreating resources as a side effect of a safe method can have unintended consequences; for example,\nsearch engine spiders and similar automated agents often follow links, and intermediaries sometimes\nre-try safe methods when they fail."
  | CREATED_WITHOUT_LOCATION => str "The `201 (Created)` status code indicates that the request created a new resource.\n\nHTTP specifies that the URL of the new resource is to be indicated in the `Location` header,\nbut it isn't present in this response."
  | PARTIAL_WITHOUT_RANGE => str "The `206 (Partial Response)` status code indicates that the response content is only partial.\n\nHowever, for a response to be partial, it needs to have a `Content-Range` header to indicate\nwhat part of the full response it carries. This response does not have one."
  | PARTIAL_NOT_REQUESTED => str "The `206 (Partial Response)` status code indicates that the response content is only partial.\n\nHowever, the client needs to ask for it with the `Range` header, and the request did not\ninclude one."
  | REDIRECT_WITHOUT_LOCATION => str "The %(status)s status code redirects users to another URI. The `Location` header is used to\nconvey this URI, but a valid one isn't present in this response."
  | STATUS_DEPRECATED => str "When a status code is deprecated, it should not be used, because its meaning is not well-defined\nenough to ensure interoperability."
  | STATUS_RESERVED => str "Reserved status codes can only be used by future, standard protocol extensions; they are not for\nprivate use."
  | STATUS_NONSTANDARD => str "Non-standard status codes are not well-defined and interoperable. Instead of defining your own\nstatus code, you should reuse one of the more generic ones; for example, `400` for a client-side\nproblem, or `500` for a server-side problem."
  | STATUS_BAD_REQUEST => str ""
  | STATUS_FORBIDDEN => str ""
  | STATUS_METHOD_NOT_ALLOWED => str "The `405 (Method Not Allowed)` status code indicates that the HTTP method is\nknown by the origin server but not supported by the target resource."
  | STATUS_405_METHOD_IN_ALLOW => str "The `405 (Method Not Allowed)` status code indicates that the HTTP method is\nknown by the origin server but not supported by the target resource.\n\nHowever, the `Allow` header field listed in the response contains the method used,\nindicating that it is allowed."
  | STATUS_NOT_FOUND => str "The server couldn't find any resource to serve for the given URI."
  | STATUS_NOT_ACCEPTABLE => str "The `406 (Not Acceptable)` status code indicates that the resource cannot produce a response matching\nthe list of acceptable values defined in the request's proactive negotiation header fields, such\nas `Accept`, `Accept-Charset`, `Accept-Encoding`, or `Accept-Language`.\n"
  | STATUS_406_WITHOUT_NEGOTIATION => str "The `406 (Not Acceptable)` status code indicates that the request cannot produce a response matching\nthe list of acceptable values defined in the request's proactive negotiation header fields.\n\nHowever, this request didn't contain any proactive negotiation headers (such as `Accept`,\n`Accept-Charset`, `Accept-Encoding`, or `Accept-Language`)."
  | STATUS_CONFLICT => str ""
  | STATUS_GONE => str "The server previously had a resource at the given URI, but it is no longer there."
  | STATUS_REQUEST_ENTITY_TOO_LARGE => str "The server rejected the request because the request content sent was too large."
  | STATUS_URI_TOO_LONG => str "The %(status)s status code means that the server can't or won't accept a request-uri this long."
  | STATUS_UNSUPPORTED_MEDIA_TYPE => str ""
  | STATUS_IM_A_TEAPOT => str "RFC 2324 was an April Fools' Day RFC that lampooned the various ways HTTP was abused; one such abuse\nwas the definition of the application-specific `418 (I'm a Teapot)` status code. In the\nintervening years, this status code has been sometimes implemented as an \"easter egg\".\n\nThis status code is not a part of HTTP and hence it might not be supported by some strict\nstandards-compliant clients.\n"
  | STATUS_INTERNAL_SERVICE_ERROR => str ""
  | STATUS_NOT_IMPLEMENTED => str ""
  | STATUS_BAD_GATEWAY => str ""
  | STATUS_SERVICE_UNAVAILABLE => str ""
  | STATUS_GATEWAY_TIMEOUT => str ""
  | STATUS_VERSION_NOT_SUPPORTED => str ""
  | STATUS_PRECONDITION_FAILED => str "The `412 (Precondition Failed)` status code indicates that one or more conditions given in the\nrequest header fields (typically, those starting with `If-`)evaluated to false when tested \non the server."
  | STATUS_EXPECTATION_FAILED => str "The `417 (Expectation Failed)` status code indicates that the expectation given in the request's\n`Expect` header field could not be met by at least one of the inbound servers."
  | STATUS_412_WITHOUT_PRECONDITION => str "The `412 (Precondition Failed)` status code indicates that one or more conditions given in the\nrequest header fields evaluated to false when tested on the server.\n\nHowever, this request didn't contain any conditional headers (such as `If-Match`, `If-None-Match`,\n`If-Modified-Since`, `If-Unmodified-Since`, or `If-Range`)."
  | STATUS_416_WITHOUT_RANGE => str "The `416 (Range Not Satisfiable)` status code indicates that the set of ranges in the request's\n`Range` header field overlap the current extent of the selected resource.\n\nHowever, this request didn't contain a `Range` header."
  | STATUS_417_WITHOUT_EXPECT => str "The `417 (Expectation Failed)` status code indicates that the expectation given in the request's\n`Expect` header field could not be met by at least one of the inbound servers.\n\nHowever, this request didn't contain an `Expect` header."
  | STATUS_417_WITH_100_CONTINUE => str "The `417 (Expectation Failed)` status code indicates that the expectation given in the request's\n`Expect` header field could not be met by at least one of the inbound servers.\n\nIn this case, the client requested `100-continue`, but the server (or an intermediary) couldn't\nsatisfy it."
  | STATUS_EARLY_HINTS => str "The `103 (Early Hints)` status code allows the server to send some headers before the final response,\ntypically to help the client start fetching resources earlier."
  | STATUS_UPLOAD_RESUMPTION_SUPPORTED => str "The `104 (Upload Resumption Supported)` status code indicates that the server supports resumable\nuploads."
  | STATUS_ALREADY_REPORTED => str "The `208 (Already Reported)` status code can be used inside a DAV: propstat response element to\navoid enumerating the internal members of multiple bindings to the same collection repeatedly."
  | STATUS_MISDIRECTED_REQUEST => str "The `421 (Misdirected Request)` status code indicates that the request was directed at a server\nthat is not able to produce a response. This can happen when a connection is reused."
  | STATUS_TOO_EARLY => str "The `425 (Too Early)` status code indicates that the server is unwilling to risk processing a\nrequest that might be replayed."
  | STATUS_PRECONDITION_REQUIRED => str "The `428 (Precondition Required)` status code indicates that the origin server requires the request\nto be conditional."
  | STATUS_TOO_MANY_REQUESTS => str "The `429 (Too Many Requests)` status code indicates that the client has sent too many requests in a\ngiven amount of time (\"rate limiting\")."
  | STATUS_REQUEST_HEADER_FIELDS_TOO_LARGE => str "The `431 (Request Header Fields Too Large)` status code indicates that the server is unwilling to\nprocess the request because its header fields are too large."
  | STATUS_UNAVAILABLE_FOR_LEGAL_REASONS => str "The `451 (Unavailable For Legal Reasons)` status code indicates that the server is denying access to\nthe resource as a consequence of a legal demand."
  | STATUS_LOOP_DETECTED => str "The `508 (Loop Detected)` status code indicates that the server terminated an operation because it\nencountered an infinite loop while processing a request with \"Depth: infinity\"."
  | STATUS_NETWORK_AUTHENTICATION_REQUIRED => str "The `511 (Network Authentication Required)` status code indicates that the client needs to\nauthenticate to gain network access."
  | FIELD_NAME_BAD_SYNTAX => str "Field names are limited to the `token` production in HTTP; i.e., they can't contain parenthesis,\nangle brackets (<>), ampersands (@), commas, semicolons, colons, backslashes (\\), forward\nslashes (/), quotes, square brackets ([]), question marks, equals signs (=), curly brackets ({})\nspaces or tabs."
  | BAD_SYNTAX => str "The value for this field has syntax specified using \n[Augmented BNF](https://www.rfc-editor.org/rfc/rfc5234.html),\nbut doesn't conform to it. See [the field's ABNF](%(ref_uri)s) for more information.\n\nThis error may or may not prevent recipients from parsing the field; fixing it will\nimprove interoperability.\n"
  | BAD_SYNTAX_DETAILED => str "The value for this field has syntax specified using \n[Augmented BNF](https://www.rfc-editor.org/rfc/rfc5234.html),\nbut doesn't conform to it. See [the field's ABNF](%(ref_uri)s) for more information.\n\nThis error may or may not prevent recipients from parsing the field; fixing it will\nimprove interoperability.\n\n`%(problem)s`"
  | REQUEST_HDR_IN_RESPONSE => str "The `%(field_name)s` field only has meaning in requests. Sending it a response\ndoesn't do anything. REDbot (and most recipients) will ignore it."
  | RESPONSE_HDR_IN_REQUEST => str "The `%(field_name)s` field only has meaning in responses. Sending it in a request\ndoesn't do anything. REDbot (and most recipients) will ignore it."
  | FIELD_DEPRECATED => str "This field is no longer recommended for use, because of interoperability problems and/or\nlack of use. This field should probably be removed.\n\nSee [the deprecation notice](%(deprecation_ref)s) for more information."
  | CORS_PREFLIGHT_REQUEST => str "This is a Cross-Origin Resource Sharing (CORS) preflight request.\n\nA preflight request uses the `OPTIONS` method and includes an `Origin` and `Access-Control-Request-Method`\nheader."
  | CORS_PREFLIGHT_REQ_METHOD_WRONG => str "The `%(field_name)s` header is only used in a Cross-Origin Resource Sharing (CORS) preflight\nrequest.\n\nA preflight request uses the `OPTIONS` method; this request uses `%(method)s`."
  | CORS_PREFLIGHT_REQ_NO_ORIGIN => str "The `%(field_name)s` header is only used in a Cross-Origin Resource Sharing (CORS) preflight\nrequest.\n\nA preflight request requires the `Origin` header to be present."
  | CORS_PREFLIGHT_REQ_NO_METHOD => str "The `%(field_name)s` header is only used in a Cross-Origin Resource Sharing (CORS) preflight\nrequest.\n\nA preflight request requires the `Access-Control-Request-Method` header to be present."
  | CORS_PREFLIGHT_RESPONSE => str "This is a Cross-Origin Resource Sharing (CORS) preflight response.\n\nIt is a response to an `OPTIONS` request that includes an `Origin` and `Access-Control-Request-Method`\nheader."
  | CORS_PREFLIGHT_ONLY => str "The following header(s) are only used in the response to a Cross-Origin Resource Sharing (CORS)\npreflight request:\n\n%(headers)s\n\nA preflight request is an `OPTIONS` request that includes an `Origin` header and an\n`Access-Control-Request-Method` header.\n\nThis response was not to a CORS preflight request, so these headers should not be present."
  | ACAO_MULTIPLE_VALUES => str "The `Access-Control-Allow-Origin` header can only contain a single origin, `*`, or `null`. It\ncannot contain a list of origins."
  | ACAC_NOT_TRUE => str "The `Access-Control-Allow-Credentials` header must be set to `true` if present. If you don't want\nto allow credentials, omit the header."
  | CORS_ORIGIN_MATCH => str "The `Access-Control-Allow-Origin` header matches the `Origin` header in the request (`%(origin)s`).\n\nThis means that the browser will let the requesting site access the response."
  | CORS_ORIGIN_MISMATCH => str "The `Access-Control-Allow-Origin` header (`%(acao_value)s`) does not match the `Origin` header\nin the request (`%(origin)s`).\n\nThis means that the browser will **not** let the requesting site access the response."
  | CORS_ORIGIN_NULL => str "The `Access-Control-Allow-Origin` header is set to `null`; this means that no origin can access\nthe response."
  | CORS_ORIGIN_STAR => str "The `Access-Control-Allow-Origin` header is set to `*`; this means that any origin can access\nthe response, unless the request includes credentials or requires a preflight check."
  | BAD_JSON => str "Each `%(field_name)s` field line must be valid JSON.\n\nThe JSON parsing error was:\n    %(error)s"
  | FIELD_TOO_LARGE => str "Some implementations limit the size of any single field line."
  | FIELD_SECTION_TOO_LARGE => str "Some implementations limit the total size of a field section. 32KB is a reasonable\nupper limit."
  | FIELD_NAME_ENCODING => str "HTTP field names can only contain ASCII characters."
  | FIELD_VALUE_ENCODING => str "HTTP fields notionally use the ISO-8859-1 character set, but in most cases are pure ASCII\n(a subset of this encoding).\n\nThis field has non-ASCII characters, which have been interpreted as being encoded in\nISO-8859-1. If another encoding is used (e.g., UTF-8), the results may be unpredictable."
  | SINGLE_HEADER_REPEAT => str "This field is designed to only occur once in a message. When it occurs more than once, a receiver\nneeds to choose the one to use, which can lead to interoperability problems, since different\nimplementations may make different choices."
  | DUPLICATE_KEY => str "The %(context)s key '%(key)s' is duplicated. All instances after the first will be ignored."
  | STRUCTURED_FIELD_PARSE_ERROR => str "The %(field_name)s field is defined as a\n[Structured Field](https://www.rfc-editor.org/rfc/rfc9651.html),\nbut its value can't be parsed as one. As a result, this field is likely\nto be ignored.\n\nThe parser reports this error: `%(problem)s`\n\n%(context)s"
  | UNNECESSARY_HEADER => str "The `%(header_name)s` header adds little value, contributes to unnecessary bandwidth,\nand may increase security risk by exposing details of the back-end system.\n\nConsider removing it."
  | MEDIA_TYPE_BAD_NAME => str "[RFC6838](https://www.rfc-editor.org/rfc/rfc6838.html#section-4.2) requires the type and\nsubtype names in a media type to start with a letter or a digit, and to use only letters,\ndigits and the characters `!`, `#`, `$`, `&`, `-`, `^`, `_`, `.` and `+`. `%(value)s`\nuses something else.\n\nHTTP's own syntax for media types is more permissive, so recipients are likely to accept\nthis; however, a media type named this way can't be registered with IANA."
  | MEDIA_TYPE_LONG_NAME => str "[RFC6838](https://www.rfc-editor.org/rfc/rfc6838.html#section-4.2) limits the type and\nsubtype names in a media type to 127 characters each; `%(value)s` is longer than that.\n\nIt also recommends keeping them to 64 characters, because longer names run into\nimplementation limits."
  | PARAM_REPEATS => str "Parameters on the `%(field_name)s` field should not repeat; implementations may handle them\ndifferently."
  | PARAM_SINGLE_QUOTED => str "The `%(param)s`'s value on the `%(field_name)s` field starts and ends with a single quote (').\nHowever, single quotes don't mean anything there.\n\nThis means that the value will be interpreted as `%(param_val)s`, **not**\n`%(param_val_unquoted)s`. If you intend the latter, remove the single quotes."
  | PARAM_STAR_BAD => str "Parameter values that end in '*' are reserved for non-ascii text, as explained in\n[RFC5987](https://www.rfc-editor.org/rfc/rfc5987).\n\nThe `%(param)s` parameter on the `%(field_name)s` field does not allow this; you should use\n%(param)s without the \"*\" on the end (and without the associated encoding)."
  | PARAM_STAR_QUOTED => str "Parameter values that end in '*' have a specific format, defined in\n[RFC5987](https://www.rfc-editor.org/rfc/rfc5987), to allow non-ASCII text.\n\nThe `%(param)s` parameter on the `%(field_name)s` field has double-quotes around it, which is not\nvalid."
  | PARAM_STAR_ERROR => str "Parameter values that end in '*' have a specific format, defined in\n[RFC5987](https://www.rfc-editor.org/rfc/rfc5987), to allow non-ASCII text.\n\nThe `%(param)s` parameter on the `%(field_name)s` field is not valid; it needs to have three\nparts, separated by single quotes (')."
  | PARAM_STAR_NOCHARSET => str "Parameter values that end in '*' have a specific format, defined in\n[RFC5987](https://www.rfc-editor.org/rfc/rfc5987), to allow non-ASCII text.\n\nThe `%(param)s` parameter on the `%(field_name)s` header doesn't declare its character encoding,\nwhich means that recipients can't understand it. It should be `UTF-8`."
  | PARAM_STAR_CHARSET => str "Parameter values that end in '*' have a specific format, defined in\n[RFC5987](https://www.rfc-editor.org/rfc/rfc5987), to allow non-ASCII text.\n\nThe `%(param)s` parameter on the `%(field_name)s` header uses the `'%(enc)s` encoding, which has\ninteroperability issues with some browsers. It should be `UTF-8`."
  | BAD_DATE_SYNTAX => str "HTTP dates have specific syntax, and sending an invalid date can cause a number of problems,\nespecially with caching. Common problems include sending \"1 May\" instead of \"01 May\" (the month\nis a fixed-width field), and sending a date in a timezone other than GMT.\n\nSee [the HTTP specification](https://www.rfc-editor.org/rfc/rfc9110.html#name-date-time-formats) for more\ninformation."
  | DATE_OBSOLETE => str "HTTP has a number of defined date formats for historical reasons. This header is using an old\nformat that are now obsolete. See [the\nspecification](https://www.rfc-editor.org/rfc/rfc9110.html#name-obsolete-date-formats) for more information.\n"
  | BAD_Q_VALUE_accept => str "The `q` parameter must be a decimal number between 0 and 1, with at most 3 digits of precision."
  | ACCEPT_BAD_SYNTAX => str "`%(value)s` is not a valid media range. `Accept` is a list of media ranges\n(e.g., `text/html`, `image/*`, `*/*`) that the client prefers in the response;\nsee [its definition](%(ref_uri)s) for more information."
  | ACCEPT_CH_IN_PLAIN_HTTP => str "The `Accept-CH` header field should only be used on secure (HTTPS) responses. Using it over plain\nHTTP exposes the user's information to network observers. Because of this, browsers will ignore the\nheader."
  | ACCEPT_CH_MISSING_VARY => str "The following fields appear in `Accept-CH` but are not listed in the `Vary` header:\n%(missing_fields)s, even though the response is cacheable.\n\nBecause these fields can affect the response content, they should be included in `Vary` to ensure\nthat caches store separate responses for different client hints."
  | ACCEPT_CH_BAD_TYPE => str "The value for this field is legally formatted as a\n[Structured Field](https://www.rfc-editor.org/rfc/rfc8941.html), but it isn't a list of Tokens.\nAs a result, it will likely be ignored by browsers.\n\nSee [its definition](%(ref_uri)s) for more information."
  | BAD_Q_VALUE_accept_language => str "The `q` parameter must be a decimal number between 0 and 1, with at most 3 digits of precision."
  | ACCEPT_LANGUAGE_BAD_SYNTAX => str "The value for this field doesn't conform to its specified syntax; see [its\ndefinition](%(ref_uri)s) for more information."
  | ACCEPT_PATCH_BAD_SYNTAX => str "`%(value)s` is not a valid media type. `Accept-Patch` is a list of media types\n(e.g., `application/json-patch+json`) accepted in a PATCH request; see [its\ndefinition](%(ref_uri)s) for more information."
  | ACCEPT_POST_BAD_SYNTAX => str "`%(value)s` is not a valid media type. `Accept-Post` is a list of media types\n(e.g., `text/turtle`) accepted in a POST request; see [its definition](%(ref_uri)s)\nfor more information."
  | ACCEPT_QUERY_BAD_TYPE => str "`Accept-Query` is a List Structured Field whose members are Tokens or Strings, each\nnaming a media range accepted in the content of a QUERY request. `%(value)s` is\nneither, so it will be ignored."
  | ACCEPT_QUERY_BAD_SYNTAX => str "`%(value)s` is not a valid media range. `Accept-Query` is a list of media ranges\n(e.g., `application/sparql-query`, `text/*`) accepted in the content of a QUERY\nrequest; see [its definition](%(ref_uri)s) for more information."
  | UNKNOWN_RANGE => str "The `Accept-Ranges` response header tells clients what `range-unit`s a resource is willing to\nprocess in future requests. HTTP only defines two: `bytes` and `none`.\n\nClients who don't know about the non-standard range-unit will not be able to use it."
  | CORS_MAX_AGE_INVALID => str "The `Access-Control-Max-Age` header indicates how many seconds a preflight response can be cached\nfor. It must be a non-negative integer."
  | CORS_MAX_AGE_NEGATIVE => str "The `Access-Control-Max-Age` header indicates how many seconds a preflight response can be cached\nfor. It cannot be less than zero."
  | AGE_NOT_INT => str "The `Age` header indicates the age of the response; i.e., how long it has been cached\nsince it was generated. The value given was not an integer, so it is not a valid age."
  | AGE_NEGATIVE => str "The `Age` header indicates the age of the response; i.e., how long it has been cached\nsince it was generated. The value given was negative, so it is not a valid age."
  | AGE_LARGE => str "The `Age` header's value is greater than 2,147,483,648. Some implementations may represent it\nusing that value (which is over 68 years).\n"
  | ALTSVC_CLEAR_LIST => str "The `Alt-Svc` header field value \"clear\" is used to invalidate previous alternative services.\nIt cannot be combined with other alternative service advertisements."
  | AVAILABLE_DICTIONARY_MISSING_AE => str "The `Available-Dictionary` header is present, but `Accept-Encoding` does not contain 'dcb' or 'dcz'.\n\n[RFC 9842 Section 6.1](https://www.rfc-editor.org/rfc/rfc9842.html#section-6.1) requires that if a\nclient sends `Available-Dictionary`, it MUST also advertise support for dictionary-based content\nencoding (dcb or dcz) in `Accept-Encoding`."
  | AVAILABLE_DICTIONARY_BAD_TYPE => str "The `Available-Dictionary` header value must be a Byte Sequence. Found `%(got)s`."
  | CC_SHOULD_NOT_HAVE_VALUE => str "The `%(directive)s` cache directive is a flag; it shouldn't have a value."
  | CC_BAD_VALUE_TYPE => str "The `%(directive)s` cache directive type is %(expected_type)s, but `%(value)s` was found."
  | CC_MAX_AGE_TOO_LARGE => str "The `%(directive)s` cache directive's value is greater than 2^31-1. Some implementations may not be\nable to handle values this large."
  | CC_MISCAP => str "cache directive names are case-insensitive, but some implementations don't\nrecognize directives that aren't all-lowercase.\n\nTherefore, it's safest to use `%(directive_lower)s` instead of `%(directive)s`."
  | CC_DUP => str "The `%(directive)s` cache directive is only defined to appear once; it is used more than\nonce here, so implementations may use different instances (e.g., the first, or the last),\nmaking their behaviour unpredictable."
  | CC_CONFLICTING => str "The `%(directive)s` cache directive overrides or conflicts with these other directives: \n\n%(conflicts)s\n\nThe conflicting directives will be ignored by caches, and can be safely omitted.\n    "
  | CC_WRONG_MESSAGE => str "The `%(directive)s` cache directive is only defined to appear in %(other_message)s\nmessages; is has no defined meaning in a %(message_type)s."
  | CHECK_SINGLE => str "Microsoft Internet Explorer implements two `Cache-Control` extensions, `pre-check` and\n`post-check`, to give more control over how its cache stores responses.\n\nThis response uses only one of these directives; as a result, Internet Explorer will ignore the\ndirective, since it requires both to be present.\n"
  | CHECK_ALL_ZERO => str "Microsoft Internet Explorer implements two `Cache-Control` extensions, `pre-check` and\n`post-check`, to give more control over how its cache stores responses.\n\nThis response gives a value of \"0\" for both; as a result, Internet Explorer will ignore the\ndirective, since it requires both to be present.\n\nIn other words, setting these to zero has **no effect** (besides wasting bandwidth),\nand may trigger bugs in some beta versions of IE."
  | CHECK_POST_BIGGER => str "Microsoft Internet Explorer implements two `Cache-Control` extensions, `pre-check` and\n`post-check`, to give more control over how its cache stores responses.\n\nThis response assigns a higher value to `post-check` than to `pre-check`; this means that Internet\nExplorer will treat `post-check` as if its value is the same as `pre-check`'s."
  | CHECK_POST_ZERO => str "Microsoft Internet Explorer implements two `Cache-Control` extensions, `pre-check` and\n`post-check`, to give more control over how its cache stores responses.\n\nThis response assigns a value of \"0\" to `post-check`, which means that Internet Explorer will reload\nthe content as soon as it enters the browser cache, effectively **doubling the load on the\nserver**."
  | CHECK_POST_PRE => str "Microsoft Internet Explorer implements two `Cache-Control` extensions, `pre-check` and\n`post-check`, to give more control over how its cache stores responses.\n\nOnce it has been cached for more than %(post_check)s seconds, a new request will result in the\ncached response being served while it is refreshed in the background. However, if it has been\ncached for more than %(pre_check)s seconds, the browser will download a fresh response before\nshowing it to the user.\n\nNote that these directives do not have any effect on other clients or caches."
  | CACHE_GROUP_INVALIDATION_BAD_TYPE => str "The `%(field_name)s` header values must be Strings. Found `%(got)s`."
  | CACHE_GROUP_INVALIDATION_IGNORED => str "The `Cache-Group-Invalidation` header is only processed for unsafe methods (like POST, PUT, DELETE).\nIt will be ignored for `%(method)s` requests."
  | CACHE_GROUPS_BAD_TYPE => str "The `%(field_name)s` header values must be Strings. Found `%(got)s`."
  | CACHE_STATUS => str "The `Cache-Status` header field indicates how caches have handled the response.\n\n%(status)s\n"
  | CACHE_STATUS_UNKNOWN_PARAM => str "The `%(param)s` parameter is not defined in the Cache-Status specification.\n"
  | CACHE_STATUS_BAD_PARAM_VAL => str "The value `%(value)s` is not defined for the `%(param)s` parameter.\n"
  | BAD_CDN_CC_TYPE => str "The value for this directive must be %(expected_type)s."
  | CDN_CACHE_CONTROL_PRESENT => str "The `CDN-Cache-Control` header field allows you to specify cache directives that are targeted at\nContent Delivery Network (CDN) caches, separately from the `Cache-Control` header field (which\napplies to all caches)."
  | CSD_PRESENT => str "The `Clear-Site-Data` header instructs the browser to clear the following data for this origin:\n%(values)s.\n\nThis is useful for actions such as logout, account switching, or session termination, where\nlocally-stored data should not persist."
  | CSD_UNKNOWN_VALUE => str "The `Clear-Site-Data` header contains a value that is not recognized.\nValid values are: `\"cache\"`, `\"cookies\"`, `\"storage\"`, `\"executionContexts\"`, `\"*\"`."
  | CSD_EMPTY => str "The `Clear-Site-Data` header value is empty. It should contain at least one directive."
  | CSD_UNQUOTED => str "Values in the `Clear-Site-Data` header must be quoted; unquoted values will be ignored. \n\nThe following values were found unquoted: `%(values)s`."
  | DISPOSITION_UNKNOWN => str "The `Content-Disposition` header has two widely-known values; `inline` and `attachment`.\n`%(disposition)s` isn't recognised, and most implementations will default to handling it like\n`attachment`."
  | DISPOSITION_OMITS_FILENAME => str "The `Content-Disposition` header with a disposition of `attachment` suggests a filename for clients\nto use when saving the file locally.\n\nIt should always contain a `filename` parameter, even when the `filename*` parameter is used to\ncarry an internationalised filename, so that browsers can fall back to an ASCII-only filename."
  | DISPOSITION_FILENAME_PERCENT => str "The `Content-Disposition` header suggests a filename for clients to use when saving the file\nlocally, using the `filename` parameter.\n\n[RFC6266](https://www.rfc-editor.org/rfc/rfc6266) specifies how to carry non-ASCII characters in this\nparameter. However, historically some (but not all) browsers have also decoded %%-encoded\ncharacters in the `filename` parameter, which means that they'll be treated differently depending\non the browser you're using.\n\nAs a result, it's not interoperable to use percent characters in the `filename` parameter. Use the\ncorrect encoding in the `filename*` parameter instead."
  | DISPOSITION_FILENAME_PATH_CHAR => str "The `Content-Disposition` header suggests a filename for clients to use when saving the file\nlocally, using the `filename` and `filename*` parameters.\n\nOne of these parameters contains a path character (\"\\\" or \"/\"), used to navigate between\ndirectories on common operating systems.\n\nBecause this can be used to attach the browser's host operating system (e.g., by saving a file to a\nsystem directory), browsers will usually ignore these parameters, or remove path information.\n\nYou should remove these characters."
  | DICTIONARY_COMPRESSED_MISSING_VARY => str "The response is compressed with a dictionary (dcb or dcz) and is cacheable, but does not list\n`Available-Dictionary` in the `Vary` header.\n\n[RFC 9842 Section 6.2](https://www.rfc-editor.org/rfc/rfc9842.html#section-6.2) requires that\ncacheable dictionary-compressed responses MUST include `Available-Dictionary` in the `Vary` header\nto prevent serving compressed content to clients that do not have the dictionary."
  | ENCODING_UNWANTED => str "This response's `Content-Encoding` header indicates it has the `%(coding)s content-coding applied\n, but the client didn't indicate support for it in the request.\n\nNormally, clients ask for the encodings they want in the `Accept-Encoding` request header. Using\nencodings that the client doesn't explicitly request can lead to interoperability problems."
  | CONTENT_LANGUAGE_DUP => str "The `%(lang)s` language tag is used more than once in the `Content-Language` header.\n\nRecipients will likely ignore duplicates."
  | CL_BAD_SYNTAX => str "The `Content-Length` header should be an integer, but it was not."
  | CL_AND_TE_PRESENT => str "RFC 9110 Section 8.6:\n> A sender MUST NOT send a Content-Length header field in any message that contains a Transfer-Encoding header field.\n\nThis is because `Transfer-Encoding` overrides `Content-Length`."
  | CL_TOO_LARGE => str "The `Content-Length` header's value is greater than 2^63-1. Some implementations may not be able to\nhandle values this large."
  | CONTENT_RANGE_MEANINGLESS => str "HTTP only defines meaning for the `Content-Range` header in responses with a `206` (Partial\nContent) or `416` (Requested Range Not Satisfiable) status code.\n\nBecause the status code is neither of those, this `Content-Range` header may confuse caches and\nclients."
  | CONTENT_RANGE_MISSING_UNIT => str "The `Content-Range` header is missing a range unit at the start; it should\nalmost always be `bytes`.\n\nFor example:\n\n    Content-Range: bytes 1-100/200\n"
  | CONTENT_RANGE_INVALID_ASTERISK => str "The `Content-Range` header cannot use a wildcard (`*`) for both the range and the complete length.\n"
  | CONTENT_RANGE_MISSING_SLASH => str "The `Content-Range` header is missing a slash (`/`) separating the range from the complete length.\n\nFor example:\n\n    Content-Range: bytes 1-100/200\n"
  | RANGE_MISSING_HYPHEN => str "The range specifier `%(value)s` is missing a hyphen separating the start and end positions."
  | RANGE_INVALID_INTEGER => str "The value `%(value)s` is not a valid integer."
  | RANGE_INVALID_content_range => str "The values indicated by the `Content-Range` header are not valid. The first position must be less\nthan or equal to the last position, and the last position must be less than the complete length."
  | CONTENT_RANGE_UNSATISFIED_BAD_SC => str "The `Content-Range` header uses the `*/<length>` syntax, which is reserved for `416` (Requested\nRange Not Satisfiable) responses to indicate the actual length of the resource.\n\nThe `206` response status code indicates a successful range response, so this header is\nincorrect."
  | CONTENT_RANGE_UNKNOWN_LENGTH => str "The `Content-Range` header uses `*` for the instance length, indicating that the total length of\nthe resource is unknown."
  | CONTENT_SECURITY_POLICY => str "[Content Security Policy](https://www.w3.org/TR/CSP3/) allows the server to declare\nthe sources of content that browsers are allowed to use on a page.%(report_only_text)s"
  | CSP_UNSAFE_INLINE => str "The `'unsafe-inline'` [Content Security Policy](https://www.w3.org/TR/CSP3/)\ndirective allows the execution of inline scripts and event handlers, which\nsignificantly reduces the protection provided by CSP against Cross-Site\nScripting (XSS) attacks.\n\nIt was found in the following directives:\n\n%(directives_list)s"
  | CSP_UNSAFE_EVAL => str "The `'unsafe-eval'` [Content Security Policy](https://www.w3.org/TR/CSP3/)\ndirective allows the use of string-to-code mechanisms like `eval()`, which can make it easier for\nattackers to execute malicious code.\n\nIt was found in the following directives:\n\n%(directives_list)s"
  | CSP_HTTP_URI => str "Allowing `http:` sources in `%(field_name)s` can allow attackers to intercept and modify\ncontent loaded by the page, potentially bypassing security controls.\n\nIt was found in the following directives:\n\n%(directives_list)s"
  | CSP_DUPLICATE_DIRECTIVE => str "Directives must only appear once in the `%(field_name)s` header; subsequent occurrences are ignored.\n\nThe following directives were duplicated:\n\n%(directives_list)s"
  | CSP_DEPRECATED_REPORT_URI => str "The `report-uri` [Content Security Policy](https://www.w3.org/TR/CSP3/)\ndirective is deprecated in favor of `report-to`. It is recommended to use `report-to`\nfor reporting violations, although `report-uri` may still be supported for backward\ncompatibility."
  | CSP_WIDE_OPEN => str "The `*` [Content Security Policy](https://www.w3.org/TR/CSP3/)\ndirective allows resources to be loaded from any origin, which significantly reduces the protection\nprovided by CSP.%(report_only_text)s\n\nIt was found in the following directives:\n\n%(directives_list)s"
  | CSP_REPORT_TO_MISSING => str "The `report-to` directive [Content Security Policy](https://www.w3.org/TR/CSP3/)\nspecifies a reporting endpoint, but no matching endpoint refers to it in the\n`Reporting-Endpoints` header.%(report_only_text)s"
  | COEP_REQUIRE_CORP => str "The `require-corp`\n[Cross Origin Embedder Policy](https://fetch.spec.whatwg.org/#cross-origin-embedder-policy-header)\nrequires that all cross-origin resources must explicitly grant permission to be loaded via a\n`Cross-Origin-Resource-Policy` header, in supporting browsers.%(report_only_text)s"
  | COEP_CREDENTIALLESS => str "The `credentialless`\n[Cross-Origin Embedder Policy](https://fetch.spec.whatwg.org/#cross-origin-embedder-policy-header)\nallows loading cross-origin resources without explicit permission in supporting browsers, but\nrequests for them will not include credentials (cookies, client certificates,\netc.).%(report_only_text)s"
  | COEP_UNSAFE_NONE => str "The `unsafe-none`\n[Cross-Origin Embedder Policy](https://fetch.spec.whatwg.org/#cross-origin-embedder-policy-header)\nis the default behavior, allowing cross-origin resources to be loaded\nwithout explicit permission in supporting browsers.\n\nThis does not provide cross-origin isolation.%(report_only_text)s"
  | CROSS_ORIGIN_EMBEDDER_POLICY_BAD_VALUE => str "The `%(field_name)s` header must be one of `require-corp`, `credentialless`, or\n`unsafe-none`.\n"
  | COEP_REPORT_TO_MISSING => str "The `report-to` parameter in the\n[Cross-Origin Embedder Policy](https://fetch.spec.whatwg.org/#cross-origin-embedder-policy-header)\nheader specifies a reporting endpoint, but no matching endpoint refers to it in the\n`Reporting-Endpoints` header."
  | COEP_REPORT_ONLY_DUPLICATE => str "A response should not have both `Cross-Origin-Embedder-Policy` and\n`Cross-Origin-Embedder-Policy-Report-Only` headers. The report-only header will be ignored."
  | COOP_SAME_ORIGIN => str "The `same-origin`\n[Cross-Origin Opener Policy](https://html.spec.whatwg.org/multipage/origin.html#coop)\nisolates the browsing context, preventing it from sharing a window object\nwith cross-origin documents in supporting browsers.%(report_only_text)s"
  | COOP_SAME_ORIGIN_ALLOW_POPUPS => str "The `same-origin-allow-popups`\n[Cross-Origin Opener Policy](https://html.spec.whatwg.org/multipage/origin.html#coop)\nisolates the browsing context but maintains a relationship\nwith popups that it opens, or that opened it, in supporting browsers.%(report_only_text)s"
  | COOP_UNSAFE_NONE => str "The `unsafe-none`\n[Cross-Origin Opener Policy](https://html.spec.whatwg.org/multipage/origin.html#coop)\nis the default behavior in supporting browsers. It allows the document to share a browsing context\ngroup with other documents unless they enforce isolation.%(report_only_text)s"
  | CROSS_ORIGIN_OPENER_POLICY_BAD_VALUE => str "The `%(field_name)s` header must be one of `same-origin`, `same-origin-allow-popups`,\nor `unsafe-none`.\n"
  | COOP_REPORT_TO_MISSING => str "The `report-to` parameter in the\n[Cross-Origin Opener Policy](https://html.spec.whatwg.org/multipage/origin.html#coop)\nheader specifies a reporting endpoint, but no matching endpoint refers to it in the\n`Reporting-Endpoints` header."
  | COOP_REPORT_ONLY_DUPLICATE => str "A response should not have both `Cross-Origin-Opener-Policy` and\n`Cross-Origin-Opener-Policy-Report-Only` headers. The report-only header will be ignored."
  | CORP_SAME_ORIGIN => str "The `same-origin`\n[Cross-Origin Resource Policy](https://fetch.spec.whatwg.org/#cross-origin-resource-policy-header)\nprevents the resource from being read by any cross-origin document \nin supporting browsers.%(report_only_text)s"
  | CORP_SAME_SITE => str "The `same-site`\n[Cross-Origin Resource Policy](https://fetch.spec.whatwg.org/#cross-origin-resource-policy-header)\nallows the resource to be read by documents from the same site, but\nprevents it from being read by cross-site documents in supporting browsers.%(report_only_text)s"
  | CORP_CROSS_ORIGIN => str "The `cross-origin`\n[Cross-Origin Resource Policy](https://fetch.spec.whatwg.org/#cross-origin-resource-policy-header)\nallows the resource to be read by any document in supporting browsers, regardless of its \norigin.%(report_only_text)s"
  | CROSS_ORIGIN_RESOURCE_POLICY_BAD_VALUE => str "`%(value)s` is not a valid in the `Cross-Origin-Resource-Policy` header;\nit must be one of `same-origin`, `same-site`, or `cross-origin`.\n"
  | DATE_CORRECT => str "HTTP's caching model assumes reasonable synchronisation between clocks on the server and client;\ncompared to the local clock, the server's clock appears to be well-synchronised."
  | DATE_INCORRECT => str "Compared to the local clock, the server's clock does not appear to be well-synchronised.\n\nHTTP's caching model assumes reasonable synchronisation between clocks on the server and client;\nclock skew can cause responses that should be cacheable to be considered uncacheable (especially if\ntheir freshness lifetime is short).\n\nAsk your server administrator to synchronise the clock, e.g., using\n[NTP](http://en.wikipedia.org/wiki/Network_Time_Protocol Network Time Protocol).\n\nApparent clock skew can also be caused by caching the response without adjusting the `Age` header;\ne.g., in a reverse proxy or Content Delivery network. See [this\npaper](https://www.usenix.org/legacy/events/usits01/full_papers/cohen/cohen_html/index.html) for more information. "
  | AGE_PENALTY => str "It appears that this response has been cached by a reverse proxy or Content Delivery Network,\nbecause the `Age` header is present, but the `Date` header is more recent than it indicates.\n\nGenerally, reverse proxies should either omit the `Age` header (if they have another means of\ndetermining how fresh the response is), or leave the `Date` header alone (i.e., act as a normal\nHTTP cache).\n\nSee [this paper](https://www.usenix.org/legacy/events/usits01/full_papers/cohen/cohen_html/index.html)\nfor more information."
  | DEPRECATION_PAST => str "The `Deprecation` header indicates that this resource was deprecated on %(date)s."
  | DEPRECATION_FUTURE => str "The `Deprecation` header indicates that this resource will be deprecated on %(date)s."
  | DEPRECATION_TRUE => str "The `Deprecation` header indicates that this resource is deprecated."
  | DEPRECATION_BAD_TYPE => str "The `Deprecation` [Structured Field](https://www.rfc-editor.org/rfc/rfc8941.html)\nheader must be a Date or a Boolean. Found: %(item_type)s."
  | EXPECT_UNKNOWN => str "HTTP only defines one expectation, `100-continue`. This expectation is not recognized."
  | EXPECT_HTTP_1_0 => str "The `Expect` header was added in HTTP/1.1; it has no meaning in HTTP/1.0."
  | LM_FUTURE => str "The `Last-Modified` header indicates the last point in time that the resource has changed.\nThis response's `Last-Modified` time is in the future, which doesn't have any defined meaning in\nHTTP."
  | LM_PRESENT => str "The `Last-Modified` header indicates the last point in time that the resource has changed. It is\nused in HTTP for validating cached responses, and for calculating heuristic freshness in caches.\n\nThis resource last changed %(last_modified_string)s."
  | LINK_RESOURCE_HINTS => str "The `Link` header advertises the following\n[resource hints](https://www.w3.org/TR/resource-hints/), allowing the client to begin work on\nrelated resources before the current response is fully processed:\n\n%(detail_lines)s\n\n`preload` triggers the browser to fetch a resource needed for the current page; `preconnect`\nopens a connection (DNS + TCP + TLS) to an origin in advance; `dns-prefetch` performs a DNS\nlookup only. Used appropriately, these hints can reduce critical-path latency."
  | LINK_BAD_HINT_TARGET => str "The `Link` header advertises a `%(rel)s` resource hint for `%(link)s`, but its scheme\n(`%(scheme)s`) is not `http` or `https`. Browsers will ignore this hint."
  | LINK_REV => str "The `Link` header, defined by [RFC 8288](https://www.rfc-editor.org/rfc/rfc8288#section-3), uses the\n`rel` parameter to communicate the type of a link. `rev` is deprecated by that specification\nbecause it is often confusing.\n\nUse `rel` and an appropriate relation."
  | LINK_BAD_ANCHOR => str "The `Link` header, defined by [RFC 8288](https://www.rfc-editor.org/rfc/rfc8288#section-3), uses the\n`anchor` parameter to define the context URI for the link.\n\nThis parameter can be an absolute or relative URI; however, `%(anchor)s` is neither."
  | LINK_BAD_TYPE => str "The `Link` header, defined by [RFC 8288](https://www.rfc-editor.org/rfc/rfc8288#section-3), uses the\n`type` parameter to define the media type of the link target.\n\nHowever, `%(type)s` is not a valid media type."
  | LOCATION_UNDEFINED => str "The `Location` header is used for specific purposes in HTTP; mostly to indicate the URI of another\nresource (e.g., in redirection, or when a new resource is created).\n\nIn other status codes (such as this one) it doesn't have a defined meaning, so any use of it won't\nbe interoperable.\n\nSometimes `Location` is confused with `Content-Location`, which indicates a URI for the payload of\nthe message that it appears in."
  | LOCATION_NOT_ABSOLUTE => str "`Location` was originally specified to contain an absolute, not relative, URI.\n\nIt is in the process of being updated, and most clients will work around this.\n\nThe correct absolute URI is (probably): `%(full_uri)s`"
  | MAX_FORWARDS_IGNORED => str "The `Max-Forwards` header is only defined for `TRACE` and `OPTIONS` requests; for other methods, it\nis likely to be ignored."
  | NEL_BAD_STRUCTURE => str "The `NEL` header should be a list of objects.\n"
  | NEL_MISSING_KEY => str "The `%(key)s` key is required in `NEL` policies."
  | NEL_BAD_TYPE => str "The `%(key)s` key must be of type %(expected)s."
  | NEL_BAD_VALUE => str "The `%(key)s` key has an invalid value; %(details)s.\nDetails: %(details)s"
  | NEL_CONFIGURED => str "The `NEL` header configures\n[Network Error Logging](https://w3c.github.io/network-error-logging/), which instructs the browser\nto report network-level errors (DNS, TCP, TLS, and HTTP failures) to the reporting endpoint(s):\n%(endpoints)s.\n\nThis supports observability of failures that would otherwise be invisible to the server."
  | NEL_REPORT_TO_MISSING => str "The `report_to` member in the [Network Error Logging](https://w3c.github.io/network-error-logging/)\npolicy specifies a reporting endpoint, but no matching endpoint refers to it in the\n`Reporting-Endpoints` header."
  | BAD_ORIGIN_SYNTAX => str "The Origin header must contain a list of serialized origins (scheme, host, and optional port), or\nthe string \"null\"."
  | ORIGIN_MULTIPLE_VALUES => str "The `Origin` header should only contain a single value. Any values after the first\nwill be ignored."
  | PERMISSIONS_POLICY_PRESENT => str "The `Permissions-Policy` header allows a site to control the use of browser features."
  | PERMISSIONS_POLICY_WILDCARD => str "The `%(feature)s` feature is allowed for all origins (using `*`).\nThis is insecure and should be restricted to specific origins or `self`."
  | PERMISSIONS_POLICY_INVALID_VALUE => str "The value for the `%(feature)s` feature in `Permissions-Policy` is invalid. It should be either\nan Inner List of origins (e.g., `(self \"https://example.com\")`) or the special token `*`."
  | PERMISSIONS_POLICY_UNKNOWN_TOKEN => str "The token `%(token)s` is not a valid keyword in an allowlist.\nValid tokens are `self` and `src`."
  | PERMISSIONS_POLICY_QUOTED_KEYWORD => str "The value `%(value)s` is a string, but it looks like a keyword.\nIf you meant to use the keyword, remove the quotes (e.g., `self` instead of `\"self\"`)."
  | PERMISSIONS_POLICY_INVALID_ITEM_TYPE => str "The item `%(item)s` is not a valid type for an allowlist.\nAllowlists should contain origins (strings) or keywords (tokens)."
  | PRAGMA_OTHER => str "HTTP only defines `Pragma: no-cache`; other uses of this header are deprecated."
  | PROXY_STATUS => str "The `Proxy-Status` header field indicates how intermediaries have handled the response.\n\n%(status)s\n"
  | PROXY_STATUS_UNKNOWN_PARAM => str "The `%(param)s` parameter is not defined in the Proxy-Status specification.\n"
  | PROXY_STATUS_BAD_PARAM_VAL => str "The value `%(value)s` is not defined for the `%(param)s` parameter.\n"
  | RANGE_INVALID_range => str "The values indicated by the `Range` header are not valid. The first position must be less\nthan or equal to the last position."
  | RANGE_BAD_SYNTAX => str "The value for this field doesn't conform to its specified syntax; %(problem)s.\n\nSee [its definition](%(ref_uri)s) for more information."
  | REFERER_SECURE_TO_INSECURE => str "HTTP prohibits a user agent from sending a Referer header field in an unsecured HTTP request\nif the referring resource was accessed with a secure protocol.\n\nSee [RFC 9110 Section 10.1.3](https://www.rfc-editor.org/rfc/rfc9110.html#section-10.1.3)\nfor details."
  | REFERER_SECURE_TO_DIFFERENT_ORIGIN => str "HTTP prohibits a user agent from sending a Referer header field if the referring resource was\naccessed with a secure protocol and the request target has an origin differing from that of the\nreferring resource, unless the referring resource explicitly allows Referer to be sent.\n\nSee [RFC 9110 Section 10.1.3](https://www.rfc-editor.org/rfc/rfc9110.html#section-10.1.3)\nfor details."
  | REFERRER_POLICY_STRICT => str "The `Referrer-Policy` value `%(policy)s` prevents the full URL from being sent as a referrer to\nless-secure or cross-origin destinations, reducing the risk of leaking sensitive information in\nthe `Referer` request header."
  | REFERRER_POLICY_UNSAFE => str "Using `unsafe-url` in `Referrer-Policy` means that the full URL (including query parameters) will\nbe sent as a referrer to all origins, including those that are not secure (HTTP). This can leak\nsensitive information."
  | REFERRER_POLICY_UNKNOWN => str "The `Referrer-Policy` header contains the value `%(policy)s`, which is not a known referrer policy.\nIt will be ignored by browsers."
  | REFERRER_POLICY_EMPTY => str "The `Referrer-Policy` header does not contain any valid policies. Browsers will use their default\npolicy (usually `strict-origin-when-cross-origin`)."
  | REFERRER_POLICY_MULTIPLE => str "The `Referrer-Policy` header contains multiple valid policies. Browsers will only use the last\nvalid policy found, which is `%(effective)s`. Earlier values are ignored."
  | REPORT_TO_BAD_STRUCTURE => str "The `Report-To` header should be a list of objects.\n"
  | REPORT_TO_MISSING_KEY => str "The `%(key)s` key is required in `Report-To` objects."
  | REPORT_TO_BAD_TYPE => str "The `%(key)s` key must be of type %(expected)s."
  | ENDPOINT_NOT_SECURE => str "The reporting endpoint `%(name)s` uses an insecure URL (`%(url)s`). Browsers may ignore it."
  | BAD_REPORTING_ENDPOINT_SYNTAX => str "The reporting endpoint `%(name)s` must be a string URL.\nFound: `%(value)s` (type `%(found_type)s`)."
  | SERVER_TOO_LONG => str "The `Server` header is %(server_length)s long, which uses unnecessary bandwidth\nand can expose details of the back-end system to attackers.\n\nConsider shortening it."
  | SERVER_TIMING_BAD_PARAM => str "The `%(param)s` parameter on the `%(metric)s` metric of the Server-Timing header requires a\nvalid number, but `%(value)s` was found.\n"
  | SERVER_TIMING_MISSING_DUR => str "The `%(metric)s` metric in the Server-Timing header is missing the `dur` (duration) parameter.\n\nThis parameter isn't required, but without it browsers may not be able to usefully display it.\n"
  | SERVER_TIMING_MISSING_DESC => str "The `%(metric)s` metric in the Server-Timing header is missing the `desc` (description) parameter.\n\nDescriptions can help contextualise a metric when displayed.\n"
  | SET_COOKIE_NO_NAME => str "This `Set-Cookie` header has an empty name; there needs to be a name before the `=`.\n\nBrowsers will ignore this cookie."
  | SET_COOKIE_BAD_DATE => str "The `expires` date on this `Set-Cookie` header isn't valid; see\n[RFC6265](https://www.rfc-editor.org/rfc/rfc6265) for details of the correct format."
  | SET_COOKIE_EMPTY_MAX_AGE => str "The `max-age` parameter on this `Set-Cookie` header doesn't have a value.\n\nBrowsers will ignore the `max-age` value as a result."
  | SET_COOKIE_LEADING_ZERO_MAX_AGE => str "The `max-age` parameter on this `Set-Cookie` header has a leading zero.\n\nBrowsers will ignore the `max-age` value as a result."
  | SET_COOKIE_NON_DIGIT_MAX_AGE => str "The `max-age` parameter on this `Set-Cookie` header isn't numeric.\n\nBrowsers will ignore the `max-age` value as a result."
  | SET_COOKIE_EMPTY_DOMAIN => str "The `domain` parameter on this `Set-Cookie` header is empty.\n\nNote that handling of empty domains is \n[not interoperable](https://chromestatus.com/feature/5674723800252416).\n\nBrowsers will probably ignore it as a result."
  | SET_COOKIE_NOT_SECURE => str "The `Secure` attribute on this `Set-Cookie` header is missing.\n\nBecause the `SameSite` attribute is set to `None`, the `Secure` attribute is required.\n\nBrowsers will ignore this cookie."
  | SET_COOKIE_UNKNOWN_ATTRIBUTE => str "This cookie has an extra parameter, `%(attribute)s`.\n\nBrowsers will ignore it."
  | SET_COOKIE_PRIORITY => str "The `Priority` attribute was an experiment, and is no longer supported.\n"
  | SET_COOKIE_VERSION => str "The `Version` attribute is no longer part of the `Set-Cookie` specification,\nand is ignored by browsers.\n\nBecause some software still interprets cookies differently when it is present,\n[it can cause security \nissues](https://portswigger.net/research/bypassing-wafs-with-the-phantom-version-cookie).\n"
  | SET_COOKIE_UNKNOWN_ATTRIBUTE_VALUE => str "This `Set-Cookie` header has an unknown `%(attribute_name)s` attribute value, `%(attribute_value)s`.\n\nBrowsers will probably ignore it as a result."
  | SET_COOKIE_PARTITIONED_NO_SECURE => str "The `Partitioned` attribute on this `Set-Cookie` header is present, but the `Secure` attribute is\nmissing.\n\nBrowsers will ignore the `Partitioned` attribute as a result."
  | SET_COOKIE_TOO_LARGE => str "The `Set-Cookie` header is larger than 4096 bytes.\n\nBrowsers will ignore this cookie."
  | SET_COOKIE_VALUE_TOO_LARGE => str "This `Set-Cookie` value is %(set_cookie_value_length)s long.\n"
  | SET_COOKIE_LIFETIME_TOO_LONG => str "The `Set-Cookie` header has a lifetime (Max-Age or Expires) of %(duration)s, which is greater than\n400 days.\n\nBrowsers will cap the lifetime to 400 days."
  | SET_COOKIE_PREFIX_SECURE_MISSING => str "The `Set-Cookie` header has a prefix (e.g., `__Secure-` or `__Host-`) that requires the `Secure`\nattribute.\n\nBrowsers will reject this cookie."
  | SET_COOKIE_PREFIX_HOST_BAD_DOMAIN => str "The `Set-Cookie` header has a `__Host-` prefix, but it sets a `Domain` attribute.\n\nBrowsers will reject this cookie."
  | SET_COOKIE_PREFIX_HOST_BAD_PATH => str "The `Set-Cookie` header has a `__Host-` prefix, but it does not set `Path=/`.\n\nBrowsers will reject this cookie."
  | SET_COOKIE_ATTRIBUTE_DUP => str "The `%(attribute)s` attribute appears more than once in this `Set-Cookie` header.\n\nBrowsers will only use the last occurrence."
  | SET_COOKIE_HARDENED => str "The following cookies set `Secure` (only sent over HTTPS), `HttpOnly` (inaccessible to\nJavaScript), and a non-`None` `SameSite` value (limiting cross-site sending): %(cookie_names)s.\n\nTogether, these attributes substantially reduce a cookie's exposure to common attacks such as\ntheft over plaintext connections, cross-site scripting, and cross-site request forgery."
  | SET_COOKIE_NAME_DUP => str "The following cookies are set more than once in this response: `%(cookie_names)s`.\n\nBrowsers will likely accept all of them, but the order of application\nmay vary or be confusing."
  | SPECULATION_RULE_NOT_SECURE => str "The speculation rule `%(url)s` uses an insecure URL. Browsers may ignore it."
  | SPECULATION_RULES_BAD_TYPE => str "The speculation rule is a\n[Structured Field](https://www.rfc-editor.org/rfc/rfc8941.html) list of Items, where\neach item must be a string URL. Found: `%(value)s` (type `%(found_type)s`)."
  | HSTS_VALID => str "This site has enabled HTTP Strict Transport Security (HSTS), which tells the browser to only\ncommunicate with it over a secure connection."
  | HSTS_INVALID => str "This site has attempted to enable HTTP Strict Transport Security (HSTS), which tells the browser to only\ncommunicate with it over a secure connection.\n\nHowever, one or more issues prevent it from being valid. See the child notes for details."
  | HSTS_NO_MAX_AGE => str "The `Strict-Transport-Security` header requires a `max-age` directive to be valid."
  | HSTS_MAX_AGE_ZERO => str "A `max-age` of 0 tells the browser to expire the `Strict-Transport-Security` policy immediately,\neffectively disabling it."
  | HSTS_SHORT_MAX_AGE => str "Most sites should set a `max-age` of at least one year on `Strict-Transport-Security`."
  | HSTS_SUBDOMAINS => str "The `includeSubDomains` directive indicates that this HSTS policy applies to this domain as well as\nall of its subdomains."
  | HSTS_NO_SUBDOMAINS => str "The `includeSubDomains` directive indicates that this HSTS policy applies to this domain as well as\nall of its subdomains.\n\nBecause cookies can be set across HTTP and HTTPS sites as well as across subdomains, this means \nthat an attacker might be able to take advantage of a subdomain that doesn't have HSTS enabled.\n"
  | HSTS_PRELOAD => str "The `preload` directive on `Strict-Transport-Security` allows browsers to preload the site in\nits HSTS lists, avoiding the potential for making unencrypted requests when first accessing the\nsite.\n\nSee the [HSTS Preload List](https://hstspreload.org/) for more information.\n"
  | HSTS_PRELOAD_NOT_SUITABLE => str "Preloading a site in a browser's HSTS list requires a `max-age` of at least one year and the\n`includeSubDomains` directive.\n\nSee the [HSTS Preload List](https://hstspreload.org/) for more information.\n"
  | HSTS_NO_PRELOAD => str "Without a `preload` directive, browsers may make an unencrypted request when first accessing the\nsite, potentially exposing sensitive information.\n\nSee the [HSTS Preload List](https://hstspreload.org/) for more information.\n"
  | HSTS_DUPLICATE_DIRECTIVE => str "The `%(directive)s` directive appears more than once in the `Strict-Transport-Security` header.\nDirectives must only appear once."
  | HSTS_TRAILING_SEMICOLON => str "The `Strict-Transport-Security` header contains a trailing semicolon. Technically, this violates\nthe grammar, so strict implementations might find it confusing. However, most implementations\nshould ignore it."
  | HSTS_OVER_HTTP => str "The `Strict-Transport-Security` header is ignored when sent over HTTP, unless it's a 301 Redirect.\nIt should only be sent over HTTPS."
  | HSTS_BAD_MAX_AGE => str "The `max-age` directive in the `Strict-Transport-Security` header must be a non-negative\ninteger. The value `%(max_age)s` is not valid."
  | HSTS_VALUE_NOT_ALLOWED => str "The `%(directive)s` directive in the `Strict-Transport-Security` header is a valueless\ndirective. It should not have an associated value."
  | SUNSET_PAST => str "The `Sunset` header indicates that this resource has already passed its sunset date and may become\nunresponsive."
  | TRANSFER_CODING_IDENTITY => str "HTTP defines _transfer-codings_ as a hop-by-hop encoding of the message's content. The `identity`\ntransfer-coding was defined as the absence of encoding; it doesn't do anything, so it is unnecessary.\n\nYou can remove this token to save a few bytes."
  | TRANSFER_CODING_UNWANTED => str "This response's `Transfer-Encoding` header indicates it has the `%(coding)s` transfer-coding applied,\nbut the client didn't indicate support for it in the request.\n\nNormally, clients ask for the encodings they want in the `TE` request header. Using codings that\nthe client doesn't explicitly request can lead to interoperability problems."
  | TRANSFER_CODING_PARAM => str "HTTP allows transfer-codings in the `Transfer-Encoding` header to have optional parameters, but it\ndoesn't define what they mean.\n\nThis message has encodings with such parameters; although they're technically allowed, they may\ncause interoperability problems. They should be removed."
  | USE_AS_DICTIONARY_BAD_TYPE => str "The `%(field_name)s` parameter `%(param)s` must be a `%(expected)s`. Found `%(got)s`."
  | USE_AS_DICTIONARY_BAD_MATCH_DEST => str "The `match-dest` parameter must be a String or a list of Strings."
  | VARY_ASTERISK => str "`Vary *` indicates that responses for this resource vary by some aspect that can't (or won't) be\ndescribed by the server. This makes this response effectively uncacheable."
  | VARY_USER_AGENT => str "Sending `Vary: User-Agent` requires caches to store a separate copy of the response for every\n`User-Agent` request header they see.\n\nSince there are so many different `User-Agent`s, this can \"bloat\" caches with many copies of the\nsame thing, or cause them to give up on storing these responses at all.\n\nConsider having different URIs for the various versions of your content instead; this will give\nfiner control over caching without sacrificing efficiency."
  | VARY_HOST => str "Some servers (e.g., [Apache](http://httpd.apache.org/) with\n[mod_rewrite](http://httpd.apache.org/docs/2.4/mod/mod_rewrite.html)) will send `Host` in the\n`Vary` header, in the belief that this is necessary.\n\nThis is not the case; HTTP specifies that the URI is the basis of the cache key, and the URI\nincorporates the `Host` header.\n\nThe presence of `Vary: Host` may make some caches not store an otherwise cacheable response (since\nsome cache implementations will not store anything that has a `Vary` header)."
  | VARY_NEGOTIATE => str "The `Vary: Negotiate` header value is not necessary, as \n[Transparent Content Negotiation](https://www.rfc-editor.org/rfc/rfc2295.html)\nis not widely supported.\n\nConsider removing it."
  | VARY_DUPLICATE => str "The `Vary` header allows you to list the parts of the request that effectively change the response\nrepresentation.\n\nListing the same header more than once is redundant and can be confusing."
  | VARY_COMPLEX => str "The `Vary` mechanism allows a resource to describe the dimensions that its responses vary, or\nchange, over; each listed header is another dimension.\n\nVarying by too many dimensions makes using this information impractical."
  | VIA_PRESENT => str "The `Via` header indicates that one or more intermediaries are present between the user agent and\nthe origin server for the resource.\n\nThis may indicate that a proxy is configured, or that the server uses a \"reverse proxy\" or CDN in\nfront of it.\n\nThere field has three space-separated components; first, the HTTP version of the message that the\nintermediary received, then the identity of the intermediary (usually but not always its hostname),\nand then optionally a product identifier or comment (usually used to identify the software being\nused)."
  | CONTENT_TYPE_OPTIONS => str "Many Web browsers \"sniff\" the media type of responses to figure out whether they're HTML, RSS or\nanother format, no matter what the `Content-Type` header says.\n\nThis header instructs browsers not to do this, but to always respect the\nContent-Type header. It probably won't have any effect in other clients.\n\nSee [MDN](https://developer.mozilla.org/en-US/docs/Web/HTTP/Headers/X-Content-Type-Options)\nfor more information about this header."
  | CONTENT_TYPE_OPTIONS_UNKNOWN => str "Only one value is currently defined for this header, `nosniff`. Using other values here won't\nnecessarily cause problems, but they probably won't have any effect either.\n\nSee [MDN](https://developer.mozilla.org/en-US/docs/Web/HTTP/Headers/X-Content-Type-Options)\nfor more information about this header."
  | FRAME_OPTIONS_DENY => str "The `DENY` value of `X-Frame-Options` prevents this content from being rendered within a frame,\ndefending against clickjacking-style attacks.\n\nNote that `X-Frame-Options` has been superseded by the\n[`frame-ancestors`](https://www.w3.org/TR/CSP3/#directive-frame-ancestors) directive of\n`Content-Security-Policy`, which offers finer-grained control and is the modern equivalent.\nIf both are present, browsers that support CSP will use `frame-ancestors` and ignore this header.\n\nSee [MDN](https://developer.mozilla.org/en-US/docs/Web/HTTP/Headers/X-Frame-Options) for more information.\n"
  | FRAME_OPTIONS_SAMEORIGIN => str "The `SAMEORIGIN` value of `X-Frame-Options` prevents this content from being rendered within a\nframe on a different origin, defending against clickjacking-style attacks.\n\nNote that `X-Frame-Options` has been superseded by the\n[`frame-ancestors`](https://www.w3.org/TR/CSP3/#directive-frame-ancestors) directive of\n`Content-Security-Policy`, which offers finer-grained control and is the modern equivalent.\nIf both are present, browsers that support CSP will use `frame-ancestors` and ignore this header.\n\nSee [MDN](https://developer.mozilla.org/en-US/docs/Web/HTTP/Headers/X-Frame-Options) for more information.\n"
  | FRAME_OPTIONS_UNKNOWN => str "Only two values are currently defined for this header, `DENY` and `SAMEORIGIN`. Using other values\nhere won't necessarily cause problems, but they probably won't have any effect either.\n\nSee [MDN](https://developer.mozilla.org/en-US/docs/Web/HTTP/Headers/X-Frame-Options) for more information.\n"

/-- every note class -/
def all : List NoteId := [
  .DATE_CLOCKLESS, .DATE_CLOCKLESS_BAD_HDR, .STORE_METHOD_UNCACHEABLE, .STORE_NO_STORE, .STORE_PRIVATE_CC, .STORE_PRIVATE_PUBLIC_CONFLICT, .STORE_PRIVATE_AUTH, .STORE_PUBLIC_AUTH, .STORE_PUBLIC_UNNECESSARY, .STORE_STORABLE, .STORE_STORABLE_SHARED_ONLY, .STORE_UNSTORABLE, .FRESHNESS_NO_CACHE, .FRESHNESS_NO_CACHE_NO_VALIDATOR, .CURRENT_AGE, .FRESHNESS_FRESH, .FRESHNESS_SHARED_PRIVATE, .FRESHNESS_STALE_ALREADY, .FRESHNESS_HEURISTIC, .FRESHNESS_NONE, .STALE_SERVABLE, .STALE_IF_ERROR, .STALE_WHILE_REVALIDATE, .FRESH_MUST_REVALIDATE, .STALE_MUST_REVALIDATE, .FRESH_PROXY_REVALIDATE, .STALE_PROXY_REVALIDATE, .CC_AND_EXPIRES, .CHARSET_MISMATCH, .CHARSET_IMPLICIT_MISMATCH, .CHARSET_UNDECODABLE, .DECOMPRESSION_LIMIT, .BAD_GZIP, .BAD_ZLIB, .BAD_BROTLI, .CONTENT_TYPE_MISMATCH, .CL_CORRECT, .CL_INCORRECT, .CONTENT_NOT_ALLOWED, .REQUEST_CONTENT_NOT_DEFINED, .URI_TOO_LONG, .URI_BAD_SYNTAX, .STATUS_CODE_NON_NUMERIC, .STATUS_PHRASE_ENCODING, .MISSING_USER_AGENT, .NO_DATE_304, .HEADER_SHOULD_NOT_BE_IN_304, .UNEXPECTED_CONTINUE, .UPGRADE_NOT_REQUESTED, .CREATED_SAFE_METHOD, .CREATED_WITHOUT_LOCATION, .PARTIAL_WITHOUT_RANGE, .PARTIAL_NOT_REQUESTED, .REDIRECT_WITHOUT_LOCATION, .STATUS_DEPRECATED, .STATUS_RESERVED, .STATUS_NONSTANDARD, .STATUS_BAD_REQUEST, .STATUS_FORBIDDEN, .STATUS_METHOD_NOT_ALLOWED, .STATUS_405_METHOD_IN_ALLOW, .STATUS_NOT_FOUND, .STATUS_NOT_ACCEPTABLE, .STATUS_406_WITHOUT_NEGOTIATION, .STATUS_CONFLICT, .STATUS_GONE, .STATUS_REQUEST_ENTITY_TOO_LARGE, .STATUS_URI_TOO_LONG, .STATUS_UNSUPPORTED_MEDIA_TYPE, .STATUS_IM_A_TEAPOT, .STATUS_INTERNAL_SERVICE_ERROR, .STATUS_NOT_IMPLEMENTED, .STATUS_BAD_GATEWAY, .STATUS_SERVICE_UNAVAILABLE, .STATUS_GATEWAY_TIMEOUT, .STATUS_VERSION_NOT_SUPPORTED, .STATUS_PRECONDITION_FAILED, .STATUS_EXPECTATION_FAILED, .STATUS_412_WITHOUT_PRECONDITION, .STATUS_416_WITHOUT_RANGE, .STATUS_417_WITHOUT_EXPECT, .STATUS_417_WITH_100_CONTINUE, .STATUS_EARLY_HINTS, .STATUS_UPLOAD_RESUMPTION_SUPPORTED, .STATUS_ALREADY_REPORTED, .STATUS_MISDIRECTED_REQUEST, .STATUS_TOO_EARLY, .STATUS_PRECONDITION_REQUIRED, .STATUS_TOO_MANY_REQUESTS, .STATUS_REQUEST_HEADER_FIELDS_TOO_LARGE, .STATUS_UNAVAILABLE_FOR_LEGAL_REASONS, .STATUS_LOOP_DETECTED, .STATUS_NETWORK_AUTHENTICATION_REQUIRED, .FIELD_NAME_BAD_SYNTAX, .BAD_SYNTAX, .BAD_SYNTAX_DETAILED, .REQUEST_HDR_IN_RESPONSE, .RESPONSE_HDR_IN_REQUEST, .FIELD_DEPRECATED, .CORS_PREFLIGHT_REQUEST, .CORS_PREFLIGHT_REQ_METHOD_WRONG, .CORS_PREFLIGHT_REQ_NO_ORIGIN, .CORS_PREFLIGHT_REQ_NO_METHOD, .CORS_PREFLIGHT_RESPONSE, .CORS_PREFLIGHT_ONLY, .ACAO_MULTIPLE_VALUES, .ACAC_NOT_TRUE, .CORS_ORIGIN_MATCH, .CORS_ORIGIN_MISMATCH, .CORS_ORIGIN_NULL, .CORS_ORIGIN_STAR, .BAD_JSON, .FIELD_TOO_LARGE, .FIELD_SECTION_TOO_LARGE, .FIELD_NAME_ENCODING, .FIELD_VALUE_ENCODING, .SINGLE_HEADER_REPEAT, .DUPLICATE_KEY, .STRUCTURED_FIELD_PARSE_ERROR, .UNNECESSARY_HEADER, .MEDIA_TYPE_BAD_NAME, .MEDIA_TYPE_LONG_NAME, .PARAM_REPEATS, .PARAM_SINGLE_QUOTED, .PARAM_STAR_BAD, .PARAM_STAR_QUOTED, .PARAM_STAR_ERROR, .PARAM_STAR_NOCHARSET, .PARAM_STAR_CHARSET, .BAD_DATE_SYNTAX, .DATE_OBSOLETE, .BAD_Q_VALUE_accept, .ACCEPT_BAD_SYNTAX, .ACCEPT_CH_IN_PLAIN_HTTP, .ACCEPT_CH_MISSING_VARY, .ACCEPT_CH_BAD_TYPE, .BAD_Q_VALUE_accept_language, .ACCEPT_LANGUAGE_BAD_SYNTAX, .ACCEPT_PATCH_BAD_SYNTAX, .ACCEPT_POST_BAD_SYNTAX, .ACCEPT_QUERY_BAD_TYPE, .ACCEPT_QUERY_BAD_SYNTAX, .UNKNOWN_RANGE, .CORS_MAX_AGE_INVALID, .CORS_MAX_AGE_NEGATIVE, .AGE_NOT_INT, .AGE_NEGATIVE, .AGE_LARGE, .ALTSVC_CLEAR_LIST, .AVAILABLE_DICTIONARY_MISSING_AE, .AVAILABLE_DICTIONARY_BAD_TYPE, .CC_SHOULD_NOT_HAVE_VALUE, .CC_BAD_VALUE_TYPE, .CC_MAX_AGE_TOO_LARGE, .CC_MISCAP, .CC_DUP, .CC_CONFLICTING, .CC_WRONG_MESSAGE, .CHECK_SINGLE, .CHECK_ALL_ZERO, .CHECK_POST_BIGGER, .CHECK_POST_ZERO, .CHECK_POST_PRE, .CACHE_GROUP_INVALIDATION_BAD_TYPE, .CACHE_GROUP_INVALIDATION_IGNORED, .CACHE_GROUPS_BAD_TYPE, .CACHE_STATUS, .CACHE_STATUS_UNKNOWN_PARAM, .CACHE_STATUS_BAD_PARAM_VAL, .BAD_CDN_CC_TYPE, .CDN_CACHE_CONTROL_PRESENT, .CSD_PRESENT, .CSD_UNKNOWN_VALUE, .CSD_EMPTY, .CSD_UNQUOTED, .DISPOSITION_UNKNOWN, .DISPOSITION_OMITS_FILENAME, .DISPOSITION_FILENAME_PERCENT, .DISPOSITION_FILENAME_PATH_CHAR, .DICTIONARY_COMPRESSED_MISSING_VARY, .ENCODING_UNWANTED, .CONTENT_LANGUAGE_DUP, .CL_BAD_SYNTAX, .CL_AND_TE_PRESENT, .CL_TOO_LARGE, .CONTENT_RANGE_MEANINGLESS, .CONTENT_RANGE_MISSING_UNIT, .CONTENT_RANGE_INVALID_ASTERISK, .CONTENT_RANGE_MISSING_SLASH, .RANGE_MISSING_HYPHEN, .RANGE_INVALID_INTEGER, .RANGE_INVALID_content_range, .CONTENT_RANGE_UNSATISFIED_BAD_SC, .CONTENT_RANGE_UNKNOWN_LENGTH, .CONTENT_SECURITY_POLICY, .CSP_UNSAFE_INLINE, .CSP_UNSAFE_EVAL, .CSP_HTTP_URI, .CSP_DUPLICATE_DIRECTIVE, .CSP_DEPRECATED_REPORT_URI, .CSP_WIDE_OPEN, .CSP_REPORT_TO_MISSING, .COEP_REQUIRE_CORP, .COEP_CREDENTIALLESS, .COEP_UNSAFE_NONE, .CROSS_ORIGIN_EMBEDDER_POLICY_BAD_VALUE, .COEP_REPORT_TO_MISSING, .COEP_REPORT_ONLY_DUPLICATE, .COOP_SAME_ORIGIN, .COOP_SAME_ORIGIN_ALLOW_POPUPS, .COOP_UNSAFE_NONE, .CROSS_ORIGIN_OPENER_POLICY_BAD_VALUE, .COOP_REPORT_TO_MISSING, .COOP_REPORT_ONLY_DUPLICATE, .CORP_SAME_ORIGIN, .CORP_SAME_SITE, .CORP_CROSS_ORIGIN, .CROSS_ORIGIN_RESOURCE_POLICY_BAD_VALUE, .DATE_CORRECT, .DATE_INCORRECT, .AGE_PENALTY, .DEPRECATION_PAST, .DEPRECATION_FUTURE, .DEPRECATION_TRUE, .DEPRECATION_BAD_TYPE, .EXPECT_UNKNOWN, .EXPECT_HTTP_1_0, .LM_FUTURE, .LM_PRESENT, .LINK_RESOURCE_HINTS, .LINK_BAD_HINT_TARGET, .LINK_REV, .LINK_BAD_ANCHOR, .LINK_BAD_TYPE, .LOCATION_UNDEFINED, .LOCATION_NOT_ABSOLUTE, .MAX_FORWARDS_IGNORED, .NEL_BAD_STRUCTURE, .NEL_MISSING_KEY, .NEL_BAD_TYPE, .NEL_BAD_VALUE, .NEL_CONFIGURED, .NEL_REPORT_TO_MISSING, .BAD_ORIGIN_SYNTAX, .ORIGIN_MULTIPLE_VALUES, .PERMISSIONS_POLICY_PRESENT, .PERMISSIONS_POLICY_WILDCARD, .PERMISSIONS_POLICY_INVALID_VALUE, .PERMISSIONS_POLICY_UNKNOWN_TOKEN, .PERMISSIONS_POLICY_QUOTED_KEYWORD, .PERMISSIONS_POLICY_INVALID_ITEM_TYPE, .PRAGMA_OTHER, .PROXY_STATUS, .PROXY_STATUS_UNKNOWN_PARAM, .PROXY_STATUS_BAD_PARAM_VAL, .RANGE_INVALID_range, .RANGE_BAD_SYNTAX, .REFERER_SECURE_TO_INSECURE, .REFERER_SECURE_TO_DIFFERENT_ORIGIN, .REFERRER_POLICY_STRICT, .REFERRER_POLICY_UNSAFE, .REFERRER_POLICY_UNKNOWN, .REFERRER_POLICY_EMPTY, .REFERRER_POLICY_MULTIPLE, .REPORT_TO_BAD_STRUCTURE, .REPORT_TO_MISSING_KEY, .REPORT_TO_BAD_TYPE, .ENDPOINT_NOT_SECURE, .BAD_REPORTING_ENDPOINT_SYNTAX, .SERVER_TOO_LONG, .SERVER_TIMING_BAD_PARAM, .SERVER_TIMING_MISSING_DUR, .SERVER_TIMING_MISSING_DESC, .SET_COOKIE_NO_NAME, .SET_COOKIE_BAD_DATE, .SET_COOKIE_EMPTY_MAX_AGE, .SET_COOKIE_LEADING_ZERO_MAX_AGE, .SET_COOKIE_NON_DIGIT_MAX_AGE, .SET_COOKIE_EMPTY_DOMAIN, .SET_COOKIE_NOT_SECURE, .SET_COOKIE_UNKNOWN_ATTRIBUTE, .SET_COOKIE_PRIORITY, .SET_COOKIE_VERSION, .SET_COOKIE_UNKNOWN_ATTRIBUTE_VALUE, .SET_COOKIE_PARTITIONED_NO_SECURE, .SET_COOKIE_TOO_LARGE, .SET_COOKIE_VALUE_TOO_LARGE, .SET_COOKIE_LIFETIME_TOO_LONG, .SET_COOKIE_PREFIX_SECURE_MISSING, .SET_COOKIE_PREFIX_HOST_BAD_DOMAIN, .SET_COOKIE_PREFIX_HOST_BAD_PATH, .SET_COOKIE_ATTRIBUTE_DUP, .SET_COOKIE_HARDENED, .SET_COOKIE_NAME_DUP, .SPECULATION_RULE_NOT_SECURE, .SPECULATION_RULES_BAD_TYPE, .HSTS_VALID, .HSTS_INVALID, .HSTS_NO_MAX_AGE, .HSTS_MAX_AGE_ZERO, .HSTS_SHORT_MAX_AGE, .HSTS_SUBDOMAINS, .HSTS_NO_SUBDOMAINS, .HSTS_PRELOAD, .HSTS_PRELOAD_NOT_SUITABLE, .HSTS_NO_PRELOAD, .HSTS_DUPLICATE_DIRECTIVE, .HSTS_TRAILING_SEMICOLON, .HSTS_OVER_HTTP, .HSTS_BAD_MAX_AGE, .HSTS_VALUE_NOT_ALLOWED, .SUNSET_PAST, .TRANSFER_CODING_IDENTITY, .TRANSFER_CODING_UNWANTED, .TRANSFER_CODING_PARAM, .USE_AS_DICTIONARY_BAD_TYPE, .USE_AS_DICTIONARY_BAD_MATCH_DEST, .VARY_ASTERISK, .VARY_USER_AGENT, .VARY_HOST, .VARY_NEGOTIATE, .VARY_DUPLICATE, .VARY_COMPLEX, .VIA_PRESENT, .CONTENT_TYPE_OPTIONS, .CONTENT_TYPE_OPTIONS_UNKNOWN, .FRAME_OPTIONS_DENY, .FRAME_OPTIONS_SAMEORIGIN, .FRAME_OPTIONS_UNKNOWN]

end NoteId

end HL
