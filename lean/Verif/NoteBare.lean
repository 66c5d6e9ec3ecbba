import Verif.Note

/-!
GENERATED by tools/gen_bare.py: the variables each note class's text shows outside code.
-/

namespace HL

/-- variables shown outside code that the linter makes up itself: numbers, times, fixed texts, and lists whose items
it puts into code spans -/
def NoteId.bare : NoteId → List Str
  | .FRESHNESS_FRESH => [str "current_age", str "freshness_lifetime"]
  | .FRESHNESS_SHARED_PRIVATE => [str "fresh_lifetime", str "fresh_left", str "share_lifetime", str "share_left"]
  | .FRESHNESS_STALE_ALREADY => [str "current_age", str "freshness_lifetime"]
  | .BAD_ZLIB => [str "ok_zlib_len"]
  | .BAD_BROTLI => [str "ok_brotli_len"]
  | .CL_INCORRECT => [str "content_length"]
  | .REQUEST_CONTENT_NOT_DEFINED => [str "method"]
  | .HEADER_SHOULD_NOT_BE_IN_304 => [str "headers"]
  | .CREATED_SAFE_METHOD => [str "method"]
  | .REDIRECT_WITHOUT_LOCATION => [str "status"]
  | .STATUS_URI_TOO_LONG => [str "status"]
  | .ACCEPT_BAD_SYNTAX => [str "ref_uri"]
  | .ACCEPT_CH_BAD_TYPE => [str "ref_uri"]
  | .ACCEPT_LANGUAGE_BAD_SYNTAX => [str "ref_uri"]
  | .ACCEPT_PATCH_BAD_SYNTAX => [str "ref_uri"]
  | .ACCEPT_POST_BAD_SYNTAX => [str "ref_uri"]
  | .ACCEPT_QUERY_BAD_SYNTAX => [str "ref_uri"]
  | .CC_BAD_VALUE_TYPE => [str "expected_type"]
  | .CC_CONFLICTING => [str "conflicts"]
  | .CC_WRONG_MESSAGE => [str "other_message"]
  | .CHECK_POST_PRE => [str "post_check", str "pre_check"]
  | .BAD_CDN_CC_TYPE => [str "expected_type"]
  | .CSD_PRESENT => [str "values"]
  | .CONTENT_SECURITY_POLICY => [str "report_only_text"]
  | .CSP_UNSAFE_INLINE => [str "directives_list"]
  | .CSP_UNSAFE_EVAL => [str "directives_list"]
  | .CSP_HTTP_URI => [str "directives_list"]
  | .CSP_DUPLICATE_DIRECTIVE => [str "directives_list"]
  | .CSP_WIDE_OPEN => [str "report_only_text", str "directives_list"]
  | .CSP_REPORT_TO_MISSING => [str "report_only_text"]
  | .COEP_REQUIRE_CORP => [str "report_only_text"]
  | .COEP_CREDENTIALLESS => [str "report_only_text"]
  | .COEP_UNSAFE_NONE => [str "report_only_text"]
  | .COOP_SAME_ORIGIN => [str "report_only_text"]
  | .COOP_SAME_ORIGIN_ALLOW_POPUPS => [str "report_only_text"]
  | .COOP_UNSAFE_NONE => [str "report_only_text"]
  | .CORP_SAME_ORIGIN => [str "report_only_text"]
  | .CORP_SAME_SITE => [str "report_only_text"]
  | .CORP_CROSS_ORIGIN => [str "report_only_text"]
  | .DEPRECATION_BAD_TYPE => [str "item_type"]
  | .LM_PRESENT => [str "last_modified_string"]
  | .LINK_RESOURCE_HINTS => [str "detail_lines"]
  | .NEL_BAD_TYPE => [str "expected"]
  | .NEL_BAD_VALUE => [str "details"]
  | .RANGE_BAD_SYNTAX => [str "problem", str "ref_uri"]
  | .REPORT_TO_BAD_TYPE => [str "expected"]
  | .SERVER_TOO_LONG => [str "server_length"]
  | .SET_COOKIE_VALUE_TOO_LARGE => [str "set_cookie_value_length"]
  | .SET_COOKIE_LIFETIME_TOO_LONG => [str "duration"]
  | .SET_COOKIE_HARDENED => [str "cookie_names"]
  | _ => []

/-- variables shown outside code that come from the message, from a library, or from a table of fields -/
def NoteId.exposed : NoteId → List Str
  | .CACHE_STATUS => [str "status"]
  | .PROXY_STATUS => [str "status"]
  | .ACCEPT_CH_MISSING_VARY => [str "missing_fields"]
  | .BAD_JSON => [str "error"]
  | .DUPLICATE_KEY => [str "key", str "context"]
  | .NEL_CONFIGURED => [str "endpoints"]
  | .DEPRECATION_PAST => [str "date"]
  | .DEPRECATION_FUTURE => [str "date"]
  | .BAD_SYNTAX => [str "ref_uri"]
  | .BAD_SYNTAX_DETAILED => [str "ref_uri"]
  | .FIELD_DEPRECATED => [str "deprecation_ref"]
  | .PARAM_STAR_BAD => [str "param"]
  | .CC_WRONG_MESSAGE => [str "message_type"]
  | .CORS_PREFLIGHT_ONLY => [str "headers"]
  | _ => []

/-- the classes with a code span that is never closed, or whose text ends in a block built by the linter -/
def unfenced : List NoteId := [.ENCODING_UNWANTED, .STRUCTURED_FIELD_PARSE_ERROR]

end HL
