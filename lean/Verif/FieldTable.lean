import Verif.Syntax
import Verif.NoteTable

/-!
GENERATED by tools/gen_fields.py from the text of /repo/httplint/field/parsers/*.py, field/deprecated.py and
field/unnecessary.py: the class attributes of every field parser.  `syntax` is the expression matched against
each element for list fields (`list_rule.element` or the string itself, list_field.py:34-38) and against the
whole line for the other kinds; `none` stands for `False`.  `validReq`/`validResp` follow
field/__init__.py:54-101 (the class's generic argument).
-/

set_option maxRecDepth 8000

namespace HL
open RE Syntax

/-- the handler classes (module name = class name), and the three generic ones -/
inductive FieldId where
  | accept_
  | accept_ch_
  | accept_encoding_
  | accept_language_
  | accept_patch_
  | accept_post_
  | accept_query_
  | accept_ranges_
  | access_control_
  | access_control_allow_credentials_
  | access_control_allow_headers_
  | access_control_allow_methods_
  | access_control_allow_origin_
  | access_control_expose_headers_
  | access_control_max_age_
  | access_control_request_headers_
  | access_control_request_method_
  | age_
  | allow_
  | alt_svc_
  | authentication_info_
  | authorization_
  | available_dictionary_
  | cache_control_
  | cache_group_invalidation_
  | cache_groups_
  | cache_status_
  | cdn_cache_control_
  | clear_site_data_
  | connection_
  | connectiox_
  | content_base_
  | content_disposition_
  | content_encoding_
  | content_language_
  | content_length_
  | content_location_
  | content_md5_
  | content_range_
  | content_security_policy_
  | content_security_policy_report_only_
  | content_transfer_encoding_
  | content_type_
  | cookie_
  | cross_origin_embedder_policy_
  | cross_origin_embedder_policy_report_only_
  | cross_origin_opener_policy_
  | cross_origin_opener_policy_report_only_
  | cross_origin_resource_policy_
  | cteonnt_length_
  | date_
  | deprecation_
  | etag_
  | expect_
  | expires_
  | from_field_
  | host_
  | if_match_
  | if_modified_since_
  | if_none_match_
  | if_range_
  | if_unmodified_since_
  | keep_alive_
  | last_modified_
  | link_
  | location_
  | max_forwards_
  | mime_version_
  | nel_
  | origin_
  | p3p_
  | permissions_policy_
  | pragma_
  | proxy_authenticate_
  | proxy_authentication_info_
  | proxy_authorization_
  | proxy_status_
  | range_
  | referer_
  | referrer_policy_
  | report_to_
  | reporting_endpoints_
  | retry_after_
  | server_
  | server_timing_
  | set_cookie_
  | set_cookie2_
  | soapaction_
  | speculation_rules_
  | strict_transport_security_
  | sunset_
  | tcn_
  | te_
  | trailer_
  | transfer_encoding_
  | upgrade_
  | use_as_dictionary_
  | user_agent_
  | vary_
  | via_
  | warning_
  | www_authenticate_
  | x_cache_
  | x_cache_lookup_
  | x_content_type_options_
  | x_frame_options_
  | x_pad_
  /-- field/deprecated.py:189 -/
  | deprecatedField
  /-- field/unnecessary.py:28 -/
  | unnecessaryField
  /-- field/finder.py:91 -/
  | unknownField
  deriving DecidableEq, Repr, Inhabited

/-- the base class of a field -/
inductive FieldKind where
  | list | singleton | broken | sf (tltype : Str) | json | unknown
  deriving DecidableEq, Repr, Inhabited

structure FieldInfo where
  kind : FieldKind
  /-- `none`: the wire name (field/__init__.py:106-107) -/
  canonicalName : Option Str
  reference : Str
  category : Cat := .GENERAL
  syn : Option RE := none
  reportSyntax : Bool := true
  deprecated : Bool := false
  validReq : Bool := true
  validResp : Bool := true

/-- class attributes -/
def FieldId.info : FieldId → FieldInfo
  /- field/parsers/accept.py:25 -/
  | .accept_ => { kind := .list, canonicalName := some (str "Accept"), reference := str "http://httpwg.org/specs/rfc9110#field.accept", category := .CONNEG, syn := some rfc9110.Accept_element, validResp := false }
  /- field/parsers/accept_ch.py:18 -/
  | .accept_ch_ => { kind := .sf (str "list"), canonicalName := some (str "Accept-CH"), reference := str "https://www.rfc-editor.org/rfc/rfc8942.html#section-3.1", category := .CONNEG, validReq := false }
  /- field/parsers/accept_encoding.py:15 -/
  | .accept_encoding_ => { kind := .list, canonicalName := some (str "Accept-Encoding"), reference := str "http://httpwg.org/specs/rfc9110#field.accept-encoding", category := .CONNEG, syn := some rfc9110.Accept_Encoding_element, validResp := false }
  /- field/parsers/accept_language.py:23 -/
  | .accept_language_ => { kind := .list, canonicalName := some (str "Accept-Language"), reference := str "http://httpwg.org/specs/rfc9110#field.accept-language", category := .CONNEG, syn := some rfc9110.Accept_Language_element, validResp := false }
  /- field/parsers/accept_patch.py:17 -/
  | .accept_patch_ => { kind := .list, canonicalName := some (str "Accept-Patch"), reference := str "https://www.rfc-editor.org/rfc/rfc5789.html#section-3.1", syn := some rfc9110.media_type, validReq := false }
  /- field/parsers/accept_post.py:17 -/
  | .accept_post_ => { kind := .list, canonicalName := some (str "Accept-Post"), reference := str "https://www.w3.org/TR/ldp/#header-accept-post", syn := some rfc9110.media_range, validReq := false }
  /- field/parsers/accept_query.py:17 -/
  | .accept_query_ => { kind := .sf (str "list"), canonicalName := some (str "Accept-Query"), reference := str "https://www.rfc-editor.org/rfc/rfc10008.html#section-3", validReq := false }
  /- field/parsers/accept_ranges.py:12 -/
  | .accept_ranges_ => { kind := .list, canonicalName := some (str "Accept-Ranges"), reference := str "http://httpwg.org/specs/rfc9110#field.accept-ranges", category := .RANGE, syn := some rfc9110.token, validReq := false }
  /- field/parsers/access_control.py:11 -/
  | .access_control_ => { kind := .singleton, canonicalName := some (str "Access-Control"), reference := str "https://www.w3.org/TR/2007/WD-access-control-20071126/#access-control0", category := .SECURITY, deprecated := true }
  /- field/parsers/access_control_allow_credentials.py:12 -/
  | .access_control_allow_credentials_ => { kind := .singleton, canonicalName := some (str "Access-Control-Allow-Credentials"), reference := str "https://fetch.spec.whatwg.org/#http-access-control-allow-credentials", category := .CORS, syn := some (RE.sens (lit (str "true"))), validReq := false }
  /- field/parsers/access_control_allow_headers.py:13 -/
  | .access_control_allow_headers_ => { kind := .list, canonicalName := some (str "Access-Control-Allow-Headers"), reference := str "https://fetch.spec.whatwg.org/#http-access-control-allow-headers", category := .CORS, syn := some rfc9110.token, validReq := false }
  /- field/parsers/access_control_allow_methods.py:13 -/
  | .access_control_allow_methods_ => { kind := .list, canonicalName := some (str "Access-Control-Allow-Methods"), reference := str "https://fetch.spec.whatwg.org/#http-access-control-allow-methods", category := .CORS, syn := some rfc9110.token, validReq := false }
  /- field/parsers/access_control_allow_origin.py:19 -/
  | .access_control_allow_origin_ => { kind := .singleton, canonicalName := some (str "Access-Control-Allow-Origin"), reference := str "https://fetch.spec.whatwg.org/#http-access-control-allow-origin", category := .CORS, syn := some (alts [(ch 42), (lit (str "null")), rfc3986.URI_reference]), validReq := false }
  /- field/parsers/access_control_expose_headers.py:10 -/
  | .access_control_expose_headers_ => { kind := .list, canonicalName := some (str "Access-Control-Expose-Headers"), reference := str "https://fetch.spec.whatwg.org/#http-access-control-expose-headers", category := .CORS, syn := some rfc9110.token, validReq := false }
  /- field/parsers/access_control_max_age.py:13 -/
  | .access_control_max_age_ => { kind := .singleton, canonicalName := some (str "Access-Control-Max-Age"), reference := str "https://fetch.spec.whatwg.org/#http-access-control-max-age", category := .CORS, syn := some rfc9110.Content_Length, reportSyntax := false, validReq := false }
  /- field/parsers/access_control_request_headers.py:13 -/
  | .access_control_request_headers_ => { kind := .list, canonicalName := some (str "Access-Control-Request-Headers"), reference := str "https://fetch.spec.whatwg.org/#http-access-control-request-headers", category := .CORS, syn := some rfc9110.token, validResp := false }
  /- field/parsers/access_control_request_method.py:12 -/
  | .access_control_request_method_ => { kind := .singleton, canonicalName := some (str "Access-Control-Request-Method"), reference := str "https://fetch.spec.whatwg.org/#http-access-control-request-method", category := .CORS, syn := some rfc9110.token, validResp := false }
  /- field/parsers/age.py:12 -/
  | .age_ => { kind := .singleton, canonicalName := some (str "Age"), reference := str "http://httpwg.org/specs/rfc9111#field.age", category := .CACHING, syn := some rfc9110.Content_Length, reportSyntax := false, validReq := false }
  /- field/parsers/allow.py:9 -/
  | .allow_ => { kind := .list, canonicalName := some (str "Allow"), reference := str "http://httpwg.org/specs/rfc9110#field.allow", syn := some rfc9110.token, validReq := false }
  /- field/parsers/alt_svc.py:16 -/
  | .alt_svc_ => { kind := .list, canonicalName := some (str "Alt-Svc"), reference := str "https://www.rfc-editor.org/rfc/rfc7838#section-3", syn := some (alts [(lit (str "clear")), (seqs [rfc9110.token, (ch 61), rfc9110.quoted_string, (star (seqs [rfc9110.OWS, (ch 59), rfc9110.OWS, rfc9110.parameter]))])]), validReq := false }
  /- field/parsers/authentication_info.py:11 -/
  | .authentication_info_ => { kind := .list, canonicalName := some (str "Authentication-Info"), reference := str "http://httpwg.org/specs/rfc9110#field.authentication-info", category := .SECURITY, syn := some rfc9110.auth_param, validReq := false }
  /- field/parsers/authorization.py:11 -/
  | .authorization_ => { kind := .singleton, canonicalName := some (str "Authorization"), reference := str "http://httpwg.org/specs/rfc9110#field.authorization", category := .SECURITY, syn := some rfc9110.credentials, validResp := false }
  /- field/parsers/available_dictionary.py:14 -/
  | .available_dictionary_ => { kind := .sf (str "item"), canonicalName := some (str "Available-Dictionary"), reference := str "https://www.rfc-editor.org/rfc/rfc9842.html", category := .CONNEG, validResp := false }
  /- field/parsers/cache_control.py:85 -/
  | .cache_control_ => { kind := .list, canonicalName := some (str "Cache-Control"), reference := str "http://httpwg.org/specs/rfc9111#field.cache-control", category := .CACHING, syn := some rfc8288.link_param }
  /- field/parsers/cache_group_invalidation.py:12 -/
  | .cache_group_invalidation_ => { kind := .sf (str "list"), canonicalName := some (str "Cache-Group-Invalidation"), reference := str "https://www.rfc-editor.org/rfc/rfc9875.html", category := .CACHING, validReq := false }
  /- field/parsers/cache_groups.py:12 -/
  | .cache_groups_ => { kind := .sf (str "list"), canonicalName := some (str "Cache-Groups"), reference := str "https://www.rfc-editor.org/rfc/rfc9875.html", category := .CACHING, validReq := false }
  /- field/parsers/cache_status.py:18 -/
  | .cache_status_ => { kind := .sf (str "list"), canonicalName := some (str "Cache-Status"), reference := str "https://www.rfc-editor.org/rfc/rfc9211.html#section-2", category := .CACHING, validReq := false }
  /- field/parsers/cdn_cache_control.py:16 -/
  | .cdn_cache_control_ => { kind := .sf (str "dictionary"), canonicalName := some (str "CDN-Cache-Control"), reference := str "https://www.rfc-editor.org/rfc/rfc9213.html", category := .CACHING, validReq := false }
  /- field/parsers/clear_site_data.py:13 -/
  | .clear_site_data_ => { kind := .list, canonicalName := some (str "Clear-Site-Data"), reference := str "https://www.w3.org/TR/clear-site-data/#field-clear-site-data", syn := some rfc9110.quoted_string, validReq := false }
  /- field/parsers/connection.py:9 -/
  | .connection_ => { kind := .list, canonicalName := some (str "Connection"), reference := str "http://httpwg.org/specs/rfc9110#field.connection", syn := some rfc9110.token }
  /- field/parsers/connectiox.py:7 -/
  | .connectiox_ => { kind := .singleton, canonicalName := none, reference := str "https://bugzilla.mozilla.org/show_bug.cgi?id=868638" }
  /- field/parsers/content_base.py:7 -/
  | .content_base_ => { kind := .singleton, canonicalName := some (str "Content-Base"), reference := str "https://www.rfc-editor.org/rfc/rfc2068#section-14.11", deprecated := true }
  /- field/parsers/content_disposition.py:16 -/
  | .content_disposition_ => { kind := .singleton, canonicalName := some (str "Content-Disposition"), reference := str "https://www.rfc-editor.org/rfc/rfc6266.html", syn := some (seqs [rfc9110.token, (star (seqs [(star RE.ws), (ch 59), (star RE.ws), rfc9110.parameter]))]) }
  /- field/parsers/content_encoding.py:17 -/
  | .content_encoding_ => { kind := .list, canonicalName := some (str "Content-Encoding"), reference := str "http://httpwg.org/specs/rfc9110#field.content-encoding", category := .CONNEG, syn := some rfc9110.token }
  /- field/parsers/content_language.py:12 -/
  | .content_language_ => { kind := .list, canonicalName := some (str "Content-Language"), reference := str "http://httpwg.org/specs/rfc9110#field.content-language", category := .CONNEG, syn := some rfc5646.Language_Tag }
  /- field/parsers/content_length.py:13 -/
  | .content_length_ => { kind := .singleton, canonicalName := some (str "Content-Length"), reference := str "http://httpwg.org/specs/rfc9110#field.content-length", syn := some rfc9110.Content_Length, reportSyntax := false }
  /- field/parsers/content_location.py:9 -/
  | .content_location_ => { kind := .singleton, canonicalName := some (str "Content-Location"), reference := str "http://httpwg.org/specs/rfc9110#field.content-location", syn := some rfc9110.Content_Location, validReq := false }
  /- field/parsers/content_md5.py:10 -/
  | .content_md5_ => { kind := .singleton, canonicalName := some (str "Content-MD5"), reference := str "https://www.rfc-editor.org/rfc/rfc1864", syn := some (seqs [(RE.rep 22 (some 22) false (cls [(65,90), (97,122), (48,57), (43,43), (47,47)])), (RE.rep 2 (some 2) false (ch 61))]), deprecated := true }
  /- field/parsers/content_range.py:26 -/
  | .content_range_ => { kind := .singleton, canonicalName := some (str "Content-Range"), reference := str "http://httpwg.org/specs/rfc9110#field.content-range", syn := some rfc9110.Content_Range, reportSyntax := false, validReq := false }
  /- field/parsers/content_security_policy.py:23 -/
  | .content_security_policy_ => { kind := .list, canonicalName := some (str "Content-Security-Policy"), reference := str "https://www.w3.org/TR/CSP3/", category := .SECURITY, syn := some (seqs [(seqs [(plus (cls [(97,122), (65,90), (48,57), (45,45)])), (opt (seqs [rfc9110.RWS, (star (cls [(32,32), (9,9), (33,43), (45,58), (60,126)]))]))]), (star (seqs [rfc9110.OWS, (ch 59), (opt (seqs [rfc9110.OWS, (seqs [(plus (cls [(97,122), (65,90), (48,57), (45,45)])), (opt (seqs [rfc9110.RWS, (star (cls [(32,32), (9,9), (33,43), (45,58), (60,126)]))]))])]))]))]), validReq := false }
  /- field/parsers/content_security_policy_report_only.py:13 -/
  | .content_security_policy_report_only_ => { kind := .list, canonicalName := some (str "Content-Security-Policy-Report-Only"), reference := str "https://www.w3.org/TR/CSP3/", category := .SECURITY, syn := some (seqs [(seqs [(plus (cls [(97,122), (65,90), (48,57), (45,45)])), (opt (seqs [rfc9110.RWS, (star (cls [(32,32), (9,9), (33,43), (45,58), (60,126)]))]))]), (star (seqs [rfc9110.OWS, (ch 59), (opt (seqs [rfc9110.OWS, (seqs [(plus (cls [(97,122), (65,90), (48,57), (45,45)])), (opt (seqs [rfc9110.RWS, (star (cls [(32,32), (9,9), (33,43), (45,58), (60,126)]))]))])]))]))]), validReq := false }
  /- field/parsers/content_transfer_encoding.py:7 -/
  | .content_transfer_encoding_ => { kind := .singleton, canonicalName := some (str "Content-Transfer-Encoding"), reference := str "https://www.rfc-editor.org/rfc/rfc2616#section-19.4.5", deprecated := true }
  /- field/parsers/content_type.py:19 -/
  | .content_type_ => { kind := .singleton, canonicalName := some (str "Content-Type"), reference := str "http://httpwg.org/specs/rfc9110#field.content-type", syn := some rfc9110.media_type }
  /- field/parsers/cookie.py:16 -/
  | .cookie_ => { kind := .broken, canonicalName := some (str "Cookie"), reference := str "https://www.rfc-editor.org/rfc/rfc6265.html#section-4.2", category := .COOKIES, validResp := false }
  /- field/parsers/cross_origin_embedder_policy.py:17 -/
  | .cross_origin_embedder_policy_ => { kind := .sf (str "item"), canonicalName := some (str "Cross-Origin-Embedder-Policy"), reference := str "https://html.spec.whatwg.org/multipage/origin.html#coep", category := .SECURITY, validReq := false }
  /- field/parsers/cross_origin_embedder_policy_report_only.py:19 -/
  | .cross_origin_embedder_policy_report_only_ => { kind := .sf (str "item"), canonicalName := some (str "Cross-Origin-Embedder-Policy-Report-Only"), reference := str "https://html.spec.whatwg.org/multipage/origin.html#coep", category := .SECURITY, validReq := false }
  /- field/parsers/cross_origin_opener_policy.py:17 -/
  | .cross_origin_opener_policy_ => { kind := .sf (str "item"), canonicalName := some (str "Cross-Origin-Opener-Policy"), reference := str "https://html.spec.whatwg.org/multipage/origin.html#coop", category := .SECURITY, validReq := false }
  /- field/parsers/cross_origin_opener_policy_report_only.py:19 -/
  | .cross_origin_opener_policy_report_only_ => { kind := .sf (str "item"), canonicalName := some (str "Cross-Origin-Opener-Policy-Report-Only"), reference := str "https://html.spec.whatwg.org/multipage/origin.html#coop", category := .SECURITY, validReq := false }
  /- field/parsers/cross_origin_resource_policy.py:13 -/
  | .cross_origin_resource_policy_ => { kind := .singleton, canonicalName := some (str "Cross-Origin-Resource-Policy"), reference := str "https://fetch.spec.whatwg.org/#cross-origin-resource-policy-header", category := .SECURITY, validReq := false }
  /- field/parsers/cteonnt_length.py:5 -/
  | .cteonnt_length_ => { kind := .singleton, canonicalName := none, reference := str "https://bugzilla.mozilla.org/show_bug.cgi?id=868638" }
  /- field/parsers/date.py:16 -/
  | .date_ => { kind := .singleton, canonicalName := some (str "Date"), reference := str "http://httpwg.org/specs/rfc9110#field.date" }
  /- field/parsers/deprecation.py:15 -/
  | .deprecation_ => { kind := .sf (str "item"), canonicalName := some (str "Deprecation"), reference := str "https://www.rfc-editor.org/rfc/rfc9651.html", validReq := false }
  /- field/parsers/etag.py:16 -/
  | .etag_ => { kind := .singleton, canonicalName := some (str "ETag"), reference := str "http://httpwg.org/specs/rfc9110#field.etag", category := .CACHING, syn := some rfc9110.entity_tag }
  /- field/parsers/expect.py:12 -/
  | .expect_ => { kind := .list, canonicalName := some (str "Expect"), reference := str "http://httpwg.org/specs/rfc9110#field.expect", syn := some rfc9110.expectation, validResp := false }
  /- field/parsers/expires.py:13 -/
  | .expires_ => { kind := .singleton, canonicalName := some (str "Expires"), reference := str "http://httpwg.org/specs/rfc9111#field.expires", category := .CACHING, validReq := false }
  /- field/parsers/from_field.py:10 -/
  | .from_field_ => { kind := .singleton, canonicalName := some (str "From"), reference := str "http://httpwg.org/specs/rfc9110#field.from", syn := some rfc5322.mailbox, validResp := false }
  /- field/parsers/host.py:10 -/
  | .host_ => { kind := .singleton, canonicalName := some (str "Host"), reference := str "http://httpwg.org/specs/rfc9110#field.host", syn := some rfc9110.Host, validResp := false }
  /- field/parsers/if_match.py:10 -/
  | .if_match_ => { kind := .list, canonicalName := some (str "If-Match"), reference := str "http://httpwg.org/specs/rfc9110#field.if-match", syn := some rfc9110.If_Match, validResp := false }
  /- field/parsers/if_modified_since.py:10 -/
  | .if_modified_since_ => { kind := .singleton, canonicalName := some (str "If-Modified-Since"), reference := str "http://httpwg.org/specs/rfc9110#field.if-modified-since", syn := some rfc9110.HTTP_date, validResp := false }
  /- field/parsers/if_none_match.py:11 -/
  | .if_none_match_ => { kind := .list, canonicalName := some (str "If-None-Match"), reference := str "http://httpwg.org/specs/rfc9110#field.if-none-match", category := .VALIDATION, syn := some rfc9110.If_Match, validResp := false }
  /- field/parsers/if_range.py:11 -/
  | .if_range_ => { kind := .singleton, canonicalName := some (str "If-Range"), reference := str "http://httpwg.org/specs/rfc9110#field.if-range", category := .VALIDATION, syn := some rfc9110.If_Range, validResp := false }
  /- field/parsers/if_unmodified_since.py:11 -/
  | .if_unmodified_since_ => { kind := .singleton, canonicalName := some (str "If-Unmodified-Since"), reference := str "http://httpwg.org/specs/rfc9110#field.if-unmodified-since", category := .VALIDATION, syn := some rfc9110.HTTP_date, validResp := false }
  /- field/parsers/keep_alive.py:15 -/
  | .keep_alive_ => { kind := .list, canonicalName := some (str "Keep-Alive"), reference := str "https://www.rfc-editor.org/rfc/rfc2068.html#section-19.7.1", syn := some rfc9110.parameter, deprecated := true }
  /- field/parsers/last_modified.py:14 -/
  | .last_modified_ => { kind := .singleton, canonicalName := some (str "Last-Modified"), reference := str "http://httpwg.org/specs/rfc9110#field.last-modified", category := .CACHING, validReq := false }
  /- field/parsers/link.py:19 -/
  | .link_ => { kind := .list, canonicalName := some (str "Link"), reference := str "http://httpwg.org/specs/rfc8288#header.link", syn := some rfc8288.link_value }
  /- field/parsers/location.py:14 -/
  | .location_ => { kind := .singleton, canonicalName := some (str "Location"), reference := str "http://httpwg.org/specs/rfc9110#field.location", syn := some rfc3986.URI_reference, validReq := false }
  /- field/parsers/max_forwards.py:20 -/
  | .max_forwards_ => { kind := .singleton, canonicalName := some (str "Max-Forwards"), reference := str "http://httpwg.org/specs/rfc9110#field.max-forwards", syn := some rfc9110.Content_Length, validResp := false }
  /- field/parsers/mime_version.py:8 -/
  | .mime_version_ => { kind := .singleton, canonicalName := some (str "MIME-Version"), reference := str "https://www.rfc-editor.org/rfc/rfc2616.html#%s#section-19.4.1", deprecated := true }
  /- field/parsers/nel.py:30 -/
  | .nel_ => { kind := .json, canonicalName := some (str "NEL"), reference := str "https://w3c.github.io/network-error-logging/#nel-header-field", validReq := false }
  /- field/parsers/origin.py:23 -/
  | .origin_ => { kind := .singleton, canonicalName := some (str "Origin"), reference := str "https://www.rfc-editor.org/rfc/rfc6454.html#section-7", category := .CORS, validResp := false }
  /- field/parsers/p3p.py:7 -/
  | .p3p_ => { kind := .singleton, canonicalName := some (str "P3P"), reference := str "http://www.w3.org/TR/P3P/#syntax_ext", deprecated := true, validReq := false }
  /- field/parsers/permissions_policy.py:14 -/
  | .permissions_policy_ => { kind := .sf (str "dictionary"), canonicalName := some (str "Permissions-Policy"), reference := str "https://www.w3.org/TR/permissions-policy/", category := .SECURITY, validReq := false }
  /- field/parsers/pragma.py:13 -/
  | .pragma_ => { kind := .list, canonicalName := some (str "Pragma"), reference := str "http://httpwg.org/specs/rfc9111#field.pragma", category := .CACHING, syn := some rfc9111.pragma_directive, deprecated := true, validResp := false }
  /- field/parsers/proxy_authenticate.py:6 -/
  | .proxy_authenticate_ => { kind := .list, canonicalName := some (str "Proxy-Authenticate"), reference := str "http://httpwg.org/specs/rfc9110#field.proxy-authenticate", syn := some rfc9110.credentials, validReq := false }
  /- field/parsers/proxy_authentication_info.py:7 -/
  | .proxy_authentication_info_ => { kind := .list, canonicalName := some (str "Proxy-Authentication-Info"), reference := str "http://httpwg.org/specs/rfc9110#field.proxy-authentication-info", syn := some rfc9110.auth_param, validReq := false }
  /- field/parsers/proxy_authorization.py:7 -/
  | .proxy_authorization_ => { kind := .singleton, canonicalName := some (str "Proxy-Authorization"), reference := str "http://httpwg.org/specs/rfc9110#field.proxy-authorization", syn := some rfc9110.credentials, validResp := false }
  /- field/parsers/proxy_status.py:18 -/
  | .proxy_status_ => { kind := .sf (str "list"), canonicalName := some (str "Proxy-Status"), reference := str "https://www.rfc-editor.org/rfc/rfc9209.html#section-2", validReq := false }
  /- field/parsers/range.py:17 -/
  | .range_ => { kind := .singleton, canonicalName := some (str "Range"), reference := str "http://httpwg.org/specs/rfc9110#field.range", category := .RANGE, syn := some rfc9110.ranges_specifier, reportSyntax := false, validResp := false }
  /- field/parsers/referer.py:13 -/
  | .referer_ => { kind := .singleton, canonicalName := some (str "Referer"), reference := str "http://httpwg.org/specs/rfc9110#field.referer", syn := some rfc9110.Content_Location, validResp := false }
  /- field/parsers/referrer_policy.py:8 -/
  | .referrer_policy_ => { kind := .list, canonicalName := some (str "Referrer-Policy"), reference := str "https://www.w3.org/TR/referrer-policy/", category := .SECURITY, syn := some rfc9110.token, validReq := false }
  /- field/parsers/report_to.py:8 -/
  | .report_to_ => { kind := .json, canonicalName := some (str "Report-To"), reference := str "https://w3c.github.io/reporting/#header", deprecated := true, validReq := false }
  /- field/parsers/reporting_endpoints.py:15 -/
  | .reporting_endpoints_ => { kind := .sf (str "dictionary"), canonicalName := some (str "Reporting-Endpoints"), reference := str "https://www.w3.org/TR/reporting/#header", validReq := false }
  /- field/parsers/retry_after.py:6 -/
  | .retry_after_ => { kind := .singleton, canonicalName := some (str "Retry-After"), reference := str "http://httpwg.org/specs/rfc9110#field.retry-after", syn := some rfc9110.Retry_After, validReq := false }
  /- field/parsers/server.py:10 -/
  | .server_ => { kind := .list, canonicalName := some (str "Server"), reference := str "http://httpwg.org/specs/rfc9110#field.server", syn := some rfc9110.Server, validReq := false }
  /- field/parsers/server_timing.py:16 -/
  | .server_timing_ => { kind := .list, canonicalName := some (str "Server-Timing"), reference := str "https://w3c.github.io/server-timing/#the-server-timing-header-field", syn := some (seqs [rfc9110.token, rfc9110.parameters]), validReq := false }
  /- field/parsers/set_cookie.py:24 -/
  | .set_cookie_ => { kind := .broken, canonicalName := some (str "Set-Cookie"), reference := str "https://www.rfc-editor.org/rfc/rfc6265.html#%s", category := .COOKIES, validReq := false }
  /- field/parsers/set_cookie2.py:7 -/
  | .set_cookie2_ => { kind := .list, canonicalName := some (str "Set-Cookie2"), reference := str "https://www.rfc-editor.org/rfc/rfc6265.html#%s", category := .COOKIES, deprecated := true, validReq := false }
  /- field/parsers/soapaction.py:5 -/
  | .soapaction_ => { kind := .singleton, canonicalName := some (str "SoapAction"), reference := str "http://www.w3.org/TR/2000/NOTE-SOAP-20000508/#_Toc478383528", validResp := false }
  /- field/parsers/speculation_rules.py:18 -/
  | .speculation_rules_ => { kind := .sf (str "list"), canonicalName := some (str "Speculation-Rules"), reference := str "https://wicg.github.io/nav-speculation/speculation-rules.html", validReq := false }
  /- field/parsers/strict_transport_security.py:17 -/
  | .strict_transport_security_ => { kind := .singleton, canonicalName := some (str "Strict-Transport-Security"), reference := str "https://www.rfc-editor.org/rfc/rfc6797", category := .SECURITY, syn := some (seqs [(seqs [rfc9110.token, (opt (seqs [rfc9110.OWS, (ch 61), rfc9110.OWS, rfc9110.parameter_value]))]), (star (seqs [rfc9110.OWS, (ch 59), rfc9110.OWS, (seqs [rfc9110.token, (opt (seqs [rfc9110.OWS, (ch 61), rfc9110.OWS, rfc9110.parameter_value]))])])), (opt (seqs [rfc9110.OWS, (ch 59)]))]), validReq := false }
  /- field/parsers/sunset.py:8 -/
  | .sunset_ => { kind := .singleton, canonicalName := some (str "Sunset"), reference := str "https://www.rfc-editor.org/rfc/rfc8594.html", validReq := false }
  /- field/parsers/tcn.py:6 -/
  | .tcn_ => { kind := .list, canonicalName := some (str "TCN"), reference := str "https://www.rfc-editor.org/rfc/rfc2295", category := .CONNEG, validReq := false }
  /- field/parsers/te.py:10 -/
  | .te_ => { kind := .list, canonicalName := some (str "TE"), reference := str "http://httpwg.org/specs/rfc9110#field.te", syn := some rfc9110.t_codings }
  /- field/parsers/trailer.py:6 -/
  | .trailer_ => { kind := .list, canonicalName := some (str "Trailer"), reference := str "http://httpwg.org/specs/rfc9110#field.trailer", syn := some rfc9110.token }
  /- field/parsers/transfer_encoding.py:18 -/
  | .transfer_encoding_ => { kind := .list, canonicalName := some (str "Transfer-Encoding"), reference := str "http://httpwg.org/specs/rfc9112#field.transfer-encoding", syn := some rfc9112.transfer_coding }
  /- field/parsers/upgrade.py:7 -/
  | .upgrade_ => { kind := .list, canonicalName := some (str "Upgrade"), reference := str "http://httpwg.org/specs/rfc9110#field.upgrade", syn := some rfc9110.product }
  /- field/parsers/use_as_dictionary.py:14 -/
  | .use_as_dictionary_ => { kind := .sf (str "dictionary"), canonicalName := some (str "Use-As-Dictionary"), reference := str "https://www.rfc-editor.org/rfc/rfc9842.html", category := .CONNEG, validReq := false }
  /- field/parsers/user_agent.py:7 -/
  | .user_agent_ => { kind := .singleton, canonicalName := some (str "User-Agent"), reference := str "http://httpwg.org/specs/rfc9110#field.user-agent", syn := some rfc9110.Server, validResp := false }
  /- field/parsers/vary.py:9 -/
  | .vary_ => { kind := .list, canonicalName := some (str "Vary"), reference := str "http://httpwg.org/specs/rfc9110#field.vary", category := .CACHING, syn := some rfc9110.Vary_element, validReq := false }
  /- field/parsers/via.py:12 -/
  | .via_ => { kind := .list, canonicalName := some (str "Via"), reference := str "http://httpwg.org/specs/rfc9110#field.via", syn := some rfc9110.Via_element }
  /- field/parsers/warning.py:9 -/
  | .warning_ => { kind := .list, canonicalName := some (str "Warning"), reference := str "http://httpwg.org/specs/rfc9111#field.warning", category := .CACHING, syn := some rfc9111.warning_value, deprecated := true, validReq := false }
  /- field/parsers/www_authenticate.py:7 -/
  | .www_authenticate_ => { kind := .list, canonicalName := some (str "WWW-Authenticate"), reference := str "http://httpwg.org/specs/rfc9110#field.www-authenticate", syn := some rfc9110.credentials, validReq := false }
  /- field/parsers/x_cache.py:6 -/
  | .x_cache_ => { kind := .list, canonicalName := some (str "X-Cache"), reference := str "https://lyte.id.au/2014/08/28/x-cache-and-x-cache-lookupheaders/", category := .CACHING, validReq := false }
  /- field/parsers/x_cache_lookup.py:6 -/
  | .x_cache_lookup_ => { kind := .list, canonicalName := some (str "X-Cache-Lookup"), reference := str "https://lyte.id.au/2014/08/28/x-cache-and-x-cache-lookupheaders/", category := .CACHING, validReq := false }
  /- field/parsers/x_content_type_options.py:8 -/
  | .x_content_type_options_ => { kind := .list, canonicalName := some (str "X-Content-Type-Options"), reference := str "https://fetch.spec.whatwg.org/#x-content-type-options-header", category := .SECURITY, syn := some (lit (str "nosniff")), validReq := false }
  /- field/parsers/x_frame_options.py:26 -/
  | .x_frame_options_ => { kind := .singleton, canonicalName := some (str "X-Frame-Options"), reference := str "https://www.rfc-editor.org/rfc/rfc7034", category := .SECURITY, syn := some (alts [(lit (str "DENY")), (lit (str "SAMEORIGIN")), (seqs [(lit (str "ALLOW-FROM")), rfc9110.RWS, (seqs [rfc5234.ALPHA, (star (alts [rfc5234.ALPHA, rfc5234.DIGIT, (ch 43), (ch 45), (ch 46)])), (lit (str "://")), rfc3986.host, (opt (seqs [(ch 58), rfc3986.port]))])])]), validReq := false }
  /- field/parsers/x_pad.py:5 -/
  | .x_pad_ => { kind := .singleton, canonicalName := some (str "X-Pad"), reference := str "https://www.oreilly.com/library/view/http-the-definitive/1565925092/re61.html", deprecated := true, validReq := false }
  /- field/deprecated.py:189-202; name, category and reference are per instance -/
  | .deprecatedField => { kind := .list, canonicalName := none, reference := [], deprecated := true }
  /- field/unnecessary.py:28-37 -/
  | .unnecessaryField => { kind := .list, canonicalName := none, reference := str "about:blank" }
  /- field/finder.py:91-98 -/
  | .unknownField => { kind := .unknown, canonicalName := none, reference := str "about:blank" }

/-- `sys.modules` entries below httplint.field.parsers with a class of the same name (finder.py:75-79) -/
def parserModules : List (Str × FieldId) := [
  (str "accept", .accept_),
  (str "accept_ch", .accept_ch_),
  (str "accept_encoding", .accept_encoding_),
  (str "accept_language", .accept_language_),
  (str "accept_patch", .accept_patch_),
  (str "accept_post", .accept_post_),
  (str "accept_query", .accept_query_),
  (str "accept_ranges", .accept_ranges_),
  (str "access_control", .access_control_),
  (str "access_control_allow_credentials", .access_control_allow_credentials_),
  (str "access_control_allow_headers", .access_control_allow_headers_),
  (str "access_control_allow_methods", .access_control_allow_methods_),
  (str "access_control_allow_origin", .access_control_allow_origin_),
  (str "access_control_expose_headers", .access_control_expose_headers_),
  (str "access_control_max_age", .access_control_max_age_),
  (str "access_control_request_headers", .access_control_request_headers_),
  (str "access_control_request_method", .access_control_request_method_),
  (str "age", .age_),
  (str "allow", .allow_),
  (str "alt_svc", .alt_svc_),
  (str "authentication_info", .authentication_info_),
  (str "authorization", .authorization_),
  (str "available_dictionary", .available_dictionary_),
  (str "cache_control", .cache_control_),
  (str "cache_group_invalidation", .cache_group_invalidation_),
  (str "cache_groups", .cache_groups_),
  (str "cache_status", .cache_status_),
  (str "cdn_cache_control", .cdn_cache_control_),
  (str "clear_site_data", .clear_site_data_),
  (str "connection", .connection_),
  (str "connectiox", .connectiox_),
  (str "content_base", .content_base_),
  (str "content_disposition", .content_disposition_),
  (str "content_encoding", .content_encoding_),
  (str "content_language", .content_language_),
  (str "content_length", .content_length_),
  (str "content_location", .content_location_),
  (str "content_md5", .content_md5_),
  (str "content_range", .content_range_),
  (str "content_security_policy", .content_security_policy_),
  (str "content_security_policy_report_only", .content_security_policy_report_only_),
  (str "content_transfer_encoding", .content_transfer_encoding_),
  (str "content_type", .content_type_),
  (str "cookie", .cookie_),
  (str "cross_origin_embedder_policy", .cross_origin_embedder_policy_),
  (str "cross_origin_embedder_policy_report_only", .cross_origin_embedder_policy_report_only_),
  (str "cross_origin_opener_policy", .cross_origin_opener_policy_),
  (str "cross_origin_opener_policy_report_only", .cross_origin_opener_policy_report_only_),
  (str "cross_origin_resource_policy", .cross_origin_resource_policy_),
  (str "cteonnt_length", .cteonnt_length_),
  (str "date", .date_),
  (str "deprecation", .deprecation_),
  (str "etag", .etag_),
  (str "expect", .expect_),
  (str "expires", .expires_),
  (str "from_field", .from_field_),
  (str "host", .host_),
  (str "if_match", .if_match_),
  (str "if_modified_since", .if_modified_since_),
  (str "if_none_match", .if_none_match_),
  (str "if_range", .if_range_),
  (str "if_unmodified_since", .if_unmodified_since_),
  (str "keep_alive", .keep_alive_),
  (str "last_modified", .last_modified_),
  (str "link", .link_),
  (str "location", .location_),
  (str "max_forwards", .max_forwards_),
  (str "mime_version", .mime_version_),
  (str "nel", .nel_),
  (str "origin", .origin_),
  (str "p3p", .p3p_),
  (str "permissions_policy", .permissions_policy_),
  (str "pragma", .pragma_),
  (str "proxy_authenticate", .proxy_authenticate_),
  (str "proxy_authentication_info", .proxy_authentication_info_),
  (str "proxy_authorization", .proxy_authorization_),
  (str "proxy_status", .proxy_status_),
  (str "range", .range_),
  (str "referer", .referer_),
  (str "referrer_policy", .referrer_policy_),
  (str "report_to", .report_to_),
  (str "reporting_endpoints", .reporting_endpoints_),
  (str "retry_after", .retry_after_),
  (str "server", .server_),
  (str "server_timing", .server_timing_),
  (str "set_cookie", .set_cookie_),
  (str "set_cookie2", .set_cookie2_),
  (str "soapaction", .soapaction_),
  (str "speculation_rules", .speculation_rules_),
  (str "strict_transport_security", .strict_transport_security_),
  (str "sunset", .sunset_),
  (str "tcn", .tcn_),
  (str "te", .te_),
  (str "trailer", .trailer_),
  (str "transfer_encoding", .transfer_encoding_),
  (str "upgrade", .upgrade_),
  (str "use_as_dictionary", .use_as_dictionary_),
  (str "user_agent", .user_agent_),
  (str "vary", .vary_),
  (str "via", .via_),
  (str "warning", .warning_),
  (str "www_authenticate", .www_authenticate_),
  (str "x_cache", .x_cache_),
  (str "x_cache_lookup", .x_cache_lookup_),
  (str "x_content_type_options", .x_content_type_options_),
  (str "x_frame_options", .x_frame_options_),
  (str "x_pad", .x_pad_)]

/-- field/deprecated.py:181-186: lower-cased name, canonical name, category, reference -/
def deprecatedTable : List (Str × Str × Cat × Str) := [
  (str "x-ua-compatible", str "X-UA-Compatible", .GENERAL, str "https://learn.microsoft.com/en-us/openspecs/ie_standards/ms-iedoco/380e2488-f5eb-4457-a07a-0cb1b6e4b4b5"),
  (str "x-meta-mssmarttagspreventparsing", str "X-Meta-MSSmartTagsPreventParsing", .SECURITY, str "https://web.archive.org/web/20120211140254/http://blogs.msdn.com/b/ieinternals/archive/2009/06/30/internet-explorer-custom-http-headers.aspx"),
  (str "x-download-options", str "X-Download-Options", .SECURITY, str "https://web.archive.org/web/20120211140254/http://blogs.msdn.com/b/ieinternals/archive/2009/06/30/internet-explorer-custom-http-headers.aspx"),
  (str "x-xss-protection", str "X-XSS-Protection", .SECURITY, str "https://developer.mozilla.org/en-US/docs/Web/HTTP/Reference/Headers/X-XSS-Protection"),
  (str "accept-ch-lifetime", str "Accept-CH-Lifetime", .CONNEG, str "https://datatracker.ietf.org/doc/html/draft-ietf-httpbis-client-hints-08#appendix-B.8"),
  (str "accept-charset", str "Accept-Charset", .CONNEG, str "https://www.rfc-editor.org/rfc/rfc9110.html#name-accept-charset"),
  (str "c-pep-info", str "C-PEP-Info", .GENERAL, str "https://datatracker.ietf.org/doc/status-change-http-experiments-to-historic/"),
  (str "pragma", str "Pragma", .CACHING, str "https://www.rfc-editor.org/rfc/rfc9111.html#name-pragma"),
  (str "protocol-info", str "Protocol-Info", .GENERAL, str "https://www.w3.org/TR/NOTE-jepi"),
  (str "protocol-query", str "Protocol-Query", .GENERAL, str "https://www.w3.org/TR/NOTE-jepi"),
  (str "access-control", str "Access-Control", .SECURITY, str "https://www.w3.org/TR/2007/WD-access-control-20071126/#access-control0"),
  (str "c-ext", str "C-Ext", .GENERAL, str "https://datatracker.ietf.org/doc/status-change-http-experiments-to-historic/"),
  (str "c-man", str "C-Man", .GENERAL, str "https://datatracker.ietf.org/doc/status-change-http-experiments-to-historic/"),
  (str "c-opt", str "C-Opt", .GENERAL, str "https://datatracker.ietf.org/doc/status-change-http-experiments-to-historic/"),
  (str "c-pep", str "C-PEP", .GENERAL, str "https://datatracker.ietf.org/doc/status-change-http-experiments-to-historic/"),
  (str "content-base", str "Content-Base", .GENERAL, str "https://www.rfc-editor.org/rfc/rfc2616.html#section-19.6.3"),
  (str "content-dpr", str "Content-DPR", .CONNEG, str "https://datatracker.ietf.org/doc/html/draft-ietf-httpbis-client-hints-07#appendix-B.8"),
  (str "content-id", str "Content-ID", .GENERAL, str "https://www.w3.org/TR/NOTE-drp"),
  (str "content-md5", str "Content-MD5", .GENERAL, str "https://www.rfc-editor.org/rfc/rfc7231.html#appendix-B"),
  (str "content-script-type", str "Content-Script-Type", .GENERAL, str "https://www.w3.org/TR/html4/interact/scripts.html#h-18.2.2.1"),
  (str "content-style-type", str "Content-Style-Type", .GENERAL, str "https://www.w3.org/TR/html401/present/styles.html#h-14.2.1"),
  (str "content-version", str "Content-Version", .GENERAL, str "https://www.rfc-editor.org/rfc/rfc2616.html#section-19.6.3"),
  (str "cookie2", str "Cookie2", .COOKIES, str "https://www.rfc-editor.org/rfc/rfc6265.html#section-1"),
  (str "default-style", str "Default-Style", .GENERAL, str "https://www.w3.org/TR/2010/WD-html-markup-20100624/meta.http-equiv.default-style.html"),
  (str "derived-from", str "Derived-From", .GENERAL, str "https://www.rfc-editor.org/rfc/rfc2616.html#section-19.6.3"),
  (str "dnt", str "DNT", .GENERAL, str "https://w3c.github.io/dnt/drafts/tracking-dnt.html#dnt-header-field"),
  (str "differential-id", str "Differential-ID", .GENERAL, str "https://www.w3.org/TR/NOTE-drp"),
  (str "digest", str "Digest", .GENERAL, str "https://datatracker.ietf.org/doc/draft-ietf-httpbis-digest-headers/"),
  (str "dpr", str "DPR", .CONNEG, str "https://wicg.github.io/responsive-image-client-hints/#sec-ch-dpr"),
  (str "expect-ct", str "Expect-CT", .SECURITY, str "https://mailarchive.ietf.org/arch/msg/httpbisa/XpAWZsIre5WAte3lXGTh6A77sok/"),
  (str "ext", str "Ext", .GENERAL, str "https://datatracker.ietf.org/doc/status-change-http-experiments-to-historic/"),
  (str "feature-policy", str "Feature-Policy", .SECURITY, str "https://www.w3.org/TR/feature-policy/"),
  (str "getprofile", str "GetProfile", .GENERAL, str "https://www.w3.org/TR/NOTE-OPS-OverHTTP"),
  (str "http2-settings", str "HTTP2-Settings", .GENERAL, str "https://www.rfc-editor.org/rfc/rfc9113.html#name-http2-settings-header-field"),
  (str "man", str "Man", .GENERAL, str "https://datatracker.ietf.org/doc/status-change-http-experiments-to-historic/"),
  (str "method-check", str "Method-Check", .SECURITY, str "https://www.w3.org/TR/2007/WD-access-control-20071126/#method-check"),
  (str "method-check-expires", str "Method-Check-Expires", .SECURITY, str "https://www.w3.org/TR/2007/WD-access-control-20071126/#method-check-expires"),
  (str "opt", str "Opt", .GENERAL, str "https://datatracker.ietf.org/doc/status-change-http-experiments-to-historic/"),
  (str "p3p", str "P3P", .GENERAL, str "https://www.w3.org/TR/P3P"),
  (str "pep", str "PEP", .GENERAL, str "http://www.w3.org/TR/WD-http-pep"),
  (str "pep-info", str "Pep-Info", .GENERAL, str "http://www.w3.org/TR/WD-http-pep"),
  (str "pics-label", str "PICS-Label", .GENERAL, str "https://www.w3.org/TR/REC-PICS-labels-961031"),
  (str "profileobject", str "ProfileObject", .GENERAL, str "https://www.w3.org/TR/NOTE-OPS-OverHTTP"),
  (str "protocol", str "Protocol", .GENERAL, str "https://www.w3.org/TR/REC-PICS-labels-961031"),
  (str "protocol-request", str "Protocol-Request", .GENERAL, str "https://www.w3.org/TR/REC-PICS-labels-961031"),
  (str "proxy-features", str "Proxy-Features", .GENERAL, str "https://www.w3.org/TR/WD-proxy.html"),
  (str "proxy-instruction", str "Proxy-Instruction", .GENERAL, str "https://www.w3.org/TR/WD-proxy.html"),
  (str "public", str "Public", .GENERAL, str "https://www.rfc-editor.org/rfc/rfc2616.html#section-19.6.3"),
  (str "public-key-pins", str "Public-Key-Pins", .SECURITY, str "https://www.rfc-editor.org/rfc/rfc7469.html"),
  (str "public-key-pins-report-only", str "Public-Key-Pins-Report-Only", .SECURITY, str "https://www.rfc-editor.org/rfc/rfc7469.html"),
  (str "referer-root", str "Referer-Root", .SECURITY, str "https://www.w3.org/TR/2007/WD-access-control-20071126/#referer-root"),
  (str "safe", str "Safe", .GENERAL, str "https://datatracker.ietf.org/doc/status-change-http-experiments-to-historic/"),
  (str "security-scheme", str "Security-Scheme", .SECURITY, str "https://datatracker.ietf.org/doc/status-change-http-experiments-to-historic/"),
  (str "set-cookie2", str "Set-Cookie2", .COOKIES, str "https://www.rfc-editor.org/rfc/rfc6265.html#section-1"),
  (str "setprofile", str "SetProfile", .GENERAL, str "https://www.w3.org/TR/NOTE-OPS-OverHTTP"),
  (str "uri", str "URI", .GENERAL, str "https://www.rfc-editor.org/rfc/rfc2068.html#section-19.6.2.5"),
  (str "viewport-width", str "Viewport-Width", .CONNEG, str "https://wicg.github.io/responsive-image-client-hints/#sec-ch-viewport-width"),
  (str "want-digest", str "Want-Digest", .GENERAL, str "https://datatracker.ietf.org/doc/draft-ietf-httpbis-digest-headers/"),
  (str "warning", str "Warning", .CACHING, str "https://www.rfc-editor.org/rfc/rfc9111.html#name-warning"),
  (str "width", str "Width", .CONNEG, str "https://wicg.github.io/responsive-image-client-hints/#sec-ch-width"),
  (str "x-content-security-policy", str "X-Content-Security-Policy", .SECURITY, str "https://cheatsheetseries.owasp.org/cheatsheets/Content_Security_Policy_Cheat_Sheet.html#warning"),
  (str "x-webkit-csp", str "X-Webkit-CSP", .SECURITY, str "https://cheatsheetseries.owasp.org/cheatsheets/Content_Security_Policy_Cheat_Sheet.html#warning")]

/-- field/unnecessary.py:7-25 -/
def unnecessaryNames : List Str := [str "x-aspnet-version", str "x-aspnetmvc-version", str "x-powered-by", str "x-generator", str "x-drupal-cache", str "x-varnish", str "x-mod-pagespeed", str "x-pingback", str "x-runtime", str "x-rack-cache", str "x-content-encoded-by", str "x-backend-server"]

end HL
