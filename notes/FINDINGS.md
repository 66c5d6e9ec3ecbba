# Working notes: observations from reading /repo (durable memory for the author)

Crash / totality (exceptions escaping process_headers / finish_content):
- F1 message.py:107: parsed["content-type"][1] with field name b"Content-Type " (trailing ws). finder key unstripped ->
  UnknownHttpField(value=[]), norm_name stripped -> parsed["content-type"]=[] -> IndexError.
- F2 cors.py:70: parsed has stripped "access-control-max-age" but handlers keyed unstripped -> KeyError (name b"Access-Control-Max-Age ").
- F3 cache.py:132: Age unparsable -> parsed["age"]=None; request.start_time and response.start_time truthy -> None + delay TypeError.
- F4 link.py:61 evaluate: urljoin/urlsplit ValueError uncaught (Link: <http://[>; rel=preload). Same: reporting_endpoints:38, speculation_rules:38, nel:22.
- F5 json_field: only JSONDecodeError caught; RecursionError / ValueError(int digits>4300) escape.
- F6 parse_params val[0] IndexError? (depends on rfc9110.parameter; check).
- StructuredField/JsonField handle_input after a finish (process_headers twice): tuple/dict/None .append AttributeError.
Notes/rendering:
- F7 CONTENT_NOT_ALLOWED _summary uses %(message)s, only message_type bound -> KeyError on .summary (message.py:337-344; also `_note` not `_text`).
- F8 RelativeTime.__str__ timedelta overflow for huge Age/max-age -> OverflowError when rendering.
- F9 via VIA_PRESENT / CACHE_STATUS interpolate raw wire data outside code spans (HTML injection), only backticks stripped.
- F10 CSP_REPORT_TO_MISSING attached to FIRST CSP note, even when the handler is CSP-Report-Only.
Section:
- F11 section.py:68-69 `continue` skips offset += 1, so offsets after a rejected line don't index headers.text.
- F12 same norm_name different raw names ("age", "age ") -> two handlers, later overwrites parsed.
Semantics:
- F13 cache: STORE_UNSTORABLE leaves store_shared/store_private True; STORE_STORABLE_SHARED_ONLY leaves store_private True.
- F14 Content-Length int(): accepts "-5", "+5", "1_0", no note (report_syntax False) ; CL_CORRECT for "1_0" with 10 bytes. Same Age ("+5","1_0").
- F15 x_frame_options: substring test: ALLOW-FROM http://deny.example => FRAME_OPTIONS_DENY.
- F16 accept_ch MISSING_VARY is case-sensitive though vary is lowercased.
- F17 cors: unparsable Origin treated as "null".
- F18 cache-control: no-cache without value -> ("no-cache","None") (unquote_string(None)).
- F19 set-cookie Max-Age "²" isdigit but int() ValueError -> cookie dropped silently (also >4300 digits). Range/Content-Range same.
- F20 HSTS threshold 1536000 (vs 31536000).
- F21 charset/content_type range(100,199) excludes 199.
- F22 finish: request content REQUEST_CONTENT_NOT_DEFINED only methods listed.
- F23 status int("2_00") == 200, " 200 " etc accepted as numeric.
- F24 `_process_cookie_attribute` path default: "cookie_path" for uri_path not starting with "/" but with 2 slashes is prefix (overrides "/").
Syntax:
- F28 rfc5646.py:13 `alphanum = r"(?: {ALPHA} | {DIGIT} )"` is not an f-string: matches the literal text "{ALPHA}"; so variants/extensions/privateuse never match (en-x-foo, sl-rozaj -> BAD_SYNTAX).
- F29 rfc3986.py path_empty = rf"{pchar}{0}" -> pchar followed by literal "0" (f-string evaluates {0}); "?q", "#f", "" are not URI-references; "http:" not a URI.
- F30 rfc3986.py userinfo lacks `*` (one char only).
- F31 rfc5987.py unescaped # in VERBOSE -> comment; drops chars, empty alternative.
- F32 rfc9110 `{last_pos}?` becomes lazy `+?` not optional (harmless: other_range covers).
- F33 rfc5322 ctext \x5d\x7e (not range), ccontent has empty alternative, phrase contains literal obs_phrase.
CLI:
- F25 cli: -i request passes the str "request", mode == modes.REQUEST False -> UnboundLocalError. Only the default works.
- F26 content-encoding pipeline treats unknown codings as identity -> gzip decode of unknown-coded data.
- F27 charset=undefined (or idna xn-- labels): bytes.decode raises UnicodeError (not UnicodeDecodeError), uncaught in verify_charset.
- F34 translate("") in a non-English locale returns the PO header metadata: detail of STORE_METHOD_UNCACHEABLE / CONTENT_NOT_ALLOWED (empty _text).
Finder:
- F35 header name with underscores ("Content_Type") or "From-Field" resolves to the parser class but is parsed under its own norm_name.
- F36 aliases with hyphens ("x-pad-for-netscrape-bug","xx-pad","x-browseralignment") never match since name_token replaces "-" by "_", and "_onnection" never matches because find_module returns None for names starting with "_".
Added later:
- F3b: header name b"Age " -> UnknownHttpField value [] -> parsed["age"]=[] -> cache check_age `max(0, [])` TypeError even without times.
- F37-F39: evaluate in finish phase reads headers.parsed mid-processing, so verdicts depend on field order: date.py:31-35 AGE_PENALTY needs Age before Date; last_modified.py:28 needs Date before; content_length.py:38 needs Transfer-Encoding before Content-Length.
- F40: parameters without "=" are silently ignored by parse_params (regex requires "="; `None` branch dead); val/key never empty so no IndexError (provable).
- F41: set_cookie NON_DELIMITER has `0-0` instead of `0-9`; deferred notes re-emit if headers processed twice; urlsplit(base_uri) ValueError silently drops cookies.
- F42: mime_version reference contains literal "%s". F43: codecs.lookup with NUL raises ValueError (not reachable via grammar).
- F44: BAD_Q_VALUE (accept_language) summary contains literal "{language}" (not a %-template).
- F45: CDN-Cache-Control: `max-age` without value parses to True which is an `int` instance -> not reported.
- F46: cache_status `hit=?0`, `stored=?0`, `collapsed=?0` -> `desc % False` TypeError escapes process_headers.
- F47: content_disposition.py:42 tests r"\\" (two backslashes) in filename* rather than a backslash in filename.
- F48: set_cookie loose_date_parse: `^(\d\d?)(?:\D)?` matches first two digits of a 4-digit year before a day is found ("2015 Jan 09" -> day 20, year 2009); Feb 30/31 accepted.
- F49: HSTS max-age="..." quoted value -> HSTS_BAD_MAX_AGE though grammar allows quoted-string.
- Set iteration order (cache_control dup loop, transfer_encoding unwanted, content_language dups) unspecified; model uses first-occurrence order. NaN/inf JSON floats not modelled.
- F50: wrong-message-type BrokenFields (Set-Cookie in a request, Cookie in a response): finish sets value = [] although pre_check failed, so headers.parsed maps the name to [] rather than None (C13 is false for these two; true for the others).
- F51: set_cookie.py _check_prefixes: __Host- accepts any Path=/ among several, although the last Path wins (`__Host-a=b; Secure; Path=/; Path=/x` is not reported).
- F52: rfc3986.py IPv6address: the left-hand sides `[ *n( h16 ":" ) h16 ]` are exact repetitions and not optional, so `http://[::1]/` isn't a URI.
- F53: range.py / content_range.py: a value with superscript digits (², ³, ¹ pass str.isdigit()) or more than 4300 digits is dropped (int() raises ValueError) with no note; `Content-Range: bytes` (no space, no slash) likewise.
- F54: HTTP-date and day names are accepted in any case (the grammar is compiled with IGNORECASE) although RFC 9110 5.6.7 says HTTP-date is case sensitive.
- F55: content_disposition.py:27-32 does not strip the disposition: `attachment ; filename=x` is "unknown".
- F56: accept.py / accept_language.py: a weight is anything of at most five characters that float() takes and that is between 0 and 1: `.1234`, `1e-9`, `+0.5`, `0_0.1` pass.
- F57: link.py splits a link at the first `;`, also inside `<...>`: `</a;b>; rel=preload` is taken to link to `/` (the last character of what precedes is dropped as the bracket).
- F58: use_as_dictionary.py demands `str` for `type`; RFC 9842 section 2.1.4 has a Token, so the standard `type=raw` is reported as USE_AS_DICTIONARY_BAD_TYPE (http_sf Token is not a str). `ttl=?1` passes (bool is an int).
- F59: referer.py compares netlocs as written: `https://Example.com/` or `https://example.com:443/` is reported as another origin than `https://example.com/`.
- F60: nel.py:84-88: the details of a bad `success_fraction` are "itmust be between 0.0 and 1.0" (missing space). `max_age: true` passes for an integer and `success_fraction: true` for a number (bool is an int).
- F61: content_encoding.py:128-133, 221-227: BAD_ZLIB and BAD_BROTLI say that `ok_zlib_len`/`ok_brotli_len` bytes "were decompressed successfully before this", but the value is `message.content_length`: the number of (compressed) bytes received so far, including the chunk that failed (`C106_length_fails`).
- F62: util.py:17-21 iri_to_uri splits the authority at its first colon, so user information is taken for the host: of `http://u:p@é/` only `u` goes through IDNA, the URI keeps the `é` and URI_BAD_SYNTAX is reported; of `http://u@é/` the whole `u@é` becomes one punycode label (`C109_authority_fails`).
- F63: list_field.py passes `category=self.category` with BAD_SYNTAX, but singleton_field.py and broken_field.py do not (nor does DUPLICATE_KEY in structured_field.py or SINGLE_HEADER_REPEAT): a syntax error in `ETag`, `Date`, `Set-Cookie` … is listed under General, one in `Vary` under Caching (C111, `framed`).
- F64: cache_status.py:49 / proxy_status.py: the `status` shown is not in code and not escaped: `Cache-Status: "<script>alert(1)</script>"` puts the tag into `note.detail`, which is `Markup` (trusted HTML) (`C114_status_is_exposed`).
- F65: accept_ch.py: `missing_fields` is shown outside code; a String member (reported by ACCEPT_CH_BAD_TYPE) is in it with any characters (`C114_missing_fields_are_exposed`).
- F66: content_encoding.py:81: the code span around `%(coding)s` is never closed, so the coding is outside code (`C114_unclosed_span`).
- F67: the `problem` of BAD_SYNTAX_DETAILED has a blank line and a code block, but its template puts it into backticks: the span ends at the blank line, the backticks are shown, and the offending character is outside code (`C114_bad_syntax_shows_one_character`).
- F68: empty items give two backticks in a row (SET_COOKIE_HARDENED with an empty name, LINK_RESOURCE_HINTS with an empty target), which Markdown reads as the beginning of another code span.
- F69: nel.py (`endpoints`) and clear_site_data.py (`values`) put backticks into a plain str, from which `_coerce` removes them; only MarkdownSafe keeps them.
- F70: BAD_JSON's `error` and DUPLICATE_KEY's `key` and `context` are shown outside code (the four spaces before the error are not preceded by a blank line).
- F71: util.py:79-81: `RelativeTime.__str__` raises `OverflowError` for more than 999999999 days, so `Cache-Control: max-age=86400000000000` (or a cookie with such a Max-Age) makes a note whose summary or detail cannot be shown (`C06_long_lifetime_cannot`).
- F72: etag.py:28-33: the opaque tag goes through `unquote_string`, which takes a backslash for an escape, although RFC 9110 8.8.3 has no escapes in an entity tag: `"a\b"` is recorded like `"ab"` (example in Props/Recorded.lean).
- F73: rfc9110.py:564 `comment` does not nest, although RFC 9110 5.6.5 has `comment = "(" *( ctext / quoted-pair / comment ) ")"`: `Server: a (b(c))`, `User-Agent` and `Via` with nested comments are BAD_SYNTAX (`C123_narrower`).
- F74: entity tags (`w/"x"`), `Alt-Svc: CLEAR` are accepted in any case although their RFCs make them case-sensitive (as F54); `C123_wider_strictly`.
- F75: rfc9110.py:265 `partial_URI` has no `?` before the query, so any query characters may follow `relative-part` (`Referer: 1a:b`); rfc5322.py:48 quoted_string has no FWS before the closing quote (`From: "a "@b` refused); Strict-Transport-Security: empty directives (`;max-age=1`) refused although RFC 6797 6.1 allows them.
- F76: message.py set_uri / rfc3986.py: the URIs `http://me@example.com/` (userinfo is one character), `http://[::1]/` (`::` needs the full number of groups before it), `about:` (path-empty is `{pchar}{0}` in an f-string, i.e. a pchar and a zero) and `http://[V1.a]/` (no IGNORECASE) are reported as URI_BAD_SYNTAX; nothing that is not a URI passes, but white space around it is allowed (`C124_refused`, `C124_only_uris`).
- F77: section.py:83: the subject of FIELD_SECTION_TOO_LARGE is `field-block`, which is also the subject of notes about a field named `Block` (and `field-date field-age` that of a field with that name), so by the subject such notes can't be told apart (`Distinct` in Props/AloneThm.lean).
- F78: field/parsers/content_security_policy.py (`post_check`): a missing reporting endpoint is added under the *first* CONTENT_SECURITY_POLICY note of the message (F10), so with both Content-Security-Policy and Content-Security-Policy-Report-Only the order of the two fields decides under which of their notes it is shown (`C128_order_fails`).
- F79: note.py:120 (`Note.__eq__`, read, not modelled): equality compares the class, the variables and the subject but neither the sub-notes nor the category, so the first CONTENT_SECURITY_POLICY note with missing endpoints (F10) equals the same note without them; and as `__hash__` is not defined, notes cannot be members of sets or keys of dicts.
