"""Writes /verif/properties.jsonl.  The list lives here so that it is easy to edit and extend."""
import json, os
P = []
def p(title, statement, quantifier, why, anchors):
    P.append(dict(id="C%02d" % (len(P) + 1), title=title, statement=statement, quantifier=quantifier,
                  why_tests_cant=why, anchors=anchors))

# ------------------------------------------------------------------ notes
p("Notes are appended in the order they are found and never lost",
  "Over any sequence of linter API calls, linter.notes only ever grows at the end: the notes present before a call (class, subject, category, variables) are still there, in the same positions, after it.  A sub-note may be added to an existing note, but nothing is removed, reordered or overwritten - also when a call raises.",
  "every request/response linter, every sequence of API calls with any arguments, including calls that raise",
  "needs induction over call histories and over every check in the code base; a test sees a handful of messages",
  ["httplint/note.py:Notes.add", "httplint/message.py:HttpMessageLinter"])
p("Note variables: defaults, overrides and inheritance",
  "A note added with variables V to a message's notes has exactly the message's default variables overridden by V (message_type is always bound); a sub-note has its parent's variables overridden by its own, and its parent's subject.",
  "every default dictionary, every set of variables, every note class", "dictionary-merge law over arbitrary keys",
  ["httplint/note.py:Notes.add", "httplint/note.py:Note.add_child"])
p("Category override only for uncategorised notes",
  "A note's category is the one declared on its class unless that is GENERAL and the caller supplies a category, in which case it is the supplied one.  Adding a note never changes the class's category for later notes.",
  "every note class and every supplied category", "must hold for every one of several hundred classes combined with every call site",
  ["httplint/note.py:Notes.add"])
p("Wire data cannot close a Markdown code span",
  "In the Markdown source built for a note's detail, no interpolated variable contributes a backtick unless it was wrapped in MarkdownSafe; the number of backticks is that of the template plus those of the MarkdownSafe values.",
  "every template, every variable binding with arbitrary (attacker-supplied) text", "quantifies over arbitrary wire bytes",
  ["httplint/note.py:Note._get_detail", "httplint/util.py:markdown_list"])
p("markdown_list confines its items",
  "markdown_list yields one line per item, each item without its backticks between the markup characters; so a list item cannot open or close a code span, whatever the item contains.",
  "every list of strings, every markup string", "arbitrary wire-supplied items", ["httplint/util.py:markdown_list"])
p("Every note can be rendered",
  "For every note a linter adds, summary and detail can be computed: each %(name)s in the note's summary and text is bound in the note's variables.",
  "every note added during any sequence of API calls on any message", "several hundred call sites x every message that reaches them",
  ["httplint/note.py:Note._get_summary", "httplint/note.py:Note._get_detail", "httplint/message.py:CONTENT_NOT_ALLOWED"])
# ------------------------------------------------------------------ section
p("Linting never raises",
  "process_*_topline, process_headers, feed_content and finish_content return normally for every input: malformed messages are reported as notes, not exceptions.",
  "every byte string as name/value/top line/content, every chunking, every relation to a request", "totality over all byte strings",
  ["httplint/message.py:HttpMessageLinter", "httplint/field/section.py:FieldSection.process", "httplint/cache.py:ResponseCacheChecker"])
p("All field lines are kept, in order",
  "After process_headers(fields) headers.text lists every field line, in wire order, with the name decoded as ASCII (non-ASCII octets dropped) and the value decoded octet-for-octet (Latin-1); likewise trailers.  Invalid or unknown fields are not dropped from it.",
  "every list of (bytes, bytes) fields", "arbitrary length lists of arbitrary bytes", ["httplint/field/section.py:FieldSection.process"])
p("Field size accounting",
  "A section's size is the sum of the lengths of all names and values; FIELD_SECTION_TOO_LARGE is added exactly when it exceeds 32768, and a field line gets FIELD_TOO_LARGE exactly when its name+value exceed 8192 bytes and the field is acceptable in this message with a valid name.",
  "every list of fields", "boundary must hold for every split of bytes over fields", ["httplint/field/section.py:FieldSection.process"])
p("Encoding notes are exact",
  "FIELD_NAME_ENCODING / FIELD_VALUE_ENCODING is added for a field line exactly when its name / value contains an octet above 0x7F.",
  "every list of fields", "arbitrary bytes", ["httplint/field/section.py:FieldSection.process"])
p("Offset subjects identify the field line",
  "A note whose subject is offset-N concerns the N-th entry of headers.text (resp. trailers.text), so a user can point from the note to the line.",
  "every list of fields, every note", "every combination of rejected and accepted lines", ["httplint/field/section.py:FieldSection.process"])
p("Field names are case-insensitive",
  "Field lines whose names differ only in case are handled by one handler and combined into one parsed value; the key in headers.parsed is the lower-cased name, and changing the case of names in the input changes neither parsed values nor which notes are added.",
  "every list of fields and every re-casing of its names", "all case variants of all names", ["httplint/field/finder.py:HttpFieldFinder.find_handler", "httplint/field/section.py:FieldSection.process"])
p("Fields in the wrong kind of message",
  "A field only defined for responses that appears in a request is not parsed - headers.parsed maps its name to None - and each of its lines adds RESPONSE_HDR_IN_REQUEST; symmetrically REQUEST_HDR_IN_RESPONSE.",
  "every field class, every list of field lines", "all field classes x all inputs", ["httplint/field/__init__.py:HttpField.pre_check"])
p("Field names must be tokens",
  "FIELD_NAME_BAD_SYNTAX is added for a line exactly when its name, stripped of surrounding white space, is not an RFC 9110 token (and the field is valid in this message type); such a line contributes nothing to the parsed value.",
  "every field name", "arbitrary names", ["httplint/field/__init__.py:HttpField.pre_check", "httplint/syntax/rfc9110.py:token"])
p("Unknown fields are preserved but not judged",
  "A field name with no registered parser adds no notes of its own beyond the section-level ones (encoding, size, name syntax), and headers.parsed has an entry for it.",
  "every unregistered field name and every value", "infinite set of names", ["httplint/field/finder.py:UnknownHttpField"])
p("Deprecated fields are flagged on every line",
  "Each line of a field marked deprecated adds FIELD_DEPRECATED, and no other field's lines do.", "every field class, every list of fields",
  "all field classes x all inputs", ["httplint/field/__init__.py:HttpField.pre_check", "httplint/field/deprecated.py"])
p("Singleton fields: first line wins",
  "For a field that allows one value, headers.parsed holds the parse of the first line (None if that fails) whatever lines follow, and SINGLE_HEADER_REPEAT is added exactly when there is more than one line.",
  "every singleton field, every sequence of lines", "arbitrary number of lines of arbitrary content", ["httplint/field/singleton_field.py:SingletonField"])
p("List fields: splitting is independent of how lines are divided",
  "For a comma-separated list field, the parsed value is the concatenation over the lines of the parses of their elements; in particular one line `a, b` and two lines `a` and `b` parse alike (for elements with balanced quotes).",
  "every list field and every division of elements into lines", "all splits of all lists", ["httplint/field/list_field.py:HttpListField", "httplint/field/utils.py:split_list_field"])
p("split_list_field is the #rule",
  "For elements that are non-empty, stripped, and consist of non-comma non-quote characters and complete quoted strings, splitting the elements joined by commas with any optional white space and empty elements returns exactly the elements.",
  "every list of such elements and every separator layout", "unbounded lists of unbounded strings with regex backtracking", ["httplint/field/utils.py:split_list_field"])
p("BAD_SYNTAX means what it says",
  "For every field with a declared grammar, a line/element is reported with BAD_SYNTAX or BAD_SYNTAX_DETAILED exactly when, up to surrounding white space, it is not in the language of that grammar and the field reports syntax; for list fields the detailed form is used exactly when some prefix is in the language.",
  "every field with a grammar, every value", "equivalence of a backtracking regex search with a language, for all strings", ["httplint/field/list_field.py:HttpListField.handle_input", "httplint/field/singleton_field.py:SingletonField.finish", "httplint/syntax"])
p("BAD_SYNTAX_DETAILED points inside the value",
  "Whenever the detailed syntax error is reported, the position it names exists in the value (computing it cannot raise IndexError), everything before it matches the grammar, and the context shown is a substring of the value of at most 40 characters.",
  "every list-field grammar and every value", "relies on regex backtracking priorities for all strings", ["httplint/field/list_field.py:HttpListField.handle_input"])
p("Structured and JSON fields parse the combined value",
  "A structured (JSON) field's parsed value depends only on the ', '-joined lines, a parse failure adds exactly one STRUCTURED_FIELD_PARSE_ERROR (BAD_JSON) and yields None, and evaluation checks run exactly when parsing succeeds.",
  "every structured/JSON field, all lines, every behaviour of the underlying parser", "external parser behaviour is quantified over", ["httplint/field/structured_field.py:StructuredField.finish", "httplint/field/json_field.py:JsonField.finish"])
p("Handler lookup is a function of the lower-cased name",
  "find_handler_class depends only on the name's lower case; every alias in the alias table resolves to its target; names with no module, deprecation or unnecessary entry resolve to None.",
  "every field name", "infinite set of names", ["httplint/field/finder.py:HttpFieldFinder"])
# ------------------------------------------------------------------ content
p("Content length and hash do not depend on chunking",
  "After any sequence of feed_content calls content_length is the total number of bytes and content_hash the MD5 of their concatenation (unless no_content); any two chunkings of the same bytes agree.",
  "every byte string and every division into chunks, including empty chunks", "all chunkings", ["httplint/message.py:HttpMessageLinter.feed_content", "httplint/message.py:HttpMessageLinter.finish_content"])
p("The content sample is the first 8192 decoded bytes",
  "content_sample is always the first min(8192, n) bytes of the decoded content that reached the sink, in order, independent of chunking; decoded.length is n.",
  "every content and chunking", "all chunkings and boundary straddles", ["httplint/message.py:HttpMessageLinter._content_sample_processor", "httplint/content_encoding.py:ContentEncodingProcessor._sink_process"])
p("Content-Length verdict",
  "For a message that can have content (and is not no_content) with a parsed Content-Length, finish_content adds CL_CORRECT exactly when the byte count equals it and CL_INCORRECT (with the actual count) otherwise - never both, never neither, whatever the chunking.",
  "every message and content", "all contents/chunkings/values", ["httplint/message.py:HttpMessageLinter.finish_content", "httplint/field/parsers/content_length.py"])
p("CONTENT_NOT_ALLOWED verdict",
  "CONTENT_NOT_ALLOWED is added exactly when the message is a response to HEAD or a 304, content was fed, and no_content is off; and then no Content-Length verdict is given.",
  "every message and content", "all statuses and contents", ["httplint/message.py:HttpResponseLinter.can_have_content", "httplint/message.py:HttpMessageLinter.finish_content"])
p("gzip header parsing does not depend on chunking",
  "Feeding a gzip stream in any chunks, the header is skipped exactly as if it had arrived at once: the same payload bytes reach the inflater in the same order, a bad header is reported exactly once with BAD_GZIP, and an incomplete header produces no output.",
  "every byte string and every division into chunks", "all chunkings, with the header split anywhere", ["httplint/content_encoding.py:GzipProcessor.__call__", "httplint/content_encoding.py:GzipProcessor._read_gzip_header"])
p("gzip header layout",
  "The header reader accepts exactly the RFC 1952 member header (magic 1f8b, method 8, flags, 6 bytes, then FEXTRA, FNAME, FCOMMENT, FHCRC as flagged), and returns exactly the bytes after it; prefixes of a valid header are 'incomplete', and anything else is an error.",
  "every combination of flags, extra data, names and comments, and every payload", "unbounded header contents", ["httplint/content_encoding.py:GzipProcessor._read_gzip_header"])
p("Decompression is bounded",
  "No decoder passes on more than 100 MiB in total; the first output that would exceed it adds exactly one DECOMPRESSION_LIMIT, and afterwards that decoder ignores all input.",
  "every behaviour of the inflater, every chunking", "adversarial compressed input", ["httplint/content_encoding.py:GzipProcessor.__call__", "httplint/content_encoding.py:BrotliProcessor.__call__"])
p("A failed decoder stays silent",
  "After a decoding error at most one error note is added per decoder and nothing more is passed downstream, however much more content arrives.",
  "every stream and chunking after the error", "all continuations", ["httplint/content_encoding.py:GzipProcessor", "httplint/content_encoding.py:BrotliProcessor"])
p("Content codings are removed in reverse order of application",
  "With Content-Encoding codings c1, ..., cn the content is decoded with cn first and c1 last, and the decoded bytes reach the sample, hash and length once.",
  "every list of codings", "all sequences of codings", ["httplint/content_encoding.py:ContentEncodingProcessor._build_pipeline"])
# ------------------------------------------------------------------ caching
p("no-store, Vary: * and non-cacheable methods are never storable",
  "After finish_content, if the response has Vary: * or Cache-Control: no-store, or answers a method other than GET/HEAD, then caching.store_shared and store_private are both False and no freshness note is added.",
  "every response and related request", "all combinations of directives and headers", ["httplint/cache.py:ResponseCacheChecker.check_basic", "httplint/cache.py:ResponseCacheChecker.check_storable"])
p("private and authenticated responses are not shared",
  "If Cache-Control has private, store_shared is False; if the request has Authorization and the response has none of public, must-revalidate, s-maxage, store_shared is False.",
  "every response and related request", "all directive combinations", ["httplint/cache.py:ResponseCacheChecker.check_storable"])
p("Storability flags agree with the storability note",
  "store_private is False whenever the notes say only shared caches may store the response, and both flags are False whenever the notes say caches may not store it.",
  "every response and related request", "all directive combinations", ["httplint/cache.py:ResponseCacheChecker.check_storable"])
p("Age is the RFC 9111 corrected initial age",
  "When check_age runs with well-typed values, caching.age = max(apparent_age, age_value + response_delay) with apparent_age = max(0, response_time - date), where missing inputs contribute 0; CURRENT_AGE is added exactly when age >= 1.",
  "every Age, Date and pair of times", "arithmetic over all values", ["httplint/cache.py:ResponseCacheChecker.check_age"])
p("Freshness lifetime precedence",
  "freshness_lifetime_shared is s-maxage if present, else max-age if present, else Expires - Date (Expires present, response time known; invalid Expires counts as 0, missing Date as the response time), else 0; freshness_lifetime_private is the same ignoring s-maxage.",
  "every combination of directives and dates", "all values and presence combinations", ["httplint/cache.py:ResponseCacheChecker.check_freshness"])
p("Exactly one freshness verdict",
  "A response that reaches the freshness check gets exactly one of FRESHNESS_NO_CACHE, FRESHNESS_NO_CACHE_NO_VALIDATOR, FRESHNESS_SHARED_PRIVATE, FRESHNESS_FRESH, FRESHNESS_STALE_ALREADY, FRESHNESS_HEURISTIC, FRESHNESS_NONE; FRESHNESS_FRESH only if the remaining lifetime is positive and STALE_ALREADY only if it is not.",
  "every response and related request", "all combinations", ["httplint/cache.py:ResponseCacheChecker.check_freshness"])
p("Stale-serving verdict",
  "A response that reaches the stale check gets at most one of STALE_IF_ERROR, FRESH/STALE_MUST_REVALIDATE, FRESH/STALE_PROXY_REVALIDATE, STALE_SERVABLE; the FRESH_ ones only when the respective cache considers it fresh, and STALE_SERVABLE exactly when none of stale-if-error, must-revalidate, proxy-revalidate, s-maxage is present.",
  "every response", "all combinations", ["httplint/cache.py:ResponseCacheChecker.check_stale"])
p("Caching checks only write what they own",
  "The cache checker adds notes only to the response - except STORE_METHOD_UNCACHEABLE, which goes to the request - and changes no parsed header.",
  "every response and related request", "frame property over all states", ["httplint/cache.py:ResponseCacheChecker"])
# ------------------------------------------------------------------ status / cors / charset
p("Status dispatch",
  "Each response gets STATUS_NONSTANDARD exactly when its status code is not one of the registered codes the checker knows; every status note carries that code as `status`.",
  "every integer status code and absent status", "all integers", ["httplint/status.py:StatusChecker.__init__"])
p("Status checks compare with the request correctly",
  "UNEXPECTED_CONTINUE iff 100 without Expect: 100-continue in the request; PARTIAL_NOT_REQUESTED iff 206 without Range; 406/412/416/417 variants iff the request lacks the negotiation/precondition/range/expect fields; REDIRECT_WITHOUT_LOCATION iff 301,302,303,307,308 without Location; NO_DATE_304 iff 304 without Date; CREATED_* as documented; 405 verdict iff method listed in Allow.",
  "every request/response pair", "all header combinations", ["httplint/status.py:StatusChecker"])
p("get_header collects all comma-separated values",
  "get_header(fields, name) is the concatenation, in order, over the lines whose name equals name case-insensitively, of the comma-separated pieces of the value, stripped.",
  "every field list and name", "unbounded lists", ["httplint/status.py:get_header"])
p("CORS preflight classification",
  "A request is treated as a preflight exactly when its method is OPTIONS and Origin and Access-Control-Request-Method were sent; preflight-only response headers are reported (listing exactly those present) exactly when the response does not answer a preflight.",
  "every request/response pair", "all combinations", ["httplint/field/cors.py"])
p("CORS origin matching",
  "With a request Origin, exactly one of CORS_ORIGIN_NULL, STAR, MATCH, MISMATCH is added for Access-Control-Allow-Origin, MATCH exactly when the serialised origins are equal.",
  "every pair of origins", "all origins", ["httplint/field/cors.py:check_access_control_allow_origin"])
p("Charset verification has no false alarms by construction",
  "verify_charset adds at most one note; it adds none for 1xx/204/205/206/304/HEAD responses, for empty, blank or pure-ASCII samples, for types without declared or implied charset, or for unknown charsets; CHARSET_UNDECODABLE exactly when the sample does not decode under the effective charset; a mismatch only if the detector's confidence reaches 0.5 and the two decodings differ.",
  "every content sample, header and behaviour of codecs and chardet", "external detectors quantified over", ["httplint/charset.py:verify_charset"])
p("Content-Type verification conditions",
  "CONTENT_TYPE_MISMATCH is added exactly when the status carries a representation, a non-empty type is declared, sniffing succeeds with a different type, and it is not the RSS/Atom-as-HTML exception.",
  "every response and sniffer behaviour", "external sniffer quantified over", ["httplint/content_type.py:verify_content_type"])
p("Top-line handling",
  "status_code is the integer value of the status text when int() accepts it, else STATUS_CODE_NON_NUMERIC is added; STATUS_PHRASE_ENCODING iff the phrase has a non-ASCII octet; the request URI has its fragment removed, URI_TOO_LONG iff the result is longer than 8000, URI_BAD_SYNTAX iff conversion fails or the URI is not in the grammar.",
  "every top line", "arbitrary bytes", ["httplint/message.py:HttpRequestLinter.set_uri", "httplint/message.py:HttpResponseLinter.process_response_topline"])
# ------------------------------------------------------------------ utils and fields
p("Quoted-string unquoting inverts quoting",
  "unquote_string applied to the quoted form of s (backslash-escaping quote and backslash, without newlines) returns s stripped of nothing but its quoting; unquoted values are only stripped.",
  "every string", "all strings", ["httplint/field/utils.py:unquote_string"])
p("Parameter parsing",
  "parse_params of `k1=v1; k2=v2; ...` (token names, token or quoted values) returns the dictionary mapping each lower-cased name to its last unquoted value; PARAM_REPEATS is added exactly when a name repeats; no input makes it raise.",
  "every parameter string", "unbounded parameter lists", ["httplint/field/utils.py:parse_params"])
p("Media-type checking",
  "check_media_type reports bad syntax exactly for values that are not type/subtype (with wildcard rules), MEDIA_TYPE_LONG_NAME exactly when a token name exceeds 127 - in RFC 6838 terms - characters, and MEDIA_TYPE_BAD_NAME exactly when a token name is not a restricted-name.",
  "every string and flag combination", "all strings", ["httplint/field/utils.py:check_media_type", "httplint/syntax/rfc6838.py"])
p("HTTP dates",
  "parse_http_date accepts exactly the strings in the HTTP-date grammar the date library can interpret, adds BAD_DATE_SYNTAX exactly for strings outside the grammar and DATE_OBSOLETE exactly for the obsolete formats, and maps two-digit years 69-99 to 19xx and 00-68 to 20xx.",
  "every string", "all strings", ["httplint/field/utils.py:parse_http_date"])
p("Number formatting by 1024",
  "f_num(n, by1024=True) shows the largest unit of g/m/k whose value is at least one, with the quotient rounded down, and the plain number below 1024.",
  "every non-negative integer", "all integers", ["httplint/util.py:f_num"])
p("Content-Length parsing",
  "A Content-Length is parsed to n exactly when it is a non-negative decimal integer; other values add the syntax note and parse to None.",
  "every field value", "all strings", ["httplint/field/parsers/content_length.py"])
p("Age parsing",
  "Age parses to n exactly for non-negative integers; AGE_NOT_INT exactly when it is not an integer, AGE_NEGATIVE exactly when it is negative.",
  "every field value", "all strings", ["httplint/field/parsers/age.py"])
p("Cache-Control parsing",
  "Each directive is lower-cased; integer-valued directives with a non-integer value are reported and dropped; duplicates and conflicts are reported exactly when present.",
  "every list of directives", "all directive lists", ["httplint/field/parsers/cache_control.py"])
p("Vary parsing",
  "The parsed Vary is the set of lower-cased names; VARY_ASTERISK exactly when * is among them, VARY_USER_AGENT / VARY_HOST / VARY_COMPLEX exactly under their documented conditions.",
  "every list of names", "all lists", ["httplint/field/parsers/vary.py"])
p("Strict-Transport-Security",
  "Directive names are case-insensitive and unique; max-age must be present and numeric; each HSTS verdict note appears exactly under its condition.",
  "every field value", "all directive lists", ["httplint/field/parsers/strict_transport_security.py"])
p("Cookie name and value extraction",
  "A Set-Cookie value is split at the first ';' and, before it, at the first '=', stripping both sides; without '=' the name is empty and all of it is the value; a cookie whose name and value are both empty is reported and not recorded, every other one (with a readable Max-Age) is recorded, in order.",
  "every Set-Cookie value", "all strings", ["httplint/field/parsers/set_cookie.py:loose_parse"])
p("Cookie attributes",
  "Attribute names are case-insensitive; the valid attributes are recorded in order, each repeated name, each unrecognised name, each bad Expires and the first lifetime over 400 days are reported, exactly so often; Secure/HttpOnly/Partitioned are flags; a Path not starting with / stands for the default path of the URI.",
  "every attribute list", "unbounded lists", ["httplint/field/parsers/set_cookie.py"])
p("Cookie prefixes",
  "A __Secure- cookie without Secure, and a __Host- cookie without Secure, with a Domain, or whose path (the last Path it gives) is not /, is reported; compliant ones are not; the prefix is matched in any case.",
  "every cookie", "all attribute combinations", ["httplint/field/parsers/set_cookie.py"])
p("Cookie dates",
  "loose_date_parse accepts exactly day 1-31, month name, year >= 1601 after two-digit expansion (70-99 -> 19xx, 0-69 -> 20xx), hour <= 23, minute, second <= 59, in any order of tokens as RFC 6265 prescribes, and otherwise raises ValueError.",
  "every string", "all strings", ["httplint/field/parsers/set_cookie.py:loose_date_parse"])
p("Ranges",
  "A bytes range spec first-last is accepted with first <= last; reversed ranges are reported RANGE_INVALID; Content-Range is only meaningful with 206/416.",
  "every Range/Content-Range value", "all strings", ["httplint/field/parsers/range.py", "httplint/field/parsers/content_range.py"])
p("X-Content-Type-Options and X-Frame-Options",
  "The positive verdict is given exactly for the defined values (nosniff; DENY, SAMEORIGIN), case-insensitively.",
  "every field value", "all strings", ["httplint/field/parsers/x_content_type_options.py", "httplint/field/parsers/x_frame_options.py"])
# ------------------------------------------------------------------ i18n / cli
p("Locale scope is restored",
  "with set_locale(L): inside, translation uses L (en when empty); after the block - also when the body raises - the previous locale is back, for any nesting.",
  "every nesting of scopes and exits", "all nestings and exception points", ["httplint/i18n.py:set_locale"])
p("CLI output groups notes by category",
  "The CLI prints every note exactly once (with its sub-notes right below), grouped by category, each category header once, and notes within a category in the order found.",
  "every note list", "all lists; stability of sorting", ["httplint/cli/http_parser.py:HttpCliParser.input_end"])
p("CLI top lines",
  "request_topline/response_topline split a line into its three parts for every well-formed line and raise ValueError for every other one.",
  "every byte string", "all byte strings", ["httplint/cli/http_parser.py"])
p("CLI input mode",
  "Running the CLI with -i request lints a request and with -i response (or nothing) a response.",
  "every choice of mode and input", "argument plumbing over all inputs", ["httplint/cli/__init__.py:getargs", "httplint/cli/http_parser.py:HttpCliParser.input_start"])
p("The language-tag grammar is RFC 5646's",
  "Language tags with variants, extensions or private-use subtags are accepted by Accept-Language and Content-Language.",
  "every language tag", "language equality", ["httplint/syntax/rfc5646.py"])
p("The URI grammar is RFC 3986's",
  "Every RFC 3986 URI-reference (including empty-path ones such as ?q and #f, and multi-character userinfo) matches the grammar used for Location, Referer, Link, etc.",
  "every URI", "language equality", ["httplint/syntax/rfc3986.py"])
p("Token grammar is RFC 9110's",
  "The `token` and `quoted-string` grammars match exactly one-or-more tchar and exactly RFC 9110 quoted strings.",
  "every string", "language equality for all strings", ["httplint/syntax/rfc9110.py"])
p("CLI body framing",
  "The CLI tells the HTTP/1 parser to expect a request body exactly when Content-Length is positive or a transfer coding is present, and a response body exactly when the status is not 1xx, 204 or 304; only 1xx responses are not final.",
  "every top line, header section and framing", "all status codes and framings", ["httplint/cli/http_parser.py:HttpCliParser.input_start"])
p("The CLI prints what the library finds",
  "For every well-formed response the CLI prints exactly the notes that the library has after the corresponding calls (top line, headers, each body chunk, finish with trailers), grouped by category, and raises exactly when one of these calls raises.",
  "every response: top line, headers, body chunks, trailers", "all messages", ["httplint/cli/__init__.py:main", "httplint/cli/http_parser.py:HttpCliParser"])
p("Referrer-Policy",
  "Every Referrer-Policy of a response is reported in full: each element that is not a defined policy (case-insensitively) is named; if none is, the field is called empty; otherwise the last known one is in effect, which is said if there are several, and it is called unsafe or strict exactly when it is - and nothing else.",
  "every header section", "all lists of lines and elements", ["httplint/field/parsers/referrer_policy.py"])
p("Cross-origin policies",
  "Cross-Origin-Embedder-Policy, Cross-Origin-Opener-Policy (and their report-only variants) and Cross-Origin-Resource-Policy get exactly the verdict of their value, with the value or the report-only wording in it; a report-only policy is called a duplicate exactly when the enforced field is present in the same headers, before or after it.",
  "every header section and every parse of the Structured Item", "all sections and orders of fields", ["httplint/field/parsers/cross_origin_embedder_policy.py", "httplint/field/parsers/cross_origin_opener_policy.py", "httplint/field/parsers/cross_origin_resource_policy.py"])
p("Clear-Site-Data",
  "Each element that is not one of the defined data types is reported at its own line; those given without quotation marks are listed and not taken to be cleared; the types that are cleared are listed, once, exactly when there are some.",
  "every header section", "all lists of lines and elements", ["httplint/field/parsers/clear_site_data.py"])
p("Content-Security-Policy",
  "Each policy is split into directives whose names are case-insensitive; the first of each name is in force and the repeated ones are listed; one note is given for the field, whose sub-notes name exactly the directives in force that have each unsafe practice (any source, unsafe-inline, unsafe-eval, http:), and report-uri.",
  "every header section", "all policies, directives and sources", ["httplint/field/parsers/content_security_policy.py"])
p("Fields about the path and the message, in full",
  "Expect, Via, Pragma, Max-Forwards, Content-Language, Server and Accept-Ranges are each reported exactly under their documented condition (unknown expectations and HTTP/1.0; the intermediaries, in order; any directive but no-cache; methods other than TRACE and OPTIONS; the languages given more than once; elements over 64 characters; range units other than bytes and none), with the right values in the note, on the right field or line, and not otherwise.",
  "every header section and top line", "all lists of lines and elements", ["httplint/field/parsers/expect.py", "httplint/field/parsers/via.py", "httplint/field/parsers/pragma.py", "httplint/field/parsers/max_forwards.py", "httplint/field/parsers/content_language.py", "httplint/field/parsers/server.py", "httplint/field/parsers/accept_ranges.py"])
p("Location",
  "In a response, Location is called undefined exactly when the status is not one of 201, 300-303, 305, 307, 308, and the resolved absolute form is reported exactly when the value is not itself an absolute URI.",
  "every header section and status", "all URIs and statuses", ["httplint/field/parsers/location.py"])
p("Transfer-Encoding",
  "In any message, each element of Transfer-Encoding that has parameters is reported at its line; each coding other than chunked and identity that the client did not ask for (in a response whose request is known: that the request's TE does not list, in any case) is reported once, and identity is reported - and nothing else.",
  "every pair of request and response header sections", "all lists of lines and elements, and both messages", ["httplint/field/parsers/transfer_encoding.py", "httplint/field/parsers/te.py"])
p("Content-Disposition",
  "A disposition other than inline and attachment is reported; so is an attachment without a filename, a filename with a percent sign, and a filename or filename* with a path character (slash or backslash) - exactly.",
  "every header section", "all parameters, quotings and encodings", ["httplint/field/parsers/content_disposition.py", "httplint/field/utils.py:parse_params"])
p("Accept and Accept-Language",
  "Each element of Accept that is not a media range, each element of Accept or Accept-Language whose (last) q is not a number between 0 and 1, and each element of Accept-Language with another parameter is reported at its line; one with a weight of RFC 9110's form is never reported for its weight.",
  "every header section of a request", "all lists of lines, elements and weights", ["httplint/field/parsers/accept.py", "httplint/field/parsers/accept_language.py", "httplint/field/utils.py:parse_media_type"])
p("Accept-Patch and Accept-Post",
  "Each element of Accept-Patch that is not type/subtype, and each of Accept-Post that is not a media range, is reported at its line, and no other.",
  "every header section of a response", "all lists of lines and elements", ["httplint/field/parsers/accept_patch.py", "httplint/field/parsers/accept_post.py"])
p("Server-Timing",
  "In a response, each metric of Server-Timing that has no dur, whose dur is not a number, or that has no desc is reported with its name (and the value), in order, and nothing else.",
  "every header section", "all lists of lines, elements and parameters", ["httplint/field/parsers/server_timing.py"])
p("Alt-Svc",
  "Alt-Svc is reported exactly when clear is given together with another alternative.",
  "every header section", "all lists of lines and elements", ["httplint/field/parsers/alt_svc.py"])
p("Link",
  "Each link with rev, with an anchor that is not a URI reference, or with a type that is not a media type is reported at its line; the resource hints (preload, preconnect, dns-prefetch, also among several relations) whose resolved target is not http(s) are reported, and the others are summarised by relation, with their targets, once.",
  "every header section", "all lists of lines, links, relations and schemes", ["httplint/field/parsers/link.py"])
p("Content-Encoding",
  "In a response whose request is known, each content coding that the request's Accept-Encoding does not list (in any case) is reported at its line with its name; none is reported in a request or when the request is not known.",
  "every pair of request and response header sections", "all lists of lines and elements, and both messages", ["httplint/field/parsers/content_encoding.py", "httplint/field/parsers/accept_encoding.py"])
p("Reporting-Endpoints and Speculation-Rules",
  "Each member that is not a string is reported with its type; each string whose URL, resolved against the response's, has a scheme other than https and wss is reported as insecure - and no other.",
  "every header section and every parse of the Structured Field", "all lists, dictionaries and URLs", ["httplint/field/parsers/reporting_endpoints.py", "httplint/field/parsers/speculation_rules.py"])
p("Types of structured members",
  "Accept-CH is reported exactly when some member is not a token; Cache-Groups and Cache-Group-Invalidation (which is also reported as ignored when the request's method is known and safe) exactly when some member is not a string, with the types, each once, in order; Available-Dictionary exactly when it is not a byte sequence; each member of Use-As-Dictionary and each directive of CDN-Cache-Control whose value has the wrong type is reported with it, and no other.",
  "every header section and every parse of the Structured Field", "all lists, dictionaries and types of members", ["httplint/field/parsers/accept_ch.py", "httplint/field/parsers/cache_groups.py", "httplint/field/parsers/cache_group_invalidation.py", "httplint/field/parsers/available_dictionary.py", "httplint/field/parsers/use_as_dictionary.py", "httplint/field/parsers/cdn_cache_control.py"])
p("Sunset and Deprecation",
  "When the time of reception is known: a Sunset before it is reported as past, and no other; a Deprecation that is a date is reported as past or future, with the date. A Deprecation that is true is reported as such, and one of any other type with its type.",
  "every header section, reception time and date", "all times and dates", ["httplint/field/parsers/sunset.py", "httplint/field/parsers/deprecation.py"])
p("Date and Last-Modified",
  "In a response received at a known time: Date is reported as wrong, with the difference, when it differs from reception minus Age by more than five seconds, and as right otherwise, unless Age is more than five seconds and the response, by its Date, is younger than five, in which case that is reported about both; Last-Modified is reported as in the future or as so long ago relative to Date, or to reception when there is none. The verdicts do not depend on the order of the fields.",
  "every header section, reception time and date", "all times, ages, dates and orders of fields", ["httplint/field/parsers/date.py", "httplint/field/parsers/last_modified.py"])
p("Origin and Access-Control-Max-Age",
  "In a request, Origin is reported as multiple exactly when it contains a space, and as wrong exactly when it is not null and its first word is not scheme://host[:port]; its value is the scheme and host in lower case and the port's number. In a response, Access-Control-Max-Age is reported exactly when it is not an integer (in int()'s sense) or is negative; otherwise its value is that number.",
  "every header section", "all texts, origins and numbers", ["httplint/field/parsers/origin.py", "httplint/field/parsers/access_control_max_age.py"])
p("Referer",
  "In a request for a known URI, a Referer with a secure scheme (https or wss) is reported when the request's scheme is insecure (http or ws), and when the scheme or the authority (as written) of the two differ; nothing is reported on a Referer with another scheme, nor when either URI cannot be split.",
  "every header section, request URI and URI splitter", "all URIs", ["httplint/field/parsers/referer.py"])
p("Content-Length with Transfer-Encoding",
  "A message with both Content-Length (a number) and Transfer-Encoding is reported as having both, whichever comes first, and no other is.",
  "every header section", "all lists of lines and orders of fields", ["httplint/field/parsers/content_length.py", "httplint/field/section.py"])
p("Cache-Status and Proxy-Status",
  "Each parameter that is not defined is reported with its name, and each defined one whose value has the wrong type (or, for fwd, is not a defined token) with its name and value, and no other; a non-empty list is described once: each cache or proxy by name, with one line per parameter, in order - the text defined for the parameter or its value with the value filled in, or the parameter as it is when there is none or the value is wrong.",
  "every header section and every parse of the Structured Field", "all lists, parameters and types of values", ["httplint/field/parsers/cache_status.py", "httplint/field/parsers/proxy_status.py", "httplint/field/utils.py"])
p("Permissions-Policy",
  "A non-empty policy is noted once, with one sub-note, in order, for each wildcard of a sensitive feature, each allowlist that is neither a list nor *, each unknown token, each keyword in quotes and each item of another type in an allowlist - and no other.",
  "every header section and every parse of the Structured Field", "all dictionaries, allowlists and items", ["httplint/field/parsers/permissions_policy.py"])
p("NEL and Report-To",
  "Each policy or group (or endpoint of a group) that is not an object is reported; each required member that is missing, each member of the wrong type and each fraction that is not between 0 and 1 is reported with its name, in order, and no other.",
  "every header section and every JSON value", "all arrays, objects and members", ["httplint/field/parsers/nel.py", "httplint/field/parsers/report_to.py", "httplint/field/json_field.py"])
p("Accept-Query",
  "Each member that is neither a string nor a token is reported with its value, each other one that is not a media range (in any case) as badly formed, and no other.",
  "every header section and every parse of the Structured Field", "all lists and members", ["httplint/field/parsers/accept_query.py", "httplint/field/utils.py"])
p("The end of a request",
  "When a request ends without raising, it is reported that it has no User-Agent exactly when its headers have none, and that its content has no defined meaning exactly when content was fed (and is to be examined) and its method is GET, HEAD, DELETE, CONNECT or TRACE.",
  "every sequence of calls on a request linter and its end", "all methods, headers and chunkings", ["httplint/message.py:HttpRequestLinter.post_checks"])
p("Cross-origin policies that report",
  "When a response ends, each Cross-Origin-Embedder-Policy and Cross-Origin-Opener-Policy (enforced or report-only, in headers or trailers) whose report-to parameter names an endpoint that the Reporting-Endpoints header does not define is reported, with the endpoint - and no other.",
  "every response, linted to its end", "all headers, trailers, contents and parses", ["httplint/field/parsers/cross_origin_embedder_policy.py", "httplint/field/parsers/cross_origin_opener_policy.py", "httplint/field/section.py"])
p("Accept-CH at the end",
  "When a response ends, each Accept-CH is reported as sent in the clear exactly when the request's URI begins with http: (in any case); and when the response was found to be storable, as missing from Vary exactly when it asks for fields that Vary does not list (in any case), with those fields in order.",
  "every response, linted to its end", "all headers, trailers, contents and parses", ["httplint/field/parsers/accept_ch.py"])
p("Compression dictionaries at the end",
  "When a request ends, each Available-Dictionary is reported exactly when Accept-Encoding lists neither dcb nor dcz; when a response ends that was found to be storable, each Content-Encoding is reported exactly when the Content-Encoding header lists dcb or dcz and Vary does not list Available-Dictionary (all in any case).",
  "every message, linted to its end", "all headers, trailers, contents and parses", ["httplint/field/parsers/available_dictionary.py", "httplint/field/parsers/content_encoding.py"])
p("NEL at the end",
  "When a response ends, each policy of NEL that names an endpoint which Reporting-Endpoints does not define is reported, with the endpoint; and NEL is reported as configured exactly when some policy that had no fault names an endpoint that is defined with a secure URL, with all such endpoints in order.",
  "every response, linted to its end", "all headers, trailers, contents, JSON values and parses", ["httplint/field/parsers/nel.py", "httplint/field/parsers/reporting_endpoints.py"])
p("Content-Security-Policy at the end",
  "When a response ends, it has exactly one note for each Content-Security-Policy field (enforced or report-only, in headers or trailers) with a policy, with the sub-notes on its directives; and the first of them has, besides, one sub-note for each report-to directive in force, in any of the policies, that names an endpoint which the Reporting-Endpoints header does not define, in order, with the endpoint - and nothing else.",
  "every response, linted to its end", "all headers, trailers, contents, policies and parses", ["httplint/field/parsers/content_security_policy.py", "httplint/field/parsers/content_security_policy_report_only.py"])
p("The whole caching report",
  "When a response ends, the notes on caching added to it are exactly those that follow from its facts (Cache-Control directives, Vary, Age, Date, Expires, Last-Modified, ETag, status, the request's method and Authorization, and the times), as a table: on missing dates, on who may store it and why, on its age, on its freshness (with lifetimes, time left and the fields this is based on), on redundant directives and on serving it stale; in that order, about those fields, with those values, and no other.",
  "every response, request and pair of times", "all responses that finish", ["httplint/cache.py"])
p("Corrupt content",
  "When compressed content (in gzip or br) is fed to a message, it is reported as corrupt exactly when the decompressor raises an error: once, with the error, the chunk at fault (without the gzip header, if that ends in it) and the number of bytes decompressed before; and the decompressor is not called again.",
  "every content, chunking and behaviour of the decompressor", "all sequences of chunks", ["httplint/content_encoding.py"])
p("Fields that can be removed",
  "When a section is processed, each element of each line of a field that can be removed (one of twelve names of fields about the server's implementation, in any case; or TCN, in a response) is reported, at its line, and no other line is.",
  "every section of every message", "all names and values", ["httplint/field/unnecessary.py", "httplint/field/parsers/tcn.py", "httplint/field/finder.py"])
p("Displaying bytes",
  "Whatever bytes are to be displayed, the result is made of the first forty characters of the text they are read as in UTF-8 (a byte at which no character begins being read as \\x and its two hexadecimal digits): a printable one as it is, any other as \\x and the hexadecimal digits of its encoding. So it never has an unprintable character nor more than 400 characters, and printable text is displayed as it is.",
  "every sequence of bytes and notion of printable", "all byte strings", ["httplint/util.py"])
p("From a request target to a URI",
  "The target of a request is read as UTF-8, with U+FFFD for each ill-formed sequence (as Unicode delimits them); its uri has the same scheme, the host converted by IDNA, and a path, query and fragment in which exactly the characters that a URI doesn't allow are replaced by the percent-encoding of their UTF-8 bytes; so it has only characters allowed in URIs, a URI is left as it is, and a target that cannot be converted is kept and reported.",
  "every request target", "all byte strings", ["httplint/util.py", "httplint/message.py"])
p("Descriptions of fields",
  "get_field_description never raises; for a name, in any case, it gives the translated description of the class found for it, of a deprecated field one that names it in its usual spelling with its reference, of a field that can be removed the one listed, and None exactly if no class is found for the name.",
  "every name", "all strings", ["httplint/field/description.py", "httplint/field/finder.py", "httplint/field/deprecated.py", "httplint/field/unnecessary.py"])
p("What a note is about",
  "Every note that processing a section adds is about one of its lines (offset-N), one of its fields or the section; it names its field (in the form its class gives, or as first spelt) and the kind of message and, if it is about a field, whether it is a header or a trailer; its sub-notes say the same; and its category is that of its class, except that problems with dates, with the use of a field and with the syntax of list, Structured and JSON fields are put in the category of the field. (Excepted are the notes on clock skew and CORS, whose subjects are fixed, and the two on octets outside ASCII, which name the field as spelt in the line.) The same holds of every note on a field that a whole message has in the end, with the notes and sub-notes that are added when it ends.",
  "every section of every message; every sequence of calls for a whole message", "all names and values, any number of lines", ["httplint/field/section.py", "httplint/field/__init__.py", "httplint/field/list_field.py", "httplint/field/broken_field.py", "httplint/note.py"])
p("What notes on lines and syntax say",
  "The notes that processing a section adds on its lines (octets outside ASCII, the kind of message, the name, deprecation, the size), on the size of the section and on the syntax of its fields are exactly these, in this order, about these lines and fields: the sizes in octets, the reference of the field, for a list element with a wrong character the element and the character with its position and an excerpt of up to 20 characters on both sides with a pointer to it, for a Structured Field the parser's problem with an excerpt of up to 35 and each duplicate key with its place, for JSON the decoder's error.",
  "every section of every message", "all names and values, any number of lines", ["httplint/field/section.py", "httplint/field/__init__.py", "httplint/field/list_field.py", "httplint/field/broken_field.py", "httplint/field/singleton_field.py", "httplint/field/structured_field.py", "httplint/field/json_field.py"])
p("What notes on a message as a whole say, and their order",
  "The notes on a request or status line are exactly those on its URI (malformed, or too long, with its length without a fragment) and on its status (not a number, a reason phrase outside ASCII), in this order; a note on the amount of content says how many octets arrived; on the content's type, which one is declared and which one was found; on its charset, which one is declared or implied (then also by which media type) and which one was detected. And the notes that the end of a message adds come after all others and in a fixed order: on trailers, the amount of content, CORS, caching, the status code, the content's type, its charset (of a request, after CORS: on the request itself), and on fields in view of the whole message.",
  "every message, linted to its end", "all lines, fields, contents and environments", ["httplint/message.py", "httplint/content_type.py", "httplint/charset.py"])
p("Wire data stays in code",
  "The Markdown made for the detail of any note or sub-note has, outside code spans and code blocks, only the HTML, link and escape characters of the note's own fixed text: nothing in a message, whatever its octets, adds markup to what the user is shown.",
  "every linter after any calls, every note and sub-note", "all messages and environments", ["httplint/note.py", "httplint/util.py", "httplint/field/parsers/"])
p("What notes on parameters say",
  "The notes about parameters that processing a section adds are exactly, in order, those on each parameter of each element of the lists that take parameters (Accept, Accept-Encoding, Accept-Language, Accept-Patch, Accept-Post, Link, Server-Timing, TE, Transfer-Encoding), line by line and about that line, and then those on the first line of Content-Disposition and Content-Type, about the field: a name that already has a value, a value in apostrophes, an extended parameter where the field doesn't allow one, an extended value that is quoted, or has no charset, or not utf-8, or isn't in three parts; each naming the parameter (and the value, or the charset).",
  "every section of every message", "all names and values, any number of lines", ["httplint/field/utils.py", "httplint/field/parsers/accept.py", "httplint/field/parsers/accept_encoding.py", "httplint/field/parsers/accept_language.py", "httplint/field/parsers/accept_patch.py", "httplint/field/parsers/accept_post.py", "httplint/field/parsers/link.py", "httplint/field/parsers/server_timing.py", "httplint/field/parsers/te.py", "httplint/field/parsers/transfer_encoding.py", "httplint/field/parsers/content_disposition.py", "httplint/field/parsers/content_type.py"])
p("Names of media types",
  "The notes about the names of media types that processing a section adds are exactly those on the elements of Accept, Accept-Patch and Accept-Post, line by line, on Content-Type and on the members of Accept-Query: if it is a media type (or, where allowed, a range), whether a name in it that is a token has more than 127 characters, and whether one isn't of the form RFC 6838 gives; each says the media type. And the value recorded for Content-Type is the media type in lower case, with the last value of each parameter.",
  "every section of every message", "all names and values, any number of lines", ["httplint/field/utils.py", "httplint/field/parsers/accept.py", "httplint/field/parsers/accept_patch.py", "httplint/field/parsers/accept_post.py", "httplint/field/parsers/accept_query.py", "httplint/field/parsers/content_type.py"])
p("What the user reads",
  "The summary of a note is the translated text of its class with each variable replaced by str() of its value, and the Markdown of its detail likewise, without the values' backticks. In particular times are read as: a wrong clock as so long 'ahead' exactly if Date is after the time of reception less the age, else 'behind'; Last-Modified as so long ago; the age and what is left of the freshness lifetime in whole seconds, as 'fresh' or 'stale' for private and for shared caches.",
  "every note of every message", "all variables and times up to 999999999 days", ["httplint/note.py", "httplint/util.py:RelativeTime", "httplint/cache.py", "httplint/field/parsers/date.py", "httplint/field/parsers/last_modified.py"])
p("What is recorded of fields without parameters",
  "After a section is processed without an exception, headers.parsed holds, by lower-case name: for a list field, its elements in order as they were sent (or in lower case, for those whose words are case-insensitive); for a field with one value, the text of its first line; for ETag whether it is weak and the tag; for X-Frame-Options the text in upper case; for Access-Control-Allow-Credentials true, exactly, or None; for Alt-Svc the elements that are clear or have a =; for Keep-Alive name and value of each element; for Clear-Site-Data the elements without quotation marks; for Content-Security-Policy the directives in force of each policy; for Location the text; for fields httplint doesn't read, a None for each element.",
  "every section of every message", "all names and values, any number of lines", ["httplint/field/list_field.py", "httplint/field/singleton_field.py", "httplint/field/parsers/"])
p("What is recorded of fields with parameters",
  "After a section is processed without an exception, headers.parsed holds for each element of Accept-Encoding, TE, Transfer-Encoding, Accept-Patch, Accept-Post, Server-Timing and Link (and for Content-Disposition) what comes before the first semicolon, normalised as the field requires, and a dictionary with the last value of each parameter by lower-case name; for Accept the media range, the other parameters and the weight as a number, for Accept-Language the range and the weight; a weight that isn't a number between 0 and 1 in at most five characters is None; for Accept-Query the members with the ranges in lower case.",
  "every section of every message", "all names and values, any number of lines", ["httplint/field/utils.py", "httplint/field/list_field.py", "httplint/field/parsers/accept.py", "httplint/field/parsers/accept_language.py", "httplint/field/parsers/accept_encoding.py", "httplint/field/parsers/te.py", "httplint/field/parsers/transfer_encoding.py", "httplint/field/parsers/accept_patch.py", "httplint/field/parsers/accept_post.py", "httplint/field/parsers/server_timing.py", "httplint/field/parsers/link.py", "httplint/field/parsers/content_disposition.py", "httplint/field/parsers/accept_query.py"])
p("How the content is cut into chunks does not matter",
  "Feeding the same content in different chunks (also empty ones) and finishing leaves the same linter -- notes, attributes, sample, lengths, hashes, caching verdicts -- and the same related request, and the last call returns or raises the same: always when the linter has nothing to decode, and for gzip and br content that is not corrupt nor larger than the limit when decompressed, if the decompressors' output does not depend on how they are called. (For corrupt content the chunks show in the note: C106.)",
  "every message before its content, every content, every two ways of cutting it, all trailers", "all contents and chunkings, all environments", ["httplint/message.py:feed_content", "httplint/content_encoding.py", "httplint/message.py:finish_content"])
p("Rendering on several threads",
  "However many threads translate texts and render summaries and details of notes, each under locales of its own choosing, and in whatever order their steps fall: at every moment each thread has obtained an initial part of the texts it would obtain by itself, in order; when it has ended it has obtained all of them, has ended the same way (with no exception of another thread's making), and its locale is what it was; the shared table of translations holds for each locale only that locale's catalogue; and no thread waits for another: a fixed number of its own steps is enough.",
  "any number of threads, every program of each, every schedule of their steps, every moment", "all interleavings, races in filling the shared table included", ["httplint/i18n.py:get_translations", "httplint/i18n.py:set_locale", "httplint/note.py:_get_markdown", "httplint/note.py:Note._get_detail"])
p("The order of the calls on the two linters of an exchange",
  "A request linter and the linter of its response (whose request attribute is the former) may be called in turn as their messages arrive. If the request's top line and headers are not processed after the response's headers or its end, then the order of the calls does not matter: the response linter ends the same, each call returns or raises the same, the response adds the same notes to the request, and apart from these notes (all of them STORE_METHOD_UNCACHEABLE) the request linter ends the same. What the request linter says of its own does not depend on the order at all, nor on the response.",
  "every two linters in any state, every two sequences of calls on them that agree on the calls on each", "all interleavings, calls that raise included", ["httplint/message.py:HttpResponseLinter", "httplint/cache.py", "httplint/status.py", "httplint/field/parsers/content_encoding.py", "httplint/field/parsers/transfer_encoding.py", "httplint/field/parsers/cache_group_invalidation.py", "httplint/field/parsers/accept_ch.py", "httplint/field/cors.py"])
p("The grammar a field is checked against",
  "For each of the 67 fields that are checked against a grammar, the text that passes (a value, or one element of a list field) is, but for white space around it, exactly the text in the ABNF rule of the RFC or specification that defines the field, with a stated list of rules read differently. 40 fields do not depend on these and are exactly the RFC's; for 13 fields (dates, entity tags, credentials, Alt-Svc, Content-Disposition) everything the RFC allows passes and some more; for 14 fields (those with URIs, hosts, language tags, comments or mailboxes, and Strict-Transport-Security) some text that the RFC allows is refused. There is a syntax note about a line or a field iff some text there does not pass and the field reports it.",
  "every field, every text, every header section", "every text: the grammars define infinite sets of strings", ["httplint/syntax/rfc9110.py", "httplint/syntax/rfc3986.py", "httplint/syntax/rfc5322.py", "httplint/syntax/rfc5646.py", "httplint/syntax/rfc9111.py", "httplint/syntax/rfc9112.py", "httplint/syntax/rfc8288.py", "httplint/field/__init__.py", "httplint/field/list_field.py", "httplint/field/singleton_field.py", "httplint/field/parsers"])
p("Which request targets are reported as malformed",
  "When the target of a request has been converted to a URI, there is a URI_BAD_SYNTAX note (one, about the uri) exactly if the result, but for white space around it, is not in RFC 3986's URI rule with four rules read more narrowly: user information is one character, an address with :: has the full number of groups before it, an IPvFuture starts with a small v, and there is no empty path except after an authority. So whatever is not a URI is reported; a URI without user information, compressed or v addresses and empty paths is not; and some URIs (with a user name of two characters, with [::1], about:) are.",
  "every request linter, every target, every conversion", "every text: the grammar defines an infinite set of strings", ["httplint/message.py:HttpRequestMessage.set_uri", "httplint/syntax/rfc3986.py"])
p("Fields are judged alone",
  "What is recorded for a field of a section and what is said about the field as a whole (notes, their order, texts and variables) depends only on its own lines and on those of the fields its checks look at: Age for Date, Date for Last-Modified, Transfer-Encoding for Content-Length, the enforced policy for the two report-only Cross-Origin policies. If these lines are the same, in the same order, in two sections, the same is recorded and said, whatever other lines there are and wherever they are; so dropping, adding or moving any other line changes nothing.",
  "every message, every two sections it could have, every field name", "all sets of other lines, in all positions", ["httplint/field/section.py", "httplint/field/finder.py", "httplint/field/__init__.py", "httplint/field/list_field.py", "httplint/field/singleton_field.py", "httplint/field/broken_field.py", "httplint/field/parsers"])
p("Lines are judged with the other lines of their field only",
  "The notes about the lines of a field of a section (about octets, the field's name, the elements of a list, each cookie, a line's size) depend only on the field's own lines. If these are the same, in the same order, in two sections, then the notes about them are the same, in the same order, with the same texts and variables, and each is about the corresponding line; what other lines there are, and where, shows in the lines' numbers only. And every note about a line is among those of the field of one of the lines.",
  "every two sections of a message (headers or trailers), every field name", "all other lines and positions", ["httplint/field/section.py", "httplint/field/list_field.py", "httplint/field/broken_field.py", "httplint/field/finder.py", "httplint/field/parsers/set_cookie.py", "httplint/field/parsers/cookie.py"])
p("The order of fields with different names does not matter",
  "If two sections have the same lines, in orders that agree on the lines of each field and on those of the fields its checks look at (Age for Date, Date for Last-Modified, Transfer-Encoding for Content-Length, the enforced policy for the report-only Cross-Origin policies), then the same value is recorded for each name and the same notes are added, with the same texts, variables, sub-notes and subjects, but for their order and the numbers of the lines they are about. So two neighbouring lines of fields with different names, neither of which the other's checks look at, may be swapped.",
  "every two sections of a message (headers or trailers) with the same lines", "all reorderings, any number of lines", ["httplint/field/section.py", "httplint/field/finder.py", "httplint/field/list_field.py", "httplint/field/singleton_field.py", "httplint/field/broken_field.py", "httplint/field/parsers/"])
p("The order of fields with different names does not matter to the verdict",
  "If a message's headers come in another order, which agrees on the lines of each field and on those of the fields its checks look at (as in C127), then after the same content and end (without trailers) the linter is the same: status, verdicts on caching, encoding, sample and decoded content, lengths and hashes, the recorded value of each name, the notes added to the related request, and the notes, with their texts, variables, subjects and sub-notes; only the order of the headers and of the notes and the numbers of lines may differ. And the last call returns in the one case if it does in the other.",
  "every message, every two orders of its headers, every content, every related message", "all reorderings, all contents, any number of lines", ["httplint/message.py:finish_content", "httplint/message.py:HttpResponseMessage.post_checks", "httplint/cache.py", "httplint/status.py", "httplint/field/cors.py", "httplint/field/section.py", "httplint/field/parsers/content_security_policy.py"])
with open(os.path.join(os.path.dirname(__file__), "..", "properties.jsonl"), "w") as f:
    for x in P: f.write(json.dumps(x) + "\n")
print(len(P))
