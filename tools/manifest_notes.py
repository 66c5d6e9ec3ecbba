# property -> (status or None for automatic, note)
notes.update({
"C06": ("partial", "Every note binds the variables of its templates, except CONTENT_NOT_ALLOWED, for which the property is false of the code (C06_content_not_allowed_cannot): its summary uses %(message)s, which is never bound. It is also false of times and durations over 999999999 days (C06_long_lifetime_cannot, F71: RelativeTime.__str__ raises OverflowError), which the theorem excludes."),
"C07": ("partial", "False of the code as stated: C07_witnesses gives eight raising sequences. Proved: every sequence of calls on a new linter returns, whatever the bytes, the chunking and the related request, under OrdinaryCalls (header and trailer lines given at most once; no padded field names; none of six fields whose evaluators let library exceptions out; a usable charset; Age readable if both times are known) and Contract (which exceptions the libraries raise)."),
"C11": ("partial", "False of the code when a line is rejected before it (C11_violated: the counter is not advanced). Proved in full: what the number is (C11_alone: the notes of every class about offset-k are those that the lines with k accepted lines before them get when processed alone; C11_refers: every offset number belongs to a line), hence the property itself when every line is accepted (C11_accepted_partial, C11_offsets_partial)."),
"C13": ("partial", "The notes are proved in full. 'parsed maps to None' is false for Set-Cookie in a request and Cookie in a response (C13_counterexample); proved for all other fields."),
"C23": ("partial", "Case-insensitivity, known and unknown names proved in full. 'Every alias resolves' is false of the code (C23_aliases_violated: aliases with hyphens or a leading underscore are never found); proved for the aliases without hyphens and leading underscore whose target has a parser module."),
"C35": ("partial", "False of the code (C35_unstorable_flags_stay_on, C35_shared_only_flag_stays_on). Proved: exactly when the flags are on (C35_flags), and agreement in all other cases."),
"C46": ("partial", "False of the code for status 199 (C46_199_is_checked: range(100, 199)). Proved: the exact verdict in all cases, at most one note, none without a type."),
"C54": ("partial", "int() accepts more than decimal integers (+5, 1_0, -5; C54_counterexample). Proved: the exact behaviour in terms of int()'s grammar (IntText), and the property itself for texts of ASCII digits (C54_digits)."),
"C55": ("partial", "int() accepts 1_0 as ten (C55_counterexample). Proved: the exact behaviour in terms of int()'s grammar (IntText)."),
"C61": ("partial", "The path rule is false of the code when the cookie gives several Paths (C61_path_fails). Proved: Secure and Domain rules in full, the path rule when there is at most one Path."),
"C62": ("partial", "Proved: the exact set of strings accepted and the time each denotes (Says). Missing: that set differs from RFC 6265's (C62_year_first_counterexample, C62_february_counterexample)."),
"C64": ("partial", "nosniff is compared case-sensitively and DENY/SAMEORIGIN are searched as substrings (C64_counterexample). Proved: the exact condition for each verdict."),
"C68": ("partial", "-i request and -i response always raise (C68_violated: the option's text is compared with enum members). Proved: without -i a response is linted."),
"C69": ("partial", "False of the code (C69_fails: the pattern for alphanum is '{ALPHA}|{DIGIT}', not an f-string). Proved: the exact language accepted."),
"C70": ("partial", "False of the code (C70_fails, C70_empty_path_fails). Proved: where the grammar differs from RFC 3986's (C70_differences) and that it agrees elsewhere."),
"C75": (None, "Under ItemShape: http_sf returns a (value, parameters) pair for every Item it accepts."),
"C81": ("partial", "False of the code: a backslash in filename is not reported (C81_backslash_fails; the code looks for two backslashes, in filename* only), and a disposition followed by a space is called unknown (C81_space_fails). Proved: the exact condition of each report, in terms of the text before the first semicolon and the last value of each parameter."),
"C82": (None, "The documented 'at most 3 digits of precision' is not what the code tests (C82_precision_fails); the property only claims what is stated."),
"C84": (None, "dur is a number if float() takes it (isFloat)."),
"C86": (None, "The target of a link is what precedes the first semicolon, without its brackets: a target with a semicolon is cut short (C86_semicolon; F57)."),
"C88": (None, "Under ListShape/DictShape (what http_sf returns for Lists and Dictionaries)."),
"C89": (None, "Under ItemShape/ListShape/DictShape (what http_sf returns). For Use-As-Dictionary the type demanded is the one the code demands: type must be a String there, while RFC 9842 has a Token (C89_type_fails, F58)."),
"C90": (None, "Dates as the date library reads them (env.parsedate), in Deprecation under ItemShape."),
"C91": ("partial", "The last sentence is false of the code (C91_order_of_age_matters, C91_order_of_date_matters): Age and Date are only taken into account if they come before the field. Proved: the exact verdict in terms of the fields that come before."),
"C93": (None, "Hosts are compared as written: the same origin in another case, or with its default port, counts as another (C93_same_origin_fails, F59)."),
"C94": ("partial", "False of the code when Transfer-Encoding comes after Content-Length (C94_order_matters, F39). Proved: reported exactly when it comes before."),
"C95": (None, "Under ListShape. hit=?0, stored=?0 and collapsed=?0 make process_headers raise (F46); the theorems are about sections that were processed."),
"C96": (None, "Under DictShape (what http_sf returns for Dictionaries)."),
"C97": (None, "Under JsonShape: json.loads of a text in square brackets returns a list. NaN and infinities are not modelled."),
"C98": (None, "Under ListShape."),
"C100": (None, "Under ItemShape and DictShape, and Unpadded headers (no field name with blanks at its end: F1/F2); Ended says that the message was linted with calls that did not raise."),
"C101": (None, "Under ListShape and Unpadded headers. Storable as the linter found it (C33-C40)."),
"C102": (None, "Under ItemShape (requests) and Unpadded headers."),
"C103": (None, "Under JsonShape and DictShape, and Unpadded headers."),
"C104": (None, "Under DictShape and Unpadded headers. The sub-notes go to the first policy's note even when it is another field's (F10)."),
"C105": (None, "Durations are rendered by relative_time, which is not modelled beyond its arguments. FactsOf holds of some facts for every reachable response with tidy names (C33_facts)."),
"C106": ("partial", "The number of bytes is wrong in the code (C106_length_fails, F61: the bytes received so far, with the chunk at fault). Proved: all the rest, and what the number is. For one coding and (C106_codings_partial) for several, each of whose decoders reports the errors of its own decompressor."),
"C108": (None, "str.isprintable is a parameter; C106 says which bytes are displayed."),
"C109": ("partial", "False of the authority (C109_authority_fails, F62: what follows its first colon is not converted, and user information is taken for the host). Proved: all the rest, and what becomes of the authority. urlsplit, urlunsplit and IDNA are parameters."),
"C114": ("partial", "False of the code: Cache-Status and Proxy-Status, Accept-CH and ENCODING_UNWANTED let data of the message out (C114_status_is_exposed, C114_missing_fields_are_exposed, C114_unclosed_span; F64-F66). Proved of all classes but two: notes whose values are single lines (OneLiners), the variables listed in NoteId.exposed being assumed harmless; those two and BAD_SYNTAX_DETAILED have theorems of their own. The reader of Markdown (markup) is a specification of paragraphs, code spans and code blocks, not of the whole of python-markdown; texts with two backticks in a row are not judged; gettext is assumed to be the identity."),
"C117": ("proved", "Babel's wording of a time difference is a parameter; times over 999999999 days cannot be shown (F71, C06). Summaries of particular notes are stated for the identity translation."),
"C123": (None, "Characters up to U+00FF: case folding of re.IGNORECASE beyond Latin-1 (U+017F, U+212A, ...) is not modelled. The differences from the RFCs are the fields of Abnf.Reading."),
"C128": ("partial", "False of the sub-notes of the two Content-Security-Policy fields (C128_order_fails, F78: a missing endpoint is reported under the note of whichever policy came first, also when it is the other's). Proved: all but these sub-notes (CSP_REPORT_TO_MISSING) in every case, and these too when neither of these fields was sent, in the headers or the trailers. For calls after the headers that feed content and finish, with any trailers; that the second section can be processed is a hypothesis, which C128_whole_partial and C128_whole_sub_notes remove for a whole message whose calls are ordinary (as in C07)."),
})
