# A formal model of httplint in Lean 4

## 1. Approach

The model is a set of total, computable Lean functions that mirror the Python functions branch by branch
(each definition cites the file and lines it models).  Exceptions are values (`Except Exn`), and the notes
a piece of code added before raising survive the exception, as in Python.  External libraries
(`http_sf`, `json`, `zlib`, `brotli`, `chardet`, `sniffpy`, `codecs`, `urllib`, `email.utils`, MD5,
Markdown, babel) are *parameters* collected in one structure `Env`; theorems quantify over every `Env`,
so they assume nothing about those libraries unless a hypothesis says so.

Layers (under `lean/Verif/`):

| module | models |
|---|---|
| `Py`, `Regex` | the fragment of Python strings/dicts and of `re` used by the code; `Regex` has a backtracking matcher in Python's priority order proved equivalent to the language semantics |
| `Syntax` (generated), `NoteTable` (generated) | `httplint/syntax/*.py`; every `Note` subclass with its templates |
| `Val`, `Note`, `Eff`, `Env` | dynamic values, `note.py`, the "adds notes and may raise" effect, the outside world |
| `FieldTable`, `Descriptions` (generated), `Types` | the class attributes of every parser and deprecated/unnecessary field; messages, handlers, contexts |
| `Utils` | `field/utils.py`, `util.py` |
| `Fields/*` | `field/parsers/*.py`, `deprecated.py`, `unnecessary.py` |
| `Section` | `field/__init__.py`, `list_field.py`, `singleton_field.py`, `broken_field.py`, `structured_field.py`, `json_field.py`, `finder.py`, `section.py` |
| `Encoding`, `Cache`, `Status`, `Content`, `Fields/Cors` | `content_encoding.py`, `cache.py`, `status.py`, `charset.py` with `content_type.py`, `field/cors.py` |
| `Message` | `message.py` (topline, headers, content, finish) |
| `Cli`, `I18n`, `Threads` | `cli/*.py`, `i18n.py`, `note.py`'s thread-local converter |
| `NoteNeeds` (generated) | the variables that each note's templates use |
| `Props/*` | the property theorems, with non-vacuity examples beside them |

Tables that are data rather than logic are generated from the text of `/repo` by `tools/gen_*.py`
(`/repo` is parsed, never imported or run).

## 2. Plan per property

* C01-C03 (note list): `Notes.add`, `add_child` modelled as functions on note lists; C01 by an invariant
  over all API operations; C02/C03 as laws of `add`.
* C04-C06 (rendering): a parser/renderer for `%`-templates; backtick counting by induction on the
  template; C06 over the table of all note classes and the modelled call sites.  The code violates C06
  (CONTENT_NOT_ALLOWED): the negation is proved with a witness, the rest as `_partial`.
* C07 (totality): false of the code (`C07_witnesses`: eight sequences of calls that raise).  Proved for all other
  sequences: every parser, evaluator, section, decoder and checker is shown to return (`Returns`, `Tame`), given the
  typing invariant of parsed values (`TypedHeaders`), the shapes and exceptions that the libraries are documented to
  give (`Contract`) and the conditions `OrdinaryCalls`, each of which rules out a crash that exists.
* C08-C16 (sections): induction over the list of field lines of the `Section.process` model.
  C11 is false of the code (skipped offsets): witness; the exact meaning of an offset number in general
  (`C11_alone`, `C11_refers`), from which the property when no line is rejected (`_partial`).
* C17-C22 (field kinds): theorems about the `finish`/`handle_input` models for every class table entry.
  C20, C21 rest on `Regex.mem_run_iff` (matcher = language).
* C23: finder model; two aliases can never match (witness), the rest proved.
* C24-C32 (content): state machines for `feed_content`, gzip/brotli processors and the pipeline; induction over chunks.
* C33-C40 (cache): the checker as a function of parsed headers; case analysis.  C35 is false (witness).
* C41-C43 status, C44-C45 CORS, C46-C47 charset/content type, C48 top lines: decision logic stated outright.
* C49-C53 utilities: string functions; induction over strings.
* C54-C64 field parsers: one model per parser; iff-theorems for their notes and values.
* C65 locale: a context-variable machine; C66-C68 CLI: sorting/grouping and top-line splitting (C68 false: witness).
* C69-C71 grammars: language of the generated regexes (C69, C70 false: witnesses).

* C72-C73 CLI bodies: the parser callbacks of `cli/http_parser.py` refine a sequence of library calls.
* C74 onwards, single fields in full: `Props/Reports` says, for a header section, *exactly* which notes of given classes
  are added, in order, with their subject, variables and sub-notes (`Reported`).  For each field a small
  specification gives the reports its text deserves; the theorem equates the two for every section.
  C74-C88: policies, hop-by-hop fields, parameters, negotiation, services; C89 types of structured members; C90-C91 times
  (C91 depends on the order of fields: witness); C92-C94 Origin, Referer, Content-Length (C94 likewise: witness);
  C95 Cache-Status, Proxy-Status, C96 Permissions-Policy, C97 NEL and Report-To, C98 Accept-Query,
  C99 the end of a request, C100 reporting of cross-origin policies, C101 Accept-CH at the end, C102 compression dictionaries, C103 NEL at the end,
  C104 Content-Security-Policy at the end (C100–C104: `Ended` describes a message linted to its end; the effect of `post_check` on each field is derived from the values the section left),
  C105 the whole caching report (a table of rows: condition on the facts, subject, class, variables; one lemma per check),
  C106 corrupt content (induction over the chunks; the calls of the decompressor are in its history; the number of bytes is wrong: witness).
  C107 fields that can be removed (names by the lookup tables; notes by line as in C56; the name shown is that of the line, as it was first written).
  C108 displaying bytes, C109 request targets (the model of the UTF-8 decoder is proved to agree with Lean's `String.utf8EncodeChar`: a
  character is decoded exactly where its encoding is; `Reads` and `Replaces` specify decoding, each proved to be functional; percent-encoding by
  characters; the authority is wrong: witness).
  C110 descriptions of fields (by the lookup of C23; tables generated from the source).
  C111 what a note is about (`Bears`: every note of a field's own code inherits the subject and the context it is added with — one lemma per
  `parse` and `evaluate`; then the same for the frame and for the lines of a section, with the handlers' names as an invariant;
  then for `post_check`, where earlier notes may only gain sub-notes, and so for whole messages: `C111_at_end`, `C111_whole`).
  C112 what notes on lines and syntax say (the frame notes of C20 again, in full: context and own variables are separated by filtering the
  variables, so that the context is left to C111; a section without fields has no size, by an invariant).
  C113 what notes on a message as a whole say, and their order (again by separating context and own variables; the order from the list of
  notes `finish_content` builds, in which only the sub-notes of earlier notes may change).
  C114 wire data stays in code (the specification is a small reader of Markdown that says which special characters are outside code; the
  templates are scanned by the kernel once for all values of their variables; what is shown outside code is made by the linter, an invariant
  of `notes.add` proved with C06's; false for three notes: witnesses).
  C115 what notes on parameters say (`parse_params` again, as in C50, with the variables; the section by `shared_reports`, for classes of note
  that several fields use).
  C116 names of media types (likewise, from C51; Accept-Query as in C98);
  C117 what the user reads (the template filled in, as an inductive specification, composed with the reports of C91 and C105).
  C118, C119 what is recorded (the recorded value of every field class not covered by C52-C63, C92, C116, from the value theorems of C17, C18 and C22).
  C120 chunking (a relation `Unpacks` between content and decoded content; contracts of zlib and brotli as streams, `Inflates` and `Unbrotlis`, with models that keep
  them; feeding in closed form; and a frame argument: `finish_content` does not look at the decompressor objects).
  C121 threads (a small-step machine per thread, a schedule of any length; the invariant is that what a thread has obtained and what it still has to
  obtain, read off its position and its stack, add up to what it obtains alone; the contract of `Markdown.reset` is a hypothesis).
  C122 exchanges (a non-interference argument: the part of a request that the response's checks read, `glance`, is fixed by its top line and headers; every call
  of the model, run on two messages that differ in the notes only, or given two requests with the same glance, does the same; then induction on the schedule).
  C123 grammars (sets of strings written as in the RFCs' ABNF, without regular expressions; every expression of the generated `Syntax.lean` that a field uses is
  rewritten to its rule, bottom up, by an algebra of sequences and alternatives; monotonicity for what is wider; derivations and the matcher for the differences).
  C124 the target of a request (C123's algebra, after an expression whose classes are made insensitive or kept sensitive one by one; two monotonicity steps between
  readings of RFC 3986; derivations for the URIs that are reported).
  C125 fields judged alone (what each `evaluate` sees of the message is a listed relation, `SeesSame`; the lines of a section are replayed for the two sections at once: the values
  per key, the handlers' order and what has been evaluated before agree on the lines that matter; line notes have other subjects).
  C126 lines judged with their field's lines only (`Moved`: every check, with an adder of another subject, adds the same notes but for their subjects; the reading of the lines is a fold over the
       handlers by name, `spokenAll`, from which other fields' lines drop out; for `Cookie` and `Set-Cookie`, whose notes come at the end, the two loops are run side by side)
  C127 the order of fields (reading: `spokenAll` is a permutation of its parts by name, and each part is the same but for numbers, as in C126; finishing: each field says the same, as in C125,
       notes elsewhere included, and the names are a permutation; the size is a sum)
  C125–C127 where nothing raises (`*_returns`): from `section_returns`, that sections of calm lines can be given; no run is assumed.
  C128 the order of fields, to the end (what the rest of a message sees of its headers is a relation, `HeadAlike`: values by name, names as a set, and of each handler its class, name and value;
       content, the checks of the message and of each handler respect it; the latter add to the notes a list that depends on the handler only, so over a permutation they add a permutation; trailers are judged by `trailers_step` the same in both, since no check sees more of the headers than `HeadAlike` fixes)
  The older claims on notes (C42, C44, C45, C56, C57, C60, C63) said which and how many; `C42_report`, `C44_request_report`, `C44_response_report`, `C45_report`, `C56_report`, `C57_report`, `C60_report`, `C63_range_report` and `C63_content_range_report` also say in which order, about what and
  what the notes say (their variables).

## 3. Trusted base

* **Lean 4.33.0's kernel** (and `lake`/the elaborator only in that they hand the kernel the terms that the statements
  read as).  Core Lean only; no Mathlib module is imported.
* **Axioms**: no axioms are added.  Every theorem listed in `MANIFEST.json` depends on a subset of
  `propext`, `Classical.choice` and `Quot.sound`; `notes/AXIOMS.txt` (written by `tools/gen_axioms.py`) gives the
  subset for each of them.  No compiled evaluation is used.
* **Two bits of metaprogramming**, neither of which can affect soundness: an elaborator for literals `str "..."`
  (`Py.lean`, produces the list of code points, with a check that it equals the definition), and a tactic
  `kernel_rfl` (`Props/Toy.lean`, closes a goal `a = b` with `rfl` checked by the kernel alone).
  All others are macros for ordinary tactics.
* **The reading of Python**: that the definitions in the model say what the cited lines of Python do.  This is
  the part that no prover checks.  To lower the risk: definitions follow the code branch by branch and cite it; the data
  tables are generated from the text of the source (`tools/gen_*.py`); the grammars are translated to `RE` by a script
  from the verbose patterns; and the theorems are tried against deliberate errors in the model (`seeded/LOG.jsonl`).

## 4. Disagreements between code and property (the code violates the property)

See `notes/FINDINGS.md`; each one used here is proved as a theorem about the model, with a concrete input:
C06 (`C06_content_not_allowed_cannot`, `C06_long_lifetime_cannot`), C07 (`C07_witnesses`), C11 (`C11_violated`), C13 (`C13_counterexample`),
C23 (`C23_aliases_violated`), C35 (`C35_unstorable_flags_stay_on`, `C35_shared_only_flag_stays_on`), C46 (`C46_199_is_checked`),
C54/C55 (`C54_counterexample`, `C55_counterexample`), C61 (`C61_path_fails`), C62 (`C62_year_first_counterexample`,
`C62_february_counterexample`), C64 (`C64_counterexample`), C68 (`C68_violated`), C69 (`C69_fails`), C70 (`C70_fails`), C81 (`C81_backslash_fails`, `C81_space_fails`),
C91 (`C91_order_of_age_matters`, `C91_order_of_date_matters`), C94 (`C94_order_matters`), C106 (`C106_length_fails`), C109 (`C109_authority_fails`), C114 (`C114_status_is_exposed`,
`C114_missing_fields_are_exposed`, `C114_unclosed_span`).
For each of these the exact behaviour of the code is proved too, and the property where it holds.

## 5. Scope: what is modelled and what is not

Modelled (as total functions, cited line by line): `note.py`; `types.py`, `util.py`;
`message.py`; `status.py`; `cache.py`; `charset.py`; `content_type.py`; `content_encoding.py`; `i18n.py`'s scoping and its shared table;
`cli/*.py` (argument handling, top lines, the parser callbacks, the output order); `field/*.py`
and every module of `field/parsers/` (parsing, evaluation, post-checks), `deprecated.py`, `unnecessary.py`; `syntax/*.py`.

Parameters (`Env`; theorems hold for every choice unless a hypothesis restricts it): `http_sf.parse`, `json.loads`,
`email.utils.parsedate`, `urlsplit`, `urljoin`, `unquote`, `urlunsplit`, IDNA, `str.isprintable`,
`codecs.lookup`, `bytes.decode`, `chardet.detect`, `sniffpy.sniff`, zlib's and brotli's decompressors (their answer may depend
on all earlier calls), MD5, and for rendering: Markdown, translation, Babel's `format_timedelta`, `str()` of structured values.

Hypotheses on these used by some theorems: `ItemShape`, `ListShape`, `DictShape` (C75, C88-C90; Items parse to pairs, Lists to lists
of them, Dictionaries to dictionaries of them), `JsonShape` (C97: JSON in square brackets is read as a list), `Contract` (C07), `RenderEnv`
conditions in C05/C06, `env.urlsplit m.baseUri = .ok u` (C59-C61), and those stated in C28-C32 for the decompressors.

Simplifications, also given in the comments of the definitions concerned:

* strings are lists of code points; case mapping and `isspace` are those of Latin-1 (field values are decoded as
  ISO-8859-1, so nothing else can occur there), and so is `re.IGNORECASE` (`Regex.caseVariants`);
* `set` iteration (duplicates in Cache-Control, Content-Language, Transfer-Encoding) is in order of first occurrence;
* times are rationals; JSON's NaN and infinities do not occur; `f_num` is in the C locale;
* MD5 is computed on the concatenation of all chunks; decompressor objects are the history of calls to them;
* the related message is fixed between calls, except that `finish_content` may add STORE_METHOD_UNCACHEABLE to it;
* aliasing between Python objects is not modelled beyond what the code uses (a note's parent list, `headers.parsed`);
* several threads are modelled for rendering only (C121): a linter belongs to one thread at a time;
* memory, time, recursion depth and signals are not modelled; nor are the texts of the translations,
  packaging, and `field/tests.py` (`description.py` is, in `Descriptions.lean`);
* `thor`'s HTTP/1 parser, which drives the CLI, is outside: the CLI theorems are about the callbacks it makes.
