# Design of the formal model of HTTPolice

Target: vfaronov/httpolice (Python), source text in `/repo`. The model and all
proofs are in Lean 4 (`lean/Verif`), core library plus single Mathlib modules.

## Layout

* `lean/Verif/Model/*.lean` - executable model, one definition per Python
  function, each citing file and lines.
* `lean/Verif/Spec/*.lean` - small independent specifications (derivability,
  serialization, first-occurrence lists, ...), written without the model.
* `lean/Verif/Lemmas/*.lean` - helper lemmas.
* `lean/Verif/Props/*.lean` - the property theorems (named after the property
  IDs) with an `example` showing non-trivial inputs meeting the hypotheses.
* `properties.jsonl`, `MANIFEST.json`, `seeded/LOG.jsonl` - property list,
  claim status, mutation log.

## Modelling conventions

* bytes are `Nat`-valued octets in lists (`List UInt8` or `List Nat` as stated
  in the module), Unicode strings are lists of code points.
* Python exceptions are values (`Except`-like result types); loops are
  structural or well-founded recursion, or fuel with a proof that it suffices.
* Python dicts/sets are lists with the semantics of insertion order/membership.
* Generators are modelled as the list they would produce (laziness is not
  observable in the modelled parts, except where stated).

## Plan per property

| ID | Property | Modelling and proof plan |
|---|---|---|
| C01 | Parser acceptance equals the grammar | Model/Earley: grammar = indexed rules over octet classes; chart construction of `_inner_parse` with `_add_item`; derivability as an independent inductive relation. Prove soundness (chart item => derivation) and completeness (derivation => chart item) by induction on derivations, with the nullable shortcut; acceptance iff derivable. |
| C02 | Parse result is the value of a derivation of the whole input | Model/FindResults: `_find_results` as a list-valued search; prove every listed result is the evaluation (value, complaints, annotations) of a derivation tree with that span, and that the first result with start 0 is the one returned. |
| C03 | Parsing always terminates | All model functions are total Lean functions; where fuel is used (inner chart loop, result search) prove that the fuel computed from grammar and input always suffices (the loop really reaches its exit condition). |
| C04 | Parse error position is the longest viable prefix | Specification: viable prefix. Prove position = last non-empty chart column and valid-prefix property via chart soundness for productive grammars; expected octets via completeness. |
| C05 | Memoization of parse is unobservable | Model/Memo: memo as ordered association list, history = list of calls; invariant `every entry is the pure result of its key`; refinement to memo-less parse by induction on the history. |
| C06 | The parse memo is a bounded LRU cache | Same model; invariant `memo = last MEMO_LIMIT distinct successful keys ordered by last use`. |
| C07 | Annotated strings preserve the input | Model/Splice: fold over annotations; spec = interval cover of data; induction over annotations. |
| C08 | string_excluding excludes exactly the given strings | Model/Combinators: language semantics of the constructed rules; induction on total length of the excluded words. |
| C09 | Combinators denote the expected languages | Model/Combinators: heap of symbols with inlining of ephemeral symbols; language of each combinator by derivation surgery. |
| C10 | comma_list accepts the RFC 7230 list syntax | On top of C57: the expressions in comma_list and comma_list1 (Model/Rfc7230) denote a direct list spec (Spec/CommaList), for every element symbol. |
| C11 | Line reading | Model/Stream: state = remaining bytes + flags; readline equation against split-at-first-LF spec. |
| C12 | Stream analysis terminates and only moves forward | Model/Framing: parse_streams over Model/Stream; measure = unread bytes; prove monotonicity and strict progress, and that the fuel is never exhausted. |
| C13 | Stream analysis never fails with an exception | Expected to be FALSE (chunk size is read with Python int(..., 16), which accepts a sign): prove the negation with a witness; partial theorem: no exception when no chunk-size line starts with a minus sign. |
| C14 | Well-formed requests are recovered exactly | Serialize (spec) then run the model; equation for all messages and all suffixes. |
| C15 | Chunked bodies are recovered from any chunking | Same for chunked bodies, induction over the chunk list; the hex number parser is modelled. |
| C16 | Pipelined exchanges are paired in order | Induction over the list of exchanges using C14/C15 round trips. |
| C17 | Bodies respect their declared length and the size limit | Invariant of body readers. |
| C18 | Response lists have the HTTP shape | Invariant of `_parse_responses` loop. |
| C19 | Nothing is parsed as HTTP after a protocol switch | Case analysis on parse_streams; the loop guard uses `sane`. |
| C20 | Leftover data is reported exactly when there is some | Case analysis on parse_streams. |
| C21 | Header block parsing | Equation of parse_header_fields on serialized blocks with folding; failure iff missing colon. |
| C22 | Line-level notices are attributed to the right message | Invariant: stream complaint list is empty between messages while the stream is sane. |
| C23 | Notices are reported once, in order | Model/Blackboard: induction over call history against `first occurrences` spec. |
| C24 | Silencing removes exactly the silenced notices, at any time, recursively | Same, with exchange = own board + children; interleavings as operation lists. |
| C25 | Silencing accepts any iterable of IDs | Expected FALSE for one-shot iterators: model iterators as stateful; witness + partial for re-iterables. |
| C26 | Headers that may appear once | Model/HeaderView over an abstract parser. |
| C27 | List headers spread over several entries | Same. |
| C28 | Trailer fields forbidden in trailers are ignored | Same, with trailers. |
| C29 | Comparisons with absent or malformed headers are false | Same. |
| C30 | Case-insensitive strings form an equivalence with consistent hashing | Model/CaseInsens over code points below 256 (header names are ISO-8859-1) with Python's lower() table. |
| C31 | MultiDict refines a list of pairs | Model/MultiDict with the dictionary built by insertion as in the code; refinement to list functions. |
| C32 | Entity tag comparison follows RFC 7232 | Direct. |
| C33 | Pseudo-headers are partitioned off | Model/Helpers: index loop with deletion; equals filter. |
| C34 | CGI variables become headers without loss | Model/Helpers. |
| C35 | Interleaving connections loses and reorders nothing | Model/Inputs: loop over position vector; invariant `output + current + remaining is a permutation, per sequence a concatenation`; also prove the crash on an empty sequence. |
| C36 | Interleaving follows time | Same model, sortedness invariant. |
| C37 | Captured streams are paired up exactly | Model/Inputs. |
| C38 | Combined files split at the first markers | Model/Inputs: bytes.split(sep,1). |
| C39 | Direction sniffing | Model/Inputs. |
| C40 | Exit status reflects the reported notices | Model/Cli. |
| C41 | Text report shows exactly the visible notices | Model/TextReport. |
| C42 | Report text is clean | Model/Text over code points. |
| C43 | Character lists in error messages are faithful | Model/Text: intervals cover exactly the given points; printed form injective on intervals. |
| C44 | Duplicates are found exactly | Model/Data. |
| C45 | Extra final responses are flagged | Model/CheckResponse: every check of a response as a list of writes, in order, up to an exception. What can be written by the other checks is bounded by their IDs (Lemmas/CheckIds). |
| C46 | 100-continue before 101 | Same model; the request's `Expect` is read off the raw entries. |
| C47 | Content codings are undone in reverse order | Model/Decoding over abstract codecs; an outcome spec by rules. |
| C48 | Dates are read exactly | Model/Rfc7231: the definitions of the module as data (Model/Program), with Python's calendar. Spec/Dates: printers for the formats, and a calendar that counts days. `C57_module` gives what each name of a module comes to. |
| C49 | Header name lookup never hits an internal assertion | Whole header table as data (generated from the CSV), checked by kernel evaluation over the complete table plus the general argument for unknown names. |
| C50 | Derived properties are computed once | Model/Derived: getters are programs that may read other properties; any history of reads and assignments. |
| C51 | Local silencing through HTTPolice-Silence | Same model, on top of Model/Blackboard: the only silencings are the three of the check functions. |
| C52 | Header enumeration and names | Model/HeaderView. |
| C53 | Directive lookup | Model/Directives. |
| C54 | Checks without a request | Same model, compared with itself with and without the request (Lemmas/CheckAlone). Spec: the IDs that need the request. |
| C55 | Byte ranges | The module solved name by name (`Solves`), as for dates; texts determine what is written (`list1_inj`). |
| C56 | Joining for humans | Direct, induction over lists. |
| C57 | Values of grammar expressions | Model/Expr: expressions as data. `Expr.den` (Spec/Values) is a compositional meaning; every combinator is shown to preserve it, for symbols that are inlined into `*`, `|` and `<<` as well as for others. |
| C58 | Exceptions from checking an exchange | Same model: the expressions that raise are modelled where they occur. |
| C59 | Missing headers | One theorem per notice (Props/Notices), each an equivalence between the report and a condition on the raw header entries (Spec/Notices). A notice is located in the check that makes it by the IDs of the others (Lemmas/CheckLists, Lemmas/Locate); how the checks look at headers is related to entries in Lemmas/CheckRaw. |
| C60 | Bodies where there should be none | As C59. |
| C61 | Headers that make no sense in a message | As C59; the tables of known headers are spelled out in the specification. |
| C62 | Responses that contradict their request | As C59. |
| C63 | Directives to caches | As C59. |
| C64 | Notices common to requests and responses | As C59 (Props/MessageNotices, Lemmas/LocateMessage, Lemmas/RawMore), stated for a message at any place of the exchange. |
| C65 | Connections and proxies | As C59 (Props/AnswerNotices, Lemmas/RawAnswer, Spec/Answers), with the end of a body and the form of a target spelled out. |
| C66 | Statuses, redirects and empty bodies | As C65, with the effective URI as an inductive relation. |
| C67 | Responses from caches | As C65; whether a response is from a cache, stale or has a made-up expiration time is specified on raw entries. |
| C68 | Cache directives, conditional requests and ranges | As C65. |
| C69 | Authentication | As C65; credentials, challenges and tokens elsewhere in the request are specified on raw entries. |
| C70 | Particular headers | As C65, for 26 notices about single headers (`Content-Disposition`, `Strict-Transport-Security`, `Accept-*`, `Host`, `TE`, …). |
| C71 | Upgrades and preferences | As C65, for 13 notices; equality of preferences is specified by cases. |
| C72 | Entity tags | Model/Rfc7232 as data (Model/Program), with imports by renaming (Model/Import, Lemmas/Import). Spec/Reads: what it is to read exactly. Spec/EntityTags: printers. Lemmas/Unique: texts determine what is written and where it ends, put together from parts. |
| C73 | Headers for one connection | As C72: Model/Rfc7230Headers on Model/StringsModule; Spec/Hops on Spec/Parameters and Spec/Strings. Parameters and weights end where a semicolon, a comma or the end comes (Lemmas/Parameters). |
| C74 | Headers for caches | As C72: Model/Rfc7234 on Model/Rfc7230Headers and the dates; Spec/Settings. |
| C75 | Media types and preferences | As C72: Model/Rfc7231Headers on Model/Rfc7230Headers and the dates; Spec/Negotiation. Where the grammar is ambiguous (a star), the statement allows either value. |
| C76 | Challenges and credentials | As C72: Model/Rfc7235 on Model/StringsModule; Spec/Challenges. A list of challenges is a list of lists, and the grammar does not say to which of them a gap belongs; the statement says that this makes no difference but for the number of 1151. |
| C77 | URIs | Model/Rfc3986 (with the names of rfc7230.py and rfc7231.py that are about URIs, and the symbols of request.py); Spec/Uri says by components what a URI is, IPv6 addresses by counting pieces. The values are the texts themselves, so the lemmas are about languages (Lemmas/Verbatim). |
| C78 | Preferences and small headers | Model/SmallModules puts rfc7240.py, rfc6797.py, internal.py, rfc5789.py and w3c_ldp.py in one list after the names of rfc7231.py, and rfc7540.py after those of rfc7235.py. Whitespace between semicolons in Strict-Transport-Security can be understood in several ways; that this makes no difference is part of the proof. |
| C79 | Links | Model/Rfc8288 has the exceptions of `_process_params` as values, so that the parser is the same as for other modules; Python raises them out of `parse`. How values of parameters are read (`rel`, `hreflang`, `type`, `title*`) is a parameter of the model. |
| C80 | Forwarded, CORS, OAuth | Model/FetchModules has rfc7239.py, whatwg_fetch.py and rfc6749.py. Which of the readings of empty elements of Forwarded is preferred is not said; all have the same elements otherwise. |
| C81 | Languages | Model/Languages has rfc5646.py, rfc4647.py, and Accept-Language and Content-Language of rfc7231.py. |
| C82 | Encoded values | Model/Rfc8187 has rfc8187.py, rfc6266.py, rfc6838.py and the values of parameters in rfc8288.py. |
| C83 | Alternative services | Model/Rfc7838 has rfc7838.py. |
| C84 | Comments, Via, User-Agent, Server, Warning | Model/Comments has the rest of rfc7230.py, rfc7231.py and rfc7234.py; `Defn.nested` has `recursive()`. |
| C85 | HAR files | Model/Har has all of inputs/har.py; `urlparse`, `int(s)`, `b64decode`, `str(x)`, `lower` are parameters. |
| C86 | Entries of headers | Model/Views has `HeaderView._pre_parse` for one entry, `_check_quoted_delims`, `ArgumentsView` and its subclasses, and the tables of arguments; annotations and the context of notices other than entries are left out. |
| C87 | Tables of known things | Model/Knowledge has known/__init__.py (without the tool that edits the files) and citation.py; reading CSV is left out, what a symbol's name leads to is a parameter. Spec/Knowledge says by fields what a row says. |
| C88 | HTML report | Model/Html has reports/html.py (without the head of the document, the list of notices and what Dominate does when it renders elements), reports/common.py and `displayable_body`; objects have identities, a message is what the report reads from it. Spec/Html reads a finished document: texts, elements of a class, their attributes. |
| C89 | headers as the checks see them | Model/World puts the grammars of all syntax modules (C55, C72-C84) and the views (C86) where Model/CheckBase has parameters: known/header.csv with `syntax_module` and `syntax_symbol`, and what the checks take from each value. Link stays a parameter (C79). Spec/Written says for each header what is written, as in C72-C86. |
| C90 | notices about headers | Spec/HeaderForms has a row for each header with a syntax: how it is to be written (the forms of C72-C84) and which notices there may be on a value written so. Spec/HeaderNotices says which entries count (those in trailers do not if the header is barred there), which headers may be there once or many times. The environment is that of C89 (Model/World), so that these notices are no longer parameters of Model/CheckBase. |
| C91 | notices about payloads and targets | Model/Payload has the derived properties of message.py 71-196, `content_is_full`, the tables of media types and products, and parses the target with the grammar of C77. What is left as parameters are Python's libraries (`Libs`: gzip, zlib, brotli, charsets, json, XML, email, parse_qs) and values given by HAR input (`Assigned`). With Model/World this leaves no parameter of Model/CheckBase but Python's lower(), URL functions and the current time. |
| C92 | notices can be shown | Model/Catalogue transcribes notices.xml (IDs, severities, references) and models `resolve_reference` with the attributes of messages, header views and their values. The proof follows every `complain` of the checks (Model/CheckMessage, CheckResponse) with its keyword arguments. What grammars and header views report is only shown to be in the catalogue: their keyword arguments are not in Model/CheckBase. |
| C93 | captured bytes to notices | Model/Analysis joins the framing of C13–C22 with the closed world of C89–C91: `FrameEnv.te` becomes what the grammar and the header view make of Transfer-Encoding, and the messages of framing become those that are checked. The decoders (zlib) stay parameters. Notices of framing itself are added to messages before the checks; Model/Framing keeps them apart. |
| C94 | notices in terms of the text | composes the notice theorems C64–C71 with C89 (what header values are in terms of their text) and C91 (the closed world): no grammar, table or parser remains on the right-hand sides. `base.lower` stays a parameter for text outside ASCII; the clock is `base.now`. |
| C95 | directories of captures | Model/Captures writes the two regular expressions of tcpick_input and tcpflow_input as functions and joins them to `_recombine_streams` (C37). The listing of a directory and the digits of Unicode are parameters. Opening files and `decode_path` are not modelled. |
| C96 | saving the tables | Model/KnownDump writes `unprocess` and `dump` as functions on rows. How `str` shows a key that is a number is a parameter, since it depends on the version of Python. Reading and writing CSV is not modelled; a file is the list of its rows. |
| C97 | notices are shown as they are written | Model/NoticeXml writes the lxml element classes (`_load_notices`, `content`, `explanation`, `info`, `reference`) and `_notices_list`; Model/NoticeFile is the whole of notices.xml as elements, made by a script. The specification says what is written in an element as a sequence of letters, items, references and so on, without white space. Parsing XML is not modelled; nor is the lookup of named items in the tables of known things, which is a parameter. |
| C98 | what a whole run shows, and its exit status | Model/Run joins reading of combined files, framing, checks, silencing and `run_cli`. The statement is in terms of the bytes of files: their parts, what framing yields for the streams (C13-C24, C93), the notices that checks report (C50-C94) and texts of `HTTPolice-Silence` headers. Keyword arguments of notices of framing are a parameter here (they are in C93). |
| C99 | exceptions from Link headers, and 1243, in terms of texts | Model/LinkRaise finds the exceptions that reading a `Link` raises. Together with C94 this says of the texts of messages when an exchange makes `check_exchange` raise; C98 uses it. |
| C100 | whole runs on streams and captures | Model/StreamRun joins the pairing of files, the direction of streams, framing, interleaving by time, checks and `run_cli`. What a run does when a file cannot be opened, a stream raises while it is parsed, or a timestamp is out of range is not modelled there (`runFormat` is `none` then); C105 is about the first two, and C13 says when parsing does not raise. |
| C101 | whole runs on HAR files | Model/HarRun joins the reading of HAR files (C85), checks with the payloads that they give, silencing and `run_cli`. Parsing JSON is not modelled; nor is what becomes of a text of a body that is not a string (`runHar` is `none` then). |
| C102 | what whole runs print | Model/Output joins whole runs (C98, C100) with the text report (C41). The texts that make up the title of a notice, and titles of status codes, are parameters; theorems about lines assume that they have no line feeds. HAR files are not included. |
| C103 | what makes the analysis of streams fail | Sharpens C13 without new model code. Spec/Crash says what a chunk-size line looks like that `int(…, 16)` reads as a negative number. That the first message with such a line fails is proved for the first request and the first response; what came before it only matters for where the message starts. |
| C104 | what a whole run on HAR files prints | Model/HarOutput adds `text_report` to the run on HAR files of C101, as Model/Output does for streams (C102). Titles of notices and of status codes are parameters. Unlike messages in streams, methods, targets and reason phrases of HAR files may contain line feeds, and `printable` keeps them; so the theorem on lines has a hypothesis against them, and the one on blocks does not need it. |
| C105 | whole runs on streams that cannot be read | Model/FailRun fills the gap that C100 leaves: files that cannot be opened, and streams on which `parse_streams` raises. Sequences of exchanges end with an exception then, and `_rearrange_by_time` is modelled on such sequences (`rearrangeFailing`); the proofs reduce it to the model of C35. `_sniff_direction` opens files before anything is reported, and only those that it has to. Errors while reading a file that was opened are not modelled. `C105_hidden` is about something that may surprise: exchanges of other connections that have been read already are not shown if a file is missing, because a connection without a time hint is started before anything that tells the time is shown. |
| C106 | the HTML that a whole run writes | Model/HtmlRun puts the exchanges that reach the report in a run on combined files, streams or captures into the report of C88, with the complaints on their blackboards. Identities of objects, what is known of methods, status codes and headers, annotated values, forms of bodies, and the texts and contexts of notices are parameters for each exchange in turn; that annotated values spell the values (C07) is assumed where headers are shown. The beginning and the end of the document do not depend on the exchanges and are left out, except for whether the end is written. HAR files are covered by C107. |
| C107 | the HTML that a whole run on HAR files writes | Model/HarHtml adds `html_report` to the run on HAR files of C101, as Model/HtmlRun does for streams (C106). What is not given by the contents of files is a parameter for each exchange in turn: identities of objects, paths, what is known of methods, status codes and headers, annotated values (assumed to spell the values), forms of bodies, texts and contexts of notices. |

## Trusted base

* Lean 4.33.0 kernel; axioms at most `propext`, `Classical.choice`,
  `Quot.sound` (standard). No own axioms, no `sorry`, no `native_decide`.
  As `Lean.collectAxioms` reports them for the theorems of MANIFEST.json:
  * none: `C31_len`, `C92_unique`;
  * `propext` alone: `C02_derivation`, `C07_no_empty_chunk`, `C09_minus`, `C10_rfc`, `C11_no_line`, `C35_empty_raises`, `C57_echoes`;
  * `propext` and `Quot.sound`: `C09_octet_range`, `C11_readline`, `C21_block`, `C21_no_colon`, `C25_reusable_partial`, `C25_false_for_one_shot`, `C26_single`, `C27_lists`, `C27_split`, `C27_singular_alone`, `C27_singular_combined`, `C29_single_partial`, `C29_multi_partial`, `C30_symmetric`, `C30_hash`, `C30_lookup`, `C30_prefix`, `C32_strong_iff`, `C35_age_raises`, `C35_arguments`, `C37_pairs`, `C37_distinct`, `C40_status`, `C48_weekdays`, `C50_once`, `C50_same`, `C50_assigned`, `C52_enumerate_mem`, `C52_enumerate_order`, `C53_header`, `C55_range_notes`, `C95_tcpflow_name`;
  * all three: every other theorem.
* The faithfulness of the hand-written model to the Python text; each
  definition cites the lines it models and says where it simplifies.
* Not modelled: Python runtime (memory, recursion limit, limits of `int()`),
  the standard library and third-party libraries (zlib, brotli, json,
  defusedxml, email, urllib, bitstring, lxml, dominate, csv), codecs other than
  ISO-8859-1, the file system. Where their results matter they are parameters
  over which the theorems quantify.

What is modelled, by file of `/repo/httpolice`:

| File | Model | Left out |
|---|---|---|
| parse.py | Earley, Combinators, Expr, Memo | texts of parse errors other than lists of characters |
| syntax/*.py | Program, Import, Strings, StringsModule, Rfc3986 … Rfc8288, Languages, Comments, FetchModules, SmallModules | nothing; each module is written as expressions and the callbacks are functions on values |
| structure.py | Structure, CaseInsens | `__repr__` |
| stream.py, framing1.py | Stream, Framing | symbols and texts in parse errors |
| header.py | Header, Views | `__repr__`; keyword arguments of what views report, except entries |
| message.py, request.py, response.py, exchange.py | CheckBase, CheckMessage, CheckResponse, Decoding, Payload, World | `__repr__` |
| blackboard.py | Blackboard, Derived | |
| notice.py, notices.xml | Catalogue, NoticeXml, NoticeFile, TextReport, Cli | parsing XML |
| known/*.py, known/*.csv | Knowledge, KnownDump, KnownTables, HeaderTable, Payload | reading and writing CSV |
| helpers.py | Helpers | |
| codings.py | parameters of Decoding and Payload | decompression |
| citation.py | Knowledge | |
| inputs/*.py | Inputs, Har, Captures, Run, StreamRun, HarRun, FailRun | opening files; reading JSON |
| reports/*.py | TextReport, Html, NoticeXml, Output, HarOutput, HtmlRun, HarHtml | CSS and JavaScript; rendering of elements by Dominate |
| cli.py | Cli, Run, StreamRun, HarRun, FailRun, Output | argument parsing |
| util/*.py | Text, Structure | |

## Disagreements between properties and code

Found while modelling. Where a property was false of the code as first stated, either its negation is
proved and the property is marked partial, or the property was restated and the excluded case is
described in it (C01, C03, C04).

1. Chunk sizes are read with `int(..., 16)`, which accepts `-5`, `+5`, `0x10`, `1_0` and white space.
   -1 reads the rest of the stream; below -1 `ValueError` escapes from the analysis (C13, `C13_false`).
2. `Blackboard.silence` given a one-shot iterator does not reach the children (C25).
3. `check_exchange` run twice on the same exchange duplicates some notices (not claimed).
4. `_rearrange_by_time` fails on an empty sequence.
5. `_recombine_streams` drops streams whose keys collide.
6. `string_excluding` accepts an excluded initial character even if the terminal does not (C08 assumes
   that it does).
7. `Nonterminal.is_nullable` recurses into itself without end for left-recursive symbols such as
   `a.rec = a * 'x' | 'y'` (`C01_left_recursion_raises`). A symbol without rules makes
   `_build_parse_error` raise `IndexError` (`C01_verdicts` and the example beside it).
8. `_DAY_NAMES` contains `Saturady` (shown in notice 1108).
9. `Content-Length: 0` on a request is treated as if it were absent; the body is empty either way.
10. `headers_from_cgi` may emit the same name twice for different variables.
11. Equality of case-insensitive strings with plain strings is not transitive; `Unavailable()` is not
    equal to itself.
12. `printable` keeps line feeds. Response bodies that are read up to the end of the stream and bodies
    decoded from `gzip` and `deflate` transfer codings are not bounded by `MAX_BODY_SIZE` (C17).
13. Comparisons with absent or malformed list headers are not always false (C29).
14. `guessed_charset` with `charset=hex` or another codec that is not a text encoding raises
    `LookupError`.
15. `parse` with `fail_notice_id` but without `complain`, on text that is not ISO-8859-1, raises
    `TypeError`.
16. `int` of more than 4300 decimal digits raises `ValueError` on recent CPython (Content-Length);
    not modelled.
17. An empty inbound stream gives an exchange with notice 1006; an empty outbound stream that was never
    read gives 1008 and 1009 (C20 as stated covers it).
18. `_build_parse_error` lists `end of data` for a completed item of the target wherever it starts, so
    for a recursive target such as `comment` it may be listed although the data so far is not valid
    (`C04_end_of_data_spurious`).
19. An unnamed `recursive()` is ephemeral: used in `|` before `.rec` is set, it contributes no rules.
20. `RepeatedNonterminal` with `max_count` below one behaves as if it were one: `times(0, 0, a)` accepts
    one `a` (`C09_times_zero`).
21. A response whose `Date` plus `Age` lies beyond the year 9999 makes `_exchange_time` raise
    `OverflowError`, which nothing catches (`C35_age_raises`). Together with 4 these are the cases that
    C35 excludes; connections made by `parse_streams` are never empty (`C35_connections`).
22. The notices of an exchange itself come after those of its responses in the text report, without a
    marker of their own, so they appear under the marker of the last response that has notices.
23. A line feed in a shown value makes a notice or a marker of the text report span lines (`printable`
    keeps line feeds). C41 states what is written in general and reads it line by line only if there are
    none.
24. Exceptions other than `InputError` and `EnvironmentError` escape from the command (C40 speaks of runs
    in which there are none).
25. Two-digit years of RFC 850 dates are always taken as 19xx; RFC 7231 has a rule for years that seem to
    be more than 50 years in the future. The leap second `23:59:60` is reported as 1223 (C48; a comment in
    the code admits it).
26. `strftime('%Y')` pads years before 1000 or not, depending on the platform, so the date shown in
    notice 1108 is left open in the model.
27. `Response.from_cache` adds `Age` to `Date` without a guard, so a response whose sum lies beyond the
    year 9999 makes `check_exchange` raise `OverflowError` (C58).
28. A 451 response with a `Link` whose `rel` is malformed makes `check_exchange` raise `TypeError`: the
    value is `Unavailable`, and `in` is applied to it (C58). Capital letters are enough: `rel=Blocked-By` (C99).
29. `Link: <a>; title` (a first parameter without a value) makes `_process_params` of the `Link` grammar
    raise `UnboundLocalError`; `rel` or `anchor` without a value makes it raise `AttributeError`. The
    grammars are parameters of the model of the checks, so C58 does not cover this; C79 says exactly when it
    happens, and C98 and C99 take it into account.
30. `Content-Encoding: identity` is reported as an unknown coding (1036).
31. A 206 response without `Content-Type` counts as having full content: the comparison `!=` with an
    absent header is false (C91).
32. An empty body with a JSON type is reported as malformed JSON (1038).
33. `URL_ENCODED_GOOD_CHARS` contains the range 0x30-0x3F, so that `: ; < > ?` are let through though the
    comment speaks of what a conformant encoder emits (C91).
34. The texts of 1299 and 1300 say `inside a quoted string`, but they are also reported for commas in the
    hosts of `Via`, `Warning` and `Forwarded`, comments of `Via` and targets of `Link`.
35. `json.loads` of deeply nested data raises `RecursionError`, which is not caught; not modelled.
36. In the HTML report, a warn code such as `099` is shown as `99`; messages that share a version object
    highlight each other's version; a citation without a title would fail to render.
37. The attribute of the accessor for the header `If` would be `if`, a keyword of Python; it can only be
    reached with `getattr`.
38. `complain` is given arguments that the notice does not use: `directive` for 1159, `header` for 1261
    and 1262 (C92 speaks of missing ones only).
39. Since Python 3.8 `int` has no `__str__` of its own, so `str(StatusCode(200))` is what
    `StatusCode.__repr__` gives, `StatusCode(200)`; the same for `WarnCode`. setup.py names Python 3.4
    to 3.7. With a later version `Knowledge.dump` destroys the tables of status codes and warn codes
    (`C96_codes_repr`), and reports show the codes in this way wherever they use `str`. The models of
    reports write decimal numerals, as in the versions that setup.py names.
40. In notices.xml the citations of notices 1302 and 1303 say `section="3"` where the code reads `sect`,
    so the section is silently left out of reports (`C97_section`).
41. With `-i streams` and the like, a single file that cannot be opened keeps all exchanges of other
    connections from being shown, if they tell the time (`C105_hidden`); which of those without dates are
    shown depends on the order of arguments.
42. With `-o html`, when the run ends with an error, the document has no end (`C106_complete`): `html_report`
    writes it only after the last exchange.
