{"id": "C01", "title": "Parser acceptance equals the grammar", "statement": "parse(data, symbol) succeeds exactly when the byte string data can be derived from symbol by the rules of the grammar; it raises ParseError (or reports fail_notice_id) exactly when it cannot. This holds for every context-free grammar the combinators can build (ambiguous, recursive, with nullable and even cyclic symbols) as long as the symbol has rules and the recursion of Nonterminal.is_nullable ends, that is, unless a symbol is left-recursive before any empty alternative of it, in which case parse raises RecursionError.", "quantifier": "all grammars (finite sets of rules over octets), all start symbols, all byte strings", "why_tests_cant": "There are infinitely many inputs per symbol and dozens of grammar symbols; a missed Earley item shows up only on particular nullable/recursive combinations, so no sample of header strings settles acceptance.", "anchors": ["httpolice/parse.py:parse", "httpolice/parse.py:_inner_parse", "httpolice/parse.py:_add_item", "httpolice/parse.py:Nonterminal.is_nullable"]}
{"id": "C02", "title": "Parse result is the value of a derivation of the whole input", "statement": "When parse succeeds, the returned value, the notices passed to complain, and the annotations are exactly those obtained by evaluating the semantic actions, bottom-up and left to right, over one derivation tree of the requested symbol that spans the whole input; nothing from abandoned alternatives leaks into them.", "quantifier": "all grammars, all semantic actions, all byte strings the grammar accepts", "why_tests_cant": "Result extraction backtracks over an ambiguous chart; whether data or notices of a rejected alternative leak out depends on the exact ambiguity, of which there are unboundedly many.", "anchors": ["httpolice/parse.py:_find_results", "httpolice/parse.py:_inner_parse", "httpolice/parse.py:Rule"]}
{"id": "C03", "title": "Parsing always terminates", "statement": "parse returns or raises an exception after finitely many steps for every grammar and input, including grammars with hidden left recursion, cycles A => A and repetition of nullable symbols: both the chart construction and the search for a result terminate. The exception is ParseError, unless the symbol has no rules (IndexError) or the recursion of Nonterminal.is_nullable has no end (RecursionError).", "quantifier": "all grammars, all start symbols, all byte strings", "why_tests_cant": "Non-termination is a statement about all executions; a test only shows that the chosen inputs terminate.", "anchors": ["httpolice/parse.py:_inner_parse", "httpolice/parse.py:_find_results"]}
{"id": "C04", "title": "Parse error position is the longest viable prefix", "statement": "When parse fails, ParseError.position is at most len(data), the bytes before it could still be continued to a valid string of the symbol, the byte found there (if any) makes that impossible, the expected characters are exactly the octets that could follow, and 'end of data' is listed when the prefix before the position is itself a valid string of the symbol, and, if the symbol does not occur in its own derivations, only then.", "quantifier": "all grammars whose symbols each derive at least one string, all byte strings outside the language", "why_tests_cant": "It relates the reported position to all possible continuations, an infinite set.", "anchors": ["httpolice/parse.py:_build_parse_error", "httpolice/parse.py:ParseError"]}
{"id": "C05", "title": "Memoization of parse is unobservable", "statement": "For every history of parse calls, each call returns the same value, reports the same notices through complain (with its own extra context) and the same annotations as it would with a cold memo.", "quantifier": "all finite sequences of parse calls with arbitrary data, symbols, annotate_classes, contexts and failing inputs", "why_tests_cant": "The bug class (stale, swapped or dropped entries) depends on the call history, and eviction needs more than 500 distinct calls.", "anchors": ["httpolice/parse.py:parse", "httpolice/parse.py:_memo", "httpolice/parse.py:MEMO_LIMIT"]}
{"id": "C06", "title": "The parse memo is a bounded LRU cache", "statement": "After any history of calls the memo holds at most MEMO_LIMIT entries, no failed parse is ever kept, and what is kept is exactly the most recently used MEMO_LIMIT distinct successful keys, in order of last use.", "quantifier": "all finite sequences of parse calls", "why_tests_cant": "Requires reasoning about every call history, including those longer than the limit.", "anchors": ["httpolice/parse.py:parse", "httpolice/parse.py:_memo"]}
{"id": "C07", "title": "Annotated strings preserve the input", "statement": "With annotate_classes, the annotated list returned by parse never contains an empty chunk, contains annotated objects in the order of the input without overlaps, and replacing every annotated object by the slice of input it was parsed from and concatenating gives back exactly data.", "quantifier": "all data, all lists of annotations (start, end, object) with start <= end <= len(data)", "why_tests_cant": "Nested and adjacent annotations give unboundedly many overlap patterns.", "anchors": ["httpolice/parse.py:_splice_annotations", "httpolice/parse.py:parse"]}
{"id": "C08", "title": "string_excluding excludes exactly the given strings", "statement": "string_excluding(t, xs), for ASCII words xs whose characters are accepted by t in both cases, accepts exactly the strings of string(t) that are not case-insensitively equal to a member of xs, whatever order Python iterates over the set of initials in.", "quantifier": "all terminals t, all finite lists xs, all byte strings", "why_tests_cant": "The construction is recursive over the excluded words; the claim ranges over all words.", "anchors": ["httpolice/parse.py:string_excluding"]}
{"id": "C09", "title": "Combinators denote the expected languages", "statement": "a|b, a*b, a+b, a%b, func<<a, a>named, group(a), literal(s), maybe(a), times(m,n,a), string_times, many, many1, string, string1, skip and recursive()/.rec accept exactly the union, concatenation, case-insensitive word, optional, bounded (n at least 1; times(0,0,a) also accepts one a) and unbounded repetition of the languages of their arguments, no matter whether the arguments are inlined (ephemeral) or named, and no matter what is built before and after. Every grammar built so meets the conditions under which the parser is proved right.", "quantifier": "all symbols used as arguments, all bounds m <= n with n >= 1, all construction histories before and after, all byte strings", "why_tests_cant": "Inlining of ephemeral symbols makes the built rules depend on the shape of the arguments, so the claim must be checked for every construction history.", "anchors": ["httpolice/parse.py:Symbol", "httpolice/parse.py:Rule.concat", "httpolice/parse.py:times", "httpolice/parse.py:literal", "httpolice/parse.py:maybe", "httpolice/parse.py:RepeatedNonterminal"]}
{"id": "C10", "title": "comma_list accepts the RFC 7230 list syntax", "statement": "comma_list(e) accepts exactly [e OWS] *(',' OWS [e OWS]), and comma_list1(e) exactly *(',' OWS) e *(OWS ',' [OWS e]); each returns the list of the values of the elements that are there, in order, and reports notice 1151 exactly when the list has at least two places (one comma) and an empty one among them. Every text of the RFC 7230 #rule as amended by erratum 5257 that does not start with whitespace is accepted by comma_list, and every accepted text is one of these followed by OWS.", "quantifier": "all element symbols e that do not evaluate to nothing (_SKIP), inlined or not, in any grammar built with the combinators before and after; all byte strings", "why_tests_cant": "Lists have unbounded length and whitespace placement.", "anchors": ["httpolice/syntax/rfc7230.py:comma_list", "httpolice/syntax/rfc7230.py:comma_list1", "httpolice/syntax/rfc7230.py:_collect_elements"]}
{"id": "C11", "title": "Line reading", "statement": "Stream.readline returns exactly the bytes up to the first LF, without that LF and without one CR directly before it; notice 1224 is recorded exactly when the CR is missing; it fails (and marks the stream insane) exactly when no LF occurs within the next 16384 bytes; on success the position advances just past the LF, and eof is set exactly when nothing is left.", "quantifier": "all stream contents and positions", "why_tests_cant": "Ranges over all byte strings, including lines on either side of the 16 KiB limit and streams ending anywhere.", "anchors": ["httpolice/stream.py:Stream.readline", "httpolice/stream.py:Stream.readlineend", "httpolice/stream.py:Stream.read"]}
{"id": "C12", "title": "Stream analysis terminates and only moves forward", "statement": "parse_streams on finite streams yields finitely many exchanges and terminates; stream positions never move backwards, every parsed message consumes at least one byte, and the messages of one stream occupy disjoint, increasing ranges of it.", "quantifier": "all pairs of inbound/outbound byte streams (either possibly absent), all header interpretations", "why_tests_cant": "Termination and progress quantify over all executions.", "anchors": ["httpolice/framing1.py:parse_streams", "httpolice/framing1.py:_parse_request", "httpolice/framing1.py:_parse_responses", "httpolice/framing1.py:_parse_chunked"]}
{"id": "C13", "title": "Stream analysis never fails with an exception", "statement": "For arbitrary bytes on the inbound and outbound streams, parse_streams reports problems as notices and never lets an exception escape.", "quantifier": "all pairs of byte streams", "why_tests_cant": "Fuzzing only samples the space of byte strings; the failing inputs are rare.", "anchors": ["httpolice/framing1.py:parse_streams", "httpolice/framing1.py:_parse_chunk"]}
{"id": "C14", "title": "Well-formed requests are recovered exactly", "statement": "For a well-formed HTTP/1.x request serialized onto the inbound stream with Content-Length framing (or without a body), parse_streams yields a request with exactly that method, target, version, header entries and body, reports no framing notice, and leaves the stream right after the message.", "quantifier": "all methods, targets, versions, header lists, bodies that satisfy the HTTP/1.x syntax, any data following", "why_tests_cant": "Round-tripping must hold for every message and every following byte.", "anchors": ["httpolice/framing1.py:_parse_request_heading", "httpolice/framing1.py:_parse_request_body", "httpolice/framing1.py:_process_content_length", "httpolice/framing1.py:parse_header_fields"]}
{"id": "C15", "title": "Chunked bodies are recovered from any chunking", "statement": "For a body cut into any sequence of non-empty chunks, serialized with chunked transfer coding (any hex case and leading zeros, any chunk extensions, trailing blanks in the size line, any trailer fields), the message parsed back has exactly the original body and trailer entries and no framing notice.", "quantifier": "all bodies up to the size limit, all ways to chunk them, all extensions, all trailers, any data following", "why_tests_cant": "The number of chunkings grows exponentially with the body; extensions and trailers are unbounded.", "anchors": ["httpolice/framing1.py:_parse_chunked", "httpolice/framing1.py:_parse_chunk"]}
{"id": "C16", "title": "Pipelined exchanges are paired in order", "statement": "If the inbound stream is a concatenation of n well-formed requests and the outbound stream is, for each of them in order, any number of interim (1xx other than 101) responses followed by one final self-delimiting response, parse_streams yields exactly n exchanges, the i-th holding the i-th request and exactly its responses, and no complaint boxes.", "quantifier": "all n, all such requests and responses", "why_tests_cant": "Pairing depends on the whole history of the connection, of unbounded length.", "anchors": ["httpolice/framing1.py:parse_streams", "httpolice/framing1.py:_parse_responses"]}
{"id": "C17", "title": "Bodies respect their declared length and the size limit", "statement": "A body framed by Content-Length: n has exactly n bytes or is unavailable; a body framed by Content-Length or chunked coding never exceeds 1 GiB: a larger declared size is reported as 1298, the body is unavailable, and that stream is not read further as HTTP.", "quantifier": "all streams, all declared sizes, all chunk sequences", "why_tests_cant": "Sizes near the limit are too large to test, and the bound has to hold for any sequence of chunks.", "anchors": ["httpolice/framing1.py:_process_content_length", "httpolice/framing1.py:_parse_chunk", "httpolice/framing1.py:MAX_BODY_SIZE"]}
{"id": "C18", "title": "Response lists have the HTTP shape", "statement": "In every exchange yielded by parse_streams, all responses but the last have a 1xx status other than 101; an exchange without a request has at least one response unless it is a complaint box.", "quantifier": "all pairs of streams, all yielded exchanges", "why_tests_cant": "A claim about every prefix of every possible stream.", "anchors": ["httpolice/framing1.py:_parse_responses", "httpolice/framing1.py:parse_streams"]}
{"id": "C19", "title": "Nothing is parsed as HTTP after a protocol switch", "statement": "After a 101 response, or a 2xx response to CONNECT, parse_streams yields no further request or response from either stream; such a response has an empty body, carries notice 1011 (1012 for CONNECT), and any unread data is reported by 1007/1010.", "quantifier": "all pairs of streams", "why_tests_cant": "It constrains the whole remainder of both streams after an event anywhere in them.", "anchors": ["httpolice/framing1.py:parse_streams", "httpolice/framing1.py:_parse_response_body"]}
{"id": "C20", "title": "Leftover data is reported exactly when there is some", "statement": "parse_streams ends with a 1007 (1010) complaint box exactly when the inbound (outbound) stream was given and not read to its end, reports 1008 exactly when an inbound stream was given and responses remain once requests have run out, and reports each of these at most once.", "quantifier": "all pairs of streams", "why_tests_cant": "Depends on where every possible stream stops making sense.", "anchors": ["httpolice/framing1.py:parse_streams"]}
{"id": "C21", "title": "Header block parsing", "statement": "A block of header lines is parsed into one entry per non-continuation line, in order, with the name being the text before the first colon and the value the text after it plus one space and the content of each continuation line, with outer blanks and tabs removed; each continuation line is reported as 1016; a line without a colon makes the whole heading malformed.", "quantifier": "all header blocks, all continuation patterns", "why_tests_cant": "Unbounded numbers of lines, continuations and blanks.", "anchors": ["httpolice/framing1.py:parse_header_fields"]}
{"id": "C22", "title": "Line-level notices are attributed to the right message", "statement": "Every 1016/1224 notice produced while reading a stream ends up on the message whose heading or chunked framing contains the offending line (or is dropped when that message is malformed); none is carried over to another message or reported twice for different messages.", "quantifier": "all streams", "why_tests_cant": "Leakage happens only for particular sequences of good and bad messages.", "anchors": ["httpolice/stream.py:Stream.dump_complaints", "httpolice/framing1.py:_parse_chunked", "httpolice/framing1.py:_parse_request_heading"]}
{"id": "C23", "title": "Notices are reported once, in order", "statement": "After any sequence of complain calls on an object, its notices are the complained (notice, context) pairs in order of first report, each exactly once.", "quantifier": "all finite sequences of complain calls with arbitrary contexts", "why_tests_cant": "Ranges over all call histories.", "anchors": ["httpolice/blackboard.py:Blackboard.complain", "httpolice/blackboard.py:Blackboard.complaints"]}
{"id": "C24", "title": "Silencing removes exactly the silenced notices, at any time, recursively", "statement": "After any interleaving of complain and silence calls on an exchange and its messages, the notices visible on an object are exactly those complained on it whose ID was never silenced on it or on an exchange containing it (at a time it contained it); the order of complain and silence calls does not matter, and silencing never affects other notices. This is for re-iterable ID collections.", "quantifier": "all exchanges, all interleavings of complain/silence calls", "why_tests_cant": "The number of interleavings is unbounded.", "anchors": ["httpolice/blackboard.py:Blackboard.silence", "httpolice/exchange.py:Exchange.children"]}
{"id": "C25", "title": "Silencing accepts any iterable of IDs", "statement": "Exchange.silence(ids), for any iterable ids (the documented type), silences those IDs on the exchange, its request and all of its responses.", "quantifier": "all iterables, all exchanges", "why_tests_cant": "The iterable may be one-shot; tests pass lists.", "anchors": ["httpolice/blackboard.py:Blackboard.silence"]}
{"id": "C26", "title": "Headers that may appear once", "statement": "For a header with the 'single' rule the value is that of the last usable entry; notice 1013 is reported exactly when there is more than one usable entry; with no entry the value is None.", "quantifier": "all entry lists (header and trailer), all parsers", "why_tests_cant": "Unbounded lists of entries in any arrangement.", "anchors": ["httpolice/header.py:SingleHeaderView", "httpolice/header.py:HeaderView._pre_parse"]}
{"id": "C27", "title": "List headers spread over several entries", "statement": "For a header with the 'multi' rule, splitting a list over several entries gives the same value as one entry holding the concatenated list, malformed entries count as one unavailable element each, and a singular value (such as '*') combined with anything else is reported as 1013 and makes the value unavailable.", "quantifier": "all entry lists, all parsers returning lists, singular values or failures", "why_tests_cant": "Unbounded numbers of entries and ways of splitting a list.", "anchors": ["httpolice/header.py:MultiHeaderView"]}
{"id": "C28", "title": "Trailer fields forbidden in trailers are ignored", "statement": "A trailer entry whose name must not be sent in trailers never contributes to any header value, and is reported as 1026 exactly when the header is looked at; for other names trailer entries follow header entries in order.", "quantifier": "all messages with headers and trailers, all names", "why_tests_cant": "Ranges over all entry lists and all names.", "anchors": ["httpolice/header.py:HeaderView._pre_parse", "httpolice/header.py:HeadersView.enumerate"]}
{"id": "C29", "title": "Comparisons with absent or malformed headers are false", "statement": "Every comparison (<, <=, ==, !=, >=, >) between a header and a value is False when the header is absent or malformed or the value is unavailable, and otherwise equals the comparison of the parsed values.", "quantifier": "all header values, all operands, all operators", "why_tests_cant": "Ranges over all values and operators.", "anchors": ["httpolice/header.py:HeaderView._compare"]}
{"id": "C30", "title": "Case-insensitive strings form an equivalence with consistent hashing", "statement": "Equality of protocol strings that ignore case is reflexive, symmetric and transitive, equal strings have equal hashes, so lookups in dictionaries and sets cannot distinguish spellings; header lookup by name sees exactly the entries equal up to case.", "quantifier": "all pairs and triples of strings", "why_tests_cant": "Ranges over all strings.", "anchors": ["httpolice/structure.py:CaseInsensitive", "httpolice/header.py:HeadersView.enumerate"]}
{"id": "C31", "title": "MultiDict refines a list of pairs", "statement": "MultiDict(seq) answers d[k] with the first value for k (KeyError if none), getall(k) with all values in order, k in d, iteration over distinct keys in order of first appearance, len(d) = number of pairs, duplicates() = the keys that occur more than once, index(k) = position of the first k.", "quantifier": "all sequences of pairs, all keys", "why_tests_cant": "Ranges over all sequences.", "anchors": ["httpolice/structure.py:MultiDict"]}
{"id": "C32", "title": "Entity tag comparison follows RFC 7232", "statement": "strong_equiv holds exactly when both tags are strong and the opaque parts agree; weak_equiv is an equivalence relation; strong equivalence implies weak; strong equivalence is symmetric and transitive and is reflexive exactly on strong tags.", "quantifier": "all entity tags", "why_tests_cant": "Ranges over all tags.", "anchors": ["httpolice/structure.py:EntityTag"]}
{"id": "C33", "title": "Pseudo-headers are partitioned off", "statement": "pop_pseudo_headers(entries) leaves in entries exactly the entries whose name does not start with a colon, in the original order, and returns a mapping from each removed name to its last value.", "quantifier": "all lists of name/value pairs", "why_tests_cant": "In-place deletion during iteration is position dependent; all lists must be considered.", "anchors": ["httpolice/helpers.py:pop_pseudo_headers"]}
{"id": "C34", "title": "CGI variables become headers without loss", "statement": "headers_from_cgi yields exactly one entry per HTTP_* variable plus one for each non-empty CONTENT_LENGTH and CONTENT_TYPE, Host first when non-empty, no other variable contributes, and the header name is the variable name (prefix dropped) with underscores turned into dashes and each part capitalized.", "quantifier": "all CGI environments", "why_tests_cant": "Ranges over all environments and all orders of their variables.", "anchors": ["httpolice/helpers.py:headers_from_cgi", "httpolice/helpers.py:_header_name_from_cgi"]}
{"id": "C35", "title": "Interleaving connections loses and reorders nothing", "statement": "When exchanges from several connections are interleaved by time, every exchange of every connection is output exactly once and exchanges of the same connection keep their order, provided that every connection has an exchange (which is so for those that parse_streams makes) and Date plus Age of every response is a date before the year 10000; an empty connection or a later date raises an exception.", "quantifier": "all numbers of connections, all sequences of exchanges, all time stamps and hints, present or missing", "why_tests_cant": "Every interleaving of an unbounded number of sequences must be considered.", "anchors": ["httpolice/inputs/streams.py:_rearrange_by_time", "httpolice/inputs/streams.py:_exchange_time"]}
{"id": "C36", "title": "Interleaving follows time", "statement": "If within every connection the exchange times do not decrease and no connection starts before its hint, the output is sorted by time.", "quantifier": "all sets of connections with monotone times", "why_tests_cant": "As above: unbounded interleavings.", "anchors": ["httpolice/inputs/streams.py:_rearrange_by_time"]}
{"id": "C37", "title": "Captured streams are paired up exactly", "statement": "Recombining captured one-directional streams puts every stream into exactly one pair, pairs two streams exactly when they belong to the same connection in opposite directions, and gives the pair the earliest known time; streams are dropped only if two of them have the same connection, source and destination.", "quantifier": "all lists of stream descriptions, in any order", "why_tests_cant": "Ranges over all listings; directory order is arbitrary.", "anchors": ["httpolice/inputs/streams.py:_recombine_streams"]}
{"id": "C38", "title": "Combined files split at the first markers", "statement": "parse_combined splits a file into preamble, inbound and outbound data such that preamble + inbound marker + inbound + outbound marker + outbound is the file again, with each marker at its first occurrence; it fails exactly when a marker is missing (or the preamble is not UTF-8), and the scheme is https exactly for files named *.https.", "quantifier": "all files", "why_tests_cant": "Ranges over all byte strings, including ones with markers overlapping or repeated.", "anchors": ["httpolice/inputs/streams.py:parse_combined"]}
{"id": "C39", "title": "Direction sniffing", "statement": "For a captured pair of streams, the stream taken as outbound is one that starts with an HTTP/1.x status line if there is one, else the other one is taken as inbound if it starts with a request line; sniffing does not depend on the order of the two streams unless both look alike; only if neither looks like HTTP is 1279 reported, and then neither is parsed.", "quantifier": "all pairs of streams, each possibly missing", "why_tests_cant": "Ranges over all pairs of byte strings.", "anchors": ["httpolice/inputs/streams.py:_sniff_direction", "httpolice/inputs/streams.py:_path_pairs_input"]}
{"id": "C40", "title": "Exit status reflects the reported notices", "statement": "The command exits with status 1 exactly when the input is unreadable or malformed, or --fail-on S was given and some notice of severity S or higher was reported and not silenced; otherwise 0 (unless an exception of another kind escapes).", "quantifier": "all runs: all lists of exchanges, notices, silenced IDs and thresholds", "why_tests_cant": "Ranges over all runs.", "anchors": ["httpolice/cli.py:run_cli"]}
{"id": "C41", "title": "Text report shows exactly the visible notices", "statement": "The text report contains one line per visible notice, in order, with those of a message under its marker (those of the exchange itself come last); exchanges and messages without notices leave no trace; markers are at most 79 (60 for responses) characters long. (Where a shown value contains a line feed, lines are broken there.)", "quantifier": "all lists of exchanges", "why_tests_cant": "Ranges over all lists of exchanges and notices.", "anchors": ["httpolice/reports/text.py:text_report", "httpolice/util/text.py:WriteIfAny", "httpolice/util/text.py:ellipsize"]}
{"id": "C42", "title": "Report text is clean", "statement": "printable removes every control, surrogate and noncharacter code point it promises to and changes nothing else (same length, idempotent); ellipsize never exceeds its limit (limit >= 3), keeps short strings and otherwise keeps a prefix; detypographize leaves none of the typographic characters it replaces and is idempotent.", "quantifier": "all strings, all limits", "why_tests_cant": "Ranges over all strings.", "anchors": ["httpolice/util/text.py:printable", "httpolice/util/text.py:ellipsize", "httpolice/util/text.py:detypographize"]}
{"id": "C43", "title": "Character lists in error messages are faithful", "statement": "format_chars describes exactly the given set of octets: the letters, digits, named, visible and other groups together with the printed ranges cover every given octet and no other.", "quantifier": "all sorted lists of octets", "why_tests_cant": "2^256 sets of octets.", "anchors": ["httpolice/util/text.py:format_chars", "httpolice/util/text.py:_char_ranges"]}
{"id": "C44", "title": "Duplicates are found exactly", "statement": "duplicates(xs) lists, once each and in order of first appearance, exactly the values occurring more than once in xs.", "quantifier": "all finite sequences", "why_tests_cant": "Ranges over all sequences.", "anchors": ["httpolice/util/data.py:duplicates"]}
{"id": "C45", "title": "Extra final responses are flagged", "statement": "Unless check_exchange raises (C58), it reports 1304 exactly on the responses that follow a non-1xx response; the notice refers to the first non-1xx response.", "quantifier": "all lists of responses", "why_tests_cant": "Ranges over all lists of statuses.", "anchors": ["httpolice/response.py:check_responses"]}
{"id": "C46", "title": "100-continue before 101", "statement": "Unless check_exchange raises (C58), 1305 is reported on exactly the 101 responses of an exchange whose request expects 100-continue (the last Expect entry, in any case) that are not preceded by a 100 response.", "quantifier": "all exchanges", "why_tests_cant": "Ranges over all lists of statuses.", "anchors": ["httpolice/exchange.py:check_exchange"]}
{"id": "C47", "title": "Content codings are undone in reverse order", "statement": "decoded_body is the body with the listed content codings undone from last to first, stopping at the first coding that is unknown or fails, in which case it is unavailable (an empty body is left as it is); each failing coding is reported (1037 for failure, 1036 for unknown), and encoding with any list of codings followed by decoding gives the original body.", "quantifier": "all bodies, all coding lists, all codecs", "why_tests_cant": "Ranges over all bodies and lists of codings.", "anchors": ["httpolice/message.py:decoded_body"]}
{"id": "C48", "title": "Dates are read exactly", "statement": "The HTTP-date parser accepts exactly the three RFC 7231 formats (two-digit years being 19xx), with any digits; what is written determines format and fields; it yields the instant, the same one in each format, if such a day and time exist and Unavailable otherwise; it reports 1222 exactly when there is no such day, 1223 when there is no such time, 1107 when the format is obsolete and 1108 when the day and time exist and the weekday is wrong; printing a date in IMF-fixdate format and parsing it back is the identity, without complaints.", "quantifier": "all dates representable", "why_tests_cant": "Too many dates to enumerate in tests, including leap years and centuries.", "anchors": ["httpolice/syntax/rfc7231.py:HTTP_date"]}
{"id": "C49", "title": "Header name lookup never hits an internal assertion", "statement": "For every header name, known or not, looking up headers[name] finds a rule consistent with the view class chosen for it (no AssertionError), and different spellings of a name give the same view.", "quantifier": "all header names", "why_tests_cant": "Unknown names are unbounded; the table has over 200 rows.", "anchors": ["httpolice/header.py:HeadersView.__getitem__", "httpolice/known/header.csv"]}
{"id": "C50", "title": "Derived properties are computed once", "statement": "In any history of reads and assignments of derived properties (decoded_body, json_data, ...) in which no getter ends up reading itself, every getter is started at most once per message, every later read returns the same value, and a value assigned explicitly takes precedence over computation, before or after the first access.", "quantifier": "all histories of reads and assignments", "why_tests_cant": "Ranges over all access histories.", "anchors": ["httpolice/blackboard.py:derived_property"]}
{"id": "C51", "title": "Local silencing through HTTPolice-Silence", "statement": "The notices visible on a message after a check are those reported on it that are not silenced by headers: on a request, the IDs that its own HTTPolice-Silence headers list without 'resp'; on a response, all IDs that its own HTTPolice-Silence headers list and the IDs that the request's list with 'resp'. A response cannot silence anything on its request.", "quantifier": "all exchanges, all lists of IDs and markers", "why_tests_cant": "Ranges over all header values and message lists.", "anchors": ["httpolice/message.py:check_message", "httpolice/request.py:check_request", "httpolice/response.py:check_response_in_context"]}
{"id": "C52", "title": "Header enumeration and names", "statement": "headers.names lists every distinct header or trailer name once, in order of first appearance (headers before trailers); headers.enumerate(name) lists exactly the entries of that name with their origin and index.", "quantifier": "all messages", "why_tests_cant": "Ranges over all entry lists.", "anchors": ["httpolice/header.py:HeadersView.names", "httpolice/header.py:HeadersView.enumerate"]}
{"id": "C53", "title": "Directive lookup", "statement": "For directive headers (Cache-Control, Strict-Transport-Security, Prefer, ...) headers.x[d] is True if the first occurrence of d has no argument, its parsed argument otherwise, None if d does not occur; missing required arguments are reported as 1156, forbidden ones as 1157, malformed ones as 1158, and exactly those.", "quantifier": "all directive lists, all knowledge tables", "why_tests_cant": "Ranges over all lists and tables.", "anchors": ["httpolice/header.py:DirectivesView", "httpolice/header.py:ArgumentsView._process_pair"]}
{"id": "C54", "title": "Checks without a request", "statement": "Checking responses whose request is unknown raises exactly if checking them with any request does. Whatever it reports on a response is also reported when the request is known. Notices outside of a fixed list of IDs are reported alike in both cases, and those in the list (except 1046, which has a cause within the response too) are never reported when the request is unknown.", "quantifier": "all response lists, all requests", "why_tests_cant": "Ranges over all messages.", "anchors": ["httpolice/response.py:check_responses", "httpolice/response.py:check_response_in_context"]}
{"id": "C55", "title": "Byte ranges", "statement": "Range is parsed exactly if it is `bytes=` and a comma-separated list of first-last, first- or -length, or another unit with its ranges, and is understood as written, whatever the case of the unit, leading zeros, whitespace and empty elements; what is written is determined by the text. 1133 is reported exactly once for every byte-range-spec with first > last, 1151 once if there are empty elements, and nothing else. Content-Range is likewise parsed exactly if well-formed and understood as written; 1148 is reported, once, exactly if the bounds are reversed or do not fit the complete length, and nothing else. Accept-Ranges is parsed exactly if it is `none` or a list of units.", "quantifier": "all field values, of any length; any iteration order of sets; any grammar built before and after", "why_tests_cant": "Numbers of any length, lists of any length, and every text that is not a range.", "anchors": ["httpolice/syntax/rfc7233.py:_well_formed1", "httpolice/syntax/rfc7233.py:_well_formed2", "httpolice/syntax/rfc7233.py:Range", "httpolice/syntax/rfc7233.py:Content_Range", "httpolice/syntax/rfc7233.py:Accept_Ranges"]}
{"id": "C56", "title": "Joining for humans", "statement": "nicely_join never loses or reorders an item: one item stands alone, two are joined by ' and ', more by commas with ', and ' before the last.", "quantifier": "all lists of strings", "why_tests_cant": "Ranges over all lists.", "anchors": ["httpolice/util/text.py:nicely_join"]}
{"id": "C57", "title": "Values of grammar expressions do not depend on how they are compiled to rules", "statement": "For any expression over the combinators (|, *, +, %, <<, skip, maybe, many, many1, times, string*, group, literals) the value that a derivation from the resulting symbol evaluates to, and its complaints, are those given by recursion on the expression: sequences pass on the values of their parts as arguments, skipped parts vanish, functions are called once with the arguments of their operand, repetitions yield the list of the values in order, string* yields the very text. Inlining of unnamed symbols, merging of terminals, composition of actions and the loop for repetitions do not show. Naming a symbol or defining a recursive one does not change values. For a module of definitions, in which each name is defined by an expression over earlier names (comma_list and string_excluding included), any assignment of meanings to names that agrees with all definitions is what parse returns for each name.", "quantifier": "all expressions, all functions used with <<, all grammars built before and after, all byte strings", "why_tests_cant": "Expressions nest arbitrarily and the inlining rules interact with each other.", "anchors": ["httpolice/parse.py:Symbol", "httpolice/parse.py:Rule.concat", "httpolice/parse.py:Rule.wrap", "httpolice/parse.py:RepeatedNonterminal", "httpolice/parse.py:times", "httpolice/parse.py:named"]}
{"id": "C58", "title": "Exceptions from checking an exchange", "statement": "check_exchange raises exactly if some response other than 103 has a Date and an Age whose sum lies beyond the year 9999, or some 451 response has a Link with a malformed rel before any link with blocked-by; in particular nothing in a request makes the checks raise (grammars, codecs and urllib taken as not raising; the grammar for Link does raise, see C79).", "quantifier": "all exchanges, all parsers of header values", "why_tests_cant": "The absence of exceptions ranges over all combinations of all headers of all messages.", "anchors": ["httpolice/exchange.py:check_exchange", "httpolice/request.py:check_request", "httpolice/response.py:check_responses", "httpolice/response.py:Response.from_cache"]}
{"id": "C59", "title": "Missing headers", "statement": "A notice about a missing header is reported on exactly those messages where the header is required and missing, whatever else is in the exchange (unless an exception is raised, and unless a value has the same complaint of its own). 1048: 101 (Switching Protocols) without `Upgrade`; 1078: a 301 redirect without `Location`; 1079: a 302 redirect without `Location`; 1080: a 303 redirect without `Location`; 1084: a 307 redirect without `Location`; 1205: a 308 redirect without `Location`; 1089: 405 (Method Not Allowed) without `Allow`; 1094: 408 (Request Timeout) without `Connection: close`; 1110: 2xx, 3xx or 4xx without `Date`; 1194: 401 (Unauthorized) without `WWW-Authenticate`; 1195: 407 (Proxy Authentication Required) without `Proxy-Authenticate`; 1138: 206 (Partial Content) with a single part and no `Content-Range`; 1073: 201 (Created) in response to POST without `Location`; 1150: 416 (Range Not Satisfiable) in response to a request for bytes, without `Content-Range`; 1215: 415 (Unsupported Media Type) in response to PATCH without `Accept-Patch`; 1216: a response to OPTIONS that allows PATCH but has no `Accept-Patch`; 1031: an HTTP/1.1 request without `Host`; 1021: an HTTP/1.x request with a method that gives meaning to a body, without `Content-Length` and `Transfer-Encoding`; 1070: a request without `User-Agent`; 1134: `If-Range` without `Range`; 1231: an upgrade to `h2c` without `HTTP2-Settings`.", "quantifier": "all exchanges, all parsers of header values, all positions of a response", "why_tests_cant": "Absence is decided over all entries with names in any case, in headers and trailers, next to all other headers.", "anchors": ["httpolice/request.py:check_request", "httpolice/response.py:check_response_itself", "httpolice/response.py:check_response_in_context"]}
{"id": "C60", "title": "Bodies where there should be none", "statement": "A notice about a misplaced body is reported on exactly those messages that have one (unless an exception is raised, and unless a value has the same complaint of its own). 1240: 204 (No Content) with a body; 1076: 205 (Reset Content) with a body; 1239: a response to HEAD with a body; 1056: a GET request with a body; 1057: a HEAD request with a body; 1059: a DELETE request with a body; 1061: a CONNECT request with a body; 1062: an OPTIONS request with a body of unknown type; 1022: `Content-Length` without a body, for a method that gives no meaning to a body; 1098: 413 (Payload Too Large) in response to a request without a body; 1099: 415 (Unsupported Media Type) in response to a request without a body and without `Content-Type`.", "quantifier": "all exchanges, all parsers of header values, all positions of a response", "why_tests_cant": "Ranges over all bodies and methods.", "anchors": ["httpolice/request.py:check_request", "httpolice/response.py:check_response_itself", "httpolice/response.py:check_response_in_context"]}
{"id": "C61", "title": "Headers that make no sense in a message", "statement": "A notice about a misplaced header is reported on exactly those messages that have a header where it makes no sense (unless an exception is raised, and unless a value has the same complaint of its own). 1063: a request with a header that is for responses; 1064: a response with a header that is for requests; 1018: `Transfer-Encoding` in 1xx or 204; 1023: `Content-Length` in 1xx or 204; 1198: `Connection: close` in 1xx; 1052: headers that describe a body in 1xx; 1112: `Location` in a response that is neither a redirect nor 201; 1113: `Retry-After` in a response that is neither a redirect nor 413, 429, 503; 1147: `Content-Range` in a response other than 206 and 416; 1127: 304 (Not Modified) with headers that describe a body, other than the validators; 1019: `Transfer-Encoding` in a successful response to CONNECT; 1024: `Content-Length` in a successful response to CONNECT; 1199: `Connection: close` in a successful response to CONNECT; 1306: `Transfer-Encoding` in response to an HTTP/1.0 request; 1246: 101 (Switching Protocols) in HTTP/2; 1258: `Alt-Svc` in HTTP/2; 1260: `Alt-Svc` in 421 (Misdirected Request); 1221: `Strict-Transport-Security` without TLS; 1066: `Expect: 100-continue` without a body; 1053: headers that describe a body in a request without a body; 1067: `Max-Forwards` with a method other than OPTIONS and TRACE; 1132: `Range` with a method other than GET; 1122: `If-Modified-Since` with an inappropriate method; 1130: preconditions in CONNECT, OPTIONS, TRACE; 1131: preconditions in HEAD.", "quantifier": "all exchanges, all parsers of header values, all positions of a response", "why_tests_cant": "The sets of headers come from tables with hundreds of rows.", "anchors": ["httpolice/request.py:check_request", "httpolice/response.py:check_response_itself", "httpolice/response.py:check_response_in_context"]}
{"id": "C62", "title": "Responses that contradict their request", "statement": "A notice about a response that contradicts its request is reported on exactly those responses (unless an exception is raised, and unless a value has the same complaint of its own). 1072: 201 in response to a safe method; 1074: 202 in response to a safe method; 1095: 409 in response to a safe method; 1058: success in response to PUT with `Content-Range`; 1071: 1xx other than 101 in response to an HTTP/1.0 request; 1051: 101 (Switching Protocols) in response to an HTTP/1.0 request; 1049: switching to a protocol that the client did not offer; 1100: 417 (Expectation Failed) in response to a request without `Expect`; 1097: 411 (Length Required) in response to a request with `Content-Length`; 1090: 406 (Not Acceptable) in response to a request without preferences; 1114: 405 (Method Not Allowed) that allows the method; 1115: success with `Allow` that does not allow the method; 1124: 304 (Not Modified) in response to a method other than GET and HEAD; 1125: 304 or 412 in response to a request without preconditions; 1136: 206 (Partial Content) in response to a request without `Range`; 1137: 206 (Partial Content) in response to a method other than GET; 1149: 416 (Range Not Satisfiable) in response to a request without `Range`; 1200: 428 (Precondition Required) in response to a request with preconditions; 1105: 505 (HTTP Version Not Supported) in the version of the request.", "quantifier": "all exchanges, all parsers of header values, all positions of a response", "why_tests_cant": "Ranges over pairs of a request and any of its responses.", "anchors": ["httpolice/request.py:check_request", "httpolice/response.py:check_response_itself", "httpolice/response.py:check_response_in_context"]}
{"id": "C63", "title": "Directives to caches", "statement": "A notice about directives to caches is reported on exactly the messages with those directives (unless an exception is raised, and unless a value has the same complaint of its own). 1161: `Cache-Control: no-cache` without `Pragma: no-cache`; 1162: `Pragma: no-cache` in a response; 1301: `immutable` without an expiration time; 1283: 421 (Misdirected Request) that may be cached.", "quantifier": "all exchanges, all parsers of header values, all positions of a response", "why_tests_cant": "Directives are looked up by name in all entries of Cache-Control.", "anchors": ["httpolice/request.py:check_request", "httpolice/response.py:check_response_itself", "httpolice/response.py:check_response_in_context"]}
{"id": "C64", "title": "Notices common to requests and responses", "statement": "A notice that may concern any message is reported on exactly the messages with what it complains about, in the request and in any response alike (unless an exception is raised, and unless a value has the same complaint of its own); those about upgrades, proxies and HTTP/2 are not reported on 103 (Early Hints). 1020: both `Transfer-Encoding` and `Content-Length`; 1030: a trailer that is not announced in `Trailer`; 1034: a connection option that is the name of a header for all recipients; 1035: a deprecated media type; 1042: a repeated parameter of the media type; 1280: JSON with the parameter `charset`; 1054: `Trailer` in an HTTP/1.1 message without chunked coding; 1109: `Date` in the future (by more than 10 seconds); 1163: a warning code that is neither 1xx nor 2xx; 1164: a warning with a date other than that of the message; 1160: an unknown pragma; 1228: an upgrade to `h2`, which is only for TLS; 1293: a header name that is not a token; 1197: a deprecated header; 1277: an unknown header with the prefix `X-`; 1050: `Upgrade` without `Connection: upgrade`; 1191: transformed by a proxy, but without the warning; 1192: transformed by a proxy in spite of `no-transform`; 1245: `Upgrade` in HTTP/2; 1244: a header for the connection in HTTP/2, In a request, also `TE` other than a single `trailers`; 1233: an upgrade to `h2c`, which is not for TLS, over TLS; 1189: a proxy says that it transformed the message, by a warning; 1190: 203 (Non-Authoritative Information).", "quantifier": "all exchanges, all parsers of header values, all positions of a response", "why_tests_cant": "Each condition combines entries of several headers in headers and trailers; the message may be a request or any of the responses.", "anchors": ["httpolice/message.py:check_message", "httpolice/request.py:check_request", "httpolice/response.py:check_response_itself"]}
{"id": "C65", "title": "Exactly when notices about connections and proxies are reported", "statement": "For every exchange whose checking does not raise an exception, and for notices that do not come from outside of the checks, HTTPolice reports: 1025: a body that ends only with the connection; 1047: such a body in HTTP/1.1, without `Connection: close`; 1046: without `Via`, though a proxy transformed it, or though it is a successful answer to a request that was sent to a proxy; 1237: transformed by a proxy, though the request was not sent to a proxy; 1236: an answered request that was sent to a proxy.", "quantifier": "all exchanges, all parsers of header values, all positions of a response", "why_tests_cant": "Each condition combines the request, the response, and how a request target or URI reference is read. Tests show single exchanges, not that a notice appears if and only if its condition holds for every possible exchange.", "anchors": ["httpolice/response.py:check_response_itself", "httpolice/response.py:check_response_in_context", "httpolice/request.py:is_to_proxy"]}
{"id": "C66", "title": "Exactly when notices about statuses, redirects and empty bodies are reported", "statement": "For every exchange whose checking does not raise an exception, and for notices that do not come from outside of the checks, HTTPolice reports: 1294: a malformed reason phrase; 1167: a status outside 100 to 599; 1082: 305 (Use Proxy); 1083: 306 (unused); 1088: 402 (Payment Required); 1111: 201 (Created) with a fragment in `Location`; 1118: `Last-Modified` later than `Date`; 1143: `Content-Range` outside the parts of 206 (Partial Content) in several parts; 1141: a part without `Content-Range` in such a response; 1142: a part without `Content-Type` in such a response; 1243: 451 (Unavailable For Legal Reasons) without a link to who blocks it; 1041: a body of unknown type; a part of something asked for by `If-Range` may omit the type; 1041: on a request, a body of unknown type; 1055: `Content-Location` that is the effective URI of GET or HEAD itself; 1060: `Content-Location` that is what DELETE was sent to; 1085: a redirect to the same URI; POST may be redirected so by 301, 302 and 303; 1086: a redirect of `OPTIONS *`; 1284: 202 (Accepted) with an empty body, other than for HEAD; 1077: 300 (Multiple Choices) with an empty body, other than for HEAD; 1081: 303 (See Other) with an empty body, other than for HEAD; 1092: 406 (Not Acceptable) with an empty body, other than for HEAD; 1096: 409 (Conflict) with an empty body, other than for HEAD; 1201: 428 (Precondition Required) with an empty body, other than for HEAD; 1203: 429 (Too Many Requests) with an empty body, other than for HEAD; 1242: 451 (Unavailable For Legal Reasons) with an empty body, other than for HEAD; 1087: 4xx, but for those with a notice of their own, with an empty body, other than for HEAD; 1106: 505 (HTTP Version Not Supported) with an empty body, other than for HEAD; 1204: 511 (Network Authentication Required) with an empty body, other than for HEAD; 1104: 5xx, but for those with a notice of their own, with an empty body, other than for HEAD.", "quantifier": "all exchanges, all parsers of header values, all positions of a response", "why_tests_cant": "Each condition combines the request, the response, and how a request target or URI reference is read. Tests show single exchanges, not that a notice appears if and only if its condition holds for every possible exchange.", "anchors": ["httpolice/response.py:check_response_itself", "httpolice/response.py:check_response_in_context", "httpolice/request.py:effective_uri"]}
{"id": "C67", "title": "Exactly when notices about responses from caches are reported", "statement": "For every exchange whose checking does not raise an exception, and for notices that do not come from outside of the checks, HTTPolice reports: 1241: date and age of a response add up to a time in the future; 1168: a response from a cache, going by `Age`; 1169: a response from a cache, going by a warning; 1183: a stale response, going by a warning; 1184: a stale response without such a warning, going by its age limit; 1185: a stale response without such a warning or an age limit, going by its expiration time; 1166: a response from a cache without `Age`; 1175: a response from a cache in spite of its `no-cache`; 1176: a response from a cache in spite of its `no-store`; 1202: a response from a cache with a status that must not be stored; 1177: a response from a cache with a status that is not stored by default, without `Expires` and `Cache-Control`; 1179: a response from a cache that made up its expiration time, going by a warning; 1178: a response from a cache that made up its expiration time, going by the lack of `Expires` and `Cache-Control`; 1180: such a response that is older than a day, without a warning; 1181: such a response with `Expires`; 1182: such a response with an age limit and without `Expires`; 1186: a stale response without the warning for that; 1187: a stale response in spite of its `must-revalidate`; 1302: `immutable` without TLS; 1303: `immutable` on a response that ends only with the connection; 1172: a response from a cache to a request with a method that is not cacheable; 1170: a response from a cache that is older than the request allows; 1173: a response from a cache in spite of `no-cache` in the request; 1174: a response from a cache in spite of `Pragma: no-cache` in the request, which has no `Cache-Control`; 1188: a stale response that is not permitted by a directive or explained by a warning.", "quantifier": "all exchanges, all parsers of header values, all positions of a response", "why_tests_cant": "Whether a response is from a cache, stale, or was given an expiration time by the cache depends on ages, dates, warnings and directives in any number of entries, which notices about it then combine; tests only try a few combinations.", "anchors": ["httpolice/response.py", "httpolice/known/cache_directive.csv", "httpolice/known/status_code.csv"]}
{"id": "C68", "title": "Exactly when notices about cache directives, conditional requests and ranges are reported", "statement": "For every exchange whose checking does not raise an exception, and for notices that do not come from outside of the checks, HTTPolice reports: 1152: a directive in a request that is not for requests; 1153: a directive in a response that is not for responses; 1159: `no-cache` with an argument in a request; 1165: a warning about freshness in a request; 1171: a directive in a request with a method for which there is no caching; 1193: directives in a request that contradict each other; 1193: directives in a response that contradict each other; 1238: a directive in a response that has no effect because of another one; 1117: 406 (Not Acceptable) in response to a request that prefers languages and nothing else; 1120: a weak entity tag in `If-Match`; 1121: a successful response with an entity tag that the request rules out; 1123: a successful response without a well-formed entity tag, though it was not modified since the date in the request; 1128: 412 (Precondition Failed) because of `If-Modified-Since`, which applies only to GET and HEAD; 1129: 412 (Precondition Failed) in response to a method for which preconditions of RFC 7232 make no sense; 1135: a weak entity tag in `If-Range`; 1144: several ranges in response to a request for a single one; 1145: 206 (Partial Content) with an entity tag other than the one the request insists on; 1146: 206 (Partial Content) with headers that the request must already have, going by `If-Range`.", "quantifier": "all exchanges, all parsers of header values, all positions of a response", "why_tests_cant": "The conditions range over directives, entity tags and dates of two messages at once, and over every set of headers that a precondition may be in; tests only try a few combinations.", "anchors": ["httpolice/request.py", "httpolice/response.py", "httpolice/known/cache_directive.csv"]}
{"id": "C69", "title": "Exactly when notices about authentication are reported", "statement": "For every exchange whose checking does not raise an exception, and for notices that do not come from outside of the checks, HTTPolice reports: 1209: `Basic` credentials that are parameters; 1210: `Basic` credentials that are not in base 64; 1211: `Basic` credentials without a colon; 1212: `Basic` credentials with a control character; 1261: `Bearer` credentials without TLS; 1262: `Bearer` credentials that are parameters; 1274: credentials of another scheme that are empty; 1270: an access token in the query; 1271: an access token in the query or in a form, without TLS; 1272: an access token in the query of a request without `no-store`; 1273: a `Basic` challenge that is not parameters; 1206: a `Basic` challenge without a realm; 1208: a `Basic` challenge with a charset other than UTF-8; 1207: a `Basic` challenge with parameters other than the realm and charset; 1263: a `Bearer` challenge without TLS; 1264: a `Bearer` challenge without parameters; 1265: a `Bearer` challenge in which a parameter occurs twice; 1266: a `Bearer` challenge with a malformed parameter; 1267: a `Bearer` challenge without an error code, in a 401 (Unauthorized) response to a request with a token; 1268: a `Bearer` challenge with an error code that does not go with the status; 1269: a `Bearer` challenge with an error, though the request has no token.", "quantifier": "all exchanges, all parsers of header values, all positions of a response", "why_tests_cant": "Credentials and challenges are in any of several headers with any number of parameters, and what is right in a challenge depends on where the request has its token; tests only try a few combinations.", "anchors": ["httpolice/request.py", "httpolice/response.py"]}
{"id": "C70", "title": "Notices about particular headers are reported exactly when they apply", "statement": "For every exchange whose checking does not raise an exception, and for notices that do not come from outside of the checks, HTTPolice reports: 1247: two parameters of the same name in `Content-Disposition`; 1248: percent-encoding in the `filename` of `Content-Disposition`; 1249: a quote or backslash in the `filename` of `Content-Disposition`; 1250: a character that is not ASCII in the `filename` of `Content-Disposition`; 1251: `filename*` in `Content-Disposition` without `filename`; 1252: `filename*` in `Content-Disposition` before `filename`; 1218: `Strict-Transport-Security` without `max-age`; 1219: `Strict-Transport-Security` with `max-age=0` and `includeSubDomains`; 1220: two directives of the same name in `Strict-Transport-Security`; 1227: a media type in `Accept-Patch` that is known not to be a patch; 1235: `Host` in `Vary`; 1213: PATCH with a media type that is known not to be a patch; 1214: PATCH that succeeded with a media type that is known not to be a patch; 1217: `Accept-Patch` in a response that does not allow PATCH; 1310: `Accept-Post` in a response that does not allow POST; 1276: a wildcard with the same weight as something it covers, in one of the headers that say which representations are preferred; 1068: `Referer` with the scheme `https` in a request that is not over TLS; 1093: `User-Agent` that only has products known to be libraries; 1116: `x-gzip` or `x-compress` with a weight in `Accept-Encoding`; 1292: a method that is not a token; 1295: a method that is known in upper case only; 1045: a target that does not have a form that goes with the method; 1028: `chunked` in `TE`; 1029: `TE` in an HTTP/1.1 request without the connection option `TE`; 1032: `Host` that is not the first header; 1033: a response that does not reject an HTTP/1.1 request in which `Host` is missing, malformed or given more than once.", "quantifier": "all exchanges, all parsers of header values, all positions of a response", "why_tests_cant": "Each condition combines several headers, parameters at any position and the status or method; tests try a few header values with the checks that were in mind, and cannot show the absence of false reports for all others.", "anchors": ["httpolice/request.py:201-405", "httpolice/response.py:301-490", "httpolice/response.py:502-774", "httpolice/util/text.py:192-232"]}
{"id": "C71", "title": "Notices about upgrades and preferences are reported exactly when they apply", "statement": "For every exchange whose checking does not raise an exception, and for notices that do not come from outside of the checks, HTTPolice reports: 1230: `HTTP2-Settings` without that connection option; 1232: an upgrade to `h2c` in response to a request in which `HTTP2-Settings` is missing or malformed; 1234: `HTTP2-Settings` that is not in the URL-safe base 64; 1101: 426 (Upgrade Required) without a protocol in `Upgrade`; 1102: 426 (Upgrade Required) that requires a protocol to which the client asked to upgrade; 1103: a successful response that lists a protocol to which the client asked to upgrade; 1285: two preferences of the same name; 1287: `respond-async` in a request with a safe method; 1288: `return=minimal` in a GET; 1289: both `return=minimal` and `return=representation`; 1290: both `handling=strict` and `handling=lenient`; 1286: `Preference-Applied` with something that the request does not prefer; 1291: `Preference-Applied` in a response to GET without `Prefer` or `*` in `Vary`.", "quantifier": "all exchanges, all parsers of header values, all positions of a response", "why_tests_cant": "They compare lists in a request and a response element by element, with several ways to say the same; tests have one or two elements each.", "anchors": ["httpolice/request.py:354-405", "httpolice/response.py:540-560", "httpolice/response.py:612-660", "httpolice/response.py:760-795"]}
{"id": "C72", "title": "Entity tags and conditional headers are read exactly", "statement": "The grammars for `ETag`, `If-Match`, `If-None-Match`, `If-Range`, `Last-Modified`, `If-Modified-Since` and `If-Unmodified-Since`, built by Python as the modules do it, accept exactly the header values that RFC 7232 and RFC 7233 allow: a tag is any text in quotes without quotes, spaces and control characters, with `W/` (in that case only) if it is weak; matches are `*` or a list of tags in which empty elements are allowed; `If-Range` is a tag or a date. Everything else is rejected with a parse error. An accepted value can be understood in one way only, and the result is what it says: weak or strong, the tag with its quotes, the tags in their order, the date. 1119 is reported for every tag with a backslash, 1151 for a list with gaps, the notices about dates as they apply (C48), and nothing else.", "quantifier": "all texts, all grammars built before and after, all choices of what to annotate", "why_tests_cant": "There are infinitely many texts; tests have a few, mostly valid, and the grammar is compiled by combinators into an Earley parser whose choice among derivations no test looks at.", "anchors": ["httpolice/syntax/rfc7232.py:10-30", "httpolice/syntax/rfc7233.py:71", "httpolice/syntax/rfc7230.py:71-90", "httpolice/parse.py:24-560"]}
{"id": "C73", "title": "Headers for one connection are read exactly", "statement": "The grammars for `Connection`, `Trailer`, `Upgrade`, `Transfer-Encoding`, `TE` and `Content-Length`, built by Python as the module does it, accept exactly the header values that RFC 7230 allows: lists of tokens; lists of protocols, perhaps with a version after a slash; lists of codings with parameters, except that `chunked`, `compress`, `deflate` and `gzip` have none; for `TE`, which may be empty, `trailers` alone or a coding other than it with a weight from 0 to 1 with at most three decimals, where a parameter `q` can only be the weight; and decimal digits. Everything else is rejected with a parse error. An accepted value can be understood in one way only, and the result is what it says: names and values in their order, quoted strings without quotes and backslashes, weights as they are written, the number. 1015 is reported for whitespace around each equals sign, 1017 for each character escaped without need, 1151 for a list with gaps, and nothing else.", "quantifier": "all texts, all grammars built before and after, all orders of iteration over sets, all choices of what to annotate", "why_tests_cant": "There are infinitely many texts, and the same text could be derived in several ways (`;q=1` as a parameter or as a weight, `gzip` as a known or as another coding); tests see only the one that was chosen for them.", "anchors": ["httpolice/syntax/rfc7230.py:17-90", "httpolice/syntax/rfc7230.py:107-164", "httpolice/parse.py:24-560"]}
{"id": "C74", "title": "Headers for caches are read exactly", "statement": "The grammars for `Cache-Control`, `Pragma`, `Age`, `Expires`, and for the values of directives that are seconds or lists of header names, built by Python as the module does it, accept exactly what RFC 7234 allows: lists of directives, each a token that may be followed by an equals sign and a token or a quoted string, with no whitespace around the equals sign; the same for `Pragma`, except that `no-cache` has no value; decimal digits; dates; lists of names that may be empty. Everything else is rejected with a parse error. An accepted value can be understood in one way only, and the result is what it says; for values of cache directives it also says whether they were quoted. 1017 is reported for each character escaped without need, 1151 for a list with gaps, the notices about dates as they apply (C48), and nothing else.", "quantifier": "all texts, all grammars built before and after, all orders of iteration over sets, all choices of what to annotate", "why_tests_cant": "There are infinitely many texts; a comma in a quoted value must not end a directive, and whether a value was quoted must survive, in every list.", "anchors": ["httpolice/syntax/rfc7234.py:13-35", "httpolice/syntax/rfc7230.py:17-90", "httpolice/parse.py:541-549"]}
{"id": "C75", "title": "Media types, preferences and other headers of RFC 7231 are read exactly", "statement": "The grammars for `Content-Type`, `Accept`, `Accept-Charset`, `Accept-Encoding`, `Content-Encoding`, `Allow`, `Vary`, `Retry-After`, `Date`, `Max-Forwards` and `Expect`, built by Python as the module does it, accept exactly what RFC 7231 allows and reject everything else with a parse error. A media type is two tokens with a slash and parameters without whitespace around the equals sign. In `Accept` the first parameter `q`, in whatever case, is the weight, from 0 to 1 with at most three decimals, and what follows it belongs to no media type. The result is what the text says, with parameters in order. The one thing that the grammar leaves open is whether a range that ends in `/*`, and a `*` in `Accept-Encoding` or alone in `Vary`, is a name of the usual class or plain text; both have the same characters. 1282 is reported exactly for `application/text`, `plain/text` and `text/json` in whatever case, with what was meant; 1017 for each character escaped without need, 1151 for a list with gaps, the notices about dates as they apply (C48), and nothing else.", "quantifier": "all texts, all grammars built before and after, all orders of iteration over sets, all choices of what to annotate", "why_tests_cant": "There are infinitely many texts; where a weight ends a media type and what follows it belongs to the preference depends on every parameter before it.", "anchors": ["httpolice/syntax/rfc7231.py:27-39", "httpolice/syntax/rfc7231.py:170-229", "httpolice/syntax/common.py:18-28", "httpolice/syntax/rfc7230.py:17-107"]}
{"id": "C76", "title": "Challenges and credentials are read exactly", "statement": "The grammars for `Authorization`, `Proxy-Authorization`, `WWW-Authenticate` and `Proxy-Authenticate`, built by Python as the module does it, accept exactly what RFC 7235 allows and reject everything else with a parse error. The result has the schemes in order, each with the token68 or with the parameters that belong to it, in order. In a list of challenges the commas that separate challenges and those that separate parameters are told apart in every case; where nothing stands between commas it is open to which list the gap belongs, and this makes no difference, except that 1151 may be reported more than once. 1151 is reported if and only if there is a gap. 1196 is reported for each parameter `realm`, in whatever case, with a value that is not quoted; 1015 for whitespace around an equals sign, 1017 for each character escaped without need, and nothing else.", "quantifier": "all texts, all grammars built before and after, all choices of what to annotate", "why_tests_cant": "There are infinitely many texts, and the number of ways to read a list of lists grows with the commas; that all of them give the same result cannot be seen from samples.", "anchors": ["httpolice/syntax/rfc7235.py:11-42", "httpolice/syntax/rfc7230.py:17-107", "httpolice/structure.py:76-110"]}
{"id": "C77", "title": "URIs, hosts and request targets are read exactly", "statement": "The grammars for URI references (`Location`), for absolute URIs, for references without a fragment (`Content-Location`, `Referer`), for `Host`, for IPv4 and IPv6 addresses, and for request targets, built by Python as the modules do it, accept exactly what RFC 3986 (with RFC 6874), RFC 7230 and RFC 7231 allow, reject everything else with a parse error, return the text as it is and report nothing. An IPv6 address has eight pieces, or at most seven and `::` in one place, the last two perhaps written as an IPv4 address, whose numbers are at most 255 without leading zeros; a path begins with a slash after an authority, does not begin with two without one, and has no colon in its first segment if there is no scheme either. The target of a request is accepted, by the symbol that `Request.target_form` selects, exactly if it is an authority and the method is CONNECT, or an absolute path with an optional query or an absolute URI and the method is another, or `*` and the method is OPTIONS; and the form that is returned is the one that it has.", "quantifier": "all methods and texts, all grammars built before and after, all choices of what to annotate", "why_tests_cant": "There are infinitely many texts, and the grammar for IPv6 addresses alone has nine alternatives with their own counts; which texts near the limits are let through cannot be seen from a corpus of usual URIs.", "anchors": ["httpolice/syntax/rfc3986.py:8-79", "httpolice/syntax/rfc7230.py:94-103", "httpolice/syntax/rfc7230.py:145", "httpolice/syntax/rfc7231.py:222-227", "httpolice/request.py:21-23", "httpolice/request.py:115-128", "httpolice/parse.py:541-549"]}
{"id": "C78", "title": "Prefer, Strict-Transport-Security, HTTPolice-Silence and other small headers are read exactly", "statement": "The grammars for `Prefer`, `Preference-Applied` and the values of `return`, `handling` and `wait`, for `Strict-Transport-Security` and `max-age`, for `HTTPolice-Silence`, `Accept-Patch`, `Accept-Post` and `HTTP2-Settings`, built by Python as the modules do it, accept exactly the texts that RFC 7240 (with erratum 4439), RFC 6797, RFC 5789, LDP and RFC 7540 allow, and reject everything else with a parse error. What is returned is what was written: an empty value of a preference is no value, as RFC 7240 demands, a parameter that is missing after a semicolon is `None`, directives that are missing in `Strict-Transport-Security` are left out, and `resp` after a number in `HTTPolice-Silence` is `True`. The complaints are those that are due: 1014 for whitespace that should be one space, 1017 for needless backslashes, 1151 for empty elements, 1282 for wrong media types.", "quantifier": "all texts, all grammars built before and after, all orders of iteration over sets, all choices of what to annotate", "why_tests_cant": "There are infinitely many texts, and the places where something may be left out (after a semicolon, between commas) combine with whitespace that the grammar can assign in several ways.", "anchors": ["httpolice/syntax/rfc7240.py:9-37", "httpolice/syntax/rfc6797.py:11-22", "httpolice/syntax/internal.py:7-9", "httpolice/syntax/rfc5789.py:7", "httpolice/syntax/w3c_ldp.py:7", "httpolice/syntax/rfc7540.py:6", "httpolice/syntax/rfc7231.py:27-31", "httpolice/syntax/rfc7231.py:173-186"]}
{"id": "C79", "title": "Link is read exactly, and raises exactly where a value is lacking", "statement": "The grammar for `Link`, built by Python as the module does it, accepts exactly the texts that RFC 8288 allows, and rejects everything else with a parse error. All links are returned in order, with their targets as written. Of the parameters `rel`, `media`, `title`, `title*` and `type` (in any case) only the first counts, and 1225 is reported for each other; all others are returned in order, with `anchor`, `rel`, `rev`, `hreflang`, `type` and `title*` read by their own grammars, and 1158 for what these reject. 1307 is reported for a title that is a token (and also, wrongly, for a title without a value after a parameter whose value is a token), 1308 for a quoted `hreflang`, 1226 for `rev`, and 1309 if there is no `rel`. `_process_params` raises an exception exactly if one of `anchor`, `rel`, `rev`, `hreflang`, `type`, `title*` counts and has no value, or if the `title` that counts has no value and no value was seen before it, as in `Link: </>; title`.", "quantifier": "all texts, all grammars built before and after, all orders of iteration over sets, all choices of what to annotate", "why_tests_cant": "There are infinitely many headers, and whether one raises depends on all parameters before; the tests have parameters without a value, but not under these names.", "anchors": ["httpolice/syntax/rfc8288.py:15-55", "httpolice/parse.py:91-128", "httpolice/structure.py:153-166"]}
{"id": "C80", "title": "Forwarded, the headers of cross-origin requests, and the parameters of Bearer challenges are read exactly", "statement": "The grammars for `Forwarded` and for the nodes in it, `Origin`, `Access-Control-*`, `X-Content-Type-Options`, `Cross-Origin-Resource-Policy`, and `scope`, `error`, `error_description` and `error_uri` in OAuth, built by Python as the modules do it, accept exactly the texts that RFC 7239, Fetch and RFC 6749 allow (without whitespace around the semicolons in `Forwarded`, with nodes in brackets only for IPv6, and with `null`, `true`, `same-origin` and `same-site` in lower case), and reject everything else with a parse error. What is returned is what was written: the pairs in each element of `Forwarded` in order, with quoted strings unescaped; nodes without brackets and with numeric ports as numbers; lists of methods and of field names in order; and the words of a scope. In `Forwarded`, where there is nothing between commas, there may be an empty element or none (then with 1151); the elements with anything in them are always the ones that were written.", "quantifier": "all texts, all grammars built before and after, all orders of iteration over sets, all choices of what to annotate", "why_tests_cant": "There are infinitely many headers; in `Forwarded` the same text can be derived in several ways, and a test sees one of them.", "anchors": ["httpolice/syntax/rfc7239.py:10-31", "httpolice/syntax/whatwg_fetch.py:10-29", "httpolice/syntax/rfc6749.py:8-18"]}
{"id": "C81", "title": "Language tags, language ranges, Content-Language and Accept-Language are read exactly", "statement": "The grammars for language tags and language ranges, `Content-Language` and `Accept-Language`, built by Python as the modules do it, accept exactly the texts that RFC 5646, RFC 4647 and RFC 7231 allow, and reject everything else with a parse error: a tag is a language of two to eight letters, then at most three extended subtags of three letters (after two or three letters only), a script, a region, variants, extensions and private use, each in its place and of the right length; or it is for private use; or it is one of the 26 tags registered before, in whatever case. What is returned is what was written, in order, with weights as numbers; nothing is complained about except empty elements of lists. Whatever can be in `Content-Language` can be asked for in `Accept-Language`.", "quantifier": "all texts, all grammars built before and after, all orders of iteration over sets, all choices of what to annotate", "why_tests_cant": "There are infinitely many tags, and most can be derived in several ways (a subtag of four signs can be a script or a variant), of which a test sees one.", "anchors": ["httpolice/syntax/rfc5646.py:8-63", "httpolice/syntax/rfc4647.py:7-10", "httpolice/syntax/rfc7231.py:213-221"]}
{"id": "C82", "title": "Encoded values, Content-Disposition and the values of parameters of links are read exactly", "statement": "The grammars for encoded values (RFC 8187), `Content-Disposition`, and the `rel`, `rev`, `anchor`, `hreflang`, `type` and `title*` parameters of `Link`, built by Python as the modules do it, accept exactly the texts that the RFCs allow and reject everything else with a parse error. Of an encoded value, the charset, the language and the bytes with the percent-encoding undone are returned; 1253 is reported exactly if the charset is not UTF-8 (in whatever case), and 1254 exactly if it is and the bytes are not those of Unicode characters in UTF-8 (without surrogates or overlong forms). In `Content-Disposition` every parameter is returned in order, and the value is read as an encoded value for `filename*` and for no other. A relation is a registered name in lower case or a URI. So the parsers that `_process_params` gives the values of the parameters to return what is meant, and 1158 is reported exactly for what is not well-formed.", "quantifier": "all texts, all grammars built before and after, all orders of iteration over sets, all choices of what to annotate", "why_tests_cant": "Values are texts of any length, with all bytes and all ways to encode them; which bytes are UTF-8 is a matter of all sequences.", "anchors": ["httpolice/syntax/rfc8187.py:12-42", "httpolice/syntax/rfc6266.py:14-34", "httpolice/syntax/rfc6838.py:6-14", "httpolice/syntax/rfc8288.py:22-69"]}
{"id": "C83", "title": "Alt-Svc and Alt-Used are read exactly", "statement": "The grammars for `Alt-Svc`, `Alt-Used` and the `ma` and `persist` parameters, built by Python as the module does it, accept exactly the texts that RFC 7838 allows (with `clear` only in lower case and by itself) and reject everything else with a parse error. Of every alternative, the name of the protocol with the percent-encoding undone, the authority with the quoting undone, and the parameters in order are returned. 1256 is reported exactly if the name is not written in the one way that section 3 allows; the correct name in the report then names the same protocol, is itself written in that way, and no other text is. 1257 is reported exactly if the authority is not a colon and a port with perhaps a host before them, the authority is then unavailable, and the rest of the header is read nonetheless.", "quantifier": "all texts, all grammars built before and after, all orders of iteration over sets, all choices of what to annotate", "why_tests_cant": "Protocol names are any bytes in any mixture of encodings, and quoted authorities are any texts; tests try a few.", "anchors": ["httpolice/syntax/rfc7838.py:17-56", "httpolice/parse.py:36-79"]}
{"id": "C84", "title": "Comments, User-Agent, Server, Via and Warning are read exactly", "statement": "The grammars for comments, `User-Agent`, `Server`, `Via` and `Warning`, built by Python as the modules do it (with `recursive()` for comments in comments), accept exactly the texts that RFC 7230, 7231 and 7234 allow, with parentheses balanced to any depth, and reject everything else with a parse error. A comment is returned without its outer parentheses and without backslashes; products are returned in order with their versions, among them the comments; a hop in Via has HTTP as its protocol if none is named; a warning has its code as a number, the agent, the text without quoting, and the date if there is one. 1017 is reported exactly for every backslash that is not needed, 1014 exactly for whitespace other than one space where some is required, 1151 for empty elements, and the notices on dates as they are elsewhere. Texts of User-Agent, Server and Warning can be understood in one way only; of Via, where names of hosts may be empty or have commas and parentheses in them, one of the ways is returned.", "quantifier": "all texts, all grammars built before and after, all orders of iteration over sets, all choices of what to annotate", "why_tests_cant": "Comments nest to any depth, and any number of products, hops and warnings may follow each other with any whitespace; the recursive symbol is tied after it is used, which no test of outputs can cover for all depths.", "anchors": ["httpolice/syntax/rfc7230.py:42-51", "httpolice/syntax/rfc7230.py:156-162", "httpolice/syntax/rfc7231.py:40-46", "httpolice/syntax/rfc7234.py:37-45", "httpolice/parse.py:402-405"]}
{"id": "C85", "title": "HAR files are read faithfully, and failures to read them are input errors", "statement": "`har_input` yields, for the valid entries of HAR files, exactly one exchange per entry, in order: the request with its method, scheme, version (unless the file is from a browser), header entries without pseudo-headers, the target in the form that the method and `Host` call for, and with only that known of its body which `bodySize` and `postData` tell; and the response with status, reason, version, headers, and text or decoded bytes of the content, or no response if the status is 0; Fiddler's additions to CONNECT are left out. What comes later in a file never takes away from exchanges yielded before. If any file is read to its end, it gave one exchange per entry and no member was missing. Anything else than an input error can be raised only if an entry has a version or header value or URL or `encoding` that is not a text, a URL that `urlparse` rejects, a status that is not a number, or `postData` or `content` that is not an object (which the code does not catch).", "quantifier": "For all JSON documents, all creators, all lists of files, and whatever the standard library makes of URLs, numbers and Base64", "why_tests_cant": "JSON documents can be of any shape and size; tests cover a few exports of four programs, none of which is malformed in these ways.", "anchors": ["httpolice/inputs/har.py:22-166", "httpolice/helpers.py:9-31", "httpolice/structure.py:208-224"]}
{"id": "C86", "title": "Entries of headers come to the value that is written in them, arguments included, with just the notices that are due", "statement": "For an entry of a known header, the value that the header view has is exactly what is written in the entry; or, if the entry does not match the header's grammar, it is unavailable and 1000 is reported on it, and nothing else. In Cache-Control, Strict-Transport-Security, Prefer, Preference-Applied, Alt-Svc and Forwarded, the argument of each known name (compared without regard to case, except in Alt-Svc) is replaced by what it says: 1156 if and only if a required argument is missing, 1157 if and only if there is one that should not be there, 1158 if and only if it is malformed, and otherwise its value; arguments of unknown names are left as they are. 1154 and 1155 are reported just for Cache-Control arguments in the wrong form; 1296 once for each parameter repeated in an element of Forwarded; 1297 just if there are several elements, each with one parameter, all different. 1299 and 1300 are reported once for each text with a comma or a semicolon in a header where they matter: in quoted parameters of Content-Type, Accept, Accept-Patch, Accept-Post, TE and Transfer-Encoding, in free arguments, in the host of Forwarded, and in hosts, comments and messages of Via and Warning.", "quantifier": "For all values of entries (any bytes), all orders of sets, all grammars built before and after", "why_tests_cant": "There are infinitely many values; tests have a few entries for some of the headers, and cannot show that a notice is never reported where it should not be.", "anchors": ["httpolice/header.py:124-174", "httpolice/header.py:337-355", "httpolice/header.py:372-477", "httpolice/known/__init__.py:182-217", "httpolice/known/cache_directive.csv", "httpolice/known/preference.csv", "httpolice/known/forwarded_param.csv", "httpolice/known/alt_svc_param.csv", "httpolice/known/hsts_directive.csv"]}
{"id": "C87", "title": "What is known about a header, a method, a status code and so on is exactly what its row in the table says", "statement": "A table of known things is loaded if and only if no two of its rows have the same key (without regard to case for names that have none) or the same name as an attribute. Looking up a key then gives, whatever was looked up before, what the row with this key says: fields with digits as numbers, with true or false as flags, with a word from a fixed set as that word, with other text as text, and nothing for empty fields; a citation made up from the RFC number with its section or appendix, or from the URL and its title; and the grammar symbol that the row names. A key that is in no row gives nothing. Attributes of the accessors (`h.accept`, `st.not_found`) are the keys with these names and no others; names consist of letters, digits and underscores and are not reserved. Flags, columns with a fixed set of answers, JSON and XML media types, titles and links follow from that.", "quantifier": "For all tables, all keys, all histories of lookups, all ways of lowering case", "why_tests_cant": "Lookups are cached and depend on all rows and on earlier lookups; tests only see the tables of this version and look up a few keys.", "anchors": ["httpolice/known/__init__.py:21-104", "httpolice/known/__init__.py:137-239", "httpolice/known/__init__.py:310-334", "httpolice/known/__init__.py:398-412", "httpolice/citation.py:1-58"]}
{"id": "C88", "title": "The HTML report shows each exchange in full and every highlighted reference leads to the thing it is about", "statement": "Each report made with `html_report` in a process consists of one block per exchange that has anything in it, in order. A block shows the request line, the status line, every header with all parts of its value, the body with what has been done to it, trailers, remarks and every complaint with its severity, number, title and explanation. In all reports of a process an object has the same number wherever it is, and different objects have different numbers, so that what a notice refers to (a header, a part of its value, the method, the status...) is exactly what gets highlighted. The numbers do not depend on where the objects are in memory. Whatever was in the messages, there are only elements, attributes and classes from a fixed list, and text without characters that cannot be displayed, and links lead to the documents that are cited. Bodies are shown decoded if possible, at most 1000 characters. Titles are the same as in the text report.", "quantifier": "For all exchanges, complaints and contents, all sequences of reports, all identities of objects", "why_tests_cant": "Tests make reports and look for some text; whether every reference has its target depends on identities of objects, on the order of numbering and on what was reported before.", "anchors": ["httpolice/reports/html.py:1-382", "httpolice/reports/common.py:1-77", "httpolice/message.py:199-241"]}
{"id": "C89", "title": "The checks act on exactly what is written in headers", "statement": "Once the modules in httpolice.syntax have been imported (in whatever order), for each header that the checks look at (Age, Content-Length, Content-Type, Date, ETag, Cache-Control, Prefer, Accept, Connection, Transfer-Encoding, Warning, WWW-Authenticate and others) what they are told is what is written in the entry: they get a value just if the text has the form that the RFC gives for that header, and this value consists of the names, numbers, dates, weights, parameters and arguments that are there, in order. Dates are the second in time that they denote; arguments of directives are numbers or names just if the directive takes them. A date that does not exist and text that does not have the form give no value. The headers with a syntax are those in the table of headers and they are recognized in whatever case, others are left as text. All that the theorems about notices (C59-C71) assume of grammars, but for Link, is so. Parameters of Bearer challenges are rejected just if they do not have the form.", "quantifier": "For all texts of all these headers, all orders of import, all objects made in between and after, all ways of iterating over sets", "why_tests_cant": "Tests give a few values to each header; that the value has the same meaning for the checks as the text has in the RFC, for any text, takes a proof from the grammar through parsing to the view.", "anchors": ["httpolice/header.py:47-69", "httpolice/header.py:80-476", "httpolice/known/header.csv", "httpolice/syntax/rfc7231.py", "httpolice/request.py:100-456", "httpolice/response.py:100-891"]}
{"id": "C90", "title": "A header is reported as malformed just if it is not written as the RFC says", "statement": "When check_exchange returns, notice 1000 is on a message if and only if some entry among its headers (or its trailers, unless the header is barred there) has the name, in whatever case, of one of the 68 headers with a syntax and its value does not have the form that the RFC gives for this header. Nothing else is then reported from parsing this entry, and its value is unavailable. On a value that has the form there are none but the notices listed for this header (such as 1107, 1108, 1222 and 1223 for Date, none for Host). Notice 1026 is on a message if and only if its trailers have a header that is barred there. Notice 1013 is on a message if and only if two entries with the same name count and either the header may be there only once or one of the values stands for all (an asterisk in If-Match and If-None-Match, clear in Alt-Svc; for Accept-Ranges: none and Vary: *, which can also be understood as lists of one, it may or may not be). Notices that the checks report by themselves are never reported from parsing headers.", "quantifier": "For all exchanges with any headers and trailers, all orders of import, all ways of iterating over sets", "why_tests_cant": "Whether a text of any length has the form of a header is a question about a language; tests have a few good and bad values for some of the headers.", "anchors": ["httpolice/header.py:95-300", "httpolice/known/header.csv", "httpolice/message.py:60-140", "httpolice/parse.py:53-127", "httpolice/notices.xml"]}
{"id": "C91", "title": "What is reported about a payload is what is wrong with it, going by its headers as they are written", "statement": "When check_exchange returns, these notices are on a message if and only if the following is so, where the type is what is written in the last Content-Type header and the codings are those in all Content-Encoding headers, in order. 1036: when the codings after it have been undone, something is left and comes to a coding other than gzip, x-gzip, deflate and br. 1037: it comes to one of them, which cannot be undone. With the bytes that remain when all have been undone (or that were given by the input) and, in a response, if the status is not 304 or 103 nor 206 of another type than multipart/byteranges and the method was not HEAD: 1038: the type is application/json or ends with +json and the text in the charset named (UTF-8 if none is) is not JSON; 1281: it is JSON, but the charset is other than ASCII and UTF-8; 1039 and 1275: the type is application/xml, text/xml or ends with +xml and the bytes are not XML or define entities; 1139 and 1140: the type begins with multipart/ and the boundary is missing or not found; 1040: the type is application/x-www-form-urlencoded and there is a character other than letters, digits and % & * + - . : ; < = > ? _. Otherwise the names of fields are those of parse_qs. 1045 is on a request if and only if its target does not have a form that the method allows. Nothing else is reported in reading payloads and targets, so the theorems about other notices apply to all exchanges; and an exception is raised for the same exchanges whatever the payloads.", "quantifier": "For all exchanges, headers, bodies and values given by the input, whatever the libraries do", "why_tests_cant": "Tests have some bodies with one or two codings; any list of codings over several headers, with malformed ones between, is possible, in combination with any type, charset, status and method.", "anchors": ["httpolice/message.py:71-196", "httpolice/response.py:98-109", "httpolice/request.py:115-128", "httpolice/known/media_type.csv", "httpolice/known/__init__.py:300-330"]}
{"id": "C92", "title": "Every notice reported is in the catalogue, and everything its text refers to is there", "statement": "Every notice on a message after check_exchange is one of notices.xml, where an ID stands for one notice, so complain() does not raise KeyError. For every notice reported by a check or in reading the payload, every reference in its text and every <ref/> leads to a value: the key was given to complain(), or it is the message itself, and the attributes that follow exist. In particular no notice that refers to the request is reported on a response without one, none that refers to the status is on a request, none that refers to header.value.item is reported for a header whose value is missing or malformed, and an <exception/> has its error. So resolve_reference() does not raise in making a report. This is so for all exchanges, also when check_exchange raised an exception after the notice was reported.", "quantifier": "For all exchanges, with or without a request and with any number of responses, and for every notice reported on them", "why_tests_cant": "There are about 280 places that report a notice, each under its own conditions, and keyword arguments are matched with the text of the notice only when a report is made; a missing one shows up only in a report with that notice. Tests would need every notice in every situation in which it can be reported, with and without a request.", "anchors": ["httpolice/notices.xml", "httpolice/blackboard.py:52-58", "httpolice/reports/common.py:10-15", "httpolice/notice.py:49-131", "httpolice/request.py", "httpolice/response.py", "httpolice/message.py"]}
{"id": "C93", "title": "Captured streams: transfer codings are taken off as the headers write them, and everything framing reports can be shown", "statement": "For the exchanges that parse_streams yields: the codings of a message are those written in its Transfer-Encoding headers, in the order of the headers and in any case, with malformed headers left out. With chunked last, the payload is the chunk data that follows the heading (in each chunk as many bytes as its size line says, at most 1 GiB in all), with the other codings taken off from the last to the first; if a coding is not known or does not decode, the body is unavailable, the bytes so far are kept, and exactly one notice says which it was (1002 for chunked once more, 1003 for one not known, 1027 for one that does not decode); with another coding last, a request has no body and 1001 is reported, and a response takes the rest of the stream. 1001 is reported on a request if and only if the codings do not end with chunked. The exchanges of a well-formed dialogue are what is checked, in order. A response from a stream is never reported for a body that its status or the method of the request rules out (1239, 1240). Every notice framing reports, on messages or on an exchange of its own, is in the catalogue, and every reference in its text resolves with the keyword arguments given, also on responses without a request.", "quantifier": "For all pairs of captured byte streams, all behaviours of the decompressors, and every world satisfying the grammars", "why_tests_cant": "What a stream is taken for depends on bytes of any length that pass through two parsers, the grammar of one header, and decompressors; tests cover single codings in known order. That a notice about a body is never reported for captured streams is a claim about all streams.", "anchors": ["httpolice/framing1.py:24-137", "httpolice/framing1.py:191-336", "httpolice/header.py", "httpolice/exchange.py:17-35", "httpolice/notices.xml"]}
{"id": "C94", "title": "Notices depend on what is literally written in the headers", "statement": "For the world with its own grammars and tables, notices are reported if and only if the text of the headers is of a certain form, with names in any case and whitespace and empty list elements wherever the RFCs allow them. A media type is deprecated (1035), has a parameter twice (1042), is JSON with a charset (1280), or is not a patch (1213, 1214, 1227), exactly if it is written as one of the types in the tables; a user agent is only libraries (1093) exactly if every product in the text is one of them; likewise for Content-Disposition (1247-1251), Strict-Transport-Security (1218, 1220), Connection (1034), TE (1028), Upgrade (1228), Accept-Encoding (1116), dates (1109, 1118), Warning (1163, 1165), Cache-Control (1152, 1153, 1171), Allow with Accept-Patch or Accept-Post (1217, 1310), If-Range (1135), credentials (1209, 1261, 1262, 1274) and challenges (1206-1208, 1263, 1264, 1267, 1268, 1273). A notice is visible if and only if it is reported and its number is not written in HTTPolice-Silence (followed by resp, in requests, for responses). The check raises an exception if and only if a response that is not 103 has a written date and age that add up to more than the end of the year 9999, or a 451 response has a malformed link.", "quantifier": "For all exchanges, header texts, payloads and library behaviours, and every world satisfying the grammars", "why_tests_cant": "Each notice goes through a grammar with unbounded lists, quoted strings and whitespace, a header view that joins entries, and a table lookup; tests see a few spellings of a header, not every text that should and should not be reported.", "anchors": ["httpolice/message.py:255-352", "httpolice/request.py:201-432", "httpolice/response.py:225-883", "httpolice/header.py", "httpolice/known/__init__.py:137-239", "httpolice/known/media_type.csv", "httpolice/known/product.csv", "httpolice/exchange.py:17-35"]}
{"id": "C95", "title": "Directories of tcpick and tcpflow captures: every stream is read once, with its other direction", "statement": "For the tcpick and tcpflow inputs: which connection and direction a file belongs to is exactly what is written in its name, for all names. A tcpick directory is refused if and only if some file has another kind of name, and the error is about the first such file listed; a tcpflow directory is refused only for such a file, for two files with the same source and destination (the error names both), or for a timestamp that no date can represent. Otherwise, in whatever order the files are listed: each file (other than report.xml and alerts.txt of tcpflow) is in exactly one pair, provided no two tcpick files are for the same counter, addresses and direction; two files are paired only if they are the two directions of one connection, and a file stands alone only if there is no other direction; pairs follow the counters or timestamps; the time of a tcpflow pair is the earlier of the two timestamps; directories are independent of each other; and 1278 is reported on exactly the connections with one file.", "quantifier": "For all directory listings in any order, all file names over Unicode, any number of connections and directories", "why_tests_cant": "os.listdir gives names in any order and any number; tests have a few sample directories, not every order, every name that must be refused, and every combination of one-sided and reused connections.", "anchors": ["httpolice/inputs/streams.py:32-94", "httpolice/inputs/streams.py:97-157", "httpolice/inputs/streams.py:160-206"]}
{"id": "C96", "title": "Saving a table of known things and loading it again changes nothing that is known, unless its keys are numbers shown by repr", "statement": "For every kind of table and all rows that can be loaded: what Knowledge.unprocess makes of a processed row can be processed again, with the same fields and values, provided str() of a number that is a key is its decimal numeral (true up to Python 3.7). A row written in the tidy way (no leading zeros, True/False, one citation at most, no zero as a section) comes out exactly as it went in. If all entries of a table are given to dump, in any order, the file can be written and loaded, every key gives the same fields and values as before, and every attribute of the accessor is the same or missing as before. If str() of a numeric key is not an integer, as with StatusCode(200) and WarnCode(199) since Python 3.8, the file that dump writes cannot be loaded any more: ValueError.", "quantifier": "For all tables with any number of rows, columns, keys, enumerations and citations, all orders in which entries are saved, all results of looking up grammar symbols", "why_tests_cant": "The code is marked 'no cover' and used by a maintenance tool only; a test would try the tables that exist, not every row that could be loaded, and would run on one version of Python.", "anchors": ["httpolice/known/__init__.py:106-125", "httpolice/known/__init__.py:127-134", "httpolice/known/__init__.py:168-176", "httpolice/known/__init__.py:79-104", "httpolice/structure.py:191-206"]}
{"id": "C97", "title": "Every notice can be read and is listed with its ID, severity, title and explanation exactly as written, and only notices 1302 and 1303 lose something", "statement": "For all notices written properly (an ID that is a numeral, a title, elements with the attributes that they need): the notice object has the ID and severity written, and the pieces of its title and explanation are, in order and with nothing lost or added but white space, the texts, named items, references to variables, links, citations and quotes written in the XML; comments are left out, and elements outside of paragraphs get a paragraph of their own with the text after them. For all files of such notices with different IDs, the HTML list of notices can be made and has every notice once, in increasing order of IDs, with id and class attributes and all the text of the notice; if two have the same ID, loading raises AssertionError. All 301 notices of notices.xml are written properly, so this holds of them, and their IDs, severities, references and places for details are those of the table in C92. Of all attributes in the file only those of notices 1302 and 1303 are ignored: they write section instead of sect, so their citations name RFC 8246 but not its section 3.", "quantifier": "For all XML trees of any depth and number of elements, texts and attributes, all lookups of known items; and every notice of notices.xml", "why_tests_cant": "Tests look at whether some notices occur in reports; none compare the texts of all notices with what is shown, and an attribute that is ignored raises no error anywhere.", "anchors": ["httpolice/notice.py:49-93", "httpolice/notice.py:94-172", "httpolice/notice.py:175-187", "httpolice/reports/html.py:66-104", "httpolice/notices.xml:26-41"]}
{"id": "C98", "title": "A whole run of httpolice -i combined shows every captured exchange with just the notices that are reported and not silenced, and its exit status follows from them", "statement": "For all files given to httpolice -i combined, all options --silence and --fail-on: if every file can be read, has both markers, and no exchange makes a check raise (the age of a response runs past the year 9999, a link lacks a needed value, or a 451 response has a bad relation), then the exchanges captured in all files reach the report, in order, and on each object of an exchange the report gets exactly the notices that framing or the checks report, except those whose ID is given with --silence or silenced by what is written in HTTPolice-Silence headers. Otherwise the run ends at the first file (and exchange) that is not so, with everything before it already reported in the same way. The exit status is 0 if and only if all files can be worked through and no notice to be shown has a severity of the threshold or higher in the catalogue; 1 if and only if there is such a notice or a file that cannot be read or lacks a marker, all files before it being fine; otherwise an exception escapes. Every notice shown is in the catalogue, so looking up its severity never fails. A file whose streams have no line starting with a minus sign never raises while it is parsed.", "quantifier": "For all numbers of files, all bytes in them, all options, all behaviours of decoders, character sets and other libraries", "why_tests_cant": "Tests run the command on a few files and look at a few numbers in the output; silencing by options and headers together, files of many exchanges, and the interplay of errors in one file with reports on others are not tried.", "anchors": ["httpolice/cli.py:37-71", "httpolice/inputs/streams.py:344-380", "httpolice/framing1.py:34-97", "httpolice/exchange.py:46-71", "httpolice/blackboard.py:26-60"]}
{"id": "C99", "title": "check_exchange raises on what is written in Link headers exactly when a parameter lacks a needed value or a 451 response has a bad relation", "statement": "For all exchanges: asking for the value of a Link header of a message raises an exception if and only if the header can be read as links and one of them lacks a value where one is needed (anchor, rel, rev, hreflang, type, title* without a value, or title with no value before it), however it is written. Where that is not the case, a 451 response makes the check raise if and only if among the links written in its Link headers, in order, one has a first rel that is not a list of relation types (such as one with capital letters) and none before it has the relation blocked-by. Together: check_exchange raises if and only if one of these holds for one of its messages, or Date plus Age of a response other than 103 is past the year 9999. Where nothing raises, notice 1243 is reported on a response if and only if its status is 451 and no link that is written in it has the relation blocked-by in its first rel.", "quantifier": "For all requests and lists of responses, all headers and trailers in them, all behaviours of decoders and libraries", "why_tests_cant": "The exceptions depend on the order of parameters, on whether they repeat, and on values read by six other grammars; a test that meets one crash does not say that there are no others.", "anchors": ["httpolice/syntax/rfc8288.py:15-55", "httpolice/message.py:262-268", "httpolice/header.py:128-153", "httpolice/response.py:326-330", "httpolice/exchange.py:57-71"]}
{"id": "C100", "title": "A whole run of httpolice -i streams, req-stream, resp-stream, tcpick or tcpflow shows every exchange of every connection once, in order, with just the right notices", "statement": "For all paths, all contents of files that can be opened and parsed, and all options --silence and --fail-on: what reaches the report is an interleaving of the exchanges of the connections, each connection in its own order, where a connection has what framing makes of its two streams (for captures: after notice 1278 if one direction is missing, with the direction given by the status line or request line at the start of a stream, and just 1279 if there is neither), and each exchange has exactly the notices to be shown (as in C98, with scheme http). If no exchange makes a check raise (C99) and no Date plus Age is past the year 9999, all exchanges are shown and the exit status is 0 or 1, and it is 1 if and only if some notice to be shown has a severity of the threshold or higher; if one makes a check raise, an exception escapes, and what was shown before is right. If within every connection time (Date of the request, or of the first response that has one, plus its Age, or else that of the exchange before) does not go back, then it does not in the report. With -i streams, an odd number of paths, and with tcpick and tcpflow, names of files that do not fit, give exit status 1 before anything is reported.", "quantifier": "For all lists of paths, all bytes in files, all names in directories, all options, all behaviours of decoders, character sets and other libraries", "why_tests_cant": "Tests have a handful of captures with two or three connections; lost or doubled exchanges would only show up for particular dates, missing headers and orders of files.", "anchors": ["httpolice/inputs/streams.py:15-94", "httpolice/inputs/streams.py:160-226", "httpolice/inputs/streams.py:229-317", "httpolice/inputs/__init__.py:25-31", "httpolice/cli.py:37-71"]}
{"id": "C101", "title": "A whole run of httpolice -i har shows every entry of every file once, in order, with just the right notices", "statement": "For all HAR files and all options --silence and --fail-on: if the files are valid HAR 1.2 and no exchange makes a check raise (C99), then what reaches the report is one exchange for each entry of each file, in order, made of the entry as in C85, and it has exactly the notices that the checks report on these messages with the recorded payloads and that neither the option nor a header silences; the exit status is 1 if one of these has a severity of the threshold or higher, and otherwise 0. A file that cannot be opened or is not JSON gives exit status 1, with everything before it reported. Whatever is wrong with a file, entries before the first defective one are reported in the same way. Conversely, for any files, exit status 0 means that every file was read to the end and that there is an exchange for each of its entries, none of which lacks a required member; and an exception escapes if and only if some exchange makes a check raise or reading ends with an exception that is not handled, for which some entry must have one of a list of defects.", "quantifier": "For all JSON documents, all options, all behaviours of urlparse, base64, decoders, character sets and other libraries", "why_tests_cant": "Tests have a few files exported from a few browsers; entries that are lost, or notices that depend on what the exporter left out, would show up for other files only.", "anchors": ["httpolice/inputs/har.py:22-166", "httpolice/cli.py:37-71", "httpolice/exchange.py:57-71"]}
{"id": "C102", "title": "What httpolice prints is a line for each notice that is to be shown, under the right exchange and response, and the exit status can be told from it", "statement": "For all combined files, all streams and all tcpick and tcpflow captures that can be read to the end (and where no check raises an exception), and for all options --silence and --fail-on, httpolice -o text prints one block for each exchange, in the order of C98 and C100, and nothing else. A block is empty if and only if no notice is to be shown on the exchange. Otherwise it starts with the line for the exchange; then there is a line for each notice to be shown on the request, then for each response that has such notices its line and a line for each of them, then a line for each notice on the exchange itself. The line of a notice has the letter of its severity in the catalogue, its ID and its title. If no title contains a line feed, then the lines that do not start with a dash are exactly those of the notices, no matter what is in the messages, and with --fail-on the exit status is 1 if and only if some printed line starts with the letter of the threshold or of a higher severity. A file that cannot be read leaves what is printed for the files before it.", "quantifier": "For all contents of files, all options, all titles, all behaviours of libraries", "why_tests_cant": "Tests of the text report look for parts of the text that is printed for a few files; that nothing in any message can forge or hide a line of the report, and that every notice is printed under its own message, is about all inputs.", "anchors": ["httpolice/reports/text.py:11-78", "httpolice/cli.py:37-71", "httpolice/inputs/streams.py:26-380"]}
{"id": "C103", "title": "Stream analysis fails only on chunk sizes below -1, and always on those of the first message", "statement": "For all bytes on the inbound and outbound streams: if parse_streams lets an exception escape, it is ValueError, and some line other than the first on one of the streams consists of white space, a minus sign, possibly 0x, hexadecimal digits (possibly with single underscores between them) that denote 2 or more, white space, and possibly an extension after a semicolon. Conversely, if the inbound stream starts with the heading of a request whose last transfer coding is chunked, followed by any number of well-formed chunks (of at most 1 GiB in all) and such a line, then parse_streams raises ValueError before it yields anything, whatever follows and whatever is on the outbound stream; the same holds for the first response if it is to have a body and there is no inbound stream. A run of httpolice -i combined on a file with such a request fails with an exception after everything in the files before it has been reported; a combined file with markers in which no line has such a chunk size can be read to the end.", "quantifier": "all pairs of byte streams, all header values, all chunks", "why_tests_cant": "The inputs that fail are rare among all byte strings, and that no others fail cannot be sampled.", "anchors": ["httpolice/framing1.py:_parse_chunk", "httpolice/framing1.py:parse_streams", "httpolice/stream.py:read"]}
{"id": "C104", "title": "The text printed for HAR files shows the notices of every entry and tells the exit status", "statement": "For all lists of valid HAR files whose entries do not make the checks raise an exception, httpolice -i har -o text prints one block for every entry, in order: under the line for the request, a line for every notice to be shown on the request, then under a line for the response (with its status, negative or not, and its reason phrase, or else the title of the status, or else a stopgap) the lines for the notices on the response, then those on the exchange; nothing for an entry without notices. A file that cannot be opened or is not JSON, and what follows it, adds nothing to what was printed. When the checks of an entry raise an exception, just the blocks of the entries before it have been printed. If methods, targets, reason phrases and titles have no line feeds, the lines that do not start with a dash tell of just the notices to be shown, and the exit status is 1 if and only if some line starts with the letter of a severity that is the threshold of --fail-on or higher, otherwise 0.", "quantifier": "all lists of files, all JSON values, all titles, all settings of the command", "why_tests_cant": "It ties the parsing of HAR files, all checks, silencing and the report together for every file.", "anchors": ["httpolice/cli.py:run_cli", "httpolice/inputs/har.py:har_input", "httpolice/reports/text.py:text_report"]}
{"id": "C105", "title": "Missing files and failing analysis never pass for a clean run", "statement": "For all paths, files and formats among streams, req-stream, resp-stream, tcpick and tcpflow, whether or not the files can be opened and whatever is in them: the exit status of httpolice is 0 only if every file could be opened, the analysis of no connection raised an exception, and all exchanges of all connections were shown with just the notices to be shown. In any case what is shown is the beginning of an interleaving of the exchanges of the connections (of those that fail, the exchanges before the failure), each with its notices. If a file cannot be opened, and the other connections can be analysed and their exchanges checked and put in order, the run ends with a message and exit status 1. An exception escapes only if the analysis of some connection raises one, for which some file must have a line that says a number below -1 (like a chunk size), or some exchange cannot be checked or put in order. With streams, req-stream and resp-stream, if a file cannot be opened and the first exchange of every connection before it tells the time, then nothing is shown, whatever is in the other files.", "quantifier": "all lists of paths, all contents of files and all sets of files that can be opened, all formats of streams, all settings of the command", "why_tests_cant": "The order in which connections are read depends on the times in their exchanges, so where a failure strikes can be anywhere in the output; tests have a few missing files and no combination of these with other connections.", "anchors": ["httpolice/cli.py:run_cli", "httpolice/inputs/streams.py:_path_pairs_input", "httpolice/inputs/streams.py:_parse_paths", "httpolice/inputs/streams.py:_rearrange_by_time", "httpolice/inputs/streams.py:_sniff_direction"]}
{"id": "C106", "title": "The HTML report of a whole run shows every exchange with just its notices, and ends only if the run went through", "statement": "For all combined files that can be read and worked through, the document that httpolice -i combined -o html writes has a block for each captured exchange, in order: a section for each message with where it is from, its first line, its headers and those of its trailer, beside it just the notices to be shown on it, with severity, number, title and explanation, and then the notices on the exchange; an exchange with neither messages nor notices to be shown has no block. No other element of the document has the class of a notice, so that with --fail-on the exit status is 1 if and only if some element has the class of a severity that is the threshold or higher. The end of the document is written if and only if all files could be read and worked through; otherwise it is not, and if the failure is that a file cannot be read or has no markers, or that a check raises an exception, what has been written is the blocks of the exchanges before it. The same goes for the blocks, their order and the exit status with streams, req-stream, resp-stream, tcpick and tcpflow if everything can be read and checked; and with them, too, the end of the document is written if and only if the run went through, which without --fail-on shows as exit status 0.", "quantifier": "all lists of files and all contents of them, all settings of the command, all texts of notices, all that may be known about methods, status codes and headers", "why_tests_cant": "The report of a few files can be looked at; that no exchange or notice is lost, misplaced or made up for any captured bytes, and that nothing in messages can pass for a notice, needs a proof over all inputs of the whole command.", "anchors": ["httpolice/cli.py:run_cli", "httpolice/reports/html.py:html_report", "httpolice/reports/html.py:_generate_exchange_divs", "httpolice/inputs/streams.py:combined_input"]}
{"id": "C107", "title": "The HTML report of a run on HAR files shows every entry with just its notices, and ends only if every entry was shown", "statement": "For all lists of valid HAR files whose entries do not make the checks raise an exception, the document that httpolice -i har -o html writes is whole and has one block for every entry, in order: a section for the request and one for the response, each with the path of the file, its first line (the version if it is known; the status, negative or not, with the reason phrase, or else the title of the status, or else a stopgap) and its headers, beside it just the notices to be shown on it with severity, number, title and explanation, and then the notices on the exchange. No other element has the class of a notice, so that the exit status is 1 if and only if some element has the class of a severity that is the threshold of --fail-on or higher, otherwise 0. With a file that cannot be opened or is not JSON, the document breaks off: the blocks are those for the files before it, and the end is not written. When the checks of an entry raise an exception, it breaks off after the blocks of the entries before it. For all lists of files, valid or not, if the end of the document is written then every file could be read and there are as many blocks as there are entries in the files; and without --fail-on the end is written if and only if the exit status is 0.", "quantifier": "all lists of files, all JSON values, all settings of the command, all texts of notices, all that may be known about methods, status codes and headers", "why_tests_cant": "It ties the parsing of HAR files, all checks, silencing and the report together for every file; the reports of a few files show nothing about entries and notices that are lost, misplaced or made up for others.", "anchors": ["httpolice/cli.py:run_cli", "httpolice/inputs/har.py:har_input", "httpolice/reports/html.py:html_report", "httpolice/reports/html.py:_generate_exchange_divs"]}
