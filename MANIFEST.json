{
 "claims": [
  {
   "property": "C01",
   "status": "proved",
   "theorems": [
    "Httpolice.Props.C01_accepts",
    "Httpolice.Props.C01_verdicts",
    "Httpolice.Props.C01_parse",
    "Httpolice.Props.C01_left_recursion_raises"
   ],
   "note": "Parser acceptance equals the grammar"
  },
  {
   "property": "C02",
   "status": "proved",
   "theorems": [
    "Httpolice.Props.C02_value",
    "Httpolice.Props.C02_derivation",
    "Httpolice.Props.C02_annotations"
   ],
   "note": "Parse result is the value of a derivation of the whole input"
  },
  {
   "property": "C03",
   "status": "proved",
   "theorems": [
    "Httpolice.Props.C03_terminates",
    "Httpolice.Props.C03_outcomes"
   ],
   "note": "Parsing always terminates"
  },
  {
   "property": "C04",
   "status": "proved",
   "theorems": [
    "Httpolice.Props.C04_position",
    "Httpolice.Props.C04_end_of_data",
    "Httpolice.Props.C04_end_of_data_recursive",
    "Httpolice.Props.C04_end_of_data_spurious"
   ],
   "note": "Parse error position is the longest viable prefix"
  },
  {
   "property": "C05",
   "status": "proved",
   "theorems": [
    "Httpolice.Props.C05_memo_unobservable",
    "Httpolice.Props.C05_outcome",
    "Httpolice.Props.C05_context"
   ],
   "note": "Memoization of parse is unobservable"
  },
  {
   "property": "C06",
   "status": "proved",
   "theorems": [
    "Httpolice.Props.C06_memo_is_lru"
   ],
   "note": "The parse memo is a bounded LRU cache"
  },
  {
   "property": "C07",
   "status": "proved",
   "theorems": [
    "Httpolice.Props.C07_splice",
    "Httpolice.Props.C07_no_empty_chunk"
   ],
   "note": "Annotated strings preserve the input"
  },
  {
   "property": "C08",
   "status": "proved",
   "theorems": [
    "Httpolice.Props.C08_string_excluding",
    "Httpolice.Props.C08_like_string"
   ],
   "note": "string_excluding excludes exactly the given strings"
  },
  {
   "property": "C09",
   "status": "proved",
   "theorems": [
    "Httpolice.Props.C09_or",
    "Httpolice.Props.C09_mul",
    "Httpolice.Props.C09_add",
    "Httpolice.Props.C09_mod",
    "Httpolice.Props.C09_minus",
    "Httpolice.Props.C09_wrap",
    "Httpolice.Props.C09_skip",
    "Httpolice.Props.C09_named",
    "Httpolice.Props.C09_group",
    "Httpolice.Props.C09_maybe",
    "Httpolice.Props.C09_literal",
    "Httpolice.Props.C09_case_sens",
    "Httpolice.Props.C09_octet_range",
    "Httpolice.Props.C09_times",
    "Httpolice.Props.C09_string_times",
    "Httpolice.Props.C09_times_zero",
    "Httpolice.Props.C09_many",
    "Httpolice.Props.C09_string",
    "Httpolice.Props.C09_many1",
    "Httpolice.Props.C09_string1",
    "Httpolice.Props.C09_recursive",
    "Httpolice.Props.C09_usable",
    "Httpolice.Props.C09_usable_later",
    "Httpolice.Props.C09_built",
    "Httpolice.Props.C09_parses"
   ],
   "note": "Combinators denote the expected languages"
  },
  {
   "property": "C10",
   "status": "proved",
   "theorems": [
    "Httpolice.Props.C10_comma_list",
    "Httpolice.Props.C10_comma_list1",
    "Httpolice.Props.C10_rfc",
    "Httpolice.Props.C10_parses"
   ],
   "note": "comma_list accepts the RFC 7230 list syntax"
  },
  {
   "property": "C11",
   "status": "proved",
   "theorems": [
    "Httpolice.Props.C11_readline",
    "Httpolice.Props.C11_no_line",
    "Httpolice.Props.C11_cases"
   ],
   "note": "Line reading"
  },
  {
   "property": "C12",
   "status": "proved",
   "theorems": [
    "Httpolice.Props.C12_terminates",
    "Httpolice.Props.C12_ranges"
   ],
   "note": "Stream analysis terminates and only moves forward"
  },
  {
   "property": "C13",
   "status": "partial",
   "theorems": [
    "Httpolice.Props.C13_no_exception_partial",
    "Httpolice.Props.C13_only_value_error",
    "Httpolice.Props.C13_false"
   ],
   "note": "False of the code: a chunk-size line denoting a number below -1 makes read() raise ValueError, which nothing catches (C13_false). Proved: no exception when no line of either stream starts, after white space, with a minus sign (C13_no_exception_partial), and ValueError is the only exception that can escape (C13_only_value_error). Content-Length with more than 4300 digits on recent CPython is outside the model."
  },
  {
   "property": "C14",
   "status": "proved",
   "theorems": [
    "Httpolice.Props.C14_request",
    "Httpolice.Props.C14_stream"
   ],
   "note": "Well-formed requests are recovered exactly"
  },
  {
   "property": "C15",
   "status": "proved",
   "theorems": [
    "Httpolice.Props.C15_request",
    "Httpolice.Props.C15_response",
    "Httpolice.Props.C15_stream"
   ],
   "note": "Chunked bodies are recovered from any chunking"
  },
  {
   "property": "C16",
   "status": "proved",
   "theorems": [
    "Httpolice.Props.C16_pipelining"
   ],
   "note": "Pipelined exchanges are paired in order"
  },
  {
   "property": "C17",
   "status": "proved",
   "theorems": [
    "Httpolice.Props.C17_request_length",
    "Httpolice.Props.C17_response_length",
    "Httpolice.Props.C17_response_none",
    "Httpolice.Props.C17_chunked",
    "Httpolice.Props.C17_request_stop",
    "Httpolice.Props.C17_response_stop",
    "Httpolice.Props.C17_oversized"
   ],
   "note": "Bodies respect their declared length and the size limit"
  },
  {
   "property": "C18",
   "status": "proved",
   "theorems": [
    "Httpolice.Props.C18_shape",
    "Httpolice.Props.C18_final"
   ],
   "note": "Response lists have the HTTP shape"
  },
  {
   "property": "C19",
   "status": "proved",
   "theorems": [
    "Httpolice.Props.C19_nothing_after",
    "Httpolice.Props.C19_response"
   ],
   "note": "Nothing is parsed as HTTP after a protocol switch"
  },
  {
   "property": "C20",
   "status": "proved",
   "theorems": [
    "Httpolice.Props.C20_1007",
    "Httpolice.Props.C20_1010",
    "Httpolice.Props.C20_order"
   ],
   "note": "Leftover data is reported exactly when there is some"
  },
  {
   "property": "C21",
   "status": "proved",
   "theorems": [
    "Httpolice.Props.C21_block",
    "Httpolice.Props.C21_block_only",
    "Httpolice.Props.C21_request_heading",
    "Httpolice.Props.C21_response_heading",
    "Httpolice.Props.C21_no_colon"
   ],
   "note": "Header block parsing"
  },
  {
   "property": "C22",
   "status": "proved",
   "theorems": [
    "Httpolice.Props.C22_request",
    "Httpolice.Props.C22_response",
    "Httpolice.Props.C22_own_lines"
   ],
   "note": "Line-level notices are attributed to the right message"
  },
  {
   "property": "C23",
   "status": "proved",
   "theorems": [
    "Httpolice.Props.C23_complain_once_in_order"
   ],
   "note": "Notices are reported once, in order"
  },
  {
   "property": "C24",
   "status": "proved",
   "theorems": [
    "Httpolice.Props.C24_silence_exact",
    "Httpolice.Props.C24_interleaving_irrelevant"
   ],
   "note": "Silencing removes exactly the silenced notices, at any time, recursively"
  },
  {
   "property": "C25",
   "status": "partial",
   "theorems": [
    "Httpolice.Props.C25_reusable_partial",
    "Httpolice.Props.C25_false_for_one_shot"
   ],
   "note": "Holds for re-iterable collections; the full statement (any iterable) is false of the code and its negation is proved."
  },
  {
   "property": "C26",
   "status": "proved",
   "theorems": [
    "Httpolice.Props.C26_single",
    "Httpolice.Props.C26_none_iff",
    "Httpolice.Props.C26_unknown"
   ],
   "note": "Headers that may appear once"
  },
  {
   "property": "C27",
   "status": "proved",
   "theorems": [
    "Httpolice.Props.C27_lists",
    "Httpolice.Props.C27_split",
    "Httpolice.Props.C27_singular_alone",
    "Httpolice.Props.C27_singular_combined"
   ],
   "note": "List headers spread over several entries"
  },
  {
   "property": "C28",
   "status": "proved",
   "theorems": [
    "Httpolice.Props.C28_ignored",
    "Httpolice.Props.C28_allowed",
    "Httpolice.Props.C28_reported"
   ],
   "note": "Trailer fields forbidden in trailers are ignored"
  },
  {
   "property": "C29",
   "status": "partial",
   "theorems": [
    "Httpolice.Props.C29_single_partial",
    "Httpolice.Props.C29_unknown_partial",
    "Httpolice.Props.C29_multi_partial",
    "Httpolice.Props.C29_false_for_multi"
   ],
   "note": "Proved for single and unknown headers. For list headers the statement is false of the code (an absent one counts as an empty list): its negation and what does hold are proved."
  },
  {
   "property": "C30",
   "status": "proved",
   "theorems": [
    "Httpolice.Props.C30_equivalence",
    "Httpolice.Props.C30_symmetric",
    "Httpolice.Props.C30_hash",
    "Httpolice.Props.C30_lookup",
    "Httpolice.Props.C30_prefix",
    "Httpolice.Props.C30_mixed_not_transitive"
   ],
   "note": "Case-insensitive strings form an equivalence with consistent hashing"
  },
  {
   "property": "C31",
   "status": "proved",
   "theorems": [
    "Httpolice.Props.C31_getitem",
    "Httpolice.Props.C31_getall",
    "Httpolice.Props.C31_iter",
    "Httpolice.Props.C31_contains",
    "Httpolice.Props.C31_get",
    "Httpolice.Props.C31_len",
    "Httpolice.Props.C31_index",
    "Httpolice.Props.C31_duplicates"
   ],
   "note": "MultiDict refines a list of pairs"
  },
  {
   "property": "C32",
   "status": "proved",
   "theorems": [
    "Httpolice.Props.C32_strong_iff",
    "Httpolice.Props.C32_weak_equivalence",
    "Httpolice.Props.C32_strong_laws"
   ],
   "note": "Entity tag comparison follows RFC 7232"
  },
  {
   "property": "C33",
   "status": "proved",
   "theorems": [
    "Httpolice.Props.C33_pop_pseudo_headers"
   ],
   "note": "Pseudo-headers are partitioned off"
  },
  {
   "property": "C34",
   "status": "proved",
   "theorems": [
    "Httpolice.Props.C34_headers_from_cgi",
    "Httpolice.Props.C34_header_name"
   ],
   "note": "CGI variables become headers without loss"
  },
  {
   "property": "C35",
   "status": "proved",
   "theorems": [
    "Httpolice.Props.C35_prefix",
    "Httpolice.Props.C35_interleaving",
    "Httpolice.Props.C35_once",
    "Httpolice.Props.C35_empty_raises",
    "Httpolice.Props.C35_age_raises",
    "Httpolice.Props.C35_connections",
    "Httpolice.Props.C35_arguments"
   ],
   "note": "Interleaving connections loses and reorders nothing"
  },
  {
   "property": "C36",
   "status": "proved",
   "theorems": [
    "Httpolice.Props.C36_sorted"
   ],
   "note": "Interleaving follows time"
  },
  {
   "property": "C37",
   "status": "proved",
   "theorems": [
    "Httpolice.Props.C37_pairs",
    "Httpolice.Props.C37_distinct"
   ],
   "note": "Captured streams are paired up exactly"
  },
  {
   "property": "C38",
   "status": "proved",
   "theorems": [
    "Httpolice.Props.C38_split",
    "Httpolice.Props.C38_whole",
    "Httpolice.Props.C38_errors",
    "Httpolice.Props.C38_scheme"
   ],
   "note": "Combined files split at the first markers"
  },
  {
   "property": "C39",
   "status": "proved",
   "theorems": [
    "Httpolice.Props.C39_outbound",
    "Httpolice.Props.C39_inbound",
    "Httpolice.Props.C39_direction",
    "Httpolice.Props.C39_fails",
    "Httpolice.Props.C39_symmetric",
    "Httpolice.Props.C39_notice",
    "Httpolice.Props.C39_given"
   ],
   "note": "Direction sniffing"
  },
  {
   "property": "C40",
   "status": "proved",
   "theorems": [
    "Httpolice.Props.C40_status",
    "Httpolice.Props.C40_reported"
   ],
   "note": "Exit status reflects the reported notices"
  },
  {
   "property": "C41",
   "status": "proved",
   "theorems": [
    "Httpolice.Props.C41_silent",
    "Httpolice.Props.C41_block",
    "Httpolice.Props.C41_markers",
    "Httpolice.Props.C41_notices",
    "Httpolice.Props.C41_encodable"
   ],
   "note": "Text report shows exactly the visible notices"
  },
  {
   "property": "C42",
   "status": "proved",
   "theorems": [
    "Httpolice.Props.C42_printable",
    "Httpolice.Props.C42_printable_clean",
    "Httpolice.Props.C42_ellipsize",
    "Httpolice.Props.C42_detypographize",
    "Httpolice.Props.C42_detypographize_clean"
   ],
   "note": "Report text is clean"
  },
  {
   "property": "C43",
   "status": "proved",
   "theorems": [
    "Httpolice.Props.C43_format_chars"
   ],
   "note": "Character lists in error messages are faithful"
  },
  {
   "property": "C44",
   "status": "proved",
   "theorems": [
    "Httpolice.Props.C44_duplicates"
   ],
   "note": "Duplicates are found exactly"
  },
  {
   "property": "C45",
   "status": "proved",
   "theorems": [
    "Httpolice.Props.C45_extra_final_responses"
   ],
   "note": "Extra final responses are flagged"
  },
  {
   "property": "C46",
   "status": "proved",
   "theorems": [
    "Httpolice.Props.C46_continue_before_switching"
   ],
   "note": "100-continue before 101"
  },
  {
   "property": "C47",
   "status": "proved",
   "theorems": [
    "Httpolice.Props.C47_decoded",
    "Httpolice.Props.C47_unknown_body",
    "Httpolice.Props.C47_round_trip"
   ],
   "note": "Content codings are undone in reverse order"
  },
  {
   "property": "C48",
   "status": "proved",
   "theorems": [
    "Httpolice.Props.C48_unambiguous",
    "Httpolice.Props.C48_accepts",
    "Httpolice.Props.C48_reads",
    "Httpolice.Props.C48_instant",
    "Httpolice.Props.C48_weekdays",
    "Httpolice.Props.C48_notes",
    "Httpolice.Props.C48_round_trip"
   ],
   "note": "Dates are read exactly"
  },
  {
   "property": "C49",
   "status": "proved",
   "theorems": [
    "Httpolice.Props.C49_no_assertion",
    "Httpolice.Props.C49_class_case",
    "Httpolice.Props.C49_lookups",
    "Httpolice.Props.C49_unknown_has_no_syntax",
    "Httpolice.Props.C49_table_loads"
   ],
   "note": "Header name lookup never hits an internal assertion"
  },
  {
   "property": "C50",
   "status": "proved",
   "theorems": [
    "Httpolice.Props.C50_once",
    "Httpolice.Props.C50_same",
    "Httpolice.Props.C50_assigned"
   ],
   "note": "Derived properties are computed once"
  },
  {
   "property": "C51",
   "status": "proved",
   "theorems": [
    "Httpolice.Props.C51_local_silencing"
   ],
   "note": "Local silencing through HTTPolice-Silence"
  },
  {
   "property": "C52",
   "status": "proved",
   "theorems": [
    "Httpolice.Props.C52_names",
    "Httpolice.Props.C52_enumerate_mem",
    "Httpolice.Props.C52_enumerate_order"
   ],
   "note": "Header enumeration and names"
  },
  {
   "property": "C53",
   "status": "proved",
   "theorems": [
    "Httpolice.Props.C53_lookup",
    "Httpolice.Props.C53_reports",
    "Httpolice.Props.C53_cache",
    "Httpolice.Props.C53_header"
   ],
   "note": "Directive lookup"
  },
  {
   "property": "C54",
   "status": "proved",
   "theorems": [
    "Httpolice.Props.C54_raises_alike",
    "Httpolice.Props.C54_request_only_adds",
    "Httpolice.Props.C54_reports_alike",
    "Httpolice.Props.C54_none_without"
   ],
   "note": "Checks without a request"
  },
  {
   "property": "C55",
   "status": "proved",
   "theorems": [
    "Httpolice.Props.C55_range_unambiguous",
    "Httpolice.Props.C55_content_range_unambiguous",
    "Httpolice.Props.C55_range_accepts",
    "Httpolice.Props.C55_range_reads",
    "Httpolice.Props.C55_content_range_accepts",
    "Httpolice.Props.C55_content_range_reads",
    "Httpolice.Props.C55_accept_ranges",
    "Httpolice.Props.C55_range_notes"
   ],
   "note": "Byte ranges"
  },
  {
   "property": "C56",
   "status": "proved",
   "theorems": [
    "Httpolice.Props.C56_nicely_join"
   ],
   "note": "Joining for humans"
  },
  {
   "property": "C57",
   "status": "proved",
   "theorems": [
    "Httpolice.Props.C57_module",
    "Httpolice.Props.C57_module_parses",
    "Httpolice.Props.C57_values",
    "Httpolice.Props.C57_accepts",
    "Httpolice.Props.C57_parses",
    "Httpolice.Props.C57_named",
    "Httpolice.Props.C57_named_uses",
    "Httpolice.Props.C57_recursive",
    "Httpolice.Props.C57_times",
    "Httpolice.Props.C57_string",
    "Httpolice.Props.C57_echoes"
   ],
   "note": "Values of grammar expressions do not depend on how they are compiled to rules"
  },
  {
   "property": "C58",
   "status": "proved",
   "theorems": [
    "Httpolice.Props.C58_raises"
   ],
   "note": "Exceptions from checking an exchange"
  },
  {
   "property": "C59",
   "status": "proved",
   "theorems": [
    "Httpolice.Props.C59_notice_1048",
    "Httpolice.Props.C59_notice_1078",
    "Httpolice.Props.C59_notice_1079",
    "Httpolice.Props.C59_notice_1080",
    "Httpolice.Props.C59_notice_1084",
    "Httpolice.Props.C59_notice_1205",
    "Httpolice.Props.C59_notice_1089",
    "Httpolice.Props.C59_notice_1094",
    "Httpolice.Props.C59_notice_1110",
    "Httpolice.Props.C59_notice_1194",
    "Httpolice.Props.C59_notice_1195",
    "Httpolice.Props.C59_notice_1138",
    "Httpolice.Props.C59_notice_1073",
    "Httpolice.Props.C59_notice_1150",
    "Httpolice.Props.C59_notice_1215",
    "Httpolice.Props.C59_notice_1216",
    "Httpolice.Props.C59_notice_1031",
    "Httpolice.Props.C59_notice_1021",
    "Httpolice.Props.C59_notice_1070",
    "Httpolice.Props.C59_notice_1134",
    "Httpolice.Props.C59_notice_1231"
   ],
   "note": "Missing headers"
  },
  {
   "property": "C60",
   "status": "proved",
   "theorems": [
    "Httpolice.Props.C60_notice_1240",
    "Httpolice.Props.C60_notice_1076",
    "Httpolice.Props.C60_notice_1239",
    "Httpolice.Props.C60_notice_1056",
    "Httpolice.Props.C60_notice_1057",
    "Httpolice.Props.C60_notice_1059",
    "Httpolice.Props.C60_notice_1061",
    "Httpolice.Props.C60_notice_1062",
    "Httpolice.Props.C60_notice_1022",
    "Httpolice.Props.C60_notice_1098",
    "Httpolice.Props.C60_notice_1099"
   ],
   "note": "Bodies where there should be none"
  },
  {
   "property": "C61",
   "status": "proved",
   "theorems": [
    "Httpolice.Props.C61_notice_1063",
    "Httpolice.Props.C61_notice_1064",
    "Httpolice.Props.C61_notice_1018",
    "Httpolice.Props.C61_notice_1023",
    "Httpolice.Props.C61_notice_1198",
    "Httpolice.Props.C61_notice_1052",
    "Httpolice.Props.C61_notice_1112",
    "Httpolice.Props.C61_notice_1113",
    "Httpolice.Props.C61_notice_1147",
    "Httpolice.Props.C61_notice_1127",
    "Httpolice.Props.C61_notice_1019",
    "Httpolice.Props.C61_notice_1024",
    "Httpolice.Props.C61_notice_1199",
    "Httpolice.Props.C61_notice_1306",
    "Httpolice.Props.C61_notice_1246",
    "Httpolice.Props.C61_notice_1258",
    "Httpolice.Props.C61_notice_1260",
    "Httpolice.Props.C61_notice_1221",
    "Httpolice.Props.C61_notice_1066",
    "Httpolice.Props.C61_notice_1053",
    "Httpolice.Props.C61_notice_1067",
    "Httpolice.Props.C61_notice_1132",
    "Httpolice.Props.C61_notice_1122",
    "Httpolice.Props.C61_notice_1130",
    "Httpolice.Props.C61_notice_1131"
   ],
   "note": "Headers that make no sense in a message"
  },
  {
   "property": "C62",
   "status": "proved",
   "theorems": [
    "Httpolice.Props.C62_notice_1072",
    "Httpolice.Props.C62_notice_1074",
    "Httpolice.Props.C62_notice_1095",
    "Httpolice.Props.C62_notice_1058",
    "Httpolice.Props.C62_notice_1071",
    "Httpolice.Props.C62_notice_1051",
    "Httpolice.Props.C62_notice_1049",
    "Httpolice.Props.C62_notice_1100",
    "Httpolice.Props.C62_notice_1097",
    "Httpolice.Props.C62_notice_1090",
    "Httpolice.Props.C62_notice_1114",
    "Httpolice.Props.C62_notice_1115",
    "Httpolice.Props.C62_notice_1124",
    "Httpolice.Props.C62_notice_1125",
    "Httpolice.Props.C62_notice_1136",
    "Httpolice.Props.C62_notice_1137",
    "Httpolice.Props.C62_notice_1149",
    "Httpolice.Props.C62_notice_1200",
    "Httpolice.Props.C62_notice_1105"
   ],
   "note": "Responses that contradict their request"
  },
  {
   "property": "C63",
   "status": "proved",
   "theorems": [
    "Httpolice.Props.C63_notice_1161",
    "Httpolice.Props.C63_notice_1162",
    "Httpolice.Props.C63_notice_1301",
    "Httpolice.Props.C63_notice_1283"
   ],
   "note": "Directives to caches"
  },
  {
   "property": "C64",
   "status": "proved",
   "theorems": [
    "Httpolice.Props.C64_notice_1020",
    "Httpolice.Props.C64_notice_1030",
    "Httpolice.Props.C64_notice_1034",
    "Httpolice.Props.C64_notice_1035",
    "Httpolice.Props.C64_notice_1042",
    "Httpolice.Props.C64_notice_1280",
    "Httpolice.Props.C64_notice_1054",
    "Httpolice.Props.C64_notice_1109",
    "Httpolice.Props.C64_notice_1163",
    "Httpolice.Props.C64_notice_1164",
    "Httpolice.Props.C64_notice_1160",
    "Httpolice.Props.C64_notice_1228",
    "Httpolice.Props.C64_notice_1293",
    "Httpolice.Props.C64_notice_1197",
    "Httpolice.Props.C64_notice_1277",
    "Httpolice.Props.C64_notice_1050",
    "Httpolice.Props.C64_notice_1191",
    "Httpolice.Props.C64_notice_1192",
    "Httpolice.Props.C64_notice_1245",
    "Httpolice.Props.C64_notice_1244",
    "Httpolice.Props.C64_notice_1233",
    "Httpolice.Props.C64_notice_1189",
    "Httpolice.Props.C64_notice_1190"
   ],
   "note": "Notices common to requests and responses"
  },
  {
   "property": "C65",
   "status": "proved",
   "theorems": [
    "Httpolice.Props.C65_notice_1025",
    "Httpolice.Props.C65_notice_1047",
    "Httpolice.Props.C65_notice_1046",
    "Httpolice.Props.C65_notice_1237",
    "Httpolice.Props.C65_notice_1236"
   ],
   "note": "Exactly when notices about connections and proxies are reported"
  },
  {
   "property": "C66",
   "status": "proved",
   "theorems": [
    "Httpolice.Props.C66_notice_1294",
    "Httpolice.Props.C66_notice_1167",
    "Httpolice.Props.C66_notice_1082",
    "Httpolice.Props.C66_notice_1083",
    "Httpolice.Props.C66_notice_1088",
    "Httpolice.Props.C66_notice_1111",
    "Httpolice.Props.C66_notice_1118",
    "Httpolice.Props.C66_notice_1143",
    "Httpolice.Props.C66_notice_1141",
    "Httpolice.Props.C66_notice_1142",
    "Httpolice.Props.C66_notice_1243",
    "Httpolice.Props.C66_notice_1041",
    "Httpolice.Props.C66_notice_1041_req",
    "Httpolice.Props.C66_notice_1055",
    "Httpolice.Props.C66_notice_1060",
    "Httpolice.Props.C66_notice_1085",
    "Httpolice.Props.C66_notice_1086",
    "Httpolice.Props.C66_notice_1284",
    "Httpolice.Props.C66_notice_1077",
    "Httpolice.Props.C66_notice_1081",
    "Httpolice.Props.C66_notice_1092",
    "Httpolice.Props.C66_notice_1096",
    "Httpolice.Props.C66_notice_1201",
    "Httpolice.Props.C66_notice_1203",
    "Httpolice.Props.C66_notice_1242",
    "Httpolice.Props.C66_notice_1087",
    "Httpolice.Props.C66_notice_1106",
    "Httpolice.Props.C66_notice_1204",
    "Httpolice.Props.C66_notice_1104"
   ],
   "note": "Exactly when notices about statuses, redirects and empty bodies are reported"
  },
  {
   "property": "C67",
   "status": "proved",
   "theorems": [
    "Httpolice.Props.C67_notice_1241",
    "Httpolice.Props.C67_notice_1168",
    "Httpolice.Props.C67_notice_1169",
    "Httpolice.Props.C67_notice_1183",
    "Httpolice.Props.C67_notice_1184",
    "Httpolice.Props.C67_notice_1185",
    "Httpolice.Props.C67_notice_1166",
    "Httpolice.Props.C67_notice_1175",
    "Httpolice.Props.C67_notice_1176",
    "Httpolice.Props.C67_notice_1202",
    "Httpolice.Props.C67_notice_1177",
    "Httpolice.Props.C67_notice_1179",
    "Httpolice.Props.C67_notice_1178",
    "Httpolice.Props.C67_notice_1180",
    "Httpolice.Props.C67_notice_1181",
    "Httpolice.Props.C67_notice_1182",
    "Httpolice.Props.C67_notice_1186",
    "Httpolice.Props.C67_notice_1187",
    "Httpolice.Props.C67_notice_1302",
    "Httpolice.Props.C67_notice_1303",
    "Httpolice.Props.C67_notice_1172",
    "Httpolice.Props.C67_notice_1170",
    "Httpolice.Props.C67_notice_1173",
    "Httpolice.Props.C67_notice_1174",
    "Httpolice.Props.C67_notice_1188"
   ],
   "note": "Exactly when notices about responses from caches are reported"
  },
  {
   "property": "C68",
   "status": "proved",
   "theorems": [
    "Httpolice.Props.C68_notice_1152",
    "Httpolice.Props.C68_notice_1153",
    "Httpolice.Props.C68_notice_1159",
    "Httpolice.Props.C68_notice_1165",
    "Httpolice.Props.C68_notice_1171",
    "Httpolice.Props.C68_notice_1193_request",
    "Httpolice.Props.C68_notice_1193",
    "Httpolice.Props.C68_notice_1238",
    "Httpolice.Props.C68_notice_1117",
    "Httpolice.Props.C68_notice_1120",
    "Httpolice.Props.C68_notice_1121",
    "Httpolice.Props.C68_notice_1123",
    "Httpolice.Props.C68_notice_1128",
    "Httpolice.Props.C68_notice_1129",
    "Httpolice.Props.C68_notice_1135",
    "Httpolice.Props.C68_notice_1144",
    "Httpolice.Props.C68_notice_1145",
    "Httpolice.Props.C68_notice_1146"
   ],
   "note": "Exactly when notices about cache directives, conditional requests and ranges are reported"
  },
  {
   "property": "C69",
   "status": "proved",
   "theorems": [
    "Httpolice.Props.C69_notice_1209",
    "Httpolice.Props.C69_notice_1210",
    "Httpolice.Props.C69_notice_1211",
    "Httpolice.Props.C69_notice_1212",
    "Httpolice.Props.C69_notice_1261",
    "Httpolice.Props.C69_notice_1262",
    "Httpolice.Props.C69_notice_1274",
    "Httpolice.Props.C69_notice_1270",
    "Httpolice.Props.C69_notice_1271",
    "Httpolice.Props.C69_notice_1272",
    "Httpolice.Props.C69_notice_1273",
    "Httpolice.Props.C69_notice_1206",
    "Httpolice.Props.C69_notice_1208",
    "Httpolice.Props.C69_notice_1207",
    "Httpolice.Props.C69_notice_1263",
    "Httpolice.Props.C69_notice_1264",
    "Httpolice.Props.C69_notice_1265",
    "Httpolice.Props.C69_notice_1266",
    "Httpolice.Props.C69_notice_1267",
    "Httpolice.Props.C69_notice_1268",
    "Httpolice.Props.C69_notice_1269"
   ],
   "note": "Exactly when notices about authentication are reported"
  },
  {
   "property": "C70",
   "status": "proved",
   "theorems": [
    "Httpolice.Props.C70_notice_1247",
    "Httpolice.Props.C70_notice_1248",
    "Httpolice.Props.C70_notice_1249",
    "Httpolice.Props.C70_notice_1250",
    "Httpolice.Props.C70_notice_1251",
    "Httpolice.Props.C70_notice_1252",
    "Httpolice.Props.C70_notice_1218",
    "Httpolice.Props.C70_notice_1219",
    "Httpolice.Props.C70_notice_1220",
    "Httpolice.Props.C70_notice_1227",
    "Httpolice.Props.C70_notice_1235",
    "Httpolice.Props.C70_notice_1213",
    "Httpolice.Props.C70_notice_1214",
    "Httpolice.Props.C70_notice_1217",
    "Httpolice.Props.C70_notice_1310",
    "Httpolice.Props.C70_notice_1276",
    "Httpolice.Props.C70_notice_1068",
    "Httpolice.Props.C70_notice_1093",
    "Httpolice.Props.C70_notice_1116",
    "Httpolice.Props.C70_notice_1292",
    "Httpolice.Props.C70_notice_1295",
    "Httpolice.Props.C70_notice_1045",
    "Httpolice.Props.C70_notice_1028",
    "Httpolice.Props.C70_notice_1029",
    "Httpolice.Props.C70_notice_1032",
    "Httpolice.Props.C70_notice_1033"
   ],
   "note": "Notices about particular headers are reported exactly when they apply"
  },
  {
   "property": "C71",
   "status": "proved",
   "theorems": [
    "Httpolice.Props.C71_notice_1230",
    "Httpolice.Props.C71_notice_1232",
    "Httpolice.Props.C71_notice_1234",
    "Httpolice.Props.C71_notice_1101",
    "Httpolice.Props.C71_notice_1102",
    "Httpolice.Props.C71_notice_1103",
    "Httpolice.Props.C71_notice_1285",
    "Httpolice.Props.C71_notice_1287",
    "Httpolice.Props.C71_notice_1288",
    "Httpolice.Props.C71_notice_1289",
    "Httpolice.Props.C71_notice_1290",
    "Httpolice.Props.C71_notice_1286",
    "Httpolice.Props.C71_notice_1291"
   ],
   "note": "Notices about upgrades and preferences are reported exactly when they apply"
  },
  {
   "property": "C72",
   "status": "proved",
   "theorems": [
    "Httpolice.Props.C72_etag",
    "Httpolice.Props.C72_if_match",
    "Httpolice.Props.C72_if_none_match",
    "Httpolice.Props.C72_dates",
    "Httpolice.Props.C72_if_range",
    "Httpolice.Props.C72_values"
   ],
   "note": "Entity tags and conditional headers are read exactly"
  },
  {
   "property": "C73",
   "status": "proved",
   "theorems": [
    "Httpolice.Props.C73_connection",
    "Httpolice.Props.C73_trailer",
    "Httpolice.Props.C73_upgrade",
    "Httpolice.Props.C73_transfer_encoding",
    "Httpolice.Props.C73_te",
    "Httpolice.Props.C73_content_length"
   ],
   "note": "Headers for one connection are read exactly"
  },
  {
   "property": "C74",
   "status": "proved",
   "theorems": [
    "Httpolice.Props.C74_cache_control",
    "Httpolice.Props.C74_pragma",
    "Httpolice.Props.C74_field_names",
    "Httpolice.Props.C74_seconds",
    "Httpolice.Props.C74_expires"
   ],
   "note": "Headers for caches are read exactly"
  },
  {
   "property": "C75",
   "status": "proved",
   "theorems": [
    "Httpolice.Props.C75_content_type",
    "Httpolice.Props.C75_accept",
    "Httpolice.Props.C75_accept_charset",
    "Httpolice.Props.C75_accept_encoding",
    "Httpolice.Props.C75_content_encoding",
    "Httpolice.Props.C75_allow",
    "Httpolice.Props.C75_vary",
    "Httpolice.Props.C75_retry_after",
    "Httpolice.Props.C75_date",
    "Httpolice.Props.C75_max_forwards",
    "Httpolice.Props.C75_expect"
   ],
   "note": "Media types, preferences and other headers of RFC 7231 are read exactly"
  },
  {
   "property": "C76",
   "status": "proved",
   "theorems": [
    "Httpolice.Props.C76_credentials",
    "Httpolice.Props.C76_challenges"
   ],
   "note": "Challenges and credentials are read exactly"
  },
  {
   "property": "C77",
   "status": "proved",
   "theorems": [
    "Httpolice.Props.C77_reference",
    "Httpolice.Props.C77_absolute",
    "Httpolice.Props.C77_uri",
    "Httpolice.Props.C77_no_fragment",
    "Httpolice.Props.C77_host",
    "Httpolice.Props.C77_ipv6",
    "Httpolice.Props.C77_ipv4",
    "Httpolice.Props.C77_any_target",
    "Httpolice.Props.C77_target_later",
    "Httpolice.Props.C77_target"
   ],
   "note": "URIs, hosts and request targets are read exactly"
  },
  {
   "property": "C78",
   "status": "proved",
   "theorems": [
    "Httpolice.Props.C78_prefer",
    "Httpolice.Props.C78_preference_applied",
    "Httpolice.Props.C78_return",
    "Httpolice.Props.C78_handling",
    "Httpolice.Props.C78_wait",
    "Httpolice.Props.C78_strict_transport_security",
    "Httpolice.Props.C78_max_age",
    "Httpolice.Props.C78_silence",
    "Httpolice.Props.C78_accept_patch",
    "Httpolice.Props.C78_accept_post",
    "Httpolice.Props.C78_http2_settings"
   ],
   "note": "Prefer, Strict-Transport-Security, HTTPolice-Silence and other small headers are read exactly"
  },
  {
   "property": "C79",
   "status": "proved",
   "theorems": [
    "Httpolice.Props.C79_params",
    "Httpolice.Props.C79_link"
   ],
   "note": "Link is read exactly, and raises exactly where a value is lacking"
  },
  {
   "property": "C80",
   "status": "proved",
   "theorems": [
    "Httpolice.Props.C80_forwarded",
    "Httpolice.Props.C80_element",
    "Httpolice.Props.C80_node",
    "Httpolice.Props.C80_origin",
    "Httpolice.Props.C80_allow_origin",
    "Httpolice.Props.C80_allow_credentials",
    "Httpolice.Props.C80_request_method",
    "Httpolice.Props.C80_request_headers",
    "Httpolice.Props.C80_field_names",
    "Httpolice.Props.C80_allow_methods",
    "Httpolice.Props.C80_max_age",
    "Httpolice.Props.C80_content_type_options",
    "Httpolice.Props.C80_resource_policy",
    "Httpolice.Props.C80_scope",
    "Httpolice.Props.C80_error",
    "Httpolice.Props.C80_error_uri"
   ],
   "note": "Forwarded, the headers of cross-origin requests, and the parameters of Bearer challenges are read exactly"
  },
  {
   "property": "C81",
   "status": "proved",
   "theorems": [
    "Httpolice.Props.C81_language_tag",
    "Httpolice.Props.C81_language_range",
    "Httpolice.Props.C81_accept_language",
    "Httpolice.Props.C81_content_language",
    "Httpolice.Props.C81_asked"
   ],
   "note": "Language tags, language ranges, Content-Language and Accept-Language are read exactly"
  },
  {
   "property": "C82",
   "status": "proved",
   "theorems": [
    "Httpolice.Props.C82_utf8",
    "Httpolice.Props.C82_unquote",
    "Httpolice.Props.C82_ext_value",
    "Httpolice.Props.C82_content_disposition",
    "Httpolice.Props.C82_rel",
    "Httpolice.Props.C82_type",
    "Httpolice.Props.C82_hreflang",
    "Httpolice.Props.C82_anchor",
    "Httpolice.Props.C82_parsers",
    "Httpolice.Props.C82_argument"
   ],
   "note": "Encoded values, Content-Disposition and the values of parameters of links are read exactly"
  },
  {
   "property": "C83",
   "status": "proved",
   "theorems": [
    "Httpolice.Props.C83_correct",
    "Httpolice.Props.C83_canonical",
    "Httpolice.Props.C83_authority",
    "Httpolice.Props.C83_protocol",
    "Httpolice.Props.C83_alt_svc",
    "Httpolice.Props.C83_alt_used",
    "Httpolice.Props.C83_ma",
    "Httpolice.Props.C83_persist",
    "Httpolice.Props.C83_whole"
   ],
   "note": "Alt-Svc and Alt-Used are read exactly"
  },
  {
   "property": "C84",
   "status": "proved",
   "theorems": [
    "Httpolice.Props.C84_comment",
    "Httpolice.Props.C84_user_agent",
    "Httpolice.Props.C84_server",
    "Httpolice.Props.C84_via",
    "Httpolice.Props.C84_warning"
   ],
   "note": "Comments, User-Agent, Server, Via and Warning are read exactly"
  },
  {
   "property": "C85",
   "status": "proved",
   "theorems": [
    "Httpolice.Props.C85_exchanges",
    "Httpolice.Props.C85_files",
    "Httpolice.Props.C85_no_loss",
    "Httpolice.Props.C85_crash"
   ],
   "note": "HAR files are read faithfully, and failures to read them are input errors"
  },
  {
   "property": "C86",
   "status": "proved",
   "theorems": [
    "Httpolice.Props.C86_plain",
    "Httpolice.Props.C86_transfer_encoding",
    "Httpolice.Props.C86_te",
    "Httpolice.Props.C86_content_length",
    "Httpolice.Props.C86_content_type",
    "Httpolice.Props.C86_accept",
    "Httpolice.Props.C86_date",
    "Httpolice.Props.C86_accept_patch",
    "Httpolice.Props.C86_accept_post",
    "Httpolice.Props.C86_via",
    "Httpolice.Props.C86_warning",
    "Httpolice.Props.C86_cache_control",
    "Httpolice.Props.C86_strict_transport_security",
    "Httpolice.Props.C86_prefer",
    "Httpolice.Props.C86_alt_svc",
    "Httpolice.Props.C86_forwarded"
   ],
   "note": "Entries of headers come to the value that is written in them, arguments included, with just the notices that are due"
  },
  {
   "property": "C87",
   "status": "proved",
   "theorems": [
    "Httpolice.Props.C87_loads",
    "Httpolice.Props.C87_get",
    "Httpolice.Props.C87_accessor",
    "Httpolice.Props.C87_name",
    "Httpolice.Props.C87_rfc",
    "Httpolice.Props.C87_flag",
    "Httpolice.Props.C87_member",
    "Httpolice.Props.C87_media",
    "Httpolice.Props.C87_title"
   ],
   "note": "What is known about a header, a method, a status code and so on is exactly what its row in the table says"
  },
  {
   "property": "C88",
   "status": "proved",
   "theorems": [
    "Httpolice.Props.C88_shown",
    "Httpolice.Props.C88_points",
    "Httpolice.Props.C88_anonymous",
    "Httpolice.Props.C88_markup",
    "Httpolice.Props.C88_body",
    "Httpolice.Props.C88_same_title"
   ],
   "note": "The HTML report shows each exchange in full and every highlighted reference leads to the thing it is about"
  },
  {
   "property": "C89",
   "status": "proved",
   "theorems": [
    "Httpolice.Props.C89_literate",
    "Httpolice.Props.C89_sensible",
    "Httpolice.Props.C89_headers",
    "Httpolice.Props.C89_oauth",
    "Httpolice.Props.C89_ready"
   ],
   "note": "The checks act on exactly what is written in headers"
  },
  {
   "property": "C90",
   "status": "proved",
   "theorems": [
    "Httpolice.Props.C90_form",
    "Httpolice.Props.C90_ids",
    "Httpolice.Props.C90_apart",
    "Httpolice.Props.C90_own",
    "Httpolice.Props.C90_malformed",
    "Httpolice.Props.C90_sources",
    "Httpolice.Props.C90_trailer",
    "Httpolice.Props.C90_alone",
    "Httpolice.Props.C90_repeated"
   ],
   "note": "A header is reported as malformed just if it is not written as the RFC says"
  },
  {
   "property": "C91",
   "status": "proved",
   "theorems": [
    "Httpolice.Props.C91_target",
    "Httpolice.Props.C91_sensible",
    "Httpolice.Props.C91_elsewhere",
    "Httpolice.Props.C91_own",
    "Httpolice.Props.C91_notice_1045",
    "Httpolice.Props.C91_notice_1036",
    "Httpolice.Props.C91_notice_1037",
    "Httpolice.Props.C91_notice_1038",
    "Httpolice.Props.C91_notice_1281",
    "Httpolice.Props.C91_notice_1039",
    "Httpolice.Props.C91_notice_1275",
    "Httpolice.Props.C91_notice_1139",
    "Httpolice.Props.C91_notice_1140",
    "Httpolice.Props.C91_notice_1040",
    "Httpolice.Props.C91_form",
    "Httpolice.Props.C91_parts",
    "Httpolice.Props.C91_raises"
   ],
   "note": "What is reported about a payload is what is wrong with it, going by its headers as they are written"
  },
  {
   "property": "C92",
   "status": "proved",
   "theorems": [
    "Httpolice.Props.C92_unique",
    "Httpolice.Props.C92_shown",
    "Httpolice.Props.C92_closed",
    "Httpolice.Props.C92_catalogued"
   ],
   "note": "Every notice reported is in the catalogue, and everything its text refers to is there"
  },
  {
   "property": "C93",
   "status": "proved",
   "theorems": [
    "Httpolice.Props.C93_codings",
    "Httpolice.Props.C93_chunked",
    "Httpolice.Props.C93_request",
    "Httpolice.Props.C93_notice_1001",
    "Httpolice.Props.C93_response",
    "Httpolice.Props.C93_dialogue",
    "Httpolice.Props.C93_never_1240",
    "Httpolice.Props.C93_never_1239",
    "Httpolice.Props.C93_shown_box",
    "Httpolice.Props.C93_shown_request",
    "Httpolice.Props.C93_shown_response"
   ],
   "note": "Captured streams: transfer codings are taken off as the headers write them, and everything framing reports can be shown"
  },
  {
   "property": "C94",
   "status": "proved",
   "theorems": [
    "Httpolice.Props.C94_raises",
    "Httpolice.Props.C94_notice_1035",
    "Httpolice.Props.C94_notice_1042",
    "Httpolice.Props.C94_notice_1280",
    "Httpolice.Props.C94_notice_1213",
    "Httpolice.Props.C94_notice_1214",
    "Httpolice.Props.C94_notice_1227",
    "Httpolice.Props.C94_notice_1093",
    "Httpolice.Props.C94_notice_1247",
    "Httpolice.Props.C94_notice_1248",
    "Httpolice.Props.C94_notice_1249",
    "Httpolice.Props.C94_notice_1250",
    "Httpolice.Props.C94_notice_1251",
    "Httpolice.Props.C94_notice_1218",
    "Httpolice.Props.C94_notice_1220",
    "Httpolice.Props.C94_notice_1034",
    "Httpolice.Props.C94_notice_1028",
    "Httpolice.Props.C94_notice_1228",
    "Httpolice.Props.C94_notice_1116",
    "Httpolice.Props.C94_notice_1109",
    "Httpolice.Props.C94_notice_1118",
    "Httpolice.Props.C94_notice_1163",
    "Httpolice.Props.C94_notice_1165",
    "Httpolice.Props.C94_notice_1152",
    "Httpolice.Props.C94_notice_1153",
    "Httpolice.Props.C94_notice_1171",
    "Httpolice.Props.C94_notice_1217",
    "Httpolice.Props.C94_notice_1310",
    "Httpolice.Props.C94_notice_1135",
    "Httpolice.Props.C94_visible",
    "Httpolice.Props.C94_notice_1209",
    "Httpolice.Props.C94_notice_1261",
    "Httpolice.Props.C94_notice_1262",
    "Httpolice.Props.C94_notice_1274",
    "Httpolice.Props.C94_notice_1273",
    "Httpolice.Props.C94_notice_1206",
    "Httpolice.Props.C94_notice_1208",
    "Httpolice.Props.C94_notice_1207",
    "Httpolice.Props.C94_notice_1263",
    "Httpolice.Props.C94_notice_1264",
    "Httpolice.Props.C94_notice_1268",
    "Httpolice.Props.C94_notice_1267"
   ],
   "note": "Notices depend on what is literally written in the headers"
  },
  {
   "property": "C95",
   "status": "proved",
   "theorems": [
    "Httpolice.Props.C95_tcpick_name",
    "Httpolice.Props.C95_tcpflow_name",
    "Httpolice.Props.C95_tcpick_dirs",
    "Httpolice.Props.C95_tcpick_error",
    "Httpolice.Props.C95_tcpick",
    "Httpolice.Props.C95_tcpflow_error",
    "Httpolice.Props.C95_tcpflow",
    "Httpolice.Props.C95_tcpick_both",
    "Httpolice.Props.C95_sequences"
   ],
   "note": "Directories of tcpick and tcpflow captures: every stream is read once, with its other direction"
  },
  {
   "property": "C96",
   "status": "proved",
   "theorems": [
    "Httpolice.Props.C96_row",
    "Httpolice.Props.C96_unchanged",
    "Httpolice.Props.C96_table",
    "Httpolice.Props.C96_codes",
    "Httpolice.Props.C96_codes_repr"
   ],
   "note": "Saving a table of known things and loading it again changes nothing that is known, unless its keys are numbers shown by repr"
  },
  {
   "property": "C97",
   "status": "proved",
   "theorems": [
    "Httpolice.Props.C97_catalogue",
    "Httpolice.Props.C97_listed",
    "Httpolice.Props.C97_section",
    "Httpolice.Props.C97_notice",
    "Httpolice.Props.C97_list",
    "Httpolice.Props.C97_duplicate"
   ],
   "note": "Every notice can be read and is listed with its ID, severity, title and explanation exactly as written, and only notices 1302 and 1303 lose something"
  },
  {
   "property": "C98",
   "status": "proved",
   "theorems": [
    "Httpolice.Props.C98_shown",
    "Httpolice.Props.C98_unreadable",
    "Httpolice.Props.C98_broken",
    "Httpolice.Props.C98_exception",
    "Httpolice.Props.C98_workable",
    "Httpolice.Props.C98_catalogue",
    "Httpolice.Props.C98_exit"
   ],
   "note": "A whole run of httpolice -i combined shows every captured exchange with just the notices that are reported and not silenced, and its exit status follows from them"
  },
  {
   "property": "C99",
   "status": "proved",
   "theorems": [
    "Httpolice.Props.C99_raises",
    "Httpolice.Props.C99_bad_link",
    "Httpolice.Props.C99_breaks",
    "Httpolice.Props.C99_notice_1243"
   ],
   "note": "check_exchange raises on what is written in Link headers exactly when a parameter lacks a needed value or a 451 response has a bad relation"
  },
  {
   "property": "C100",
   "status": "proved",
   "theorems": [
    "Httpolice.Props.C100_run",
    "Httpolice.Props.C100_shown",
    "Httpolice.Props.C100_order",
    "Httpolice.Props.C100_exit",
    "Httpolice.Props.C100_crash",
    "Httpolice.Props.C100_given",
    "Httpolice.Props.C100_formats",
    "Httpolice.Props.C100_names"
   ],
   "note": "A whole run of httpolice -i streams, req-stream, resp-stream, tcpick or tcpflow shows every exchange of every connection once, in order, with just the right notices"
  },
  {
   "property": "C101",
   "status": "proved",
   "theorems": [
    "Httpolice.Props.C101_shown",
    "Httpolice.Props.C101_unreadable",
    "Httpolice.Props.C101_before",
    "Httpolice.Props.C101_exit",
    "Httpolice.Props.C101_zero",
    "Httpolice.Props.C101_escapes",
    "Httpolice.Props.C101_crash"
   ],
   "note": "A whole run of httpolice -i har shows every entry of every file once, in order, with just the right notices"
  },
  {
   "property": "C102",
   "status": "proved",
   "theorems": [
    "Httpolice.Props.C102_blocks",
    "Httpolice.Props.C102_unreadable",
    "Httpolice.Props.C102_lines",
    "Httpolice.Props.C102_exit",
    "Httpolice.Props.C102_stream_blocks",
    "Httpolice.Props.C102_stream_lines"
   ],
   "note": "What httpolice prints is a line for each notice that is to be shown, under the right exchange and response, and the exit status can be told from it"
  },
  {
   "property": "C103",
   "status": "proved",
   "theorems": [
    "Httpolice.Props.C103_only_below",
    "Httpolice.Props.C103_request_fails",
    "Httpolice.Props.C103_response_fails",
    "Httpolice.Props.C103_workable",
    "Httpolice.Props.C103_run"
   ],
   "note": "Stream analysis fails only on chunk sizes below -1, and always on those of the first message"
  },
  {
   "property": "C104",
   "status": "proved",
   "theorems": [
    "Httpolice.Props.C104_blocks",
    "Httpolice.Props.C104_unreadable",
    "Httpolice.Props.C104_raising",
    "Httpolice.Props.C104_lines"
   ],
   "note": "The text printed for HAR files shows the notices of every entry and tells the exit status"
  },
  {
   "property": "C105",
   "status": "proved",
   "theorems": [
    "Httpolice.Props.C105_same",
    "Httpolice.Props.C105_run",
    "Httpolice.Props.C105_zero",
    "Httpolice.Props.C105_missing",
    "Httpolice.Props.C105_escapes",
    "Httpolice.Props.C105_cause",
    "Httpolice.Props.C105_hidden"
   ],
   "note": "Missing files and failing analysis never pass for a clean run"
  },
  {
   "property": "C106",
   "status": "proved",
   "theorems": [
    "Httpolice.Props.C106_complete",
    "Httpolice.Props.C106_document",
    "Httpolice.Props.C106_unreadable",
    "Httpolice.Props.C106_raising",
    "Httpolice.Props.C106_exit",
    "Httpolice.Props.C106_streams",
    "Httpolice.Props.C106_streams_end"
   ],
   "note": "The HTML report of a whole run shows every exchange with just its notices, and ends only if the run went through"
  },
  {
   "property": "C107",
   "status": "proved",
   "theorems": [
    "Httpolice.Props.C107_document",
    "Httpolice.Props.C107_unreadable",
    "Httpolice.Props.C107_raising",
    "Httpolice.Props.C107_whole",
    "Httpolice.Props.C107_end",
    "Httpolice.Props.C107_exit"
   ],
   "note": "The HTML report of a run on HAR files shows every entry with just its notices, and ends only if every entry was shown"
  }
 ]
}