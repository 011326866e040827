import Verif.Model.NoticeXml

/-!
# The notices of `httpolice/notices.xml`

Transcribed by a script from the file, with comments and white space. A `Xml` is an element with its
class, attributes, text, children, and the text after it.
-/

namespace Httpolice.Model

/-- Notice 1000 (httpolice/notices.xml 28-31). -/
def notice1000 : Xml :=
  .elem (.notice .error) [(str "id", str "1000")] (str "\n    ") [
    .elem .title [] (str "Syntax error in ") [
      .elem .var [(str "ref", str "place")] ([]) [] (str " header")] (str "\n    "),
    .elem .exception [] ([]) [] (str "\n  ")] (str "\n\n  ")

/-- Notice 1001 (httpolice/notices.xml 33-41). -/
def notice1001 : Xml :=
  .elem (.notice .error) [(str "id", str "1001")] (str "\n    ") [
    .elem .title [] (str "Final ") [
      .elem (.known .h) [] (str "Transfer-Encoding") [] (str " must be ‘"),
      .elem (.known .tc) [] (str "chunked") [] (str "’")] (str "\n    "),
    .elem .rfc [(str "num", str "7230"), (str "sect", str "3.3.1")] (str "\n      If any transfer coding\n   other than ") [
      .elem (.known .tc) [] (str "chunked") [] (str " is applied to a request payload body, the sender\n   MUST apply "),
      .elem (.known .tc) [] (str "chunked") [] (str " as the final transfer coding to ensure that the\n   message is properly framed.\n    ")] (str "\n  ")] (str "\n\n  ")

/-- Notice 1002 (httpolice/notices.xml 43-50). -/
def notice1002 : Xml :=
  .elem (.notice .error) [(str "id", str "1002")] (str "\n    ") [
    .elem .title [] ([]) [
      .elem (.known .h) [] (str "Transfer-Encoding") [] (str " can’t have ‘"),
      .elem (.known .tc) [] (str "chunked") [] (str "’ twice")] (str "\n    "),
    .elem .rfc [(str "num", str "7230"), (str "sect", str "3.3.1")] (str "\n      A sender MUST\n   NOT apply ") [
      .elem (.known .tc) [] (str "chunked") [] (str " more than once to a message body (i.e., chunking an\n   already chunked message is not allowed).\n    ")] (str "\n  ")] (str "\n\n  ")

/-- Notice 1003 (httpolice/notices.xml 52-55). -/
def notice1003 : Xml :=
  .elem (.notice .debug) [(str "id", str "1003")] (str "\n    ") [
    .elem .title [] (str "Not decoding ") [
      .elem (.known .h) [] (str "Transfer-Encoding") [] (str ": "),
      .elem .var [(str "ref", str "coding")] ([]) [] ([])] (str "\n    "),
    .elem .explain [] (str "HTTPolice does not know how to decode the ") [
      .elem .var [(str "ref", str "coding")] ([]) [] (str " transfer coding. (This doesn’t mean that it’s wrong.)")] (str "\n  ")] (str "\n\n  ")

/-- Notice 1004 (httpolice/notices.xml 57-60). -/
def notice1004 : Xml :=
  .elem (.notice .error) [(str "id", str "1004")] (str "\n    ") [
    .elem .title [] (str "Message is incomplete according to ") [
      .elem (.known .h) [] (str "Content-Length") [] ([])] (str "\n    "),
    .elem .explain [] (str "This message’s ") [
      .elem (.known .h) [] (str "Content-Length") [] (str " header indicates that the body is "),
      .elem .var [(str "ref", str "msg.headers.content_length.value")] ([]) [] (str " bytes long, but there are fewer bytes remaining on the stream "),
      .elem .var [(str "ref", str "error.name")] ([]) [] (str ".")] (str "\n  ")] (str "\n\n  ")

/-- Notice 1005 (httpolice/notices.xml 62-65). -/
def notice1005 : Xml :=
  .elem (.notice .error) [(str "id", str "1005")] (str "\n    ") [
    .elem .title [] (str "Malformed ") [
      .elem (.known .h) [] (str "Transfer-Encoding") [] (str ": "),
      .elem (.known .tc) [] (str "chunked") [] ([])] (str "\n    "),
    .elem .exception [] ([]) [] (str "\n  ")] (str "\n\n  ")

/-- Notice 1006 (httpolice/notices.xml 67-70). -/
def notice1006 : Xml :=
  .elem (.notice .error) [(str "id", str "1006")] (str "\n    ") [
    .elem .title [] (str "Malformed request heading") [] (str "\n    "),
    .elem .exception [] ([]) [] (str "\n  ")] (str "\n\n  ")

/-- Notice 1007 (httpolice/notices.xml 72-75). -/
def notice1007 : Xml :=
  .elem (.notice .debug) [(str "id", str "1007")] (str "\n    ") [
    .elem .title [] (str "Stop parsing request stream") [] (str "\n    "),
    .elem .explain [] (str "Due to previous notices, the data beginning at byte ") [
      .elem .var [(str "ref", str "offset")] ([]) [] (str " on the request stream "),
      .elem .var [(str "ref", str "stream.name")] ([]) [] (str " will not be parsed.")] (str "\n  ")] (str "\n\n  ")

/-- Notice 1008 (httpolice/notices.xml 77-80). -/
def notice1008 : Xml :=
  .elem (.notice .error) [(str "id", str "1008")] (str "\n    ") [
    .elem .title [] (str "Not enough requests") [] (str "\n    "),
    .elem .explain [] (str "There are unparsed bytes remaining on the response stream ") [
      .elem .var [(str "ref", str "stream.name")] ([]) [] (str ", but no requests that would correspond to them. HTTPolice will try to parse and analyze the remaining responses on their own.")] (str "\n  ")] (str "\n\n  ")

/-- Notice 1009 (httpolice/notices.xml 82-85). -/
def notice1009 : Xml :=
  .elem (.notice .error) [(str "id", str "1009")] (str "\n    ") [
    .elem .title [] (str "Malformed response heading") [] (str "\n    "),
    .elem .exception [] ([]) [] (str "\n  ")] (str "\n\n  ")

/-- Notice 1010 (httpolice/notices.xml 87-90). -/
def notice1010 : Xml :=
  .elem (.notice .debug) [(str "id", str "1010")] (str "\n    ") [
    .elem .title [] (str "Stop parsing response stream") [] (str "\n    "),
    .elem .explain [] (str "Due to previous notices, the data beginning at byte ") [
      .elem .var [(str "ref", str "offset")] ([]) [] (str " on the response stream "),
      .elem .var [(str "ref", str "stream.name")] ([]) [] (str " will not be parsed.")] (str "\n  ")] (str "\n\n  ")

/-- Notice 1011 (httpolice/notices.xml 92-95). -/
def notice1011 : Xml :=
  .elem (.notice .debug) [(str "id", str "1011")] (str "\n    ") [
    .elem .title [] (str "Switching protocols") [] (str "\n    "),
    .elem .explain [] (str "The ") [
      .elem (.known .st) [] (str "101") [] (str " status code means that the connection is switching to a different protocol. HTTPolice will not parse the rest of the streams.")] (str "\n  ")] (str "\n\n  ")

/-- Notice 1012 (httpolice/notices.xml 97-100). -/
def notice1012 : Xml :=
  .elem (.notice .debug) [(str "id", str "1012")] (str "\n    ") [
    .elem .title [] (str "Switching to a tunnel") [] (str "\n    "),
    .elem .explain [] (str "A ") [
      .elem .var [(str "ref", str "msg.status")] ([]) [] (str " response to a "),
      .elem (.known .m) [] (str "CONNECT") [] (str " request means that the connection is becoming a tunnel. HTTPolice will not parse the remainder of the streams.")] (str "\n  ")] (str "\n\n  ")

/-- Notice 1013 (httpolice/notices.xml 102-111). -/
def notice1013 : Xml :=
  .elem (.notice .error) [(str "id", str "1013")] (str "\n    ") [
    .elem .title [] (str "Multiple ") [
      .elem .var [(str "ref", str "header")] ([]) [] (str " headers are forbidden")] (str "\n    "),
    .elem .rfc [(str "num", str "7230"), (str "sect", str "3.2.2")] (str "\n      A sender MUST NOT generate multiple header fields with the same field\n   name in a message unless either the entire field value for that\n   header field is defined as a comma-separated list [i.e., #(values)]\n   or the header field is a well-known exception (as noted below).\n    ") [] (str "\n    "),
    .elem .ref [(str "to", str "entries")] ([]) [] (str "\n  ")] (str "\n\n  ")

/-- Notice 1014 (httpolice/notices.xml 113-116). -/
def notice1014 : Xml :=
  .elem (.notice .comment) [(str "id", str "1014")] (str "\n    ") [
    .elem .title [] (str "RWS in ") [
      .elem .var [(str "ref", str "place")] ([]) [] (str " should be a single space")] (str "\n    "),
    .elem .explain [] (str "The syntax of ") [
      .elem .var [(str "ref", str "place")] ([]) [] (str " includes the rule named RWS. It should be produced as just a single space, but here it was "),
      .elem .var [(str "ref", str "num")] ([]) [] (str " characters. See "),
      .elem .rfc [(str "num", str "7230"), (str "sect", str "3.2.3")] ([]) [] (str ".")] (str "\n  ")] (str "\n\n  ")

/-- Notice 1015 (httpolice/notices.xml 118-121). -/
def notice1015 : Xml :=
  .elem (.notice .error) [(str "id", str "1015")] (str "\n    ") [
    .elem .title [] (str "Bad whitespace (BWS) in ") [
      .elem .var [(str "ref", str "place")] ([]) [] ([])] (str "\n    "),
    .elem .explain [] (str "The syntax of ") [
      .elem .var [(str "ref", str "place")] ([]) [] (str " includes the rule named BWS, which is whitespace allowed for historical reasons; it must not be produced by current implementations. See "),
      .elem .rfc [(str "num", str "7230"), (str "sect", str "3.2.3")] ([]) [] (str ".")] (str "\n  ")] (str "\n\n  ")

/-- Notice 1016 (httpolice/notices.xml 123-126). -/
def notice1016 : Xml :=
  .elem (.notice .error) [(str "id", str "1016")] (str "\n    ") [
    .elem .title [] (str "Obsolete line folding in headers") [] (str "\n    "),
    .elem .explain [] (str "This message uses line folding (the “obs-fold” rule) to split one header field over several physical lines, but this is deprecated and prohibited in most cases. See ") [
      .elem .rfc [(str "num", str "7230"), (str "sect", str "3.2.4")] ([]) [] (str ".")] (str "\n  ")] (str "\n\n  ")

/-- Notice 1017 (httpolice/notices.xml 128-132). -/
def notice1017 : Xml :=
  .elem (.notice .comment) [(str "id", str "1017")] (str "\n    ") [
    .elem .title [] (str "Strange escaping in ") [
      .elem .var [(str "ref", str "place")] ([]) [] ([])] (str "\n    "),
    .elem .explain [] (str "This message uses the “quoted-pair” rule to escape the character ") [
      .elem .var [(str "ref", str "char")] ([]) [] (str " in a context where this escaping is unnecessary and should not be used. See "),
      .elem .rfc [(str "num", str "7230"), (str "sect", str "3.2.6")] ([]) [] (str ".")] (str "\n    "),
    .elem .explain [] (str "If a literal backslash \\ was intended here, it must itself be escaped as \\\\.") [] (str "\n  ")] (str "\n\n  ")

/-- Notice 1018 (httpolice/notices.xml 134-141). -/
def notice1018 : Xml :=
  .elem (.notice .error) [(str "id", str "1018")] (str "\n    ") [
    .elem .title [] ([]) [
      .elem (.known .h) [] (str "Transfer-Encoding") [] (str " is forbidden in a "),
      .elem .var [(str "ref", str "msg.status")] ([]) [] (str " response")] (str "\n    "),
    .elem .rfc [(str "num", str "7230"), (str "sect", str "3.3.1")] (str "\n      A server MUST NOT send a Transfer-Encoding header field in any\n   response with a status code of 1xx (Informational) or 204 (No\n   Content).\n    ") [] (str "\n  ")] (str "\n\n  ")

/-- Notice 1019 (httpolice/notices.xml 143-149). -/
def notice1019 : Xml :=
  .elem (.notice .error) [(str "id", str "1019")] (str "\n    ") [
    .elem .title [] ([]) [
      .elem (.known .h) [] (str "Transfer-Encoding") [] (str " is forbidden in a "),
      .elem .var [(str "ref", str "msg.status")] ([]) [] (str " response to "),
      .elem (.known .m) [] (str "CONNECT") [] ([])] (str "\n    "),
    .elem .rfc [(str "num", str "7230"), (str "sect", str "3.3.1")] (str "\n      A server MUST NOT send a Transfer-Encoding header field in\n   any 2xx (Successful) response to a CONNECT request\n    ") [] (str "\n  ")] (str "\n\n  ")

/-- Notice 1020 (httpolice/notices.xml 151-157). -/
def notice1020 : Xml :=
  .elem (.notice .error) [(str "id", str "1020")] (str "\n    ") [
    .elem .title [] (str "Can’t have both ") [
      .elem (.known .h) [] (str "Transfer-Encoding") [] (str " and "),
      .elem (.known .h) [] (str "Content-Length") [] ([])] (str "\n    "),
    .elem .rfc [(str "num", str "7230"), (str "sect", str "3.3.2")] (str "\n      A sender MUST NOT send a Content-Length header field in any message\n   that contains a Transfer-Encoding header field.\n    ") [] (str "\n  ")] (str "\n\n  ")

/-- Notice 1021 (httpolice/notices.xml 159-168). -/
def notice1021 : Xml :=
  .elem (.notice .comment) [(str "id", str "1021")] (str "\n    ") [
    .elem .title [] ([]) [
      .elem .var [(str "ref", str "msg.method")] ([]) [] (str " request should have "),
      .elem (.known .h) [] (str "Content-Length") [] ([])] (str "\n    "),
    .elem .rfc [(str "num", str "7230"), (str "sect", str "3.3.2")] (str "\n      A user agent SHOULD send a Content-Length in a request message when\n   no ") [
      .elem (.known .h) [] (str "Transfer-Encoding") [] (str " is sent and the request method defines a meaning\n   for an enclosed payload body.  For example, a Content-Length header\n   field is normally sent in a "),
      .elem (.known .m) [] (str "POST") [] (str " request even when the value is 0\n   (indicating an empty payload body).\n    ")] (str "\n  ")] (str "\n\n  ")

/-- Notice 1022 (httpolice/notices.xml 170-178). -/
def notice1022 : Xml :=
  .elem (.notice .comment) [(str "id", str "1022")] (str "\n    ") [
    .elem .title [] (str "Empty ") [
      .elem .var [(str "ref", str "msg.method")] ([]) [] (str " request shouldn’t have "),
      .elem (.known .h) [] (str "Content-Length") [] ([])] (str "\n    "),
    .elem .rfc [(str "num", str "7230"), (str "sect", str "3.3.2")] (str "\n      A user agent SHOULD NOT send a\n   Content-Length header field when the request message does not contain\n   a payload body and the method semantics do not anticipate such a\n   body.\n    ") [] (str "\n  ")] (str "\n\n  ")

/-- Notice 1023 (httpolice/notices.xml 180-186). -/
def notice1023 : Xml :=
  .elem (.notice .error) [(str "id", str "1023")] (str "\n    ") [
    .elem .title [] ([]) [
      .elem (.known .h) [] (str "Content-Length") [] (str " is forbidden in a "),
      .elem .var [(str "ref", str "msg.status")] ([]) [] (str " response")] (str "\n    "),
    .elem .rfc [(str "num", str "7230"), (str "sect", str "3.3.2")] (str "\n      A server MUST NOT send a Content-Length header field in any response\n   with a status code of 1xx (Informational) or 204 (No Content).\n    ") [] (str "\n  ")] (str "\n\n  ")

/-- Notice 1024 (httpolice/notices.xml 188-196). -/
def notice1024 : Xml :=
  .elem (.notice .error) [(str "id", str "1024")] (str "\n    ") [
    .elem .title [] ([]) [
      .elem (.known .h) [] (str "Content-Length") [] (str " is forbidden in a "),
      .elem .var [(str "ref", str "msg.status")] ([]) [] (str " response to "),
      .elem (.known .m) [] (str "CONNECT") [] ([])] (str "\n    "),
    .elem .rfc [(str "num", str "7230"), (str "sect", str "3.3.2")] (str "\n      A\n   server MUST NOT send a Content-Length header field in any 2xx\n   (Successful) response to a CONNECT request (Section 4.3.6 of\n   [RFC7231]).\n    ") [] (str "\n  ")] (str "\n\n  ")

/-- Notice 1025 (httpolice/notices.xml 198-202). -/
def notice1025 : Xml :=
  .elem (.notice .comment) [(str "id", str "1025")] (str "\n    ") [
    .elem .title [] (str "Response delimited only by closing the connection") [] (str "\n    "),
    .elem .explain [] (str "This response has no ") [
      .elem (.known .h) [] (str "Content-Length") [] (str " header and no “"),
      .elem (.known .h) [] (str "Transfer-Encoding") [] (str ": "),
      .elem (.known .tc) [] (str "chunked") [] (str "” that would delimit its body. Therefore, the body is assumed to consist of everything the server sends until closing the connection. But then the client cannot be sure that it received the entire response (that there were no network failures).")] (str "\n    "),
    .elem .explain [] (str "See ") [
      .elem .rfc [(str "num", str "7230"), (str "sect", str "3.3.3")] ([]) [] (str ".")] (str "\n  ")] (str "\n\n  ")

/-- Notice 1026 (httpolice/notices.xml 204-215). -/
def notice1026 : Xml :=
  .elem (.notice .error) [(str "id", str "1026")] (str "\n    ") [
    .elem .title [] ([]) [
      .elem .var [(str "ref", str "entry")] ([]) [] (str " is forbidden in a trailer")] (str "\n    "),
    .elem .rfc [(str "num", str "7230"), (str "sect", str "4.1.2")] (str "\n      A sender MUST NOT generate a trailer that contains a field necessary\n   for message framing (e.g., ") [
      .elem (.known .h) [(str "ref", str "no")] (str "Transfer-Encoding") [] (str " and "),
      .elem (.known .h) [(str "ref", str "no")] (str "Content-Length") [] (str "),\n   routing (e.g., "),
      .elem (.known .h) [(str "ref", str "no")] (str "Host") [] (str "), request modifiers (e.g., controls and\n   conditionals in Section 5 of [RFC7231]), authentication (e.g., see\n   [RFC7235] and [RFC6265]), response control data (e.g., see Section\n   7.1 of [RFC7231]), or determining how to process the payload (e.g.,\n   "),
      .elem (.known .h) [(str "ref", str "no")] (str "Content-Encoding") [] (str ", "),
      .elem (.known .h) [(str "ref", str "no")] (str "Content-Type") [] (str ", "),
      .elem (.known .h) [(str "ref", str "no")] (str "Content-Range") [] (str ", and "),
      .elem (.known .h) [(str "ref", str "no")] (str "Trailer") [] (str ").\n    ")] (str "\n  ")] (str "\n\n  ")

/-- Notice 1027 (httpolice/notices.xml 217-220). -/
def notice1027 : Xml :=
  .elem (.notice .error) [(str "id", str "1027")] (str "\n    ") [
    .elem .title [] (str "Could not decode ") [
      .elem (.known .h) [] (str "Transfer-Encoding") [] (str ": "),
      .elem .var [(str "ref", str "coding")] ([]) [] ([])] (str "\n    "),
    .elem .exception [] ([]) [] (str "\n  ")] (str "\n\n  ")

/-- Notice 1028 (httpolice/notices.xml 222-229). -/
def notice1028 : Xml :=
  .elem (.notice .error) [(str "id", str "1028")] (str "\n    ") [
    .elem .title [] (str "“") [
      .elem (.known .h) [] (str "TE") [] (str ": "),
      .elem (.known .tc) [] (str "chunked") [] (str "” is forbidden")] (str "\n    "),
    .elem .rfc [(str "num", str "7230"), (str "sect", str "4.3")] (str "\n      A client MUST NOT send\n   the chunked transfer coding name in TE; chunked is always acceptable\n   for HTTP/1.1 recipients.\n    ") [] (str "\n  ")] (str "\n\n  ")

/-- Notice 1029 (httpolice/notices.xml 231-240). -/
def notice1029 : Xml :=
  .elem (.notice .error) [(str "id", str "1029")] (str "\n    ") [
    .elem .title [] ([]) [
      .elem (.known .h) [] (str "TE") [] (str " header requires “"),
      .elem (.known .h) [] (str "Connection") [] (str ": TE”")] (str "\n    "),
    .elem .rfc [(str "num", str "7230"), (str "sect", str "4.3")] (str "\n      Since the TE header field only applies to the immediate connection, a\n   sender of TE MUST also send a \"TE\" connection option within the\n   ") [
      .elem (.known .h) [] (str "Connection") [] (str " header field (Section 6.1) in order to prevent the TE\n   field from being forwarded by intermediaries that do not support its\n   semantics.\n    ")] (str "\n  ")] (str "\n\n  ")

/-- Notice 1030 (httpolice/notices.xml 242-251). -/
def notice1030 : Xml :=
  .elem (.notice .comment) [(str "id", str "1030")] (str "\n    ") [
    .elem .title [] ([]) [
      .elem .var [(str "ref", str "header")] ([]) [] (str " was not announced in the "),
      .elem (.known .h) [] (str "Trailer") [] (str " header")] (str "\n    "),
    .elem .rfc [(str "num", str "7230"), (str "sect", str "4.4")] (str "\n      When a message includes a message body encoded with the chunked\n   transfer coding and the sender desires to send metadata in the form\n   of trailer fields at the end of the message, the sender SHOULD\n   generate a ") [
      .elem (.known .h) [] (str "Trailer") [] (str " header field before the message body to indicate\n   which fields will be present in the trailers.\n    ")] (str "\n  ")] (str "\n\n  ")

/-- Notice 1031 (httpolice/notices.xml 253-259). -/
def notice1031 : Xml :=
  .elem (.notice .error) [(str "id", str "1031")] (str "\n    ") [
    .elem .title [] (str "Missing ") [
      .elem (.known .h) [] (str "Host") [] (str " header")] (str "\n    "),
    .elem .rfc [(str "num", str "7230"), (str "sect", str "5.4")] (str "\n      A client MUST send a Host header field in all HTTP/1.1 request\n   messages.\n    ") [] (str "\n  ")] (str "\n\n  ")

/-- Notice 1032 (httpolice/notices.xml 261-268). -/
def notice1032 : Xml :=
  .elem (.notice .comment) [(str "id", str "1032")] (str "\n    ") [
    .elem .title [] ([]) [
      .elem (.known .h) [] (str "Host") [] (str " should be the first header")] (str "\n    "),
    .elem .rfc [(str "num", str "7230"), (str "sect", str "5.4")] (str "\n      Since the Host field-value is critical information for handling a\n   request, a user agent SHOULD generate Host as the first header field\n   following the request-line.\n    ") [] (str "\n  ")] (str "\n\n  ")

/-- Notice 1033 (httpolice/notices.xml 270-281). -/
def notice1033 : Xml :=
  .elem (.notice .error) [(str "id", str "1033")] (str "\n    ") [
    .elem .title [] (str "Request with a bad ") [
      .elem (.known .h) [(str "ref", str "no")] (str "Host") [] (str " header must be rejected")] (str "\n    "),
    .elem .rfc [(str "num", str "7230"), (str "sect", str "5.4")] (str "\n      A server MUST respond with a ") [
      .elem (.known .st) [] (str "400") [] (str " (Bad Request) status code to any\n   HTTP/1.1 request message that lacks a Host header field and to any\n   request message that contains more than one Host header field or a\n   Host header field with an invalid field-value.\n    ")] (str "\n    "),
    .elem .ref [(str "to", str "msg.status")] ([]) [] (str "\n    "),
    .elem .ref [(str "to", str "msg.request.version")] ([]) [] (str "\n    "),
    .elem .ref [(str "to", str "msg.request.headers.host")] ([]) [] (str "\n  ")] (str "\n\n  ")

/-- Notice 1034 (httpolice/notices.xml 283-291). -/
def notice1034 : Xml :=
  .elem (.notice .error) [(str "id", str "1034")] (str "\n    ") [
    .elem .title [] (str "“") [
      .elem (.known .h) [] (str "Connection") [] (str ": "),
      .elem .var [(str "ref", str "header")] ([]) [] (str "” is forbidden")] (str "\n    "),
    .elem .rfc [(str "num", str "7230"), (str "sect", str "5.4")] (str "\n      A sender MUST NOT send a connection option corresponding to a header\n   field that is intended for all recipients of the payload.  For\n   example, ") [
      .elem (.known .h) [] (str "Cache-Control") [] (str " is never appropriate as a connection option\n   (Section 5.2 of [RFC7234]).\n    ")] (str "\n  ")] (str "\n\n  ")

/-- Notice 1035 (httpolice/notices.xml 293-296). -/
def notice1035 : Xml :=
  .elem (.notice .comment) [(str "id", str "1035")] (str "\n    ") [
    .elem .title [] (str "Deprecated media type ") [
      .elem .var [(str "ref", str "msg.headers.content_type.value")] ([]) [] ([])] (str "\n    "),
    .elem .explain [] (str "According to ") [
      .elem (.known .h) [] (str "Content-Type") [] (str ", this message’s body is of type "),
      .elem .var [(str "ref", str "msg.headers.content_type.value")] ([]) [] (str ", which is listed as “deprecated” or “obsoleted” in the "),
      .elem .cite [(str "title", str "IANA media types registry"), (str "url", str "https://www.iana.org/assignments/media-types/media-types.xml")] ([]) [] (str ".")] (str "\n  ")] (str "\n\n  ")

/-- Notice 1036 (httpolice/notices.xml 298-301). -/
def notice1036 : Xml :=
  .elem (.notice .debug) [(str "id", str "1036")] (str "\n    ") [
    .elem .title [] (str "Not decoding ") [
      .elem (.known .h) [] (str "Content-Encoding") [] (str ": "),
      .elem .var [(str "ref", str "coding")] ([]) [] ([])] (str "\n    "),
    .elem .explain [] (str "HTTPolice does not know how to decode the ") [
      .elem .var [(str "ref", str "coding")] ([]) [] (str " content coding. (This doesn’t mean that it’s wrong.)")] (str "\n  ")] (str "\n\n  ")

/-- Notice 1037 (httpolice/notices.xml 303-306). -/
def notice1037 : Xml :=
  .elem (.notice .error) [(str "id", str "1037")] (str "\n    ") [
    .elem .title [] (str "Could not decode ") [
      .elem (.known .h) [] (str "Content-Encoding") [] (str ": "),
      .elem .var [(str "ref", str "coding")] ([]) [] ([])] (str "\n    "),
    .elem .exception [] ([]) [] (str "\n  ")] (str "\n\n  ")

/-- Notice 1038 (httpolice/notices.xml 308-313). -/
def notice1038 : Xml :=
  .elem (.notice .error) [(str "id", str "1038")] (str "\n    ") [
    .elem .title [] (str "Bad JSON body") [] (str "\n    "),
    .elem .explain [] (str "According to ") [
      .elem (.known .h) [] (str "Content-Type") [] (str ", this message’s body is JSON, but HTTPolice tried to parse it as JSON and got the following error:")] (str "\n    "),
    .elem .exception [] ([]) [] (str "\n    "),
    .elem .ref [(str "to", str "msg.displayable_body")] ([]) [] (str "\n  ")] (str "\n\n  ")

/-- Notice 1039 (httpolice/notices.xml 315-320). -/
def notice1039 : Xml :=
  .elem (.notice .error) [(str "id", str "1039")] (str "\n    ") [
    .elem .title [] (str "Bad XML body") [] (str "\n    "),
    .elem .explain [] (str "According to ") [
      .elem (.known .h) [] (str "Content-Type") [] (str ", this message’s body is XML, but HTTPolice tried to parse it as XML and got the following error:")] (str "\n    "),
    .elem .exception [] ([]) [] (str "\n    "),
    .elem .ref [(str "to", str "msg.displayable_body")] ([]) [] (str "\n  ")] (str "\n\n  ")

/-- Notice 1040 (httpolice/notices.xml 322-327). -/
def notice1040 : Xml :=
  .elem (.notice .error) [(str "id", str "1040")] (str "\n    ") [
    .elem .title [] (str "Bad URL-encoded body") [] (str "\n    "),
    .elem .explain [] (str "According to ") [
      .elem (.known .h) [] (str "Content-Type") [] (str ", this message’s body is URL-encoded. But it doesn’t look like a proper URL-encoded string, as defined by "),
      .elem .cite [(str "title", str "HTML5"), (str "url", str "https://www.w3.org/TR/html5/forms.html#url-encoded-form-data")] ([]) [] (str ", because it contains the character: "),
      .elem .var [(str "ref", str "char")] ([]) [] (str ".")] (str "\n    "),
    .elem .explain [] (str "This often means that the ") [
      .elem (.known .h) [] (str "Content-Type") [] (str " header is wrong.")] (str "\n    "),
    .elem .ref [(str "to", str "msg.displayable_body")] ([]) [] (str "\n  ")] (str "\n\n  ")

/-- Notice 1041 (httpolice/notices.xml 329-338). -/
def notice1041 : Xml :=
  .elem (.notice .comment) [(str "id", str "1041")] (str "\n    ") [
    .elem .title [] (str "Body should have a ") [
      .elem (.known .h) [] (str "Content-Type") [] ([])] (str "\n    "),
    .elem .rfc [(str "num", str "7231"), (str "sect", str "3.1.1.5")] (str "\n      A sender that generates a message containing a payload body SHOULD\n   generate a Content-Type header field in that message unless the\n   intended media type of the enclosed representation is unknown to the\n   sender.\n    ") [] (str "\n    "),
    .elem .ref [(str "to", str "msg.displayable_body")] ([]) [] (str "\n  ")] (str "\n\n  ")

/-- Notice 1042 (httpolice/notices.xml 340-347). -/
def notice1042 : Xml :=
  .elem (.notice .comment) [(str "id", str "1042")] (str "\n    ") [
    .elem .title [] (str "Duplicate ‘") [
      .elem .var [(str "ref", str "param")] ([]) [] (str "’ parameter in "),
      .elem (.known .h) [] (str "Content-Type") [] ([])] (str "\n    "),
    .elem .rfc [(str "num", str "6838"), (str "sect", str "4.3")] (str "\n      It is an error for a specific\n   parameter to be specified more than once.\n    ") [] (str "\n    "),
    .comment (str " This is a comment, not an error, because I'm not even sure this is correct: RFC 6838 is merely a BCP, and the requirement is not stated in RFC 2045/2046, and it's not even clear to me that RFC 6838 refers to the actual usage of parameters rather than their definition. ") (str "\n  ")] (str "\n\n  ")

/-- Notice 1045 (httpolice/notices.xml 349-354). -/
def notice1045 : Xml :=
  .elem (.notice .error) [(str "id", str "1045")] (str "\n    ") [
    .elem .title [] (str "Syntax error in request target") [] (str "\n    "),
    .elem .exception [] ([]) [] (str "\n    "),
    .elem .explain [] (str "See also ") [
      .elem .rfc [(str "num", str "7230"), (str "sect", str "5.3")] ([]) [] (str ".")] (str "\n    "),
    .elem .ref [(str "to", str "msg.target")] ([]) [] (str "\n  ")] (str "\n\n  ")

/-- Notice 1046 (httpolice/notices.xml 356-359). -/
def notice1046 : Xml :=
  .elem (.notice .error) [(str "id", str "1046")] (str "\n    ") [
    .elem .title [] (str "Proxied response needs a ") [
      .elem (.known .h) [] (str "Via") [] (str " header")] (str "\n    "),
    .elem .explain [] (str "According to ") [
      .elem .rfc [(str "num", str "7230"), (str "sect", str "5.7.1")] ([]) [] (str ", a proxy must add a "),
      .elem (.known .h) [] (str "Via") [] (str " header to each response that it forwards.")] (str "\n  ")] (str "\n\n  ")

/-- Notice 1047 (httpolice/notices.xml 361-364). -/
def notice1047 : Xml :=
  .elem (.notice .comment) [(str "id", str "1047")] (str "\n    ") [
    .elem .title [] (str "Close-delimited response should have “") [
      .elem (.known .h) [] (str "Connection") [] (str ": close”")] (str "\n    "),
    .elem .explain [] (str "When a response is delimited only by closing the connection, it should have a ") [
      .elem (.known .h) [] (str "Connection") [] (str " header with a ‘close’ option. See "),
      .elem .rfc [(str "num", str "7230"), (str "sect", str "6.3")] ([]) [] (str " and "),
      .elem .rfc [(str "num", str "7230"), (str "sect", str "6.6")] ([]) [] (str ".")] (str "\n  ")] (str "\n\n  ")

/-- Notice 1048 (httpolice/notices.xml 366-373). -/
def notice1048 : Xml :=
  .elem (.notice .error) [(str "id", str "1048")] (str "\n    ") [
    .elem .title [] ([]) [
      .elem (.known .st) [] (str "101") [] (str " response needs an "),
      .elem (.known .h) [] (str "Upgrade") [] (str " header")] (str "\n    "),
    .elem .rfc [(str "num", str "7230"), (str "sect", str "6.7")] (str "\n      A server that sends a 101 (Switching Protocols) response MUST send an\n   ") [
      .elem (.known .h) [] (str "Upgrade") [] (str " header field to indicate the new protocol(s) to which the\n   connection is being switched\n    ")] (str "\n  ")] (str "\n\n  ")

/-- Notice 1049 (httpolice/notices.xml 375-384). -/
def notice1049 : Xml :=
  .elem (.notice .error) [(str "id", str "1049")] (str "\n    ") [
    .elem .title [] (str "Switching to a protocol that was not requested") [] (str "\n    "),
    .elem .rfc [(str "num", str "7230"), (str "sect", str "6.7")] (str "\n      A server MUST NOT switch to a protocol that was not indicated\n   by the client in the corresponding request's ") [
      .elem (.known .h) [(str "ref", str "no")] (str "Upgrade") [] (str " header field.\n    ")] (str "\n    "),
    .elem .ref [(str "to", str "msg.status")] ([]) [] (str "\n    "),
    .elem .ref [(str "to", str "msg.headers.upgrade")] ([]) [] (str "\n    "),
    .elem .ref [(str "to", str "msg.request.headers.upgrade")] ([]) [] (str "\n  ")] (str "\n\n  ")

/-- Notice 1050 (httpolice/notices.xml 386-394). -/
def notice1050 : Xml :=
  .elem (.notice .error) [(str "id", str "1050")] (str "\n    ") [
    .elem .title [] ([]) [
      .elem (.known .h) [] (str "Upgrade") [] (str " header requires “"),
      .elem (.known .h) [] (str "Connection") [] (str ": upgrade”")] (str "\n    "),
    .elem .rfc [(str "num", str "7230"), (str "sect", str "6.7")] (str "\n      When ") [
      .elem (.known .h) [] (str "Upgrade") [] (str " is sent, the sender MUST also send a "),
      .elem (.known .h) [] (str "Connection") [] (str " header\n   field (Section 6.1) that contains an \"upgrade\" connection option, in\n   order to prevent Upgrade from being accidentally forwarded by\n   intermediaries that might not implement the listed protocols.\n    ")] (str "\n  ")] (str "\n\n  ")

/-- Notice 1051 (httpolice/notices.xml 396-404). -/
def notice1051 : Xml :=
  .elem (.notice .error) [(str "id", str "1051")] (str "\n    ") [
    .elem .title [] ([]) [
      .elem (.known .st) [] (str "101") [] (str " response to an HTTP/1.0 request is forbidden")] (str "\n    "),
    .elem .rfc [(str "num", str "7230"), (str "sect", str "6.7")] (str "\n      A\n   server MUST ignore an ") [
      .elem (.known .h) [(str "ref", str "no")] (str "Upgrade") [] (str " header field that is received in an\n   HTTP/1.0 request.\n    ")] (str "\n    "),
    .elem .ref [(str "to", str "msg.request.version")] ([]) [] (str "\n  ")] (str "\n\n  ")

/-- Notice 1052 (httpolice/notices.xml 406-409). -/
def notice1052 : Xml :=
  .elem (.notice .error) [(str "id", str "1052")] (str "\n    ") [
    .elem .title [] ([]) [
      .elem .var [(str "ref", str "header")] ([]) [] (str " makes no sense in a "),
      .elem .var [(str "ref", str "msg.status")] ([]) [] (str " response")] (str "\n    "),
    .elem .explain [] (str "The ") [
      .elem .var [(str "ref", str "header")] ([]) [] (str " header provides representation metadata, but there can be no representation associated with a "),
      .elem .var [(str "ref", str "msg.status")] ([]) [] (str " response. The header should probably be removed.")] (str "\n  ")] (str "\n\n  ")

/-- Notice 1053 (httpolice/notices.xml 411-416). -/
def notice1053 : Xml :=
  .elem (.notice .comment) [(str "id", str "1053")] (str "\n    ") [
    .elem .title [] ([]) [
      .elem .var [(str "ref", str "header")] ([]) [] (str " makes no sense in an empty request")] (str "\n    "),
    .elem .explain [] (str "The ") [
      .elem .var [(str "ref", str "header")] ([]) [] (str " header provides representation metadata. It would make sense in a request with a body, but this one has no body.")] (str "\n    "),
    .elem .explain [] (str "See also ") [
      .elem .rfc [(str "num", str "7231"), (str "sect", str "3.1")] ([]) [] (str ".")] (str "\n    "),
    .comment (str " This is a comment because we do not actually distinguish between \"no payload\" and \"payload of length 0\", while RFC 7230 does. It's not unthinkable to include something like a ``Content-Language`` in a POST request with a payload of length 0. ") (str "\n  ")] (str "\n\n  ")

/-- Notice 1054 (httpolice/notices.xml 418-424). -/
def notice1054 : Xml :=
  .elem (.notice .error) [(str "id", str "1054")] (str "\n    ") [
    .elem .title [] ([]) [
      .elem (.known .h) [] (str "Trailer") [] (str " header makes no sense without a chunked body")] (str "\n    "),
    .elem .explain [] (str "The ") [
      .elem (.known .h) [] (str "Trailer") [] (str " header announces what other headers will be sent in the trailer part of a "),
      .elem (.known .tc) [] (str "chunked") [] (str " message. It doesn’t make sense here because this message does not use the chunked transfer coding.")] (str "\n    "),
    .elem .explain [] (str "See also ") [
      .elem .rfc [(str "num", str "7230"), (str "sect", str "4.1.2")] ([]) [] (str ".")] (str "\n    "),
    .elem .ref [(str "to", str "msg.headers.transfer_encoding")] ([]) [] (str "\n    "),
    .comment (str " It would be more interesting to check that the header announced by ``Trailer`` is actually present there, but I don't think this is feasible, because many/most implementations (which are going to supply us with parsed messages) don't provide access to the trailer part at all. ") (str "\n  ")] (str "\n\n  ")

/-- Notice 1055 (httpolice/notices.xml 426-430). -/
def notice1055 : Xml :=
  .elem (.notice .comment) [(str "id", str "1055")] (str "\n    ") [
    .elem .title [] (str "Unnecessary ") [
      .elem (.known .h) [] (str "Content-Location") [] ([])] (str "\n    "),
    .elem .explain [] (str "This is a ") [
      .elem .var [(str "ref", str "msg.status")] ([]) [] (str " response to a "),
      .elem .var [(str "ref", str "msg.request.method")] ([]) [] (str " request. By definition, its body is a representation of the requested resource. But it also has a "),
      .elem (.known .h) [] (str "Content-Location") [] (str " header that points to the same URI as the request URI. In this case, the header provides no additional information.")] (str "\n    "),
    .elem .explain [] (str "See also ") [
      .elem .rfc [(str "num", str "7231"), (str "sect", str "3.1.4.1")] ([]) [] (str ".")] (str "\n  ")] (str "\n\n  ")

/-- Notice 1056 (httpolice/notices.xml 432-440). -/
def notice1056 : Xml :=
  .elem (.notice .comment) [(str "id", str "1056")] (str "\n    ") [
    .elem .title [] ([]) [
      .elem (.known .m) [] (str "GET") [] (str " request with a body may cause problems")] (str "\n    "),
    .elem .rfc [(str "num", str "7231"), (str "sect", str "4.3.1")] (str "\n      A payload within a GET request message has no defined semantics;\n   sending a payload body on a GET request might cause some existing\n   implementations to reject the request.\n    ") [] (str "\n    "),
    .elem .ref [(str "to", str "msg.displayable_body")] ([]) [] (str "\n  ")] (str "\n\n  ")

/-- Notice 1057 (httpolice/notices.xml 442-449). -/
def notice1057 : Xml :=
  .elem (.notice .comment) [(str "id", str "1057")] (str "\n    ") [
    .elem .title [] ([]) [
      .elem (.known .m) [] (str "HEAD") [] (str " request with a body may cause problems")] (str "\n    "),
    .elem .rfc [(str "num", str "7231"), (str "sect", str "4.3.2")] (str "\n      A payload within a HEAD request message has no defined semantics;\n   sending a payload body on a HEAD request might cause some existing\n   implementations to reject the request.\n    ") [] (str "\n  ")] (str "\n\n  ")

/-- Notice 1058 (httpolice/notices.xml 451-462). -/
def notice1058 : Xml :=
  .elem (.notice .error) [(str "id", str "1058")] (str "\n    ") [
    .elem .title [] ([]) [
      .elem (.known .m) [] (str "PUT") [] (str " request with "),
      .elem (.known .h) [(str "ref", str "no")] (str "Content-Range") [] (str " must be rejected")] (str "\n    "),
    .elem .rfc [(str "num", str "7231"), (str "sect", str "4.3.4")] (str "\n      An origin server that allows PUT on a given target resource MUST send\n   a ") [
      .elem (.known .st) [] (str "400") [] (str " (Bad Request) response to a PUT request that contains a\n   "),
      .elem (.known .h) [(str "ref", str "no")] (str "Content-Range") [] (str " header field (Section 4.2 of [RFC7233]), since the\n   payload is likely to be partial content that has been mistakenly PUT\n   as a full representation.\n    ")] (str "\n    "),
    .elem .ref [(str "to", str "msg.status")] ([]) [] (str "\n    "),
    .elem .ref [(str "to", str "msg.request.headers.content_range")] ([]) [] (str "\n  ")] (str "\n\n  ")

/-- Notice 1059 (httpolice/notices.xml 464-472). -/
def notice1059 : Xml :=
  .elem (.notice .comment) [(str "id", str "1059")] (str "\n    ") [
    .elem .title [] ([]) [
      .elem (.known .m) [] (str "DELETE") [] (str " request with a body may cause problems")] (str "\n    "),
    .elem .rfc [(str "num", str "7231"), (str "sect", str "4.3.5")] (str "\n      A payload within a DELETE request message has no defined semantics;\n   sending a payload body on a DELETE request might cause some existing\n   implementations to reject the request.\n    ") [] (str "\n    "),
    .elem .ref [(str "to", str "msg.displayable_body")] ([]) [] (str "\n  ")] (str "\n\n  ")

/-- Notice 1060 (httpolice/notices.xml 474-477). -/
def notice1060 : Xml :=
  .elem (.notice .error) [(str "id", str "1060")] (str "\n    ") [
    .elem .title [] (str "Strange ") [
      .elem (.known .h) [] (str "Content-Location") [] (str " in response to "),
      .elem (.known .m) [] (str "DELETE") [] ([])] (str "\n    "),
    .elem .explain [] (str "This is an ostensibly successful (") [
      .elem .var [(str "ref", str "msg.status")] ([]) [] (str ") response to a "),
      .elem (.known .m) [] (str "DELETE") [] (str " request. However, according to its "),
      .elem (.known .h) [] (str "Content-Location") [] (str " header, it carries a representation of the target resource—the one that should have been deleted. Either the Content-Location is wrong, or the request did not actually succeed.")] (str "\n  ")] (str "\n\n  ")

/-- Notice 1061 (httpolice/notices.xml 479-487). -/
def notice1061 : Xml :=
  .elem (.notice .comment) [(str "id", str "1061")] (str "\n    ") [
    .elem .title [] ([]) [
      .elem (.known .m) [] (str "CONNECT") [] (str " request with a body may cause problems")] (str "\n    "),
    .elem .rfc [(str "num", str "7231"), (str "sect", str "4.3.6")] (str "\n      A payload within a CONNECT request message has no defined semantics;\n   sending a payload body on a CONNECT request might cause some existing\n   implementations to reject the request.\n    ") [] (str "\n    "),
    .elem .ref [(str "to", str "msg.displayable_body")] ([]) [] (str "\n  ")] (str "\n\n  ")

/-- Notice 1062 (httpolice/notices.xml 489-496). -/
def notice1062 : Xml :=
  .elem (.notice .error) [(str "id", str "1062")] (str "\n    ") [
    .elem .title [] ([]) [
      .elem (.known .m) [] (str "OPTIONS") [] (str " request with a body needs "),
      .elem (.known .h) [] (str "Content-Type") [] ([])] (str "\n    "),
    .elem .rfc [(str "num", str "7231"), (str "sect", str "4.3.7")] (str "\n      A client that generates an OPTIONS request containing a payload body\n   MUST send a valid ") [
      .elem (.known .h) [] (str "Content-Type") [] (str " header field describing the\n   representation media type.\n    ")] (str "\n  ")] (str "\n\n  ")

/-- Notice 1063 (httpolice/notices.xml 498-501). -/
def notice1063 : Xml :=
  .elem (.notice .error) [(str "id", str "1063")] (str "\n    ") [
    .elem .title [] ([]) [
      .elem .var [(str "ref", str "header")] ([]) [] (str " header is for responses")] (str "\n    "),
    .elem .explain [] (str "This request has the ") [
      .elem .var [(str "ref", str "header")] ([]) [] (str " header, which is only defined for responses.")] (str "\n  ")] (str "\n\n  ")

/-- Notice 1064 (httpolice/notices.xml 503-506). -/
def notice1064 : Xml :=
  .elem (.notice .error) [(str "id", str "1064")] (str "\n    ") [
    .elem .title [] ([]) [
      .elem .var [(str "ref", str "header")] ([]) [] (str " header is for requests")] (str "\n    "),
    .elem .explain [] (str "This response has the ") [
      .elem .var [(str "ref", str "header")] ([]) [] (str " header, which is only defined for requests.")] (str "\n  ")] (str "\n\n  ")

/-- Notice 1066 (httpolice/notices.xml 508-515). -/
def notice1066 : Xml :=
  .elem (.notice .error) [(str "id", str "1066")] (str "\n    ") [
    .elem .title [] (str "“") [
      .elem (.known .h) [] (str "Expect") [] (str ": 100-continue” is forbidden on empty requests")] (str "\n    "),
    .elem .rfc [(str "num", str "7231"), (str "sect", str "5.1.1")] (str "\n      A client MUST NOT generate a 100-continue expectation in a request\n      that does not include a message body.\n    ") [] (str "\n    "),
    .comment (str " Even though we don't really distinguish between \"no body\" and \"body of length 0\", it doesn't make sense to expect 100 (Continue) to a request with a ``Content-Length: 0``, for example. ") (str "\n  ")] (str "\n\n  ")

/-- Notice 1067 (httpolice/notices.xml 517-520). -/
def notice1067 : Xml :=
  .elem (.notice .comment) [(str "id", str "1067")] (str "\n    ") [
    .elem .title [] ([]) [
      .elem (.known .h) [] (str "Max-Forwards") [] (str " header is undefined for "),
      .elem .var [(str "ref", str "msg.method")] ([]) [] (str " requests")] (str "\n    "),
    .elem .explain [] (str "The ") [
      .elem (.known .h) [] (str "Max-Forwards") [] (str " header is only defined for "),
      .elem (.known .m) [] (str "OPTIONS") [] (str " and "),
      .elem (.known .m) [] (str "TRACE") [] (str " requests. "),
      .elem .rfc [(str "num", str "7231"), (str "sect", str "5.1.2")] (str "A recipient MAY ignore a Max-Forwards header field received with any other request methods.") [] ([])] (str "\n  ")] (str "\n\n  ")

/-- Notice 1068 (httpolice/notices.xml 522-529). -/
def notice1068 : Xml :=
  .elem (.notice .error) [(str "id", str "1068")] (str "\n    ") [
    .elem .title [] (str "Unsecured request must not have a ") [
      .elem (.known .h) [] (str "Referer") [] (str " with ‘https:’")] (str "\n    "),
    .elem .rfc [(str "num", str "7231"), (str "sect", str "5.5.2")] (str "\n      A user agent MUST NOT send a Referer header field in an\n   unsecured HTTP request if the referring page was received with a\n   secure protocol.\n    ") [] (str "\n  ")] (str "\n\n  ")

/-- Notice 1070 (httpolice/notices.xml 531-537). -/
def notice1070 : Xml :=
  .elem (.notice .comment) [(str "id", str "1070")] (str "\n    ") [
    .elem .title [] (str "Missing ") [
      .elem (.known .h) [] (str "User-Agent") [] (str " header")] (str "\n    "),
    .elem .rfc [(str "num", str "7231"), (str "sect", str "5.5.3")] (str "\n      A user agent SHOULD send a User-Agent field in each request\n   unless specifically configured not to do so.\n    ") [] (str "\n  ")] (str "\n\n  ")

/-- Notice 1071 (httpolice/notices.xml 539-546). -/
def notice1071 : Xml :=
  .elem (.notice .error) [(str "id", str "1071")] (str "\n    ") [
    .elem .title [] ([]) [
      .elem .var [(str "ref", str "msg.status")] ([]) [] (str " response to an HTTP/1.0 request is forbidden")] (str "\n    "),
    .elem .rfc [(str "num", str "7231"), (str "sect", str "6.2")] (str "\n      Since HTTP/1.0 did not define any 1xx status codes, a\n   server MUST NOT send a 1xx response to an HTTP/1.0 client.\n    ") [] (str "\n    "),
    .elem .ref [(str "to", str "msg.request.version")] ([]) [] (str "\n  ")] (str "\n\n  ")

/-- Notice 1072 (httpolice/notices.xml 548-551). -/
def notice1072 : Xml :=
  .elem (.notice .error) [(str "id", str "1072")] (str "\n    ") [
    .elem .title [] ([]) [
      .elem (.known .st) [] (str "201") [] (str " response to "),
      .elem .var [(str "ref", str "msg.request.method")] ([]) [] (str " makes no sense")] (str "\n    "),
    .elem .explain [] (str "The ") [
      .elem .var [(str "ref", str "msg.request.method")] ([]) [] (str " method is defined as safe (read-only). But the "),
      .elem (.known .st) [] (str "201") [] (str " status code means that a new resource was created.")] (str "\n  ")] (str "\n\n  ")

/-- Notice 1073 (httpolice/notices.xml 553-556). -/
def notice1073 : Xml :=
  .elem (.notice .comment) [(str "id", str "1073")] (str "\n    ") [
    .elem .title [] (str "Possibly missing ") [
      .elem (.known .h) [] (str "Location") [] (str " header")] (str "\n    "),
    .elem .explain [] (str "This ") [
      .elem (.known .st) [] (str "201") [] (str " response indicates that a new resource was created. Because there is no "),
      .elem (.known .h) [] (str "Location") [] (str " header in the response, it is assumed that the created resource is the same as the request target ("),
      .elem .rfc [(str "num", str "7231"), (str "sect", str "6.3.2")] ([]) [] (str "). But "),
      .elem (.known .m) [] (str "POST") [] (str " requests are usually intended to create a sub-resource of the target. It’s likely that this response needs an explicit "),
      .elem (.known .h) [] (str "Location") [] (str ".")] (str "\n  ")] (str "\n\n  ")

/-- Notice 1074 (httpolice/notices.xml 558-561). -/
def notice1074 : Xml :=
  .elem (.notice .error) [(str "id", str "1074")] (str "\n    ") [
    .elem .title [] ([]) [
      .elem (.known .st) [] (str "202") [] (str " response to "),
      .elem .var [(str "ref", str "msg.request.method")] ([]) [] (str " makes no sense")] (str "\n    "),
    .elem .explain [] (str "The ") [
      .elem .var [(str "ref", str "msg.request.method")] ([]) [] (str " method is defined as safe (read-only). But the "),
      .elem (.known .st) [] (str "202") [] (str " status code means that the server started some kind of processing operation.")] (str "\n  ")] (str "\n\n  ")

/-- Notice 1076 (httpolice/notices.xml 563-570). -/
def notice1076 : Xml :=
  .elem (.notice .error) [(str "id", str "1076")] (str "\n    ") [
    .elem .title [] ([]) [
      .elem (.known .st) [] (str "205") [] (str " response must not have a body")] (str "\n    "),
    .elem .rfc [(str "num", str "7231"), (str "sect", str "6.3.6")] (str "\n      Since the 205 status code implies that no additional content will be\n   provided, a server MUST NOT generate a payload in a 205 response.\n    ") [] (str "\n    "),
    .elem .ref [(str "to", str "msg.displayable_body")] ([]) [] (str "\n  ")] (str "\n\n  ")

/-- Notice 1077 (httpolice/notices.xml 572-580). -/
def notice1077 : Xml :=
  .elem (.notice .comment) [(str "id", str "1077")] (str "\n    ") [
    .elem .title [] ([]) [
      .elem (.known .st) [] (str "300") [] (str " response should have a body")] (str "\n    "),
    .elem .rfc [(str "num", str "7231"), (str "sect", str "6.4.1")] (str "\n      For request methods other than ") [
      .elem (.known .m) [] (str "HEAD") [] (str ", the server SHOULD generate a\n   payload in the 300 response containing a list of representation\n   metadata and URI reference(s) from which the user or user agent can\n   choose the one most preferred.\n    ")] (str "\n  ")] (str "\n\n  ")

/-- Notice 1078 (httpolice/notices.xml 582-588). -/
def notice1078 : Xml :=
  .elem (.notice .comment) [(str "id", str "1078")] (str "\n    ") [
    .elem .title [] ([]) [
      .elem (.known .st) [] (str "301") [] (str " response should have a "),
      .elem (.known .h) [] (str "Location") [] (str " header")] (str "\n    "),
    .elem .rfc [(str "num", str "7231"), (str "sect", str "6.4.2")] (str "\n      The server SHOULD generate a Location header field in the response\n   containing a preferred URI reference for the new permanent URI.\n    ") [] (str "\n  ")] (str "\n\n  ")

/-- Notice 1079 (httpolice/notices.xml 590-596). -/
def notice1079 : Xml :=
  .elem (.notice .comment) [(str "id", str "1079")] (str "\n    ") [
    .elem .title [] ([]) [
      .elem (.known .st) [] (str "302") [] (str " response should have a "),
      .elem (.known .h) [] (str "Location") [] (str " header")] (str "\n    "),
    .elem .rfc [(str "num", str "7231"), (str "sect", str "6.4.3")] (str "\n      The server SHOULD generate a Location header field in the response\n   containing a URI reference for the different URI.\n    ") [] (str "\n  ")] (str "\n\n  ")

/-- Notice 1080 (httpolice/notices.xml 598-606). -/
def notice1080 : Xml :=
  .elem (.notice .error) [(str "id", str "1080")] (str "\n    ") [
    .elem .title [] ([]) [
      .elem (.known .st) [] (str "303") [] (str " response needs a "),
      .elem (.known .h) [] (str "Location") [] (str " header")] (str "\n    "),
    .elem .rfc [(str "num", str "7231"), (str "sect", str "6.4.4")] (str "\n      The 303 (See Other) status code indicates that the server is\n   redirecting the user agent to a different resource, as indicated by a\n   URI in the ") [
      .elem (.known .h) [] (str "Location") [] (str " header field, which is intended to provide an\n   indirect response to the original request.\n    ")] (str "\n  ")] (str "\n\n  ")

/-- Notice 1081 (httpolice/notices.xml 608-615). -/
def notice1081 : Xml :=
  .elem (.notice .comment) [(str "id", str "1081")] (str "\n    ") [
    .elem .title [] ([]) [
      .elem (.known .st) [] (str "303") [] (str " response should have a body")] (str "\n    "),
    .elem .rfc [(str "num", str "7231"), (str "sect", str "6.4.4")] (str "\n      Except for responses to a ") [
      .elem (.known .m) [] (str "HEAD") [] (str " request, the representation of a 303\n   response ought to contain a short hypertext note with a hyperlink to\n   the same URI reference provided in the "),
      .elem (.known .h) [(str "ref", str "no")] (str "Location") [] (str " header field.\n    ")] (str "\n  ")] (str "\n\n  ")

/-- Notice 1082 (httpolice/notices.xml 617-623). -/
def notice1082 : Xml :=
  .elem (.notice .error) [(str "id", str "1082")] (str "\n    ") [
    .elem .title [] (str "Status code ") [
      .elem (.known .st) [] (str "305") [] (str " is deprecated")] (str "\n    "),
    .elem .rfc [(str "num", str "7231"), (str "sect", str "6.4.5")] (str "\n      The 305 (Use Proxy) status code was defined in a previous version of\n   this specification and is now deprecated (Appendix B).\n    ") [] (str "\n  ")] (str "\n\n  ")

/-- Notice 1083 (httpolice/notices.xml 625-631). -/
def notice1083 : Xml :=
  .elem (.notice .error) [(str "id", str "1083")] (str "\n    ") [
    .elem .title [] (str "Status code ") [
      .elem (.known .st) [] (str "306") [] (str " is reserved")] (str "\n    "),
    .elem .rfc [(str "num", str "7231"), (str "sect", str "6.4.6")] (str "\n      The 306 status code was defined in a previous version of this\n   specification, is no longer used, and the code is reserved.\n    ") [] (str "\n  ")] (str "\n\n  ")

/-- Notice 1084 (httpolice/notices.xml 633-639). -/
def notice1084 : Xml :=
  .elem (.notice .comment) [(str "id", str "1084")] (str "\n    ") [
    .elem .title [] ([]) [
      .elem (.known .st) [] (str "307") [] (str " response should have a "),
      .elem (.known .h) [] (str "Location") [] (str " header")] (str "\n    "),
    .elem .rfc [(str "num", str "7231"), (str "sect", str "6.4.7")] (str "\n      The server SHOULD generate a Location header field in the response\n   containing a URI reference for the different URI.\n    ") [] (str "\n  ")] (str "\n\n  ")

/-- Notice 1085 (httpolice/notices.xml 641-645). -/
def notice1085 : Xml :=
  .elem (.notice .error) [(str "id", str "1085")] (str "\n    ") [
    .elem .title [] (str "Redirection to the same URI") [] (str "\n    "),
    .elem .explain [] (str "This ") [
      .elem .var [(str "ref", str "msg.status")] ([]) [] (str " response includes a "),
      .elem (.known .h) [] (str "Location") [] (str " header that points to the same URI as the request URI. So the resource redirects to itself.")] (str "\n    "),
    .elem .ref [(str "to", str "msg.request.target")] ([]) [] (str "\n  ")] (str "\n\n  ")

/-- Notice 1086 (httpolice/notices.xml 647-652). -/
def notice1086 : Xml :=
  .elem (.notice .error) [(str "id", str "1086")] (str "\n    ") [
    .elem .title [] ([]) [
      .elem .var [(str "ref", str "msg.status")] ([]) [] (str " response to server-wide "),
      .elem (.known .m) [] (str "OPTIONS") [] (str " makes no sense")] (str "\n    "),
    .elem .explain [] (str "The ") [
      .elem .var [(str "ref", str "msg.status")] ([]) [] (str " status code means that the target resource can be found at a different URI. But this was an “ "),
      .elem (.known .m) [] (str "OPTIONS") [] (str " * ” request—it targets the entire server, not any particular resource. So the "),
      .elem .var [(str "ref", str "msg.status")] ([]) [] (str " status code makes no sense here.")] (str "\n    "),
    .elem .explain [] (str "Perhaps the ") [
      .elem (.known .st) [] (str "303") [] (str " status code would fit better.")] (str "\n    "),
    .elem .ref [(str "to", str "msg.request.target")] ([]) [] (str "\n  ")] (str "\n\n  ")

/-- Notice 1087 (httpolice/notices.xml 654-662). -/
def notice1087 : Xml :=
  .elem (.notice .comment) [(str "id", str "1087")] (str "\n    ") [
    .elem .title [] ([]) [
      .elem .var [(str "ref", str "msg.status")] ([]) [] (str " response should include an explanation")] (str "\n    "),
    .elem .rfc [(str "num", str "7231"), (str "sect", str "6.5")] (str "\n      Except when responding to a ") [
      .elem (.known .m) [] (str "HEAD") [] (str " request, the\n   server SHOULD send a representation containing an explanation of the\n   error situation, and whether it is a temporary or permanent\n   condition.\n    ")] (str "\n  ")] (str "\n\n  ")

/-- Notice 1088 (httpolice/notices.xml 664-669). -/
def notice1088 : Xml :=
  .elem (.notice .error) [(str "id", str "1088")] (str "\n    ") [
    .elem .title [] (str "Status code ") [
      .elem (.known .st) [] (str "402") [] (str " is reserved")] (str "\n    "),
    .elem .rfc [(str "num", str "7231"), (str "sect", str "6.5.2")] (str "\n      The 402 (Payment Required) status code is reserved for future use.\n    ") [] (str "\n  ")] (str "\n\n  ")

/-- Notice 1089 (httpolice/notices.xml 671-678). -/
def notice1089 : Xml :=
  .elem (.notice .error) [(str "id", str "1089")] (str "\n    ") [
    .elem .title [] ([]) [
      .elem (.known .st) [] (str "405") [] (str " response needs an "),
      .elem (.known .h) [] (str "Allow") [] (str " header")] (str "\n    "),
    .elem .rfc [(str "num", str "7231"), (str "sect", str "6.5.5")] (str "\n      The origin server MUST generate an\n   ") [
      .elem (.known .h) [] (str "Allow") [] (str " header field in a 405 response containing a list of the target\n   resource's currently supported methods.\n    ")] (str "\n  ")] (str "\n\n  ")

/-- Notice 1090 (httpolice/notices.xml 680-684). -/
def notice1090 : Xml :=
  .elem (.notice .error) [(str "id", str "1090")] (str "\n    ") [
    .elem .title [] ([]) [
      .elem (.known .st) [] (str "406") [] (str " response, but request wasn’t negotiating")] (str "\n    "),
    .elem .explain [] (str "The ") [
      .elem (.known .st) [] (str "406") [] (str " status code means that the server cannot satisfy the request’s content negotiation headers, such as "),
      .elem (.known .h) [(str "ref", str "no")] (str "Accept") [] (str ". But this request doesn’t seem to have such headers.")] (str "\n    "),
    .elem .explain [] (str "See also ") [
      .elem .rfc [(str "num", str "7231"), (str "sect", str "5.3")] ([]) [] (str ".")] (str "\n  ")] (str "\n\n  ")

/-- Notice 1092 (httpolice/notices.xml 686-694). -/
def notice1092 : Xml :=
  .elem (.notice .comment) [(str "id", str "1092")] (str "\n    ") [
    .elem .title [] ([]) [
      .elem (.known .st) [] (str "406") [] (str " response should have a body")] (str "\n    "),
    .elem .rfc [(str "num", str "7231"), (str "sect", str "6.5.6")] (str "\n      The server SHOULD generate a payload containing a list of available\n   representation characteristics and corresponding resource identifiers\n   from which the user or user agent can choose the one most\n   appropriate.\n    ") [] (str "\n  ")] (str "\n\n  ")

/-- Notice 1093 (httpolice/notices.xml 696-702). -/
def notice1093 : Xml :=
  .elem (.notice .comment) [(str "id", str "1093")] (str "\n    ") [
    .elem .title [] ([]) [
      .elem (.known .h) [] (str "User-Agent") [] (str " contains no actual product")] (str "\n    "),
    .elem .explain [] (str "This request’s ") [
      .elem (.known .h) [] (str "User-Agent") [] (str " header contains only the name of the underlying library, which isn’t very useful for identifying the request. It may be a good idea to include the name of the actual product.")] (str "\n    "),
    .elem .explain [] (str "For example: “My-Product/1.0 ") [
      .elem .var [(str "ref", str "library")] ([]) [] (str "”.")] (str "\n    "),
    .elem .explain [] (str "Or simply “My-Product/1.0” or “My-Product”.") [] (str "\n    "),
    .elem .explain [] (str "See ") [
      .elem .rfc [(str "num", str "7231"), (str "sect", str "5.5.3")] ([]) [] (str ".")] (str "\n  ")] (str "\n\n  ")

/-- Notice 1094 (httpolice/notices.xml 704-712). -/
def notice1094 : Xml :=
  .elem (.notice .comment) [(str "id", str "1094")] (str "\n    ") [
    .elem .title [] ([]) [
      .elem (.known .st) [] (str "408") [] (str " response should have “"),
      .elem (.known .h) [] (str "Connection") [] (str ": close”")] (str "\n    "),
    .elem .rfc [(str "num", str "7231"), (str "sect", str "6.5.7")] (str "\n      A server SHOULD send the \"close\" connection option\n   (Section 6.1 of [RFC7230]) in the response, since 408 implies that\n   the server has decided to close the connection rather than continue\n   waiting.\n    ") [] (str "\n  ")] (str "\n\n  ")

/-- Notice 1095 (httpolice/notices.xml 714-717). -/
def notice1095 : Xml :=
  .elem (.notice .error) [(str "id", str "1095")] (str "\n    ") [
    .elem .title [] ([]) [
      .elem (.known .st) [] (str "409") [] (str " response to "),
      .elem .var [(str "ref", str "msg.request.method")] ([]) [] (str " makes no sense")] (str "\n    "),
    .elem .explain [] (str "The ") [
      .elem (.known .st) [] (str "409") [] (str " status code means that the request conflicted with the current state of the resource. But a "),
      .elem .var [(str "ref", str "msg.request.method")] ([]) [] (str " request is, by definition, safe (read-only): it must not affect the state, so there can be no conflict.")] (str "\n  ")] (str "\n\n  ")

/-- Notice 1096 (httpolice/notices.xml 719-726). -/
def notice1096 : Xml :=
  .elem (.notice .comment) [(str "id", str "1096")] (str "\n    ") [
    .elem .title [] ([]) [
      .elem (.known .st) [] (str "409") [] (str " response should include an explanation")] (str "\n    "),
    .elem .rfc [(str "num", str "7231"), (str "sect", str "6.5.8")] (str "\n      The server\n   SHOULD generate a payload that includes enough information for a user\n   to recognize the source of the conflict.\n    ") [] (str "\n  ")] (str "\n\n  ")

/-- Notice 1097 (httpolice/notices.xml 728-732). -/
def notice1097 : Xml :=
  .elem (.notice .error) [(str "id", str "1097")] (str "\n    ") [
    .elem .title [] ([]) [
      .elem (.known .st) [] (str "411") [] (str " response, but request did have "),
      .elem (.known .h) [(str "ref", str "no")] (str "Content-Length") [] ([])] (str "\n    "),
    .elem .explain [] (str "The ") [
      .elem (.known .st) [] (str "411") [] (str " status code means that the server wants to see a "),
      .elem (.known .h) [(str "ref", str "no")] (str "Content-Length") [] (str " header in the request. But this request did, in fact, include a valid Content-Length of "),
      .elem .var [(str "ref", str "msg.request.headers.content_length.value")] ([]) [] (str ".")] (str "\n    "),
    .elem .ref [(str "to", str "msg.request.headers.content_length")] ([]) [] (str "\n  ")] (str "\n\n  ")

/-- Notice 1098 (httpolice/notices.xml 734-741). -/
def notice1098 : Xml :=
  .elem (.notice .error) [(str "id", str "1098")] (str "\n    ") [
    .elem .title [] ([]) [
      .elem (.known .st) [] (str "413") [] (str " response, but request had no body")] (str "\n    "),
    .elem .rfc [(str "num", str "7231"), (str "sect", str "6.5.11")] (str "\n      The 413 (Payload Too Large) status code indicates that the server is\n   refusing to process a request because the request payload is larger\n   than the server is willing or able to process.\n    ") [] (str "\n  ")] (str "\n\n  ")

/-- Notice 1099 (httpolice/notices.xml 743-750). -/
def notice1099 : Xml :=
  .elem (.notice .error) [(str "id", str "1099")] (str "\n    ") [
    .elem .title [] ([]) [
      .elem (.known .st) [] (str "415") [] (str " response, but request had no body")] (str "\n    "),
    .elem .rfc [(str "num", str "7231"), (str "sect", str "6.5.13")] (str "\n      The 415 (Unsupported Media Type) status code indicates that the\n   origin server is refusing to service the request because the payload\n   is in a format not supported by this method on the target resource.\n    ") [] (str "\n  ")] (str "\n\n  ")

/-- Notice 1100 (httpolice/notices.xml 752-760). -/
def notice1100 : Xml :=
  .elem (.notice .error) [(str "id", str "1100")] (str "\n    ") [
    .elem .title [] ([]) [
      .elem (.known .st) [] (str "417") [] (str " response, but request had no "),
      .elem (.known .h) [(str "ref", str "no")] (str "Expect") [] ([])] (str "\n    "),
    .elem .rfc [(str "num", str "7231"), (str "sect", str "6.5.14")] (str "\n      The 417 (Expectation Failed) status code indicates that the\n   expectation given in the request's ") [
      .elem (.known .h) [(str "ref", str "no")] (str "Expect") [] (str " header field\n   (Section 5.1.1) could not be met by at least one of the inbound\n   servers.\n    ")] (str "\n  ")] (str "\n\n  ")

/-- Notice 1101 (httpolice/notices.xml 762-768). -/
def notice1101 : Xml :=
  .elem (.notice .error) [(str "id", str "1101")] (str "\n    ") [
    .elem .title [] ([]) [
      .elem (.known .st) [] (str "426") [] (str " response needs an "),
      .elem (.known .h) [] (str "Upgrade") [] (str " header")] (str "\n    "),
    .elem .rfc [(str "num", str "7231"), (str "sect", str "6.5.15")] (str "\n      The server MUST send an ") [
      .elem (.known .h) [] (str "Upgrade") [] (str " header field in a 426\n   response to indicate the required protocol(s)\n    ")] (str "\n  ")] (str "\n\n  ")

/-- Notice 1102 (httpolice/notices.xml 770-776). -/
def notice1102 : Xml :=
  .elem (.notice .error) [(str "id", str "1102")] (str "\n    ") [
    .elem .title [] ([]) [
      .elem (.known .st) [] (str "426") [] (str " response, but client is ready to upgrade")] (str "\n    "),
    .elem .explain [] (str "In this response, the server demands that the client upgrade to ") [
      .elem .var [(str "ref", str "protocol")] ([]) [] (str ". But the client’s request is already offering that same upgrade in its own "),
      .elem (.known .h) [(str "ref", str "no")] (str "Upgrade") [] (str " header. The server can just send a "),
      .elem (.known .st) [] (str "101") [] (str " response and switch to "),
      .elem .var [(str "ref", str "protocol")] ([]) [] (str ".")] (str "\n    "),
    .elem .explain [] (str "See ") [
      .elem .rfc [(str "num", str "7230"), (str "sect", str "6.7")] ([]) [] (str ".")] (str "\n    "),
    .elem .ref [(str "to", str "msg.headers.upgrade")] ([]) [] (str "\n    "),
    .elem .ref [(str "to", str "msg.request.headers.upgrade")] ([]) [] (str "\n  ")] (str "\n\n  ")

/-- Notice 1103 (httpolice/notices.xml 778-783). -/
def notice1103 : Xml :=
  .elem (.notice .error) [(str "id", str "1103")] (str "\n    ") [
    .elem .title [] (str "Not proceeding with protocol upgrade") [] (str "\n    "),
    .elem .explain [] (str "This response’s ") [
      .elem (.known .h) [] (str "Upgrade") [] (str " header indicates that the server is ready to upgrade to "),
      .elem .var [(str "ref", str "protocol")] ([]) [] (str ". But the client’s request is already offering that same upgrade in its own "),
      .elem (.known .h) [(str "ref", str "no")] (str "Upgrade") [] (str " header. If the server actually wants to switch to "),
      .elem .var [(str "ref", str "protocol")] ([]) [] (str ", it should go ahead, send a "),
      .elem (.known .st) [] (str "101") [] (str " response, and switch.")] (str "\n    "),
    .elem .explain [] (str "See ") [
      .elem .rfc [(str "num", str "7230"), (str "sect", str "6.7")] ([]) [] (str ".")] (str "\n    "),
    .elem .ref [(str "to", str "msg.request.headers.upgrade")] ([]) [] (str "\n  ")] (str "\n\n  ")

/-- Notice 1104 (httpolice/notices.xml 785-793). -/
def notice1104 : Xml :=
  .elem (.notice .comment) [(str "id", str "1104")] (str "\n    ") [
    .elem .title [] ([]) [
      .elem .var [(str "ref", str "msg.status")] ([]) [] (str " response should include an explanation")] (str "\n    "),
    .elem .rfc [(str "num", str "7231"), (str "sect", str "6.6")] (str "\n      Except when responding to a ") [
      .elem (.known .m) [] (str "HEAD") [] (str " request, the\n   server SHOULD send a representation containing an explanation of the\n   error situation, and whether it is a temporary or permanent\n   condition.\n    ")] (str "\n  ")] (str "\n\n  ")

/-- Notice 1105 (httpolice/notices.xml 795-802). -/
def notice1105 : Xml :=
  .elem (.notice .error) [(str "id", str "1105")] (str "\n    ") [
    .elem .title [] ([]) [
      .elem (.known .st) [] (str "505") [] (str " response, but request had the same HTTP version")] (str "\n    "),
    .elem .explain [] (str "The ") [
      .elem (.known .st) [] (str "505") [] (str " status code means that the server does not support the HTTP version used in the request—which is "),
      .elem .var [(str "ref", str "msg.request.version")] ([]) [] (str "—but the response itself is "),
      .elem .var [(str "ref", str "msg.version")] ([]) [] (str ", too.")] (str "\n    "),
    .elem .rfc [(str "num", str "7230"), (str "sect", str "2.6")] (str "\n      A server MUST NOT send\n   a version to which it is not conformant.\n    ") [] (str "\n  ")] (str "\n\n  ")

/-- Notice 1106 (httpolice/notices.xml 804-812). -/
def notice1106 : Xml :=
  .elem (.notice .comment) [(str "id", str "1106")] (str "\n    ") [
    .elem .title [] ([]) [
      .elem (.known .st) [] (str "505") [] (str " response should have a body")] (str "\n    "),
    .elem .rfc [(str "num", str "7231"), (str "sect", str "6.6.6")] (str "\n      The server SHOULD\n   generate a representation for the 505 response that describes why\n   that version is not supported and what other protocols are supported\n   by that server.\n    ") [] (str "\n  ")] (str "\n\n  ")

/-- Notice 1107 (httpolice/notices.xml 814-817). -/
def notice1107 : Xml :=
  .elem (.notice .error) [(str "id", str "1107")] (str "\n    ") [
    .elem .title [] (str "Obsolete date-time format in ") [
      .elem .var [(str "ref", str "place")] ([]) [] ([])] (str "\n    "),
    .elem .explain [] (str "This message’s ") [
      .elem .var [(str "ref", str "place")] ([]) [] (str " uses an obsolete date-time format. See "),
      .elem .rfc [(str "num", str "7231"), (str "sect", str "7.1.1.1")] ([]) [] (str ".")] (str "\n  ")] (str "\n\n  ")

/-- Notice 1108 (httpolice/notices.xml 819-822). -/
def notice1108 : Xml :=
  .elem (.notice .error) [(str "id", str "1108")] (str "\n    ") [
    .elem .title [] (str "Wrong day of week in ") [
      .elem .var [(str "ref", str "place")] ([]) [] ([])] (str "\n    "),
    .elem .explain [] (str "This message’s ") [
      .elem .var [(str "ref", str "place")] ([]) [] (str " claims that "),
      .elem .var [(str "ref", str "date")] ([]) [] (str " is "),
      .elem .var [(str "ref", str "claimed")] ([]) [] (str ", but in reality it’s "),
      .elem .var [(str "ref", str "actual")] ([]) [] (str ".")] (str "\n  ")] (str "\n\n  ")

/-- Notice 1109 (httpolice/notices.xml 824-828). -/
def notice1109 : Xml :=
  .elem (.notice .error) [(str "id", str "1109")] (str "\n    ") [
    .elem .title [] ([]) [
      .elem (.known .h) [] (str "Date") [] (str " header is in the future")] (str "\n    "),
    .elem .explain [] (str "The ") [
      .elem (.known .h) [] (str "Date") [] (str " header contains the date and time at which the message was originated. But here it seems to be in the future.")] (str "\n    "),
    .elem .explain [] (str "This might be due to wrong timezone settings.") [] (str "\n  ")] (str "\n\n  ")

/-- Notice 1110 (httpolice/notices.xml 830-833). -/
def notice1110 : Xml :=
  .elem (.notice .comment) [(str "id", str "1110")] (str "\n    ") [
    .elem .title [] (str "Missing ") [
      .elem (.known .h) [] (str "Date") [] (str " header")] (str "\n    "),
    .elem .explain [] (str "According to ") [
      .elem .rfc [(str "num", str "7231"), (str "sect", str "7.1.1.2")] ([]) [] (str ", every "),
      .elem .var [(str "ref", str "msg.status")] ([]) [] (str " response must have a "),
      .elem (.known .h) [] (str "Date") [] (str " header, unless the server has no usable clock.")] (str "\n  ")] (str "\n\n  ")

/-- Notice 1111 (httpolice/notices.xml 835-843). -/
def notice1111 : Xml :=
  .elem (.notice .error) [(str "id", str "1111")] (str "\n    ") [
    .elem .title [] ([]) [
      .elem (.known .st) [] (str "201") [] (str " response can’t have "),
      .elem (.known .h) [] (str "Location") [] (str " with a fragment (#)")] (str "\n    "),
    .elem .rfc [(str "num", str "7231"), (str "sect", str "7.1.2")] (str "\n      There are circumstances in which a fragment identifier in a ") [
      .elem (.known .h) [] (str "Location") [] (str "\n   value would not be appropriate.  For example, the Location header\n   field in a 201 (Created) response is supposed to provide a URI that\n   is specific to the created resource.\n    ")] (str "\n  ")] (str "\n\n  ")

/-- Notice 1112 (httpolice/notices.xml 845-848). -/
def notice1112 : Xml :=
  .elem (.notice .comment) [(str "id", str "1112")] (str "\n    ") [
    .elem .title [] ([]) [
      .elem (.known .h) [] (str "Location") [] (str " header is undefined for "),
      .elem .var [(str "ref", str "msg.status")] ([]) [] (str " responses")] (str "\n    "),
    .elem .explain [] ([]) [
      .elem .rfc [(str "num", str "7231"), (str "sect", str "7.1.2")] ([]) [] (str " does not define what it means for a "),
      .elem .var [(str "ref", str "msg.status")] ([]) [] (str " response to have a "),
      .elem (.known .h) [] (str "Location") [] (str " header.")] (str "\n  ")] (str "\n\n  ")

/-- Notice 1113 (httpolice/notices.xml 850-853). -/
def notice1113 : Xml :=
  .elem (.notice .comment) [(str "id", str "1113")] (str "\n    ") [
    .elem .title [] ([]) [
      .elem (.known .h) [] (str "Retry-After") [] (str " is undefined for "),
      .elem .var [(str "ref", str "msg.status")] ([]) [] (str " responses")] (str "\n    "),
    .elem .explain [] (str "As far as HTTPolice knows, the ") [
      .elem (.known .h) [] (str "Retry-After") [] (str " header is defined for status codes 3xx, "),
      .elem (.known .st) [] (str "413") [] (str ", "),
      .elem (.known .st) [] (str "429") [] (str ", and "),
      .elem (.known .st) [] (str "503") [] (str ", but not for "),
      .elem .var [(str "ref", str "msg.status")] ([]) [] (str ".")] (str "\n  ")] (str "\n\n  ")

/-- Notice 1114 (httpolice/notices.xml 855-858). -/
def notice1114 : Xml :=
  .elem (.notice .error) [(str "id", str "1114")] (str "\n    ") [
    .elem .title [] ([]) [
      .elem (.known .st) [] (str "405") [] (str " response, but "),
      .elem (.known .h) [] (str "Allow") [] (str " includes "),
      .elem .var [(str "ref", str "msg.request.method")] ([]) [] ([])] (str "\n    "),
    .elem .explain [] (str "The ") [
      .elem (.known .st) [] (str "405") [] (str " status code means that the request method ("),
      .elem .var [(str "ref", str "msg.request.method")] ([]) [] (str ") is not allowed for this resource. But the "),
      .elem (.known .h) [] (str "Allow") [] (str " header does include "),
      .elem .var [(str "ref", str "msg.request.method")] ([]) [] (str ".")] (str "\n  ")] (str "\n\n  ")

/-- Notice 1115 (httpolice/notices.xml 860-863). -/
def notice1115 : Xml :=
  .elem (.notice .error) [(str "id", str "1115")] (str "\n    ") [
    .elem .title [] ([]) [
      .elem (.known .h) [] (str "Allow") [] (str " does not include "),
      .elem .var [(str "ref", str "msg.request.method")] ([]) [] ([])] (str "\n    "),
    .elem .explain [] (str "The ") [
      .elem .var [(str "ref", str "msg.status")] ([]) [] (str " status code means that this "),
      .elem .var [(str "ref", str "msg.request.method")] ([]) [] (str " request was handled successfully. But the "),
      .elem (.known .h) [] (str "Allow") [] (str " header does not include "),
      .elem .var [(str "ref", str "msg.request.method")] ([]) [] (str ", so it should have been disallowed (status code "),
      .elem (.known .st) [] (str "405") [] (str ").")] (str "\n  ")] (str "\n\n  ")

/-- Notice 1116 (httpolice/notices.xml 865-872). -/
def notice1116 : Xml :=
  .elem (.notice .error) [(str "id", str "1116")] (str "\n    ") [
    .elem .title [] ([]) [
      .elem (.known .h) [] (str "Accept-Encoding") [] (str ": "),
      .elem .var [(str "ref", str "coding")] ([]) [] (str " must not have a quality value")] (str "\n    "),
    .elem .rfc [(str "num", str "7231"), (str "sect", str "5.3.4")] (str "\n      Most HTTP/1.0 applications do not recognize or obey qvalues\n      associated with content-codings.  This means that qvalues might\n      not work and are not permitted with ") [
      .elem (.known .cc) [] (str "x-gzip") [] (str " or "),
      .elem (.known .cc) [] (str "x-compress") [] (str ".\n    ")] (str "\n  ")] (str "\n\n  ")

/-- Notice 1117 (httpolice/notices.xml 874-878). -/
def notice1117 : Xml :=
  .elem (.notice .comment) [(str "id", str "1117")] (str "\n    ") [
    .elem .title [] ([]) [
      .elem (.known .h) [(str "ref", str "no")] (str "Accept-Language") [] (str " shouldn’t trigger a "),
      .elem (.known .st) [] (str "406") [] (str " response")] (str "\n    "),
    .elem .explain [] (str "The ") [
      .elem (.known .st) [] (str "406") [] (str " status code means that the server cannot satisfy the request’s content negotiation headers. The only such header (known to HTTPolice) in this request is "),
      .elem (.known .h) [(str "ref", str "no")] (str "Accept-Language") [] (str ". However, "),
      .elem .rfc [(str "num", str "7231"), (str "sect", str "5.3.5")] ([]) [] (str " discourages sending a "),
      .elem (.known .st) [] (str "406") [] (str " response in this case: it’s better to send a representation in a different language, because the user may still be able to understand some of it.")] (str "\n    "),
    .elem .ref [(str "to", str "msg.request.headers.accept_language")] ([]) [] (str "\n  ")] (str "\n\n  ")

/-- Notice 1118 (httpolice/notices.xml 880-886). -/
def notice1118 : Xml :=
  .elem (.notice .error) [(str "id", str "1118")] (str "\n    ") [
    .elem .title [] ([]) [
      .elem (.known .h) [] (str "Last-Modified") [] (str " can’t be later than "),
      .elem (.known .h) [] (str "Date") [] ([])] (str "\n    "),
    .elem .rfc [(str "num", str "7232"), (str "sect", str "2.2.1")] (str "\n      An origin server with a clock MUST NOT send a ") [
      .elem (.known .h) [] (str "Last-Modified") [] (str " date that\n   is later than the server's time of message origination ("),
      .elem (.known .h) [] (str "Date") [] (str ").\n    ")] (str "\n  ")] (str "\n\n  ")

/-- Notice 1119 (httpolice/notices.xml 888-896). -/
def notice1119 : Xml :=
  .elem (.notice .comment) [(str "id", str "1119")] (str "\n    ") [
    .elem .title [] (str "Backslash in ") [
      .elem .var [(str "ref", str "place")] ([]) [] (str " may cause problems")] (str "\n    "),
    .elem .rfc [(str "num", str "7232"), (str "sect", str "2.3")] (str "\n      Previously, opaque-tag was defined to be a quoted-string\n      ([RFC2616], Section 3.11); thus, some recipients might perform\n      backslash unescaping.  Servers therefore ought to avoid backslash\n      characters in entity tags.\n    ") [] (str "\n  ")] (str "\n\n  ")

/-- Notice 1120 (httpolice/notices.xml 898-907). -/
def notice1120 : Xml :=
  .elem (.notice .error) [(str "id", str "1120")] (str "\n    ") [
    .elem .title [] (str "Weak entity tag in ") [
      .elem (.known .h) [] (str "If-Match") [] (str " is not supposed to work")] (str "\n    "),
    .elem .rfc [(str "num", str "7232"), (str "sect", str "3.1")] (str "\n      An origin server MUST use the strong comparison function when\n   comparing entity-tags for ") [
      .elem (.known .h) [] (str "If-Match") [] (str " (Section 2.3.2), since the client\n   intends this precondition to prevent the method from being applied if\n   there have been any changes to the representation data.\n    ")] (str "\n    "),
    .elem .explain [] (str "In other words, a conformant server will never consider two weak entity tags as equal for purposes of the ") [
      .elem (.known .h) [] (str "If-Match") [] (str " header.")] (str "\n  ")] (str "\n\n  ")

/-- Notice 1121 (httpolice/notices.xml 909-914). -/
def notice1121 : Xml :=
  .elem (.notice .error) [(str "id", str "1121")] (str "\n    ") [
    .elem .title [] ([]) [
      .elem (.known .h) [(str "ref", str "no")] (str "If-None-Match") [] (str " was ignored")] (str "\n    "),
    .elem .explain [] (str "This is a ") [
      .elem .var [(str "ref", str "msg.status")] ([]) [] (str " response to a "),
      .elem .var [(str "ref", str "msg.request.method")] ([]) [] (str " request, but its "),
      .elem (.known .h) [] (str "ETag") [] (str " header matches the "),
      .elem (.known .h) [(str "ref", str "no")] (str "If-None-Match") [] (str " header of the request. The server is supposed to send a "),
      .elem (.known .st) [] (str "304") [] (str " response in this situation.")] (str "\n    "),
    .elem .explain [] (str "See ") [
      .elem .rfc [(str "num", str "7232"), (str "sect", str "3.2")] ([]) [] (str ".")] (str "\n    "),
    .elem .ref [(str "to", str "msg.request.headers.if_none_match")] ([]) [] (str "\n  ")] (str "\n\n  ")

/-- Notice 1122 (httpolice/notices.xml 916-919). -/
def notice1122 : Xml :=
  .elem (.notice .error) [(str "id", str "1122")] (str "\n    ") [
    .elem .title [] ([]) [
      .elem (.known .h) [] (str "If-Modified-Since") [] (str " in "),
      .elem .var [(str "ref", str "msg.method")] ([]) [] (str " requests is not supposed to work")] (str "\n    "),
    .elem .explain [] (str "According to ") [
      .elem .rfc [(str "num", str "7232"), (str "sect", str "3.3")] ([]) [] (str ", an "),
      .elem (.known .h) [] (str "If-Modified-Since") [] (str " header must be ignored in requests that are neither "),
      .elem (.known .m) [] (str "GET") [] (str " nor "),
      .elem (.known .m) [] (str "HEAD") [] (str ".")] (str "\n  ")] (str "\n\n  ")

/-- Notice 1123 (httpolice/notices.xml 921-926). -/
def notice1123 : Xml :=
  .elem (.notice .comment) [(str "id", str "1123")] (str "\n    ") [
    .elem .title [] ([]) [
      .elem (.known .h) [(str "ref", str "no")] (str "If-Modified-Since") [] (str " was ignored")] (str "\n    "),
    .elem .explain [] (str "This is a ") [
      .elem .var [(str "ref", str "msg.status")] ([]) [] (str " response to a "),
      .elem .var [(str "ref", str "msg.request.method")] ([]) [] (str " request, but its "),
      .elem (.known .h) [] (str "Last-Modified") [] (str " date is no later than the "),
      .elem (.known .h) [(str "ref", str "no")] (str "If-Modified-Since") [] (str " header of the request. The server should send a "),
      .elem (.known .st) [] (str "304") [] (str " response in this situation.")] (str "\n    "),
    .elem .explain [] (str "See ") [
      .elem .rfc [(str "num", str "7232"), (str "sect", str "3.3")] ([]) [] (str ".")] (str "\n    "),
    .elem .ref [(str "to", str "msg.request.headers.if_modified_since")] ([]) [] (str "\n  ")] (str "\n\n  ")

/-- Notice 1124 (httpolice/notices.xml 928-931). -/
def notice1124 : Xml :=
  .elem (.notice .error) [(str "id", str "1124")] (str "\n    ") [
    .elem .title [] ([]) [
      .elem (.known .st) [] (str "304") [] (str " response is undefined for "),
      .elem .var [(str "ref", str "msg.request.method")] ([]) [] (str " requests")] (str "\n    "),
    .elem .explain [] (str "The ") [
      .elem (.known .st) [] (str "304") [] (str " status code is only defined by "),
      .elem .rfc [(str "num", str "7232"), (str "sect", str "4.1")] ([]) [] (str " for responses to "),
      .elem (.known .m) [] (str "GET") [] (str " and "),
      .elem (.known .m) [] (str "HEAD") [] (str ". With other methods, the "),
      .elem (.known .st) [] (str "412") [] (str " status code may be useful.")] (str "\n  ")] (str "\n\n  ")

/-- Notice 1125 (httpolice/notices.xml 933-937). -/
def notice1125 : Xml :=
  .elem (.notice .error) [(str "id", str "1125")] (str "\n    ") [
    .elem .title [] ([]) [
      .elem .var [(str "ref", str "msg.status")] ([]) [] (str " response, but request has no preconditions")] (str "\n    "),
    .elem .explain [] (str "The ") [
      .elem .var [(str "ref", str "msg.status")] ([]) [] (str " status code is only used when the request includes a precondition, such as "),
      .elem (.known .h) [(str "ref", str "no")] (str "If-Modified-Since") [] (str ". But this request doesn’t seem to have any preconditions.")] (str "\n    "),
    .elem .explain [] (str "See ") [
      .elem .rfc [(str "num", str "7232")] ([]) [] (str ".")] (str "\n  ")] (str "\n\n  ")

/-- Notice 1127 (httpolice/notices.xml 939-949). -/
def notice1127 : Xml :=
  .elem (.notice .comment) [(str "id", str "1127")] (str "\n    ") [
    .elem .title [] ([]) [
      .elem (.known .st) [] (str "304") [] (str " response should not have "),
      .elem .var [(str "ref", str "header")] ([]) [] ([])] (str "\n    "),
    .elem .rfc [(str "num", str "7232"), (str "sect", str "4.1")] (str "\n      Since the goal of a 304 response is to minimize information transfer\n   when the recipient already has one or more cached representations, a\n   sender SHOULD NOT generate representation metadata other than the\n   above listed fields unless said metadata exists for the purpose of\n   guiding cache updates (e.g., ") [
      .elem (.known .h) [(str "ref", str "no")] (str "Last-Modified") [] (str " might be useful if the\n   response does not have an "),
      .elem (.known .h) [(str "ref", str "no")] (str "ETag") [] (str " field).\n    ")] (str "\n  ")] (str "\n\n  ")

/-- Notice 1128 (httpolice/notices.xml 951-955). -/
def notice1128 : Xml :=
  .elem (.notice .error) [(str "id", str "1128")] (str "\n    ") [
    .elem .title [] ([]) [
      .elem (.known .h) [(str "ref", str "no")] (str "If-Modified-Since") [] (str " on "),
      .elem .var [(str "ref", str "msg.request.method")] ([]) [] (str " must be ignored")] (str "\n    "),
    .elem .explain [] (str "The ") [
      .elem (.known .st) [] (str "412") [] (str " status code means that the server could not satisfy a precondition included in the request. The only such precondition (known to HTTPolice) in this request is "),
      .elem (.known .h) [(str "ref", str "no")] (str "If-Modified-Since") [] (str ". But "),
      .elem .rfc [(str "num", str "7232"), (str "sect", str "3.3")] ([]) [] (str " says that an "),
      .elem (.known .h) [(str "ref", str "no")] (str "If-Modified-Since") [] (str " header in a "),
      .elem .var [(str "ref", str "msg.request.method")] ([]) [] (str " request must be ignored.")] (str "\n    "),
    .elem .ref [(str "to", str "msg.request.headers.if_modified_since")] ([]) [] (str "\n  ")] (str "\n\n  ")

/-- Notice 1129 (httpolice/notices.xml 957-960). -/
def notice1129 : Xml :=
  .elem (.notice .error) [(str "id", str "1129")] (str "\n    ") [
    .elem .title [] (str "Preconditions on ") [
      .elem .var [(str "ref", str "msg.request.method")] ([]) [] (str " must be ignored")] (str "\n    "),
    .elem .explain [] (str "The ") [
      .elem (.known .st) [] (str "412") [] (str " status code means that the server could not satisfy a precondition included in the request. But, as defined in "),
      .elem .rfc [(str "num", str "7232"), (str "sect", str "5")] ([]) [] (str ", such preconditions must be ignored in a "),
      .elem .var [(str "ref", str "msg.request.method")] ([]) [] (str " request.")] (str "\n  ")] (str "\n\n  ")

/-- Notice 1130 (httpolice/notices.xml 962-971). -/
def notice1130 : Xml :=
  .elem (.notice .error) [(str "id", str "1130")] (str "\n    ") [
    .elem .title [] ([]) [
      .elem .var [(str "ref", str "header")] ([]) [] (str " on "),
      .elem .var [(str "ref", str "msg.method")] ([]) [] (str " makes no sense")] (str "\n    "),
    .elem .rfc [(str "num", str "7232"), (str "sect", str "5")] (str "\n      Likewise, a server\n   MUST ignore the conditional request header fields defined by this\n   specification when received with a request method that does not\n   involve the selection or modification of a selected representation,\n   such as ") [
      .elem (.known .m) [] (str "CONNECT") [] (str ", "),
      .elem (.known .m) [] (str "OPTIONS") [] (str ", or "),
      .elem (.known .m) [] (str "TRACE") [] (str ".\n    ")] (str "\n  ")] (str "\n\n  ")

/-- Notice 1131 (httpolice/notices.xml 973-984). -/
def notice1131 : Xml :=
  .elem (.notice .comment) [(str "id", str "1131")] (str "\n    ") [
    .elem .title [] (str "Conditional ") [
      .elem (.known .m) [] (str "HEAD") [] (str " request is pointless")] (str "\n    "),
    .elem .rfc [(str "num", str "7232"), (str "sect", str "5")] (str "\n      Although conditional request header fields are defined as being\n   usable with the ") [
      .elem (.known .m) [] (str "HEAD") [] (str " method (to keep HEAD's semantics consistent with\n   those of "),
      .elem (.known .m) [] (str "GET") [] (str "), there is no point in sending a conditional HEAD\n   because a successful response is around the same size as a "),
      .elem (.known .st) [] (str "304") [] (str " (Not\n   Modified) response and more useful than a "),
      .elem (.known .st) [] (str "412") [] (str " (Precondition Failed)\n   response.\n    ")] (str "\n    "),
    .elem .ref [(str "to", str "header")] ([]) [] (str "\n  ")] (str "\n\n  ")

/-- Notice 1132 (httpolice/notices.xml 986-993). -/
def notice1132 : Xml :=
  .elem (.notice .error) [(str "id", str "1132")] (str "\n    ") [
    .elem .title [] ([]) [
      .elem (.known .h) [] (str "Range") [] (str " header on "),
      .elem .var [(str "ref", str "msg.method")] ([]) [] (str " is not supposed to work")] (str "\n    "),
    .elem .rfc [(str "num", str "7233"), (str "sect", str "3.1")] (str "\n      A server\n   MUST ignore a ") [
      .elem (.known .h) [] (str "Range") [] (str " header field received with a request method other\n   than "),
      .elem (.known .m) [] (str "GET") [] (str ".\n    ")] (str "\n  ")] (str "\n\n  ")

/-- Notice 1133 (httpolice/notices.xml 995-1001). -/
def notice1133 : Xml :=
  .elem (.notice .error) [(str "id", str "1133")] (str "\n    ") [
    .elem .title [] (str "Invalid byte range in ") [
      .elem .var [(str "ref", str "place")] ([]) [] ([])] (str "\n    "),
    .elem .rfc [(str "num", str "7233"), (str "sect", str "2.1")] (str "\n      A byte-range-spec is invalid if the last-byte-pos value is present\n   and less than the first-byte-pos.\n    ") [] (str "\n  ")] (str "\n\n  ")

/-- Notice 1134 (httpolice/notices.xml 1003-1009). -/
def notice1134 : Xml :=
  .elem (.notice .error) [(str "id", str "1134")] (str "\n    ") [
    .elem .title [] ([]) [
      .elem (.known .h) [] (str "If-Range") [] (str " requires a "),
      .elem (.known .h) [] (str "Range") [] (str " header")] (str "\n    "),
    .elem .rfc [(str "num", str "7233"), (str "sect", str "3.2")] (str "\n      A client MUST NOT generate an ") [
      .elem (.known .h) [] (str "If-Range") [] (str " header field in a request that\n   does not contain a "),
      .elem (.known .h) [] (str "Range") [] (str " header field.\n    ")] (str "\n  ")] (str "\n\n  ")

/-- Notice 1135 (httpolice/notices.xml 1011-1017). -/
def notice1135 : Xml :=
  .elem (.notice .error) [(str "id", str "1135")] (str "\n    ") [
    .elem .title [] (str "Weak entity tags are forbidden in ") [
      .elem (.known .h) [] (str "If-Range") [] ([])] (str "\n    "),
    .elem .rfc [(str "num", str "7233"), (str "sect", str "3.2")] (str "\n      A client MUST NOT generate an ") [
      .elem (.known .h) [] (str "If-Range") [] (str " header field containing an\n   entity-tag that is marked as weak.\n    ")] (str "\n  ")] (str "\n\n  ")

/-- Notice 1136 (httpolice/notices.xml 1019-1022). -/
def notice1136 : Xml :=
  .elem (.notice .error) [(str "id", str "1136")] (str "\n    ") [
    .elem .title [] ([]) [
      .elem (.known .st) [] (str "206") [] (str " response, but request had no "),
      .elem (.known .h) [(str "ref", str "no")] (str "Range") [] ([])] (str "\n    "),
    .elem .explain [] (str "The ") [
      .elem (.known .st) [] (str "206") [] (str " status code only makes sense in responses to partial requests—that is, requests with a "),
      .elem (.known .h) [(str "ref", str "no")] (str "Range") [] (str " header. See "),
      .elem .rfc [(str "num", str "7233"), (str "sect", str "4.1")] ([]) [] (str ".")] (str "\n  ")] (str "\n\n  ")

/-- Notice 1137 (httpolice/notices.xml 1024-1032). -/
def notice1137 : Xml :=
  .elem (.notice .error) [(str "id", str "1137")] (str "\n    ") [
    .elem .title [] ([]) [
      .elem (.known .st) [] (str "206") [] (str " response to "),
      .elem .var [(str "ref", str "msg.request.method")] ([]) [] (str " is forbidden")] (str "\n    "),
    .elem .rfc [(str "num", str "7233"), (str "sect", str "3.1")] (str "\n      A server\n   MUST ignore a ") [
      .elem (.known .h) [(str "ref", str "no")] (str "Range") [] (str " header field received with a request method other\n   than "),
      .elem (.known .m) [] (str "GET") [] (str ".\n    ")] (str "\n    "),
    .elem .ref [(str "to", str "msg.request.headers.range")] ([]) [] (str "\n  ")] (str "\n\n  ")

/-- Notice 1138 (httpolice/notices.xml 1034-1038). -/
def notice1138 : Xml :=
  .elem (.notice .error) [(str "id", str "1138")] (str "\n    ") [
    .elem .title [] ([]) [
      .elem (.known .st) [] (str "206") [] (str " response needs range specifiers")] (str "\n    "),
    .elem .explain [] (str "The ") [
      .elem (.known .st) [] (str "206") [] (str " status code means that the response contains one or more parts of the data. When it contains one part, the response must have a "),
      .elem (.known .h) [] (str "Content-Range") [] (str " header. When it contains several parts, the response must have a "),
      .elem (.known .h) [] (str "Content-Type") [] (str " of "),
      .elem (.known .media) [] (str "multipart/byteranges") [] (str ". But this response has neither.")] (str "\n    "),
    .elem .explain [] (str "See ") [
      .elem .rfc [(str "num", str "7233"), (str "sect", str "4.1")] ([]) [] (str ".")] (str "\n  ")] (str "\n\n  ")

/-- Notice 1139 (httpolice/notices.xml 1040-1044). -/
def notice1139 : Xml :=
  .elem (.notice .error) [(str "id", str "1139")] (str "\n    ") [
    .elem .title [] (str "Multipart boundary not declared") [] (str "\n    "),
    .elem .explain [] (str "According to ") [
      .elem (.known .h) [] (str "Content-Type") [] (str ", this message has a multipart body, but Content-Type does not include the ‘boundary’ parameter that is necessary to parse such a body.")] (str "\n    "),
    .elem .explain [] (str "See ") [
      .elem .rfc [(str "num", str "2046"), (str "sect", str "5.1.1")] ([]) [] (str ".")] (str "\n  ")] (str "\n\n  ")

/-- Notice 1140 (httpolice/notices.xml 1046-1051). -/
def notice1140 : Xml :=
  .elem (.notice .error) [(str "id", str "1140")] (str "\n    ") [
    .elem .title [] (str "Multipart boundary not found") [] (str "\n    "),
    .elem .explain [] (str "The multipart boundary declared in this message’s ") [
      .elem (.known .h) [] (str "Content-Type") [] (str " was not found in the body.")] (str "\n    "),
    .elem .explain [] (str "See ") [
      .elem .rfc [(str "num", str "2046"), (str "sect", str "5.1.1")] ([]) [] (str ".")] (str "\n    "),
    .elem .ref [(str "to", str "msg.displayable_body")] ([]) [] (str "\n  ")] (str "\n\n  ")

/-- Notice 1141 (httpolice/notices.xml 1053-1062). -/
def notice1141 : Xml :=
  .elem (.notice .error) [(str "id", str "1141")] (str "\n    ") [
    .elem .title [] (str "No ") [
      .elem (.known .h) [(str "ref", str "no")] (str "Content-Range") [] (str " in part #"),
      .elem .var [(str "ref", str "part_num")] ([]) [] ([])] (str "\n    "),
    .elem .rfc [(str "num", str "7233"), (str "sect", str "4.1")] (str "\n      Within the header area of each body part in the multipart payload,\n   the server MUST generate a ") [
      .elem (.known .h) [(str "ref", str "no")] (str "Content-Range") [] (str " header field corresponding\n   to the range being enclosed in that body part.\n    ")] (str "\n    "),
    .elem .ref [(str "to", str "msg.displayable_body")] ([]) [] (str "\n    "),
    .elem .ref [(str "to", str "msg.headers.content_type")] ([]) [] (str "\n  ")] (str "\n\n  ")

/-- Notice 1142 (httpolice/notices.xml 1064-1074). -/
def notice1142 : Xml :=
  .elem (.notice .comment) [(str "id", str "1142")] (str "\n    ") [
    .elem .title [] (str "No ") [
      .elem (.known .h) [(str "ref", str "no")] (str "Content-Type") [] (str " in part #"),
      .elem .var [(str "ref", str "part_num")] ([]) [] ([])] (str "\n    "),
    .elem .rfc [(str "num", str "7233"), (str "sect", str "4.1")] (str "\n      If the selected\n   representation would have had a ") [
      .elem (.known .h) [(str "ref", str "no")] (str "Content-Type") [] (str " header field in a "),
      .elem (.known .st) [] (str "200") [] (str "\n   (OK) response, the server SHOULD generate that same Content-Type\n   field in the header area of each body part.\n    ")] (str "\n    "),
    .elem .ref [(str "to", str "msg.displayable_body")] ([]) [] (str "\n    "),
    .elem .ref [(str "to", str "msg.headers.content_type")] ([]) [] (str "\n  ")] (str "\n\n  ")

/-- Notice 1143 (httpolice/notices.xml 1076-1085). -/
def notice1143 : Xml :=
  .elem (.notice .error) [(str "id", str "1143")] (str "\n    ") [
    .elem .title [] ([]) [
      .elem (.known .h) [] (str "Content-Range") [] (str " in a "),
      .elem (.known .media) [] (str "multipart/byteranges") [] (str " response is forbidden")] (str "\n    "),
    .elem .rfc [(str "num", str "7233"), (str "sect", str "4.1")] (str "\n      To avoid confusion with single-part responses, a server MUST NOT\n   generate a ") [
      .elem (.known .h) [] (str "Content-Range") [] (str " header field in the HTTP header section of a\n   multiple part response (this field will be sent in each part\n   instead).\n    ")] (str "\n    "),
    .elem .ref [(str "to", str "msg.headers.content_type")] ([]) [] (str "\n  ")] (str "\n\n  ")

/-- Notice 1144 (httpolice/notices.xml 1087-1096). -/
def notice1144 : Xml :=
  .elem (.notice .error) [(str "id", str "1144")] (str "\n    ") [
    .elem .title [] ([]) [
      .elem (.known .media) [] (str "multipart/byteranges") [] (str " response can’t be used for a single "),
      .elem (.known .h) [(str "ref", str "no")] (str "Range") [] ([])] (str "\n    "),
    .elem .rfc [(str "num", str "7233"), (str "sect", str "4.1")] (str "\n      A server MUST NOT generate a multipart response to a request for a\n   single range, since a client that does not request multiple parts\n   might not support multipart responses.\n    ") [] (str "\n    "),
    .elem .ref [(str "to", str "msg.request.headers.range")] ([]) [] (str "\n    "),
    .elem .ref [(str "to", str "msg.headers.content_type")] ([]) [] (str "\n  ")] (str "\n\n  ")

/-- Notice 1145 (httpolice/notices.xml 1098-1103). -/
def notice1145 : Xml :=
  .elem (.notice .error) [(str "id", str "1145")] (str "\n    ") [
    .elem .title [] ([]) [
      .elem (.known .st) [] (str "206") [] (str " response, but "),
      .elem (.known .h) [] (str "ETag") [] (str " doesn’t match "),
      .elem (.known .h) [(str "ref", str "no")] (str "If-Range") [] ([])] (str "\n    "),
    .elem .explain [] (str "The request’s ") [
      .elem (.known .h) [(str "ref", str "no")] (str "If-Range") [] (str " header means that the server is expected to send a "),
      .elem (.known .st) [] (str "206") [] (str " response only if the representation’s "),
      .elem (.known .h) [] (str "ETag") [] (str " matches the one specified in If-Range. In this case, it doesn’t match, so the server is supposed to send a "),
      .elem (.known .st) [] (str "200") [] (str " response with the complete data.")] (str "\n    "),
    .elem .explain [] (str "See ") [
      .elem .rfc [(str "num", str "7233"), (str "sect", str "3.2")] ([]) [] (str ".")] (str "\n    "),
    .elem .ref [(str "to", str "msg.request.headers.if_range")] ([]) [] (str "\n  ")] (str "\n\n  ")

/-- Notice 1146 (httpolice/notices.xml 1105-1115). -/
def notice1146 : Xml :=
  .elem (.notice .comment) [(str "id", str "1146")] (str "\n    ") [
    .elem .title [] (str "Unnecessary ") [
      .elem .var [(str "ref", str "header")] ([]) [] (str " header")] (str "\n    "),
    .elem .rfc [(str "num", str "7233"), (str "sect", str "4.1")] (str "\n      If a ") [
      .elem (.known .st) [(str "ref", str "no")] (str "206") [] (str " is generated in response to a request with an "),
      .elem (.known .h) [(str "ref", str "no")] (str "If-Range") [] (str "\n   header field, the sender SHOULD NOT generate other representation\n   header fields beyond those required above, because the client is\n   understood to already have a prior response containing those header\n   fields.\n    ")] (str "\n    "),
    .elem .ref [(str "to", str "msg.request.headers.if_range")] ([]) [] (str "\n  ")] (str "\n\n  ")

/-- Notice 1147 (httpolice/notices.xml 1117-1120). -/
def notice1147 : Xml :=
  .elem (.notice .error) [(str "id", str "1147")] (str "\n    ") [
    .elem .title [] ([]) [
      .elem (.known .h) [] (str "Content-Range") [] (str " is undefined for "),
      .elem .var [(str "ref", str "msg.status")] ([]) [] (str " responses")] (str "\n    "),
    .elem .explain [] (str "The ") [
      .elem (.known .h) [] (str "Content-Range") [] (str " header is defined by "),
      .elem .rfc [(str "num", str "7233"), (str "sect", str "4.2")] ([]) [] (str " for responses with status codes "),
      .elem (.known .st) [] (str "206") [] (str " and "),
      .elem (.known .st) [] (str "416") [] (str ", but not "),
      .elem .var [(str "ref", str "msg.status")] ([]) [] (str ".")] (str "\n  ")] (str "\n\n  ")

/-- Notice 1148 (httpolice/notices.xml 1122-1130). -/
def notice1148 : Xml :=
  .elem (.notice .error) [(str "id", str "1148")] (str "\n    ") [
    .elem .title [] (str "Invalid byte range in ") [
      .elem .var [(str "ref", str "place")] ([]) [] ([])] (str "\n    "),
    .elem .rfc [(str "num", str "7233"), (str "sect", str "4.2")] (str "\n      A ") [
      .elem (.known .h) [(str "ref", str "no")] (str "Content-Range") [] (str " field value is invalid if it contains a\n   byte-range-resp that has a last-byte-pos value less than its\n   first-byte-pos value, or a complete-length value less than or equal\n   to its last-byte-pos value.\n    ")] (str "\n  ")] (str "\n\n  ")

/-- Notice 1149 (httpolice/notices.xml 1132-1135). -/
def notice1149 : Xml :=
  .elem (.notice .error) [(str "id", str "1149")] (str "\n    ") [
    .elem .title [] ([]) [
      .elem (.known .st) [] (str "416") [] (str " response to request without "),
      .elem (.known .h) [(str "ref", str "no")] (str "Range") [] (str " makes no sense")] (str "\n    "),
    .elem .explain [] (str "The ") [
      .elem (.known .st) [] (str "416") [] (str " status code is defined by "),
      .elem .rfc [(str "num", str "7233"), (str "sect", str "4.4")] ([]) [] (str " only for responses to requests that have a "),
      .elem (.known .h) [(str "ref", str "no")] (str "Range") [] (str " header.")] (str "\n  ")] (str "\n\n  ")

/-- Notice 1150 (httpolice/notices.xml 1137-1146). -/
def notice1150 : Xml :=
  .elem (.notice .comment) [(str "id", str "1150")] (str "\n    ") [
    .elem .title [] ([]) [
      .elem (.known .st) [] (str "416") [] (str " response should have "),
      .elem (.known .h) [] (str "Content-Range") [] ([])] (str "\n    "),
    .elem .rfc [(str "num", str "7233"), (str "sect", str "4.4")] (str "\n      When this status\n   code is generated in response to a byte-range request, the sender\n   SHOULD generate a ") [
      .elem (.known .h) [] (str "Content-Range") [] (str " header field specifying the current\n   length of the selected representation\n    ")] (str "\n    "),
    .elem .ref [(str "to", str "msg.request.headers.range")] ([]) [] (str "\n  ")] (str "\n\n  ")

/-- Notice 1151 (httpolice/notices.xml 1148-1154). -/
def notice1151 : Xml :=
  .elem (.notice .error) [(str "id", str "1151")] (str "\n    ") [
    .elem .title [] (str "Empty list elements in ") [
      .elem .var [(str "ref", str "place")] ([]) [] (str " are forbidden")] (str "\n    "),
    .elem .rfc [(str "num", str "7230"), (str "sect", str "7")] (str "\n      In any production that uses the list construct, a sender MUST NOT\n   generate empty list elements.\n    ") [] (str "\n  ")] (str "\n\n  ")

/-- Notice 1152 (httpolice/notices.xml 1156-1159). -/
def notice1152 : Xml :=
  .elem (.notice .error) [(str "id", str "1152")] (str "\n    ") [
    .elem .title [] ([]) [
      .elem (.known .h) [] (str "Cache-Control") [] (str ": "),
      .elem .var [(str "ref", str "directive")] ([]) [] (str " is for responses")] (str "\n    "),
    .elem .explain [] (str "This request’s ") [
      .elem (.known .h) [] (str "Cache-Control") [] (str " header includes the "),
      .elem .var [(str "ref", str "directive")] ([]) [] (str " directive, which is only defined for responses.")] (str "\n  ")] (str "\n\n  ")

/-- Notice 1153 (httpolice/notices.xml 1161-1164). -/
def notice1153 : Xml :=
  .elem (.notice .error) [(str "id", str "1153")] (str "\n    ") [
    .elem .title [] ([]) [
      .elem (.known .h) [] (str "Cache-Control") [] (str ": "),
      .elem .var [(str "ref", str "directive")] ([]) [] (str " is for requests")] (str "\n    "),
    .elem .explain [] (str "This response’s ") [
      .elem (.known .h) [] (str "Cache-Control") [] (str " header includes the "),
      .elem .var [(str "ref", str "directive")] ([]) [] (str " directive, which is only defined for requests.")] (str "\n  ")] (str "\n\n  ")

/-- Notice 1154 (httpolice/notices.xml 1166-1169). -/
def notice1154 : Xml :=
  .elem (.notice .comment) [(str "id", str "1154")] (str "\n    ") [
    .elem .title [] ([]) [
      .elem (.known .h) [] (str "Cache-Control") [] (str ": "),
      .elem .var [(str "ref", str "directive")] ([]) [] (str " should be quoted")] (str "\n    "),
    .elem .explain [] (str "The specification for the ") [
      .elem .var [(str "ref", str "directive")] ([]) [] (str " directive recommends wrapping its argument in double quotes. But in this message’s "),
      .elem (.known .h) [(str "ref", str "no")] (str "Cache-Control") [] (str " header, it is not quoted.")] (str "\n  ")] (str "\n\n  ")

/-- Notice 1155 (httpolice/notices.xml 1171-1174). -/
def notice1155 : Xml :=
  .elem (.notice .comment) [(str "id", str "1155")] (str "\n    ") [
    .elem .title [] ([]) [
      .elem (.known .h) [] (str "Cache-Control") [] (str ": "),
      .elem .var [(str "ref", str "directive")] ([]) [] (str " should not be quoted")] (str "\n    "),
    .elem .explain [] (str "In this message’s ") [
      .elem (.known .h) [(str "ref", str "no")] (str "Cache-Control") [] (str " header, the argument to the "),
      .elem .var [(str "ref", str "directive")] ([]) [] (str " directive is wrapped in double quotes. But the specification recommends writing it as a plain token, without quotes.")] (str "\n  ")] (str "\n\n  ")

/-- Notice 1156 (httpolice/notices.xml 1176-1179). -/
def notice1156 : Xml :=
  .elem (.notice .error) [(str "id", str "1156")] (str "\n    ") [
    .elem .title [] ([]) [
      .elem .var [(str "ref", str "entry")] ([]) [] (str ": "),
      .elem .var [(str "ref", str "name")] ([]) [] (str " needs an argument")] (str "\n    "),
    .elem .explain [] (str "According to the specification, ‘") [
      .elem .var [(str "ref", str "name")] ([]) [] (str "’ in "),
      .elem .var [(str "ref", str "entry")] ([]) [] (str " must have an argument. But in this message, it doesn’t.")] (str "\n  ")] (str "\n\n  ")

/-- Notice 1157 (httpolice/notices.xml 1181-1184). -/
def notice1157 : Xml :=
  .elem (.notice .error) [(str "id", str "1157")] (str "\n    ") [
    .elem .title [] ([]) [
      .elem .var [(str "ref", str "entry")] ([]) [] (str ": "),
      .elem .var [(str "ref", str "name")] ([]) [] (str " can’t have an argument")] (str "\n    "),
    .elem .explain [] (str "In this message’s ") [
      .elem .var [(str "ref", str "entry")] ([]) [] (str " header, ‘"),
      .elem .var [(str "ref", str "name")] ([]) [] (str "’ has an argument. But the specification defines no argument for ‘"),
      .elem .var [(str "ref", str "name")] ([]) [] (str "’.")] (str "\n  ")] (str "\n\n  ")

/-- Notice 1158 (httpolice/notices.xml 1186-1190). -/
def notice1158 : Xml :=
  .elem (.notice .error) [(str "id", str "1158")] (str "\n    ") [
    .elem .title [] (str "Syntax error in ") [
      .elem .var [(str "ref", str "place")] ([]) [] (str ": "),
      .elem .var [(str "ref", str "name")] ([]) [] ([])] (str "\n    "),
    .elem .explain [] (str "“") [
      .elem .var [(str "ref", str "value")] ([]) [] (str "” is not a correct value for ‘"),
      .elem .var [(str "ref", str "name")] ([]) [] (str "’ in "),
      .elem .var [(str "ref", str "place")] ([]) [] (str ".")] (str "\n    "),
    .elem .exception [] ([]) [] (str "\n  ")] (str "\n\n  ")

/-- Notice 1159 (httpolice/notices.xml 1192-1195). -/
def notice1159 : Xml :=
  .elem (.notice .error) [(str "id", str "1159")] (str "\n    ") [
    .elem .title [] ([]) [
      .elem (.known .h) [] (str "Cache-Control") [] (str ": "),
      .elem (.known .cache) [] (str "no-cache") [] (str " can’t have an argument")] (str "\n    "),
    .elem .explain [] (str "In this request’s ") [
      .elem (.known .h) [] (str "Cache-Control") [] (str " header, the "),
      .elem (.known .cache) [] (str "no-cache") [] (str " directive has an argument. But the specification for "),
      .elem (.known .cache) [] (str "no-cache") [] (str " only defines an argument when used in responses.")] (str "\n  ")] (str "\n\n  ")

/-- Notice 1160 (httpolice/notices.xml 1197-1200). -/
def notice1160 : Xml :=
  .elem (.notice .comment) [(str "id", str "1160")] (str "\n    ") [
    .elem .title [] ([]) [
      .elem (.known .h) [] (str "Pragma") [] (str " other than ‘no-cache’ is deprecated")] (str "\n    "),
    .elem .explain [] (str "This message’s ") [
      .elem (.known .h) [] (str "Pragma") [] (str " header includes ‘"),
      .elem .var [(str "ref", str "pragma")] ([]) [] (str "’, but all pragmas other than ‘no-cache’ are deprecated in "),
      .elem .rfc [(str "num", str "7234"), (str "sect", str "5.4")] ([]) [] (str ".")] (str "\n  ")] (str "\n\n  ")

/-- Notice 1161 (httpolice/notices.xml 1202-1210). -/
def notice1161 : Xml :=
  .elem (.notice .comment) [(str "id", str "1161")] (str "\n    ") [
    .elem .title [] (str "“") [
      .elem (.known .h) [] (str "Cache-Control") [] (str ": no-cache” should also have “"),
      .elem (.known .h) [] (str "Pragma") [] (str ": no-cache”")] (str "\n    "),
    .elem .rfc [(str "num", str "7234"), (str "sect", str "5.4")] (str "\n      When sending a no-cache request, a client ought to include both the\n   pragma and cache-control directives, unless ") [
      .elem (.known .h) [] (str "Cache-Control") [] (str ": "),
      .elem (.known .cache) [] (str "no-cache") [] (str "\n   is purposefully omitted to target other Cache-Control response\n   directives at HTTP/1.1 caches.\n    ")] (str "\n  ")] (str "\n\n  ")

/-- Notice 1162 (httpolice/notices.xml 1212-1216). -/
def notice1162 : Xml :=
  .elem (.notice .comment) [(str "id", str "1162")] (str "\n    ") [
    .elem .title [] ([]) [
      .elem (.known .h) [] (str "Pragma") [] (str ": no-cache is for requests")] (str "\n    "),
    .elem .explain [] (str "This response contains the ‘no-cache’ pragma directive, which is defined by ") [
      .elem .rfc [(str "num", str "7234"), (str "sect", str "5.4")] ([]) [] (str " only for requests.")] (str "\n    "),
    .comment (str " Not an error because very widespread and benign. ") (str "\n  ")] (str "\n\n  ")

/-- Notice 1163 (httpolice/notices.xml 1218-1221). -/
def notice1163 : Xml :=
  .elem (.notice .error) [(str "id", str "1163")] (str "\n    ") [
    .elem .title [] (str "Warn code ") [
      .elem .var [(str "ref", str "code")] ([]) [] (str " not in range 100—299")] (str "\n    "),
    .elem .explain [] ([]) [
      .elem .rfc [(str "num", str "7234"), (str "sect", str "5.5")] ([]) [] (str " defines two classes of warn codes: 1xx and 2xx. But this message’s "),
      .elem (.known .h) [] (str "Warning") [] (str " header contains a "),
      .elem .var [(str "ref", str "code")] ([]) [] (str " code.")] (str "\n  ")] (str "\n\n  ")

/-- Notice 1164 (httpolice/notices.xml 1223-1226). -/
def notice1164 : Xml :=
  .elem (.notice .error) [(str "id", str "1164")] (str "\n    ") [
    .elem .title [] ([]) [
      .elem (.known .h) [] (str "Warning") [] (str " date must match the "),
      .elem (.known .h) [] (str "Date") [] (str " header")] (str "\n    "),
    .elem .explain [] (str "This message’s ") [
      .elem (.known .h) [] (str "Warning") [] (str " header contains a warning (code "),
      .elem .var [(str "ref", str "code")] ([]) [] (str ") with a date that does not match the "),
      .elem (.known .h) [] (str "Date") [] (str " header. This means that the warning was mistakenly kept after cache validation. As explained in "),
      .elem .rfc [(str "num", str "7234"), (str "sect", str "5.5")] ([]) [] (str ", such warnings must be removed.")] (str "\n  ")] (str "\n\n  ")

/-- Notice 1165 (httpolice/notices.xml 1228-1231). -/
def notice1165 : Xml :=
  .elem (.notice .error) [(str "id", str "1165")] (str "\n    ") [
    .elem .title [] (str "“") [
      .elem (.known .h) [] (str "Warning") [] (str ": "),
      .elem .var [(str "ref", str "code")] ([]) [] (str "” is for responses")] (str "\n    "),
    .elem .explain [] (str "This request’s ") [
      .elem (.known .h) [] (str "Warning") [] (str " header contains the "),
      .elem .var [(str "ref", str "code")] ([]) [] (str " warn code. But, according to "),
      .elem .rfc [(str "num", str "7234"), (str "sect", str "5.5")] ([]) [] (str ", 1xx warn codes can only be used on responses.")] (str "\n  ")] (str "\n\n  ")

/-- Notice 1166 (httpolice/notices.xml 1233-1236). -/
def notice1166 : Xml :=
  .elem (.notice .error) [(str "id", str "1166")] (str "\n    ") [
    .elem .title [] (str "Response from cache needs an ") [
      .elem (.known .h) [] (str "Age") [] (str " header")] (str "\n    "),
    .elem .explain [] (str "According to ") [
      .elem .rfc [(str "num", str "7234"), (str "sect", str "4")] ([]) [] (str ", a cache must add an "),
      .elem (.known .h) [] (str "Age") [] (str " header to every response that is served without contacting the origin server.")] (str "\n  ")] (str "\n\n  ")

/-- Notice 1167 (httpolice/notices.xml 1238-1241). -/
def notice1167 : Xml :=
  .elem (.notice .error) [(str "id", str "1167")] (str "\n    ") [
    .elem .title [] (str "Status code ") [
      .elem .var [(str "ref", str "msg.status")] ([]) [] (str " not in range 100—599")] (str "\n    "),
    .elem .explain [] (str "According to ") [
      .elem .rfc [(str "num", str "7231"), (str "sect", str "6")] ([]) [] (str ", HTTP status codes can only range from 100 to 599.")] (str "\n  ")] (str "\n\n  ")

/-- Notice 1168 (httpolice/notices.xml 1243-1249). -/
def notice1168 : Xml :=
  .elem (.notice .debug) [(str "id", str "1168")] (str "\n    ") [
    .elem .title [] ([]) [
      .elem (.known .h) [] (str "Age") [] (str " header implies response from cache")] (str "\n    "),
    .elem .rfc [(str "num", str "7234"), (str "sect", str "5.1")] (str "\n      The presence of an ") [
      .elem (.known .h) [] (str "Age") [] (str " header field implies that the response was not\n   generated or validated by the origin server for this request.\n    ")] (str "\n  ")] (str "\n\n  ")

/-- Notice 1169 (httpolice/notices.xml 1251-1254). -/
def notice1169 : Xml :=
  .elem (.notice .debug) [(str "id", str "1169")] (str "\n    ") [
    .elem .title [] (str "“") [
      .elem (.known .h) [] (str "Warning") [] (str ": "),
      .elem .var [(str "ref", str "code")] ([]) [] (str "” implies response from cache")] (str "\n    "),
    .elem .explain [] (str "This response’s ") [
      .elem (.known .h) [] (str "Warning") [] (str " header contains the "),
      .elem .var [(str "ref", str "code")] ([]) [] (str " warn code, which implies that it was served from a cache, without contacting the origin server. See "),
      .elem .rfc [(str "num", str "7234"), (str "sect", str "5.5")] ([]) [] (str ".")] (str "\n  ")] (str "\n\n  ")

/-- Notice 1170 (httpolice/notices.xml 1256-1260). -/
def notice1170 : Xml :=
  .elem (.notice .comment) [(str "id", str "1170")] (str "\n    ") [
    .elem .title [] (str "Response from cache older than ") [
      .elem (.known .cache) [] (str "max-age") [] ([])] (str "\n    "),
    .elem .explain [] (str "This response’s ") [
      .elem (.known .h) [] (str "Age") [] (str " of "),
      .elem .var [(str "ref", str "msg.headers.age.value")] ([]) [] (str " is greater than the "),
      .elem (.known .cache) [] (str "max-age") [] (str " of "),
      .elem .var [(str "ref", str "msg.request.headers.cache_control.max_age")] ([]) [] (str " requested by the client’s "),
      .elem (.known .h) [(str "ref", str "no")] (str "Cache-Control") [] (str " header.")] (str "\n    "),
    .elem .ref [(str "to", str "msg.request.headers.cache_control")] ([]) [] (str "\n  ")] (str "\n\n  ")

/-- Notice 1171 (httpolice/notices.xml 1262-1265). -/
def notice1171 : Xml :=
  .elem (.notice .comment) [(str "id", str "1171")] (str "\n    ") [
    .elem .title [] ([]) [
      .elem (.known .h) [] (str "Cache-Control") [] (str ": "),
      .elem .var [(str "ref", str "directive")] ([]) [] (str " has no effect on "),
      .elem .var [(str "ref", str "msg.method")] ([]) [] ([])] (str "\n    "),
    .elem .explain [] (str "The ") [
      .elem .var [(str "ref", str "msg.method")] ([]) [] (str " method is defined as non-cacheable, so the "),
      .elem .var [(str "ref", str "directive")] ([]) [] (str " directive in this request’s "),
      .elem (.known .h) [] (str "Cache-Control") [] (str " header makes no difference.")] (str "\n  ")] (str "\n\n  ")

/-- Notice 1172 (httpolice/notices.xml 1267-1270). -/
def notice1172 : Xml :=
  .elem (.notice .error) [(str "id", str "1172")] (str "\n    ") [
    .elem .title [] (str "Response to ") [
      .elem .var [(str "ref", str "msg.request.method")] ([]) [] (str " can’t be served from cache")] (str "\n    "),
    .elem .explain [] (str "The ") [
      .elem .var [(str "ref", str "msg.request.method")] ([]) [] (str " method is defined as non-cacheable.")] (str "\n  ")] (str "\n\n  ")

/-- Notice 1173 (httpolice/notices.xml 1272-1280). -/
def notice1173 : Xml :=
  .elem (.notice .error) [(str "id", str "1173")] (str "\n    ") [
    .elem .title [] (str "Response to “") [
      .elem (.known .h) [(str "ref", str "no")] (str "Cache-Control") [] (str ": "),
      .elem (.known .cache) [] (str "no-cache") [] (str "” can’t be served from cache")] (str "\n    "),
    .elem .rfc [(str "num", str "7234"), (str "sect", str "5.2.1.4")] (str "\n      The \"no-cache\" request directive indicates that a cache MUST NOT use\n   a stored response to satisfy the request without successful\n   validation on the origin server.\n    ") [] (str "\n    "),
    .elem .ref [(str "to", str "msg.request.headers.cache_control")] ([]) [] (str "\n  ")] (str "\n\n  ")

/-- Notice 1174 (httpolice/notices.xml 1282-1290). -/
def notice1174 : Xml :=
  .elem (.notice .error) [(str "id", str "1174")] (str "\n    ") [
    .elem .title [] (str "Response to “") [
      .elem (.known .h) [(str "ref", str "no")] (str "Pragma") [] (str ": no-cache” can’t be served from cache")] (str "\n    "),
    .elem .rfc [(str "num", str "7234"), (str "sect", str "5.4")] (str "\n      When the ") [
      .elem (.known .h) [(str "ref", str "no")] (str "Cache-Control") [] (str " header field is not present in a request,\n   caches MUST consider the no-cache request pragma-directive as having\n   the same effect as if \"Cache-Control: "),
      .elem (.known .cache) [] (str "no-cache") [] (str "\" were present\n    ")] (str "\n    "),
    .elem .ref [(str "to", str "msg.request.headers.pragma")] ([]) [] (str "\n  ")] (str "\n\n  ")

/-- Notice 1175 (httpolice/notices.xml 1292-1299). -/
def notice1175 : Xml :=
  .elem (.notice .error) [(str "id", str "1175")] (str "\n    ") [
    .elem .title [] (str "Response with “") [
      .elem (.known .h) [] (str "Cache-Control") [] (str ": "),
      .elem (.known .cache) [] (str "no-cache") [] (str "” can’t be served from cache")] (str "\n    "),
    .elem .rfc [(str "num", str "7234"), (str "sect", str "5.2.2.2")] (str "\n      The \"no-cache\" response directive indicates that the response MUST\n   NOT be used to satisfy a subsequent request without successful\n   validation on the origin server.\n    ") [] (str "\n  ")] (str "\n\n  ")

/-- Notice 1176 (httpolice/notices.xml 1301-1304). -/
def notice1176 : Xml :=
  .elem (.notice .error) [(str "id", str "1176")] (str "\n    ") [
    .elem .title [] (str "Response with “") [
      .elem (.known .h) [] (str "Cache-Control") [] (str ": "),
      .elem (.known .cache) [] (str "no-store") [] (str "” can’t be served from cache")] (str "\n    "),
    .elem .explain [] (str "According to ") [
      .elem .rfc [(str "num", str "7234"), (str "sect", str "3")] ([]) [] (str ", a cache cannot store a response that includes the "),
      .elem (.known .cache) [] (str "no-store") [] (str " directive in its "),
      .elem (.known .h) [] (str "Cache-Control") [] (str " header.")] (str "\n  ")] (str "\n\n  ")

/-- Notice 1177 (httpolice/notices.xml 1306-1309). -/
def notice1177 : Xml :=
  .elem (.notice .error) [(str "id", str "1177")] (str "\n    ") [
    .elem .title [] ([]) [
      .elem .var [(str "ref", str "msg.status")] ([]) [] (str " response can’t be served from cache by default")] (str "\n    "),
    .elem .explain [] (str "The ") [
      .elem .var [(str "ref", str "msg.status")] ([]) [] (str " status code is not defined as cacheable by default. According to "),
      .elem .rfc [(str "num", str "7234"), (str "sect", str "3")] ([]) [] (str ", such a response can only be cached if it explicitly allows caching, with headers such as "),
      .elem (.known .h) [] (str "Expires") [] (str ". But this response has no such headers, so it is not cacheable.")] (str "\n  ")] (str "\n\n  ")

/-- Notice 1178 (httpolice/notices.xml 1311-1314). -/
def notice1178 : Xml :=
  .elem (.notice .debug) [(str "id", str "1178")] (str "\n    ") [
    .elem .title [] (str "Heuristic freshness") [] (str "\n    "),
    .elem .explain [] (str "Because this response has no explicit freshness controls (such as ") [
      .elem (.known .h) [] (str "Expires") [] (str " or "),
      .elem (.known .cache) [] (str "max-age") [] (str "), HTTPolice will assume that its expiration time was chosen heuristically by the cache. See "),
      .elem .rfc [(str "num", str "7234"), (str "sect", str "4.2.2")] ([]) [] (str ".")] (str "\n  ")] (str "\n\n  ")

/-- Notice 1179 (httpolice/notices.xml 1316-1319). -/
def notice1179 : Xml :=
  .elem (.notice .debug) [(str "id", str "1179")] (str "\n    ") [
    .elem .title [] (str "“") [
      .elem (.known .h) [] (str "Warning") [] (str ": "),
      .elem (.known .warn) [] (str "113") [] (str "” implies heuristic freshness")] (str "\n    "),
    .elem .explain [] (str "The ") [
      .elem (.known .warn) [] (str "113") [] (str " warn code in this response’s "),
      .elem (.known .h) [] (str "Warning") [] (str " header means that the expiration time for this response was chosen heuristically by the cache.")] (str "\n  ")] (str "\n\n  ")

/-- Notice 1180 (httpolice/notices.xml 1321-1330). -/
def notice1180 : Xml :=
  .elem (.notice .comment) [(str "id", str "1180")] (str "\n    ") [
    .elem .title [] (str "Heuristic freshness should have “") [
      .elem (.known .h) [] (str "Warning") [] (str ": "),
      .elem (.known .warn) [] (str "113") [] (str "”")] (str "\n    "),
    .elem .rfc [(str "num", str "7234"), (str "sect", str "4.2.2")] (str "\n      When a heuristic is used to calculate freshness lifetime, a cache\n   SHOULD generate a ") [
      .elem (.known .h) [] (str "Warning") [] (str " header field with a "),
      .elem (.known .warn) [] (str "113") [] (str " warn-code (see\n   Section 5.5.4) in the response if its current_age is more than 24\n   hours and such a warning is not already present.\n    ")] (str "\n    "),
    .elem .ref [(str "to", str "msg.headers.age")] ([]) [] (str "\n  ")] (str "\n\n  ")

/-- Notice 1181 (httpolice/notices.xml 1332-1338). -/
def notice1181 : Xml :=
  .elem (.notice .error) [(str "id", str "1181")] (str "\n    ") [
    .elem .title [] (str "Heuristic freshness can’t be used when ") [
      .elem (.known .h) [] (str "Expires") [] (str " is present")] (str "\n    "),
    .elem .rfc [(str "num", str "7234"), (str "sect", str "4.2.2")] (str "\n      A cache MUST NOT use heuristics to determine freshness when an\n   explicit expiration time is present in the stored response.\n    ") [] (str "\n  ")] (str "\n\n  ")

/-- Notice 1182 (httpolice/notices.xml 1340-1347). -/
def notice1182 : Xml :=
  .elem (.notice .error) [(str "id", str "1182")] (str "\n    ") [
    .elem .title [] (str "Heuristic freshness can’t be used when ") [
      .elem (.known .cache) [] (str "max-age") [] (str " is present")] (str "\n    "),
    .elem .rfc [(str "num", str "7234"), (str "sect", str "4.2.2")] (str "\n      A cache MUST NOT use heuristics to determine freshness when an\n   explicit expiration time is present in the stored response.\n    ") [] (str "\n    "),
    .elem .ref [(str "to", str "msg.headers.cache_control")] ([]) [] (str "\n  ")] (str "\n\n  ")

/-- Notice 1183 (httpolice/notices.xml 1349-1352). -/
def notice1183 : Xml :=
  .elem (.notice .comment) [(str "id", str "1183")] (str "\n    ") [
    .elem .title [] (str "“") [
      .elem (.known .h) [] (str "Warning") [] (str ": "),
      .elem .var [(str "ref", str "code")] ([]) [] (str "” implies response is stale")] (str "\n    "),
    .elem .explain [] (str "The ") [
      .elem .var [(str "ref", str "code")] ([]) [] (str " warn code in this response’s "),
      .elem (.known .h) [] (str "Warning") [] (str " header means that the response is stale, as defined by "),
      .elem .rfc [(str "num", str "7234"), (str "sect", str "4.2")] ([]) [] (str ".")] (str "\n  ")] (str "\n\n  ")

/-- Notice 1184 (httpolice/notices.xml 1354-1357). -/
def notice1184 : Xml :=
  .elem (.notice .comment) [(str "id", str "1184")] (str "\n    ") [
    .elem .title [] (str "Response is stale because ") [
      .elem (.known .h) [] (str "Age") [] (str " > "),
      .elem (.known .cache) [] (str "max-age") [] ([])] (str "\n    "),
    .elem .explain [] (str "This response’s ") [
      .elem (.known .h) [] (str "Age") [] (str " is greater than the "),
      .elem (.known .cache) [] (str "max-age") [] (str " specified in its "),
      .elem (.known .h) [] (str "Cache-Control") [] (str " header. This means that the response is stale, as defined by "),
      .elem .rfc [(str "num", str "7234"), (str "sect", str "4.2")] ([]) [] (str ".")] (str "\n  ")] (str "\n\n  ")

/-- Notice 1185 (httpolice/notices.xml 1359-1362). -/
def notice1185 : Xml :=
  .elem (.notice .comment) [(str "id", str "1185")] (str "\n    ") [
    .elem .title [] (str "Response is stale because ") [
      .elem (.known .h) [] (str "Age") [] (str " > "),
      .elem (.known .h) [] (str "Expires") [] (str " − "),
      .elem (.known .h) [] (str "Date") [] ([])] (str "\n    "),
    .elem .explain [] (str "This response’s ") [
      .elem (.known .h) [] (str "Age") [] (str " is greater than the difference between its "),
      .elem (.known .h) [] (str "Expires") [] (str " date and its "),
      .elem (.known .h) [] (str "Date") [] (str " header. This means that the response is stale, as defined by "),
      .elem .rfc [(str "num", str "7234"), (str "sect", str "4.2")] ([]) [] (str ".")] (str "\n  ")] (str "\n\n  ")

/-- Notice 1186 (httpolice/notices.xml 1364-1370). -/
def notice1186 : Xml :=
  .elem (.notice .comment) [(str "id", str "1186")] (str "\n    ") [
    .elem .title [] (str "Stale response should have “") [
      .elem (.known .h) [(str "ref", str "no")] (str "Warning") [] (str ": "),
      .elem (.known .warn) [] (str "110") [] (str "”")] (str "\n    "),
    .elem .rfc [(str "num", str "7234"), (str "sect", str "4.2.4")] (str "\n      A cache SHOULD generate a Warning header field with the ") [
      .elem (.known .warn) [] (str "110") [] (str " warn-code\n   (see Section 5.5.1) in stale responses.\n    ")] (str "\n  ")] (str "\n\n  ")

/-- Notice 1187 (httpolice/notices.xml 1372-1379). -/
def notice1187 : Xml :=
  .elem (.notice .error) [(str "id", str "1187")] (str "\n    ") [
    .elem .title [] (str "Response with “") [
      .elem (.known .h) [] (str "Cache-Control") [] (str ": "),
      .elem (.known .cache) [] (str "must-revalidate") [] (str "” can’t be served stale")] (str "\n    "),
    .elem .rfc [(str "num", str "7234"), (str "sect", str "5.2.2.1")] (str "\n      The \"must-revalidate\" response directive indicates that once it has\n   become stale, a cache MUST NOT use the response to satisfy subsequent\n   requests without successful validation on the origin server.\n    ") [] (str "\n  ")] (str "\n\n  ")

/-- Notice 1188 (httpolice/notices.xml 1381-1390). -/
def notice1188 : Xml :=
  .elem (.notice .comment) [(str "id", str "1188")] (str "\n    ") [
    .elem .title [] (str "Possibly wrong stale response") [] (str "\n    "),
    .elem .rfc [(str "num", str "7234"), (str "sect", str "4.2.4")] (str "\n      A cache MUST NOT send stale responses unless it is disconnected\n   (i.e., it cannot contact the origin server or otherwise find a\n   forward path) or doing so is explicitly allowed (e.g., by the\n   ") [
      .elem (.known .cache) [] (str "max-stale") [] (str " request directive; see Section 5.2.1).\n    ")] (str "\n    "),
    .elem .explain [] (str "If the cache is disconnected, it should have added a ") [
      .elem (.known .h) [(str "ref", str "no")] (str "Warning") [] (str " header with a "),
      .elem (.known .warn) [] (str "112") [] (str " or "),
      .elem (.known .warn) [] (str "111") [] (str " warn code to indicate that.")] (str "\n  ")] (str "\n\n  ")

/-- Notice 1189 (httpolice/notices.xml 1392-1396). -/
def notice1189 : Xml :=
  .elem (.notice .debug) [(str "id", str "1189")] (str "\n    ") [
    .elem .title [] (str "“") [
      .elem (.known .h) [] (str "Warning") [] (str ": "),
      .elem (.known .warn) [] (str "214") [] (str "” means transformed by proxy")] (str "\n    "),
    .elem .explain [] (str "The ") [
      .elem (.known .warn) [] (str "214") [] (str " warn code in this message’s "),
      .elem (.known .h) [] (str "Warning") [] (str " header means that it was transformed by a proxy.")] (str "\n    "),
    .elem .explain [] (str "See also ") [
      .elem .rfc [(str "num", str "7230"), (str "sect", str "5.7.2")] ([]) [] (str ".")] (str "\n  ")] (str "\n\n  ")

/-- Notice 1190 (httpolice/notices.xml 1398-1402). -/
def notice1190 : Xml :=
  .elem (.notice .debug) [(str "id", str "1190")] (str "\n    ") [
    .elem .title [] (str "Status ") [
      .elem (.known .st) [] (str "203") [] (str " means transformed by proxy")] (str "\n    "),
    .elem .explain [] (str "The ") [
      .elem (.known .st) [] (str "203") [] (str " status code means that this response was transformed by a proxy.")] (str "\n    "),
    .elem .explain [] (str "See also ") [
      .elem .rfc [(str "num", str "7230"), (str "sect", str "5.7.2")] ([]) [] (str ".")] (str "\n  ")] (str "\n\n  ")

/-- Notice 1191 (httpolice/notices.xml 1404-1412). -/
def notice1191 : Xml :=
  .elem (.notice .error) [(str "id", str "1191")] (str "\n    ") [
    .elem .title [] (str "Transformed message needs “") [
      .elem (.known .h) [(str "ref", str "no")] (str "Warning") [] (str ": "),
      .elem (.known .warn) [] (str "214") [] (str "”")] (str "\n    "),
    .elem .rfc [(str "num", str "7230"), (str "sect", str "5.7.2")] (str "\n      A proxy that transforms a\n   payload MUST add a Warning header field with the warn-code of ") [
      .elem (.known .warn) [] (str "214") [] (str "\n   (\"Transformation Applied\") if one is not already in the message (see\n   Section 5.5 of [RFC7234]).\n    ")] (str "\n  ")] (str "\n\n  ")

/-- Notice 1192 (httpolice/notices.xml 1414-1421). -/
def notice1192 : Xml :=
  .elem (.notice .error) [(str "id", str "1192")] (str "\n    ") [
    .elem .title [] (str "Transformation forbidden by “") [
      .elem (.known .h) [] (str "Cache-Control") [] (str ": "),
      .elem (.known .cache) [] (str "no-transform") [] (str "”")] (str "\n    "),
    .elem .rfc [(str "num", str "7230"), (str "sect", str "5.7.2")] (str "\n      A proxy MUST NOT transform the payload (Section 3.3 of [RFC7231]) of\n   a message that contains a ") [
      .elem (.known .cache) [] (str "no-transform") [] (str " cache-control directive\n   (Section 5.2 of [RFC7234]).\n    ")] (str "\n  ")] (str "\n\n  ")

/-- Notice 1193 (httpolice/notices.xml 1423-1426). -/
def notice1193 : Xml :=
  .elem (.notice .error) [(str "id", str "1193")] (str "\n    ") [
    .elem .title [] ([]) [
      .elem (.known .h) [] (str "Cache-Control") [] (str ": "),
      .elem .var [(str "ref", str "directive1")] ([]) [] (str " contradicts "),
      .elem .var [(str "ref", str "directive2")] ([]) [] ([])] (str "\n    "),
    .elem .explain [] (str "This message’s ") [
      .elem (.known .h) [] (str "Cache-Control") [] (str " header includes both the "),
      .elem .var [(str "ref", str "directive1")] ([]) [] (str " and the "),
      .elem .var [(str "ref", str "directive2")] ([]) [] (str " directives, which contradict each other.")] (str "\n  ")] (str "\n\n  ")

/-- Notice 1194 (httpolice/notices.xml 1428-1435). -/
def notice1194 : Xml :=
  .elem (.notice .error) [(str "id", str "1194")] (str "\n    ") [
    .elem .title [] ([]) [
      .elem (.known .st) [] (str "401") [] (str " response needs a "),
      .elem (.known .h) [] (str "WWW-Authenticate") [] (str " header")] (str "\n    "),
    .elem .rfc [(str "num", str "7235"), (str "sect", str "3.1")] (str "\n      The server generating a 401 response MUST send\n   a ") [
      .elem (.known .h) [] (str "WWW-Authenticate") [] (str " header field (Section 4.1) containing at least one\n   challenge applicable to the target resource.\n    ")] (str "\n  ")] (str "\n\n  ")

/-- Notice 1195 (httpolice/notices.xml 1437-1444). -/
def notice1195 : Xml :=
  .elem (.notice .error) [(str "id", str "1195")] (str "\n    ") [
    .elem .title [] ([]) [
      .elem (.known .st) [] (str "407") [] (str " response needs a "),
      .elem (.known .h) [] (str "Proxy-Authenticate") [] (str " header")] (str "\n    "),
    .elem .rfc [(str "num", str "7235"), (str "sect", str "3.2")] (str "\n      The proxy MUST send a\n   ") [
      .elem (.known .h) [] (str "Proxy-Authenticate") [] (str " header field (Section 4.3) containing a challenge\n   applicable to that proxy for the target resource.\n    ")] (str "\n  ")] (str "\n\n  ")

/-- Notice 1196 (httpolice/notices.xml 1446-1449). -/
def notice1196 : Xml :=
  .elem (.notice .error) [(str "id", str "1196")] (str "\n    ") [
    .elem .title [] (str "‘realm’ parameter in ") [
      .elem .var [(str "ref", str "place")] ([]) [] (str " must be quoted")] (str "\n    "),
    .elem .explain [] (str "According to ") [
      .elem .rfc [(str "num", str "7235"), (str "sect", str "2.2")] ([]) [] (str ", the value of the ‘realm’ parameter must be enclosed in double quotes.")] (str "\n  ")] (str "\n\n  ")

/-- Notice 1197 (httpolice/notices.xml 1451-1454). -/
def notice1197 : Xml :=
  .elem (.notice .comment) [(str "id", str "1197")] (str "\n    ") [
    .elem .title [] (str "Deprecated header ") [
      .elem .var [(str "ref", str "header")] ([]) [] ([])] (str "\n    "),
    .elem .explain [] (str "This message has the ") [
      .elem .var [(str "ref", str "header")] ([]) [] (str " header, which is listed as “obsoleted” or “deprecated” in the "),
      .elem .cite [(str "title", str "IANA message headers registry"), (str "url", str "https://www.iana.org/assignments/message-headers/message-headers.xhtml")] ([]) [] (str ".")] (str "\n  ")] (str "\n\n  ")

/-- Notice 1198 (httpolice/notices.xml 1456-1459). -/
def notice1198 : Xml :=
  .elem (.notice .error) [(str "id", str "1198")] (str "\n    ") [
    .elem .title [] (str "“") [
      .elem (.known .h) [] (str "Connection") [] (str ": close” makes no sense in "),
      .elem .var [(str "ref", str "msg.status")] ([]) [] (str " response")] (str "\n    "),
    .elem .explain [] (str "The ") [
      .elem .var [(str "ref", str "msg.status")] ([]) [] (str " status code means that this is an interim response, and more responses will follow on the same connection. But the ‘close’ option in this response’s "),
      .elem (.known .h) [] (str "Connection") [] (str " header means that the server will close the connection after sending this response.")] (str "\n  ")] (str "\n\n  ")

/-- Notice 1199 (httpolice/notices.xml 1461-1464). -/
def notice1199 : Xml :=
  .elem (.notice .error) [(str "id", str "1199")] (str "\n    ") [
    .elem .title [] (str "“") [
      .elem (.known .h) [] (str "Connection") [] (str ": close” makes no sense in "),
      .elem .var [(str "ref", str "msg.status")] ([]) [] (str " response to "),
      .elem (.known .m) [] (str "CONNECT") [] ([])] (str "\n    "),
    .elem .explain [] (str "A ") [
      .elem .var [(str "ref", str "msg.status")] ([]) [] (str " response to a "),
      .elem (.known .m) [] (str "CONNECT") [] (str " request means that this connection is becoming a tunnel. But the ‘close’ option in this response’s "),
      .elem (.known .h) [] (str "Connection") [] (str " header means that the server will close the connection after sending this response.")] (str "\n  ")] (str "\n\n  ")

/-- Notice 1200 (httpolice/notices.xml 1466-1470). -/
def notice1200 : Xml :=
  .elem (.notice .comment) [(str "id", str "1200")] (str "\n    ") [
    .elem .title [] ([]) [
      .elem (.known .st) [] (str "428") [] (str " response, but request has a "),
      .elem .var [(str "ref", str "header")] ([]) [] (str " precondition")] (str "\n    "),
    .elem .explain [] (str "The ") [
      .elem (.known .st) [] (str "428") [] (str " status code means that the server refuses to handle an unconditional request. But this request is conditional, because it has the "),
      .elem .var [(str "ref", str "header")] ([]) [] (str " header.")] (str "\n    "),
    .comment (str " This is not an error because the server might not recognize this particular header. ") (str "\n  ")] (str "\n\n  ")

/-- Notice 1201 (httpolice/notices.xml 1472-1478). -/
def notice1201 : Xml :=
  .elem (.notice .comment) [(str "id", str "1201")] (str "\n    ") [
    .elem .title [] ([]) [
      .elem (.known .st) [] (str "428") [] (str " response should include an explanation")] (str "\n    "),
    .elem .rfc [(str "num", str "6585"), (str "sect", str "3")] (str "\n      Responses using this status code SHOULD explain how to resubmit the\n   request successfully.\n    ") [] (str "\n  ")] (str "\n\n  ")

/-- Notice 1202 (httpolice/notices.xml 1480-1483). -/
def notice1202 : Xml :=
  .elem (.notice .error) [(str "id", str "1202")] (str "\n    ") [
    .elem .title [] ([]) [
      .elem .var [(str "ref", str "msg.status")] ([]) [] (str " response can’t be served from cache")] (str "\n    "),
    .elem .explain [] (str "According to the specification, the ") [
      .elem .var [(str "ref", str "msg.status")] ([]) [] (str " status code cannot be served from a cache.")] (str "\n  ")] (str "\n\n  ")

/-- Notice 1203 (httpolice/notices.xml 1485-1492). -/
def notice1203 : Xml :=
  .elem (.notice .comment) [(str "id", str "1203")] (str "\n    ") [
    .elem .title [] ([]) [
      .elem (.known .st) [] (str "429") [] (str " response should include an explanation")] (str "\n    "),
    .elem .rfc [(str "num", str "6585"), (str "sect", str "4")] (str "\n      The response representations SHOULD include details explaining the\n   condition, and MAY include a ") [
      .elem (.known .h) [(str "ref", str "no")] (str "Retry-After") [] (str " header indicating how long\n   to wait before making a new request.\n    ")] (str "\n  ")] (str "\n\n  ")

/-- Notice 1204 (httpolice/notices.xml 1494-1500). -/
def notice1204 : Xml :=
  .elem (.notice .comment) [(str "id", str "1204")] (str "\n    ") [
    .elem .title [] ([]) [
      .elem (.known .st) [] (str "511") [] (str " response should have a body")] (str "\n    "),
    .elem .rfc [(str "num", str "6585"), (str "sect", str "6")] (str "\n      The response representation SHOULD contain a link to a resource that\n   allows the user to submit credentials (e.g., with an HTML form).\n    ") [] (str "\n  ")] (str "\n\n  ")

/-- Notice 1205 (httpolice/notices.xml 1502-1509). -/
def notice1205 : Xml :=
  .elem (.notice .comment) [(str "id", str "1205")] (str "\n    ") [
    .elem .title [] ([]) [
      .elem (.known .st) [] (str "308") [] (str " response should have a "),
      .elem (.known .h) [] (str "Location") [] (str " header")] (str "\n    "),
    .elem .rfc [(str "num", str "7538"), (str "sect", str "3")] (str "\n      The server SHOULD generate a ") [
      .elem (.known .h) [] (str "Location") [] (str " header field ([RFC7231],\n   Section 7.1.2) in the response containing a preferred URI reference\n   for the new permanent URI.\n    ")] (str "\n  ")] (str "\n\n  ")

/-- Notice 1206 (httpolice/notices.xml 1511-1514). -/
def notice1206 : Xml :=
  .elem (.notice .error) [(str "id", str "1206")] (str "\n    ") [
    .elem .title [] ([]) [
      .elem .var [(str "ref", str "header")] ([]) [] (str ": "),
      .elem (.known .auth) [] (str "Basic") [] (str " must have ‘realm’")] (str "\n    "),
    .elem .explain [] (str "The Basic authentication scheme requires a ‘realm’ parameter. See ") [
      .elem .rfc [(str "num", str "7617"), (str "sect", str "2")] ([]) [] (str ".")] (str "\n  ")] (str "\n\n  ")

/-- Notice 1207 (httpolice/notices.xml 1516-1519). -/
def notice1207 : Xml :=
  .elem (.notice .error) [(str "id", str "1207")] (str "\n    ") [
    .elem .title [] ([]) [
      .elem .var [(str "ref", str "header")] ([]) [] (str ": "),
      .elem (.known .auth) [] (str "Basic") [] (str " can’t have a ‘"),
      .elem .var [(str "ref", str "param")] ([]) [] (str "’ parameter")] (str "\n    "),
    .elem .explain [] (str "No ‘") [
      .elem .var [(str "ref", str "param")] ([]) [] (str "’ parameter is defined for the Basic authentication scheme. See "),
      .elem .rfc [(str "num", str "7617"), (str "sect", str "2")] ([]) [] (str ".")] (str "\n  ")] (str "\n\n  ")

/-- Notice 1208 (httpolice/notices.xml 1521-1524). -/
def notice1208 : Xml :=
  .elem (.notice .error) [(str "id", str "1208")] (str "\n    ") [
    .elem .title [] ([]) [
      .elem .var [(str "ref", str "header")] ([]) [] (str ": "),
      .elem (.known .auth) [] (str "Basic") [] (str " can’t have a ‘"),
      .elem .var [(str "ref", str "charset")] ([]) [] (str "’ charset")] (str "\n    "),
    .elem .explain [] (str "According to ") [
      .elem .rfc [(str "num", str "7617"), (str "sect", str "2.1")] ([]) [] (str ", the ‘charset’ parameter to the Basic authentication scheme can only have the value “UTF-8”.")] (str "\n  ")] (str "\n\n  ")

/-- Notice 1209 (httpolice/notices.xml 1526-1529). -/
def notice1209 : Xml :=
  .elem (.notice .error) [(str "id", str "1209")] (str "\n    ") [
    .elem .title [] (str "Malformed ") [
      .elem .var [(str "ref", str "header")] ([]) [] (str ": "),
      .elem (.known .auth) [] (str "Basic") [] ([])] (str "\n    "),
    .elem .explain [] (str "In the Basic authentication scheme, credentials are sent as a single Base64 string. See ") [
      .elem .rfc [(str "num", str "7617"), (str "sect", str "2")] ([]) [] (str ".")] (str "\n  ")] (str "\n\n  ")

/-- Notice 1210 (httpolice/notices.xml 1531-1536). -/
def notice1210 : Xml :=
  .elem (.notice .error) [(str "id", str "1210")] (str "\n    ") [
    .elem .title [] (str "Malformed ") [
      .elem .var [(str "ref", str "header")] ([]) [] (str ": "),
      .elem (.known .auth) [] (str "Basic") [] ([])] (str "\n    "),
    .elem .explain [] (str "In the Basic authentication scheme, the user ID and password are combined with a colon ‘:’ and packed into Base64. In this request’s ") [
      .elem .var [(str "ref", str "header")] ([]) [] (str " header, HTTPolice tried to decode them from Base64 and got the following error:")] (str "\n    "),
    .elem .exception [] ([]) [] (str "\n    "),
    .elem .explain [] (str "See ") [
      .elem .rfc [(str "num", str "7617"), (str "sect", str "2")] ([]) [] (str ".")] (str "\n  ")] (str "\n\n  ")

/-- Notice 1211 (httpolice/notices.xml 1538-1541). -/
def notice1211 : Xml :=
  .elem (.notice .error) [(str "id", str "1211")] (str "\n    ") [
    .elem .title [] (str "Malformed ") [
      .elem .var [(str "ref", str "header")] ([]) [] (str ": "),
      .elem (.known .auth) [] (str "Basic") [] ([])] (str "\n    "),
    .elem .explain [] (str "In the Basic authentication scheme, the user ID and password are combined with a colon ‘:’ and packed into Base64. But in this request’s ") [
      .elem .var [(str "ref", str "header")] ([]) [] (str " header, there is no ‘:’ after decoding from Base64. See "),
      .elem .rfc [(str "num", str "7617"), (str "sect", str "2")] ([]) [] (str ".")] (str "\n  ")] (str "\n\n  ")

/-- Notice 1212 (httpolice/notices.xml 1543-1549). -/
def notice1212 : Xml :=
  .elem (.notice .error) [(str "id", str "1212")] (str "\n    ") [
    .elem .title [] ([]) [
      .elem .var [(str "ref", str "header")] ([]) [] (str ": "),
      .elem (.known .auth) [] (str "Basic") [] (str " can’t contain character "),
      .elem .var [(str "ref", str "char")] ([]) [] ([])] (str "\n    "),
    .elem .rfc [(str "num", str "7617"), (str "sect", str "2")] (str "\n      The user-id and password MUST NOT contain any control characters (see\n   \"CTL\" in Appendix B.1 of [RFC5234]).\n    ") [] (str "\n  ")] (str "\n\n  ")

/-- Notice 1213 (httpolice/notices.xml 1551-1556). -/
def notice1213 : Xml :=
  .elem (.notice .comment) [(str "id", str "1213")] (str "\n    ") [
    .elem .title [] ([]) [
      .elem (.known .h) [] (str "Content-Type") [] (str ": "),
      .elem .var [(str "ref", str "msg.headers.content_type.value")] ([]) [] (str " is not suitable for "),
      .elem (.known .m) [] (str "PATCH") [] ([])] (str "\n    "),
    .elem .explain [] (str "The ") [
      .elem (.known .m) [] (str "PATCH") [] (str " method should only be used with media types that define how to apply the patch. "),
      .elem .var [(str "ref", str "msg.headers.content_type.value")] ([]) [] (str " is not such a media type.")] (str "\n    "),
    .elem .explain [] (str "See ") [
      .elem .rfc [(str "num", str "5789"), (str "errata", str "3169")] ([]) [] (str ".")] (str "\n    "),
    .elem .explain [] (str "For example, ") [
      .elem (.known .media) [] (str "application/merge-patch+json") [] (str " would be a suitable patch format for JSON.")] (str "\n  ")] (str "\n\n  ")

/-- Notice 1214 (httpolice/notices.xml 1558-1569). -/
def notice1214 : Xml :=
  .elem (.notice .comment) [(str "id", str "1214")] (str "\n    ") [
    .elem .title [] ([]) [
      .elem .var [(str "ref", str "msg.request.headers.content_type.value")] ([]) [] (str " patch should be rejected")] (str "\n    "),
    .elem .rfc [(str "num", str "5789"), (str "errata", str "3169")] (str "\n      If a server receives a ") [
      .elem (.known .m) [] (str "PATCH") [] (str "\n   request with a media type whose specification does not define\n   semantics specific to PATCH, the server SHOULD reject the request by\n   returning the "),
      .elem (.known .st) [] (str "415") [] (str " Unsupported Media Type status code, unless a more\n   specific error status code takes priority.\n    ")] (str "\n    "),
    .elem .ref [(str "to", str "msg.request.headers.content_type")] ([]) [] (str "\n    "),
    .elem .ref [(str "to", str "msg.status")] ([]) [] (str "\n  ")] (str "\n\n  ")

/-- Notice 1215 (httpolice/notices.xml 1571-1578). -/
def notice1215 : Xml :=
  .elem (.notice .comment) [(str "id", str "1215")] (str "\n    ") [
    .elem .title [] ([]) [
      .elem (.known .st) [] (str "415") [] (str " response to "),
      .elem (.known .m) [] (str "PATCH") [] (str " should have "),
      .elem (.known .h) [] (str "Accept-Patch") [] ([])] (str "\n    "),
    .elem .rfc [(str "num", str "5789"), (str "sect", str "2.2")] (str "\n      Such a response SHOULD include an\n      ") [
      .elem (.known .h) [] (str "Accept-Patch") [] (str " response header as described in Section 3.1 to notify\n      the client what patch document media types are supported.\n    ")] (str "\n  ")] (str "\n\n  ")

/-- Notice 1216 (httpolice/notices.xml 1580-1583). -/
def notice1216 : Xml :=
  .elem (.notice .comment) [(str "id", str "1216")] (str "\n    ") [
    .elem .title [] (str "Should send ") [
      .elem (.known .h) [] (str "Accept-Patch") [] (str " with “"),
      .elem (.known .h) [] (str "Allow") [] (str ": "),
      .elem (.known .m) [] (str "PATCH") [] (str "”")] (str "\n    "),
    .elem .explain [] (str "This ") [
      .elem (.known .m) [] (str "OPTIONS") [] (str " response indicates in its "),
      .elem (.known .h) [] (str "Allow") [] (str " header that the "),
      .elem (.known .m) [] (str "PATCH") [] (str " method is supported. According to "),
      .elem .rfc [(str "num", str "5789"), (str "sect", str "3.1")] ([]) [] (str ", in this case the server should also send an "),
      .elem (.known .h) [] (str "Accept-Patch") [] (str " header.")] (str "\n  ")] (str "\n\n  ")

/-- Notice 1217 (httpolice/notices.xml 1585-1588). -/
def notice1217 : Xml :=
  .elem (.notice .error) [(str "id", str "1217")] (str "\n    ") [
    .elem .title [] ([]) [
      .elem (.known .h) [] (str "Accept-Patch") [] (str " implies “"),
      .elem (.known .h) [] (str "Allow") [] (str ": "),
      .elem (.known .m) [(str "ref", str "no")] (str "PATCH") [] (str "”")] (str "\n    "),
    .elem .explain [] (str "This response’s ") [
      .elem (.known .h) [] (str "Accept-Patch") [] (str " header means that this resource supports the "),
      .elem (.known .m) [(str "ref", str "no")] (str "PATCH") [] (str " method, but it’s missing from the "),
      .elem (.known .h) [] (str "Allow") [] (str " header.")] (str "\n  ")] (str "\n\n  ")

/-- Notice 1218 (httpolice/notices.xml 1590-1593). -/
def notice1218 : Xml :=
  .elem (.notice .error) [(str "id", str "1218")] (str "\n    ") [
    .elem .title [] (str "HSTS needs a ‘") [
      .elem (.known .hsts) [] (str "max-age") [] (str "’ directive")] (str "\n    "),
    .elem .explain [] (str "According to ") [
      .elem .rfc [(str "num", str "6797"), (str "sect", str "6.1.1")] ([]) [] (str ", a "),
      .elem (.known .h) [] (str "Strict-Transport-Security") [] (str " header must have a "),
      .elem (.known .hsts) [] (str "max-age") [] (str " directive.")] (str "\n  ")] (str "\n\n  ")

/-- Notice 1219 (httpolice/notices.xml 1595-1599). -/
def notice1219 : Xml :=
  .elem (.notice .comment) [(str "id", str "1219")] (str "\n    ") [
    .elem .title [] (str "HSTS: ") [
      .elem (.known .hsts) [] (str "includeSubDomains") [] (str " has no effect with "),
      .elem (.known .hsts) [] (str "max-age") [] (str "=0")] (str "\n    "),
    .elem .explain [] (str "The “") [
      .elem (.known .hsts) [] (str "max-age") [] (str "=0” directive in this response’s "),
      .elem (.known .h) [] (str "Strict-Transport-Security") [] (str " header tells the user agent to delete the HSTS policy for the domain. The "),
      .elem (.known .hsts) [] (str "includeSubDomains") [] (str " directive makes no difference in this case.")] (str "\n    "),
    .elem .explain [] (str "See ") [
      .elem .rfc [(str "num", str "6797"), (str "sect", str "6.2")] ([]) [] (str ".")] (str "\n  ")] (str "\n\n  ")

/-- Notice 1220 (httpolice/notices.xml 1601-1607). -/
def notice1220 : Xml :=
  .elem (.notice .error) [(str "id", str "1220")] (str "\n    ") [
    .elem .title [] (str "Duplicate ‘") [
      .elem .var [(str "ref", str "directive")] ([]) [] (str "’ directive in HSTS")] (str "\n    "),
    .elem .rfc [(str "num", str "6797"), (str "sect", str "6.1")] (str "\n      All directives MUST appear only once in an STS header field.\n    ") [] (str "\n    "),
    .elem .ref [(str "to", str "msg.headers.strict_transport_security")] ([]) [] (str "\n  ")] (str "\n\n  ")

/-- Notice 1221 (httpolice/notices.xml 1609-1615). -/
def notice1221 : Xml :=
  .elem (.notice .error) [(str "id", str "1221")] (str "\n    ") [
    .elem .title [] ([]) [
      .elem (.known .h) [] (str "Strict-Transport-Security") [] (str " can’t be used without TLS")] (str "\n    "),
    .elem .rfc [(str "num", str "6797"), (str "sect", str "7.2")] (str "\n      An HSTS Host MUST NOT include the STS header field in HTTP responses\n   conveyed over non-secure transport.\n    ") [] (str "\n  ")] (str "\n\n  ")

/-- Notice 1222 (httpolice/notices.xml 1617-1620). -/
def notice1222 : Xml :=
  .elem (.notice .error) [(str "id", str "1222")] (str "\n    ") [
    .elem .title [] (str "Impossible date in ") [
      .elem .var [(str "ref", str "place")] ([]) [] ([])] (str "\n    "),
    .elem .explain [] (str "“") [
      .elem .var [(str "ref", str "date")] ([]) [] (str "” is not a valid date.")] (str "\n  ")] (str "\n\n  ")

/-- Notice 1223 (httpolice/notices.xml 1622-1625). -/
def notice1223 : Xml :=
  .elem (.notice .error) [(str "id", str "1223")] (str "\n    ") [
    .elem .title [] (str "Impossible time in ") [
      .elem .var [(str "ref", str "place")] ([]) [] ([])] (str "\n    "),
    .elem .explain [] (str "“") [
      .elem .var [(str "ref", str "time")] ([]) [] (str "” is not a valid time.")] (str "\n  ")] (str "\n\n  ")

/-- Notice 1224 (httpolice/notices.xml 1627-1631). -/
def notice1224 : Xml :=
  .elem (.notice .error) [(str "id", str "1224")] (str "\n    ") [
    .elem .title [] (str "LF without CR in ") [
      .elem .var [(str "ref", str "place")] ([]) [] ([])] (str "\n    "),
    .elem .explain [] (str "Lines in HTTP message framing are terminated by two bytes: a carriage return (CR) followed by a line feed (LF). Some implementations accept a bare LF without CR, like in this message, but this is not reliable.") [] (str "\n    "),
    .elem .explain [] (str "See also ") [
      .elem .rfc [(str "num", str "7230"), (str "sect", str "3.5")] ([]) [] (str ".")] (str "\n  ")] (str "\n\n  ")

/-- Notice 1225 (httpolice/notices.xml 1633-1636). -/
def notice1225 : Xml :=
  .elem (.notice .error) [(str "id", str "1225")] (str "\n    ") [
    .elem .title [] (str "Duplicate ‘") [
      .elem .var [(str "ref", str "name")] ([]) [] (str "’ parameter in "),
      .elem .var [(str "ref", str "place")] ([]) [] ([])] (str "\n    "),
    .elem .explain [] (str "According to ") [
      .elem .rfc [(str "num", str "8288"), (str "sect", str "3")] ([]) [] (str ", the ‘"),
      .elem .var [(str "ref", str "name")] ([]) [] (str "’ parameter must not occur more than once in a single link.")] (str "\n  ")] (str "\n\n  ")

/-- Notice 1226 (httpolice/notices.xml 1638-1645). -/
def notice1226 : Xml :=
  .elem (.notice .comment) [(str "id", str "1226")] (str "\n    ") [
    .elem .title [] (str "Deprecated ‘rev’ parameter in ") [
      .elem .var [(str "ref", str "place")] ([]) [] ([])] (str "\n    "),
    .elem .rfc [(str "num", str "8288"), (str "sect", str "3.3")] (str "\n      rev is deprecated by this\n   specification because it often confuses authors and readers; in most\n   cases, using a separate relation type is preferable.\n    ") [] (str "\n  ")] (str "\n\n  ")

/-- Notice 1227 (httpolice/notices.xml 1647-1652). -/
def notice1227 : Xml :=
  .elem (.notice .comment) [(str "id", str "1227")] (str "\n    ") [
    .elem .title [] ([]) [
      .elem .var [(str "ref", str "patch_type")] ([]) [] (str " is not suitable for "),
      .elem (.known .h) [] (str "Accept-Patch") [] ([])] (str "\n    "),
    .elem .explain [] (str "The ") [
      .elem (.known .m) [] (str "PATCH") [] (str " method should only be used with media types that define how to apply the patch. "),
      .elem .var [(str "ref", str "patch_type")] ([]) [] (str " is not such a media type. But this response’s "),
      .elem (.known .h) [] (str "Accept-Patch") [] (str " header invites the client to send patches of type "),
      .elem .var [(str "ref", str "patch_type")] ([]) [] (str ".")] (str "\n    "),
    .elem .explain [] (str "See ") [
      .elem .rfc [(str "num", str "5789"), (str "errata", str "3169")] ([]) [] (str ".")] (str "\n    "),
    .elem .explain [] (str "For example, ") [
      .elem (.known .media) [] (str "application/merge-patch+json") [] (str " would be a suitable patch format for JSON.")] (str "\n  ")] (str "\n\n  ")

/-- Notice 1228 (httpolice/notices.xml 1654-1658). -/
def notice1228 : Xml :=
  .elem (.notice .error) [(str "id", str "1228")] (str "\n    ") [
    .elem .title [] ([]) [
      .elem (.known .h) [] (str "Upgrade") [] (str ": h2 is wrong")] (str "\n    "),
    .elem .explain [] (str "This message’s ") [
      .elem (.known .h) [] (str "Upgrade") [] (str " header includes the token ‘h2’, which normally refers to HTTP/2 over TLS. But HTTP/2 over TLS does not use the "),
      .elem (.known .h) [] (str "Upgrade") [] (str " mechanism, and cleartext HTTP/2 uses the ‘h2c’ token instead, so “Upgrade: h2” is wrong.")] (str "\n    "),
    .elem .explain [] (str "See ") [
      .elem .rfc [(str "num", str "7540"), (str "sect", str "3")] ([]) [] (str ".")] (str "\n  ")] (str "\n\n  ")

/-- Notice 1230 (httpolice/notices.xml 1660-1668). -/
def notice1230 : Xml :=
  .elem (.notice .error) [(str "id", str "1230")] (str "\n    ") [
    .elem .title [] ([]) [
      .elem (.known .h) [] (str "HTTP2-Settings") [] (str " needs “"),
      .elem (.known .h) [] (str "Connection") [] (str ": http2-settings”")] (str "\n    "),
    .elem .rfc [(str "num", str "7540"), (str "sect", str "3.2.1")] (str "\n      Since the upgrade is only intended to apply to the immediate\n   connection, a client sending the ") [
      .elem (.known .h) [] (str "HTTP2-Settings") [] (str " header field MUST\n   also send \"HTTP2-Settings\" as a connection option in the "),
      .elem (.known .h) [] (str "Connection") [] (str "\n   header field to prevent it from being forwarded\n    ")] (str "\n  ")] (str "\n\n  ")

/-- Notice 1231 (httpolice/notices.xml 1670-1676). -/
def notice1231 : Xml :=
  .elem (.notice .error) [(str "id", str "1231")] (str "\n    ") [
    .elem .title [] ([]) [
      .elem (.known .h) [] (str "Upgrade") [] (str ": h2c needs "),
      .elem (.known .h) [] (str "HTTP2-Settings") [] ([])] (str "\n    "),
    .elem .rfc [(str "num", str "7540"), (str "sect", str "3.2.1")] (str "\n      A request that upgrades from HTTP/1.1 to HTTP/2 MUST include exactly\n   one \"HTTP2-Settings\" header field.\n    ") [] (str "\n  ")] (str "\n\n  ")

/-- Notice 1232 (httpolice/notices.xml 1678-1683). -/
def notice1232 : Xml :=
  .elem (.notice .error) [(str "id", str "1232")] (str "\n    ") [
    .elem .title [] (str "Upgrading to HTTP/2 despite bad ") [
      .elem (.known .h) [(str "ref", str "no")] (str "HTTP2-Settings") [] ([])] (str "\n    "),
    .elem .explain [] (str "According to ") [
      .elem .rfc [(str "num", str "7540"), (str "sect", str "3.2.1")] ([]) [] (str ", the server must not upgrade to HTTP/2 unless the request has exactly one valid "),
      .elem (.known .h) [(str "ref", str "no")] (str "HTTP2-Settings") [] (str " header.")] (str "\n    "),
    .elem .ref [(str "to", str "msg.headers.upgrade")] ([]) [] (str "\n    "),
    .elem .ref [(str "to", str "msg.request.headers.http2_settings")] ([]) [] (str "\n  ")] (str "\n\n  ")

/-- Notice 1233 (httpolice/notices.xml 1685-1689). -/
def notice1233 : Xml :=
  .elem (.notice .error) [(str "id", str "1233")] (str "\n    ") [
    .elem .title [] ([]) [
      .elem (.known .h) [] (str "Upgrade") [] (str ": h2c can’t be used on a TLS connection")] (str "\n    "),
    .elem .explain [] (str "An “") [
      .elem (.known .h) [] (str "Upgrade") [] (str ": h2c” header is used to switch to HTTP/2 from a cleartext HTTP/1.1 connection. But this message was sent on an encrypted (TLS) connection. HTTP/2 over TLS is negotiated by other means.")] (str "\n    "),
    .elem .explain [] (str "See ") [
      .elem .rfc [(str "num", str "7540"), (str "sect", str "3")] ([]) [] (str ".")] (str "\n  ")] (str "\n\n  ")

/-- Notice 1234 (httpolice/notices.xml 1691-1694). -/
def notice1234 : Xml :=
  .elem (.notice .error) [(str "id", str "1234")] (str "\n    ") [
    .elem .title [] (str "Malformed ") [
      .elem (.known .h) [] (str "HTTP2-Settings") [] ([])] (str "\n    "),
    .elem .explain [] (str "According to ") [
      .elem .rfc [(str "num", str "7540"), (str "sect", str "3.2.1")] ([]) [] (str ", the "),
      .elem (.known .h) [] (str "HTTP2-Settings") [] (str " header must use the URL- and filename-safe Base64 encoding without padding. This means that it can only contain letters, digits, dash (-), and underscore (_).")] (str "\n  ")] (str "\n\n  ")

/-- Notice 1235 (httpolice/notices.xml 1696-1700). -/
def notice1235 : Xml :=
  .elem (.notice .comment) [(str "id", str "1235")] (str "\n    ") [
    .elem .title [] ([]) [
      .elem (.known .h) [] (str "Vary") [] (str ": "),
      .elem (.known .h) [(str "ref", str "no")] (str "Host") [] (str " is useless")] (str "\n    "),
    .elem .explain [] (str "There is no need to include ") [
      .elem (.known .h) [(str "ref", str "no")] (str "Host") [] (str " in the "),
      .elem (.known .h) [] (str "Vary") [] (str " header, because Host is part of the request URI, and therefore, every HTTP response implicitly varies by Host already. “Vary: Host” can only scare caches away from storing the response.")] (str "\n    "),
    .elem .explain [] (str "See ") [
      .elem .rfc [(str "num", str "7231"), (str "sect", str "7.1.4")] ([]) [] (str " and "),
      .elem .rfc [(str "num", str "7234"), (str "sect", str "2")] ([]) [] (str ".")] (str "\n  ")] (str "\n\n  ")

/-- Notice 1236 (httpolice/notices.xml 1702-1707). -/
def notice1236 : Xml :=
  .elem (.notice .debug) [(str "id", str "1236")] (str "\n    ") [
    .elem .title [] (str "Absolute URI implies request to proxy") [] (str "\n    "),
    .elem .explain [] (str "This request’s target is an absolute URI. According to ") [
      .elem .rfc [(str "num", str "7230"), (str "sect", str "5.3")] ([]) [] (str ", HTTP/1.1 clients only use this “absolute form” when connecting to proxies. Therefore, HTTPolice assumes that this request is to a proxy.")] (str "\n    "),
    .elem .ref [(str "to", str "msg.target")] ([]) [] (str "\n    "),
    .elem .ref [(str "to", str "msg.version")] ([]) [] (str "\n  ")] (str "\n\n  ")

/-- Notice 1237 (httpolice/notices.xml 1709-1712). -/
def notice1237 : Xml :=
  .elem (.notice .error) [(str "id", str "1237")] (str "\n    ") [
    .elem .title [] (str "Response to a direct request can’t be transformed by a proxy") [] (str "\n    "),
    .elem .explain [] (str "It seems like this response was transformed by a proxy, but the request was not directed to a proxy.") [] (str "\n  ")] (str "\n\n  ")

/-- Notice 1238 (httpolice/notices.xml 1714-1718). -/
def notice1238 : Xml :=
  .elem (.notice .comment) [(str "id", str "1238")] (str "\n    ") [
    .elem .title [] ([]) [
      .elem (.known .h) [] (str "Cache-Control") [] (str ": "),
      .elem .var [(str "ref", str "directive1")] ([]) [] (str " has no effect with "),
      .elem .var [(str "ref", str "directive2")] ([]) [] ([])] (str "\n    "),
    .elem .explain [] (str "This response’s ") [
      .elem (.known .h) [] (str "Cache-Control") [] (str " header includes both the "),
      .elem .var [(str "ref", str "directive1")] ([]) [] (str " and the "),
      .elem .var [(str "ref", str "directive2")] ([]) [] (str " directives. But "),
      .elem .var [(str "ref", str "directive1")] ([]) [] (str " makes no difference when "),
      .elem .var [(str "ref", str "directive2")] ([]) [] (str " is present.")] (str "\n    "),
    .comment (str " This used to be part of no. 1193, but strictly speaking ``max-age`` does not contradict ``no-cache``, similarly ``s-maxage`` vs. ``private``, etc. ") (str "\n  ")] (str "\n\n  ")

/-- Notice 1239 (httpolice/notices.xml 1720-1727). -/
def notice1239 : Xml :=
  .elem (.notice .error) [(str "id", str "1239")] (str "\n    ") [
    .elem .title [] (str "Response to ") [
      .elem (.known .m) [] (str "HEAD") [] (str " can’t have a body")] (str "\n    "),
    .elem .rfc [(str "num", str "7231"), (str "sect", str "4.3.2")] (str "\n      The ") [
      .elem (.known .m) [] (str "HEAD") [] (str " method is identical to "),
      .elem (.known .m) [] (str "GET") [] (str " except that the server MUST NOT\n   send a message body in the response\n    ")] (str "\n    "),
    .elem .ref [(str "to", str "msg.displayable_body")] ([]) [] (str "\n  ")] (str "\n\n  ")

/-- Notice 1240 (httpolice/notices.xml 1729-1737). -/
def notice1240 : Xml :=
  .elem (.notice .error) [(str "id", str "1240")] (str "\n    ") [
    .elem .title [] ([]) [
      .elem (.known .st) [] (str "204") [] (str " response can’t have a body")] (str "\n    "),
    .elem .rfc [(str "num", str "7231"), (str "sect", str "6.3.5")] (str "\n      The 204 (No Content) status code indicates that the server has\n   successfully fulfilled the request and that there is no additional\n   content to send in the response payload body.\n    ") [] (str "\n    "),
    .elem .ref [(str "to", str "msg.displayable_body")] ([]) [] (str "\n  ")] (str "\n\n  ")

/-- Notice 1241 (httpolice/notices.xml 1739-1744). -/
def notice1241 : Xml :=
  .elem (.notice .error) [(str "id", str "1241")] (str "\n    ") [
    .elem .title [] ([]) [
      .elem (.known .h) [] (str "Date") [] (str " + "),
      .elem (.known .h) [] (str "Age") [] (str " is in the future")] (str "\n    "),
    .elem .explain [] (str "The ") [
      .elem (.known .h) [] (str "Date") [] (str " header is the date and time when the response was originated. And the "),
      .elem (.known .h) [] (str "Age") [] (str " header is how long the response has been cached since then (or since it was revalidated). But in this response, the sum of "),
      .elem (.known .h) [] (str "Date") [] (str " + "),
      .elem (.known .h) [] (str "Age") [] (str " is in the future, so one of them must be wrong.")] (str "\n    "),
    .elem .explain [] (str "This can happen when a cache mistakenly changes the ") [
      .elem (.known .h) [] (str "Date") [] (str " header, or adds an "),
      .elem (.known .h) [] (str "Age") [] (str " header even though it is not a true HTTP cache (according to "),
      .elem .rfc [(str "num", str "7234")] ([]) [] (str ").")] (str "\n    "),
    .elem .explain [] (str "Also, this error can be caused by wrong timezone settings.") [] (str "\n  ")] (str "\n\n  ")

/-- Notice 1242 (httpolice/notices.xml 1746-1754). -/
def notice1242 : Xml :=
  .elem (.notice .comment) [(str "id", str "1242")] (str "\n    ") [
    .elem .title [] ([]) [
      .elem (.known .st) [] (str "451") [] (str " response should include an explanation")] (str "\n    "),
    .elem .rfc [(str "num", str "7725"), (str "sect", str "3")] (str "\n      Responses using this status code SHOULD include an explanation, in\n   the response body, of the details of the legal demand: the party\n   making it, the applicable legislation or regulation, and what classes\n   of person and resource it applies to.\n    ") [] (str "\n  ")] (str "\n\n  ")

/-- Notice 1243 (httpolice/notices.xml 1756-1765). -/
def notice1243 : Xml :=
  .elem (.notice .comment) [(str "id", str "1243")] (str "\n    ") [
    .elem .title [] ([]) [
      .elem (.known .st) [] (str "451") [] (str " response should have a ‘blocked-by’ link")] (str "\n    "),
    .elem .rfc [(str "num", str "7725"), (str "sect", str "4")] (str "\n      When an entity blocks access to a resource and returns status 451, it\n   SHOULD include a \"") [
      .elem (.known .h) [] (str "Link") [] (str "\" HTTP header field [RFC5988] whose value is a\n   URI reference [RFC3986] identifying itself.  When used for this\n   purpose, the \"Link\" header field MUST have a \"rel\" parameter whose\n   value is \"blocked-by\".\n    ")] (str "\n  ")] (str "\n\n  ")

/-- Notice 1244 (httpolice/notices.xml 1767-1780). -/
def notice1244 : Xml :=
  .elem (.notice .error) [(str "id", str "1244")] (str "\n    ") [
    .elem .title [] ([]) [
      .elem .var [(str "ref", str "header")] ([]) [] (str " header can’t be used in HTTP/2")] (str "\n    "),
    .elem .rfc [(str "num", str "7540"), (str "sect", str "8.1.2.2")] (str "\n      An endpoint MUST NOT\n   generate an HTTP/2 message containing connection-specific header\n   fields\n    ") [] (str "\n    "),
    .elem .rfc [(str "num", str "7540"), (str "sect", str "8.1.2.2")] (str "\n      The only exception to this is the ") [
      .elem (.known .h) [(str "ref", str "no")] (str "TE") [] (str " header field, which MAY be\n   present in an HTTP/2 request; when it is, it MUST NOT contain any\n   value other than \"trailers\".\n    ")] (str "\n    "),
    .elem .ref [(str "to", str "msg.version")] ([]) [] (str "\n  ")] (str "\n\n  ")

/-- Notice 1245 (httpolice/notices.xml 1782-1789). -/
def notice1245 : Xml :=
  .elem (.notice .error) [(str "id", str "1245")] (str "\n    ") [
    .elem .title [] ([]) [
      .elem (.known .h) [] (str "Upgrade") [] (str " header can’t be used in HTTP/2")] (str "\n    "),
    .elem .rfc [(str "num", str "7540"), (str "sect", str "8.1.2.2")] (str "\n      HTTP/2 purposefully does not support upgrade to another\n      protocol.\n    ") [] (str "\n    "),
    .elem .ref [(str "to", str "msg.version")] ([]) [] (str "\n  ")] (str "\n\n  ")

/-- Notice 1246 (httpolice/notices.xml 1791-1798). -/
def notice1246 : Xml :=
  .elem (.notice .error) [(str "id", str "1246")] (str "\n    ") [
    .elem .title [] ([]) [
      .elem (.known .st) [] (str "101") [] (str " response can’t be used in HTTP/2")] (str "\n    "),
    .elem .rfc [(str "num", str "7540"), (str "sect", str "8.1.1")] (str "\n      HTTP/2 removes support for the ") [
      .elem (.known .st) [] (str "101") [] (str " (Switching Protocols)\n   informational status code\n    ")] (str "\n    "),
    .elem .ref [(str "to", str "msg.version")] ([]) [] (str "\n  ")] (str "\n\n  ")

/-- Notice 1247 (httpolice/notices.xml 1800-1806). -/
def notice1247 : Xml :=
  .elem (.notice .error) [(str "id", str "1247")] (str "\n    ") [
    .elem .title [] (str "Duplicate ‘") [
      .elem .var [(str "ref", str "param")] ([]) [] (str "’ parameter in "),
      .elem (.known .h) [] (str "Content-Disposition") [] ([])] (str "\n    "),
    .elem .rfc [(str "num", str "6266"), (str "sect", str "4.1")] (str "\n      Content-Disposition header field values with multiple instances of\n   the same parameter name are invalid.\n    ") [] (str "\n  ")] (str "\n\n  ")

/-- Notice 1248 (httpolice/notices.xml 1808-1817). -/
def notice1248 : Xml :=
  .elem (.notice .comment) [(str "id", str "1248")] (str "\n    ") [
    .elem .title [] (str "Percent-encoded filename in ") [
      .elem (.known .h) [] (str "Content-Disposition") [] (str " may cause problems")] (str "\n    "),
    .elem .rfc [(str "num", str "6266"), (str "appendix", str "D")] (str "\n      Avoid including the percent character followed by two hexadecimal\n      characters (e.g., %A9) in the filename parameter, since some\n      existing implementations consider it to be an escape character,\n      while others will pass it through unchanged.\n    ") [] (str "\n    "),
    .elem .explain [] (str "Such a filename can be sent in the special ‘filename*’ parameter instead. See ") [
      .elem .rfc [(str "num", str "6266"), (str "sect", str "4.3")] ([]) [] (str ".")] (str "\n  ")] (str "\n\n  ")

/-- Notice 1249 (httpolice/notices.xml 1819-1827). -/
def notice1249 : Xml :=
  .elem (.notice .comment) [(str "id", str "1249")] (str "\n    ") [
    .elem .title [] (str "Backslash in filename in ") [
      .elem (.known .h) [] (str "Content-Disposition") [] (str " may cause problems")] (str "\n    "),
    .elem .rfc [(str "num", str "6266"), (str "appendix", str "D")] (str "\n      Avoid including the \"\\\" character in the quoted-string form of the\n      filename parameter, as escaping is not implemented by some user\n      agents, and \"\\\" can be considered an illegal path character.\n    ") [] (str "\n    "),
    .elem .explain [] (str "Such a filename can be sent in the special ‘filename*’ parameter instead. See ") [
      .elem .rfc [(str "num", str "6266"), (str "sect", str "4.3")] ([]) [] (str ".")] (str "\n  ")] (str "\n\n  ")

/-- Notice 1250 (httpolice/notices.xml 1829-1838). -/
def notice1250 : Xml :=
  .elem (.notice .comment) [(str "id", str "1250")] (str "\n    ") [
    .elem .title [] (str "Non-ASCII filename in ") [
      .elem (.known .h) [] (str "Content-Disposition") [] (str " may cause problems")] (str "\n    "),
    .elem .rfc [(str "num", str "6266"), (str "appendix", str "D")] (str "\n      Avoid using non-ASCII characters in the filename parameter.\n      Although most existing implementations will decode them as\n      ISO-8859-1, some will apply heuristics to detect UTF-8, and thus\n      might fail on certain names.\n    ") [] (str "\n    "),
    .elem .explain [] (str "Such a filename can be sent in the special ‘filename*’ parameter instead. See ") [
      .elem .rfc [(str "num", str "6266"), (str "sect", str "4.3")] ([]) [] (str ".")] (str "\n  ")] (str "\n\n  ")

/-- Notice 1251 (httpolice/notices.xml 1840-1847). -/
def notice1251 : Xml :=
  .elem (.notice .comment) [(str "id", str "1251")] (str "\n    ") [
    .elem .title [] ([]) [
      .elem (.known .h) [] (str "Content-Disposition") [] (str ": ‘filename*’ should also have ‘filename’ as fallback")] (str "\n    "),
    .elem .rfc [(str "num", str "6266"), (str "appendix", str "D")] (str "\n      When a \"filename*\" parameter is sent, to also generate a\n      \"filename\" parameter as a fallback for user agents that do not\n      support the \"filename*\" form, if possible.\n    ") [] (str "\n  ")] (str "\n\n  ")

/-- Notice 1252 (httpolice/notices.xml 1849-1856). -/
def notice1252 : Xml :=
  .elem (.notice .comment) [(str "id", str "1252")] (str "\n    ") [
    .elem .title [] ([]) [
      .elem (.known .h) [] (str "Content-Disposition") [] (str ": ‘filename*’ should come after ‘filename’")] (str "\n    "),
    .elem .rfc [(str "num", str "6266"), (str "appendix", str "D")] (str "\n      When a \"filename\" parameter is included as a fallback (as per\n      above), \"filename\" should occur first, due to parsing problems in\n      some existing implementations.\n    ") [] (str "\n  ")] (str "\n\n  ")

/-- Notice 1253 (httpolice/notices.xml 1858-1865). -/
def notice1253 : Xml :=
  .elem (.notice .error) [(str "id", str "1253")] (str "\n    ") [
    .elem .title [] (str "Bad charset ‘") [
      .elem .var [(str "ref", str "charset")] ([]) [] (str "’ in "),
      .elem .var [(str "ref", str "place")] ([]) [] ([])] (str "\n    "),
    .elem .rfc [(str "num", str "8187"), (str "sect", str "3.2.1")] (str "\n      Producers MUST use the \"UTF-8\" ([RFC3629]) character encoding.\n   Extension character encodings (mime-charset) are reserved for future\n   use.\n    ") [] (str "\n  ")] (str "\n\n  ")

/-- Notice 1254 (httpolice/notices.xml 1867-1871). -/
def notice1254 : Xml :=
  .elem (.notice .error) [(str "id", str "1254")] (str "\n    ") [
    .elem .title [] (str "Bad ") [
      .elem .var [(str "ref", str "charset")] ([]) [] (str " value in "),
      .elem .var [(str "ref", str "place")] ([]) [] ([])] (str "\n    "),
    .elem .explain [] (str "This message’s ") [
      .elem .var [(str "ref", str "place")] ([]) [] (str " contains a "),
      .elem .var [(str "ref", str "charset")] ([]) [] (str " encoded value in the form defined by "),
      .elem .rfc [(str "num", str "8187")] ([]) [] (str ". But HTTPolice tried to decode it from "),
      .elem .var [(str "ref", str "charset")] ([]) [] (str " and got the following error:")] (str "\n    "),
    .elem .exception [] ([]) [] (str "\n  ")] (str "\n\n  ")

/-- Notice 1256 (httpolice/notices.xml 1873-1876). -/
def notice1256 : Xml :=
  .elem (.notice .error) [(str "id", str "1256")] (str "\n    ") [
    .elem .title [] (str "Bad encoding of protocol ID in ") [
      .elem (.known .h) [] (str "Alt-Svc") [] ([])] (str "\n    "),
    .elem .explain [] (str "This message’s ") [
      .elem (.known .h) [] (str "Alt-Svc") [] (str " contains a protocol ID encoded as “"),
      .elem .var [(str "ref", str "actual")] ([]) [] (str "”. But according to "),
      .elem .rfc [(str "num", str "7838"), (str "sect", str "3")] ([]) [] (str ", it must be encoded as “"),
      .elem .var [(str "ref", str "correct")] ([]) [] (str "”.")] (str "\n  ")] (str "\n\n  ")

/-- Notice 1257 (httpolice/notices.xml 1878-1882). -/
def notice1257 : Xml :=
  .elem (.notice .error) [(str "id", str "1257")] (str "\n    ") [
    .elem .title [] (str "Malformed authority in ") [
      .elem (.known .h) [] (str "Alt-Svc") [] ([])] (str "\n    "),
    .elem .explain [] (str "“") [
      .elem .var [(str "ref", str "authority")] ([]) [] (str "” is not a valid "),
      .elem (.known .h) [] (str "Alt-Svc") [] (str " authority, according to "),
      .elem .rfc [(str "num", str "7838"), (str "sect", str "3")] ([]) [] (str ".")] (str "\n    "),
    .elem .exception [] ([]) [] (str "\n  ")] (str "\n\n  ")

/-- Notice 1258 (httpolice/notices.xml 1884-1888). -/
def notice1258 : Xml :=
  .elem (.notice .comment) [(str "id", str "1258")] (str "\n    ") [
    .elem .title [] (str "HTTP/2 should use ALTSVC frame instead of ") [
      .elem (.known .h) [] (str "Alt-Svc") [] (str " header")] (str "\n    "),
    .elem .explain [] ([]) [
      .elem .rfc [(str "num", str "7838"), (str "sect", str "3")] ([]) [] (str " recommends using ALTSVC frames instead of the "),
      .elem (.known .h) [] (str "Alt-Svc") [] (str " header on HTTP/2 connections.")] (str "\n    "),
    .elem .ref [(str "to", str "msg.version")] ([]) [] (str "\n  ")] (str "\n\n  ")

/-- Notice 1260 (httpolice/notices.xml 1890-1896). -/
def notice1260 : Xml :=
  .elem (.notice .error) [(str "id", str "1260")] (str "\n    ") [
    .elem .title [] ([]) [
      .elem (.known .st) [] (str "421") [] (str " response can’t have "),
      .elem (.known .h) [] (str "Alt-Svc") [] ([])] (str "\n    "),
    .elem .rfc [(str "num", str "7838"), (str "sect", str "6")] (str "\n      An ") [
      .elem (.known .h) [] (str "Alt-Svc") [] (str " header field in a "),
      .elem (.known .st) [] (str "421") [] (str " (Misdirected Request) response MUST\n   be ignored.\n    ")] (str "\n  ")] (str "\n\n  ")

/-- Notice 1261 (httpolice/notices.xml 1898-1906). -/
def notice1261 : Xml :=
  .elem (.notice .error) [(str "id", str "1261")] (str "\n    ") [
    .elem .title [] ([]) [
      .elem (.known .h) [] (str "Authorization") [] (str ": "),
      .elem (.known .auth) [] (str "Bearer") [] (str " requires TLS")] (str "\n    "),
    .elem .rfc [(str "num", str "6750"), (str "sect", str "5.3")] (str "\n      Clients MUST always use TLS [RFC5246]\n      (https) or equivalent transport security when making requests with\n      bearer tokens.  Failing to do so exposes the token to numerous\n      attacks that could give attackers unintended access.\n    ") [] (str "\n  ")] (str "\n\n  ")

/-- Notice 1262 (httpolice/notices.xml 1908-1911). -/
def notice1262 : Xml :=
  .elem (.notice .error) [(str "id", str "1262")] (str "\n    ") [
    .elem .title [] (str "Malformed ") [
      .elem (.known .h) [] (str "Authorization") [] (str ": "),
      .elem (.known .auth) [] (str "Bearer") [] ([])] (str "\n    "),
    .elem .explain [] (str "In the Bearer authentication scheme, credentials are sent as a single token. See ") [
      .elem .rfc [(str "num", str "6750"), (str "sect", str "2.1")] ([]) [] (str ".")] (str "\n  ")] (str "\n\n  ")

/-- Notice 1263 (httpolice/notices.xml 1913-1916). -/
def notice1263 : Xml :=
  .elem (.notice .error) [(str "id", str "1263")] (str "\n    ") [
    .elem .title [] ([]) [
      .elem (.known .h) [] (str "WWW-Authenticate") [] (str ": "),
      .elem (.known .auth) [] (str "Bearer") [] (str " requires TLS")] (str "\n    "),
    .elem .explain [] (str "According to ") [
      .elem .rfc [(str "num", str "6750"), (str "sect", str "5.3")] ([]) [] (str ", bearer tokens must not be used without TLS. Instead of prompting the client to send a token on an insecure connection, perhaps it would be better to redirect to an ‘https:’ URI first.")] (str "\n  ")] (str "\n\n  ")

/-- Notice 1264 (httpolice/notices.xml 1918-1921). -/
def notice1264 : Xml :=
  .elem (.notice .error) [(str "id", str "1264")] (str "\n    ") [
    .elem .title [] (str "Malformed ") [
      .elem (.known .h) [] (str "WWW-Authenticate") [] (str ": "),
      .elem (.known .auth) [] (str "Bearer") [] ([])] (str "\n    "),
    .elem .explain [] (str "A Bearer authentication challenge must have “key=value” parameters. See ") [
      .elem .rfc [(str "num", str "6750"), (str "sect", str "3")] ([]) [] (str ".")] (str "\n  ")] (str "\n\n  ")

/-- Notice 1265 (httpolice/notices.xml 1923-1926). -/
def notice1265 : Xml :=
  .elem (.notice .error) [(str "id", str "1265")] (str "\n    ") [
    .elem .title [] (str "Duplicate ‘") [
      .elem .var [(str "ref", str "param")] ([]) [] (str "’ parameter in “"),
      .elem (.known .h) [] (str "WWW-Authenticate") [] (str ": "),
      .elem (.known .auth) [] (str "Bearer") [] (str "”")] (str "\n    "),
    .elem .explain [] (str "According to ") [
      .elem .rfc [(str "num", str "6750"), (str "sect", str "3")] ([]) [] (str ", the ‘"),
      .elem .var [(str "ref", str "param")] ([]) [] (str "’ parameter must not appear more than once.")] (str "\n  ")] (str "\n\n  ")

/-- Notice 1266 (httpolice/notices.xml 1928-1932). -/
def notice1266 : Xml :=
  .elem (.notice .error) [(str "id", str "1266")] (str "\n    ") [
    .elem .title [] (str "Malformed ‘") [
      .elem .var [(str "ref", str "param")] ([]) [] (str "’ parameter in "),
      .elem (.known .h) [] (str "WWW-Authenticate") [] ([])] (str "\n    "),
    .elem .explain [] (str "“") [
      .elem .var [(str "ref", str "value")] ([]) [] (str "” is not a correct value for a ‘"),
      .elem .var [(str "ref", str "param")] ([]) [] (str "’ parameter in a "),
      .elem (.known .auth) [] (str "Bearer") [] (str " challenge. See "),
      .elem .rfc [(str "num", str "6750"), (str "sect", str "3")] ([]) [] (str ".")] (str "\n    "),
    .elem .exception [] ([]) [] (str "\n  ")] (str "\n\n  ")

/-- Notice 1267 (httpolice/notices.xml 1934-1945). -/
def notice1267 : Xml :=
  .elem (.notice .comment) [(str "id", str "1267")] (str "\n    ") [
    .elem .title [] (str "Declined a ") [
      .elem (.known .auth) [] (str "Bearer") [] (str " token, but no ‘error’ parameter")] (str "\n    "),
    .elem .rfc [(str "num", str "6750"), (str "sect", str "3")] (str "\n      If the protected resource request included an access token and failed\n   authentication, the resource server SHOULD include the \"error\"\n   attribute to provide the client with the reason why the access\n   request was declined.\n    ") [] (str "\n    "),
    .elem .ref [(str "to", str "msg.request.headers.authorization")] ([]) [] (str "\n    "),
    .elem .ref [(str "to", str "msg.status")] ([]) [] (str "\n    "),
    .elem .ref [(str "to", str "msg.headers.www_authenticate")] ([]) [] (str "\n  ")] (str "\n\n  ")

/-- Notice 1268 (httpolice/notices.xml 1947-1952). -/
def notice1268 : Xml :=
  .elem (.notice .comment) [(str "id", str "1268")] (str "\n    ") [
    .elem .title [] (str "Response with “error=") [
      .elem .var [(str "ref", str "error_code")] ([]) [] (str "” should be "),
      .elem .var [(str "ref", str "expected_status")] ([]) [] ([])] (str "\n    "),
    .elem .explain [] (str "According to ") [
      .elem .rfc [(str "num", str "6750"), (str "sect", str "3.1")] ([]) [] (str ", when the server’s "),
      .elem (.known .auth) [] (str "Bearer") [] (str " challenge has “error="),
      .elem .var [(str "ref", str "error_code")] ([]) [] (str "”, the status code should be "),
      .elem .var [(str "ref", str "expected_status")] ([]) [] (str ".")] (str "\n    "),
    .elem .ref [(str "to", str "msg.status")] ([]) [] (str "\n    "),
    .elem .ref [(str "to", str "msg.headers.www_authenticate")] ([]) [] (str "\n  ")] (str "\n\n  ")

/-- Notice 1269 (httpolice/notices.xml 1954-1962). -/
def notice1269 : Xml :=
  .elem (.notice .comment) [(str "id", str "1269")] (str "\n    ") [
    .elem .title [] (str "Unneeded ‘") [
      .elem .var [(str "ref", str "param")] ([]) [] (str "’ in "),
      .elem (.known .h) [] (str "WWW-Authenticate") [] ([])] (str "\n    "),
    .elem .rfc [(str "num", str "6750"), (str "sect", str "3.1")] (str "\n      If the request lacks any authentication information (e.g., the client\n   was unaware that authentication is necessary or attempted using an\n   unsupported authentication method), the resource server SHOULD NOT\n   include an error code or other error information.\n    ") [] (str "\n  ")] (str "\n\n  ")

/-- Notice 1270 (httpolice/notices.xml 1964-1979). -/
def notice1270 : Xml :=
  .elem (.notice .comment) [(str "id", str "1270")] (str "\n    ") [
    .elem .title [] (str "Access token in URI is insecure") [] (str "\n    "),
    .elem .explain [] (str "The query string of this request’s URI contains an ‘access_token’ parameter. It’s probably a bearer token, as defined in ") [
      .elem .rfc [(str "num", str "6750")] ([]) [] (str ".")] (str "\n    "),
    .elem .rfc [(str "num", str "6750"), (str "sect", str "5.3")] (str "\n      Bearer tokens SHOULD NOT be\n      passed in page URLs (for example, as query string parameters).\n      Instead, bearer tokens SHOULD be passed in HTTP message headers or\n      message bodies for which confidentiality measures are taken.\n      Browsers, web servers, and other software may not adequately\n      secure URLs in the browser history, web server logs, and other\n      data structures.  If bearer tokens are passed in page URLs,\n      attackers might be able to steal them from the history data, logs,\n      or other unsecured locations.\n    ") [] (str "\n    "),
    .elem .ref [(str "to", str "msg.target")] ([]) [] (str "\n  ")] (str "\n\n  ")

/-- Notice 1271 (httpolice/notices.xml 1981-1991). -/
def notice1271 : Xml :=
  .elem (.notice .comment) [(str "id", str "1271")] (str "\n    ") [
    .elem .title [] (str "Access token may need TLS") [] (str "\n    "),
    .elem .explain [] (str "This request has an ‘access_token’ parameter. It’s probably a bearer token, as defined in ") [
      .elem .rfc [(str "num", str "6750")] ([]) [] (str ".")] (str "\n    "),
    .elem .rfc [(str "num", str "6750"), (str "sect", str "5.3")] (str "\n      Clients MUST always use TLS [RFC5246]\n      (https) or equivalent transport security when making requests with\n      bearer tokens.  Failing to do so exposes the token to numerous\n      attacks that could give attackers unintended access.\n    ") [] (str "\n    "),
    .elem .ref [(str "to", str "where")] ([]) [] (str "\n  ")] (str "\n\n  ")

/-- Notice 1272 (httpolice/notices.xml 1993-1997). -/
def notice1272 : Xml :=
  .elem (.notice .comment) [(str "id", str "1272")] (str "\n    ") [
    .elem .title [] (str "Access token in URI needs “") [
      .elem (.known .h) [(str "ref", str "no")] (str "Cache-Control") [] (str ": no-store”")] (str "\n    "),
    .elem .explain [] (str "According to ") [
      .elem .rfc [(str "num", str "6750"), (str "sect", str "2.3")] ([]) [] (str ", if an access token is sent in the request URI, then the request should at least have a “"),
      .elem (.known .h) [(str "ref", str "no")] (str "Cache-Control") [] (str ": no-store” header. This reduces the risk of caches saving this token.")] (str "\n    "),
    .elem .ref [(str "to", str "msg.target")] ([]) [] (str "\n  ")] (str "\n\n  ")

/-- Notice 1273 (httpolice/notices.xml 1999-2002). -/
def notice1273 : Xml :=
  .elem (.notice .error) [(str "id", str "1273")] (str "\n    ") [
    .elem .title [] (str "Malformed ") [
      .elem .var [(str "ref", str "header")] ([]) [] (str ": "),
      .elem (.known .auth) [] (str "Basic") [] ([])] (str "\n    "),
    .elem .explain [] (str "A Basic authentication challenge must have parameters as “key=value” pairs. See ") [
      .elem .rfc [(str "num", str "7617"), (str "sect", str "2")] ([]) [] (str ".")] (str "\n  ")] (str "\n\n  ")

/-- Notice 1274 (httpolice/notices.xml 2004-2010). -/
def notice1274 : Xml :=
  .elem (.notice .error) [(str "id", str "1274")] (str "\n    ") [
    .elem .title [] ([]) [
      .elem .var [(str "ref", str "header")] ([]) [] (str " header without credentials")] (str "\n    "),
    .elem .explain [] (str "An ") [
      .elem .var [(str "ref", str "header")] ([]) [] (str " header usually consists of two parts: the name of the authentication scheme, and the actual credentials. But in this request, it only contains the scheme (“"),
      .elem .var [(str "ref", str "header.value.item")] ([]) [] (str "”).")] (str "\n    "),
    .elem .explain [] (str "Was something like “") [
      .elem .var [(str "ref", str "header")] ([]) [] (str ": "),
      .elem (.known .auth) [] (str "Bearer") [] (str " "),
      .elem .var [(str "ref", str "header.value.item")] ([]) [] (str "” intended?")] (str "\n    "),
    .elem .explain [] (str "See also ") [
      .elem .rfc [(str "num", str "7235"), (str "sect", str "2")] ([]) [] (str ".")] (str "\n    "),
    .comment (str " This is an error, not a comment, because it's hard to imagine a conformant use of ``credentials`` consisting only of the ``auth-scheme`` (in particular, none of the schemes registered with IANA allow this), whereas forgetting the ``auth-scheme`` is a common mistake. ") (str "\n  ")] (str "\n\n  ")

/-- Notice 1275 (httpolice/notices.xml 2012-2016). -/
def notice1275 : Xml :=
  .elem (.notice .comment) [(str "id", str "1275")] (str "\n    ") [
    .elem .title [] (str "Entity declarations in XML may cause problems") [] (str "\n    "),
    .elem .explain [] (str "This message’s XML content includes entity declarations (<!ENTITY>). Many XML applications do not process such declarations because they can lead to denial-of-service attacks.") [] (str "\n    "),
    .elem .ref [(str "to", str "msg.displayable_body")] ([]) [] (str "\n  ")] (str "\n\n  ")

/-- Notice 1276 (httpolice/notices.xml 2018-2025). -/
def notice1276 : Xml :=
  .elem (.notice .comment) [(str "id", str "1276")] (str "\n    ") [
    .elem .title [] ([]) [
      .elem .var [(str "ref", str "header")] ([]) [] (str ": "),
      .elem .var [(str "ref", str "wildcard")] ([]) [] (str " is as good as "),
      .elem .var [(str "ref", str "value")] ([]) [] ([])] (str "\n    "),
    .elem .explain [] (str "The ") [
      .elem .var [(str "ref", str "header")] ([]) [] (str " header is not an ordered list. Whether "),
      .elem .var [(str "ref", str "wildcard")] ([]) [] (str " comes before or after "),
      .elem .var [(str "ref", str "value")] ([]) [] (str ", does not affect its priority. Only explicit quality values (q=) count.")] (str "\n    "),
    .elem .explain [] (str "In other words, this request says that any ") [
      .elem .var [(str "ref", str "wildcard")] ([]) [] (str " is as acceptable as "),
      .elem .var [(str "ref", str "value")] ([]) [] (str ".")] (str "\n    "),
    .elem .explain [] (str "If ") [
      .elem .var [(str "ref", str "wildcard")] ([]) [] (str " is intended to be a fallback, it should have a lower quality value, for example: "),
      .elem .var [(str "ref", str "wildcard")] ([]) [] (str ";q=0.1")] (str "\n    "),
    .elem .explain [] (str "See ") [
      .elem .rfc [(str "num", str "7231"), (str "sect", str "5.3.1")] ([]) [] (str ".")] (str "\n    "),
    .comment (str " This is a comment, not an error, because e.g. Chrome, when fetching images, sends \"Accept: image/webp,*/*\", which makes perfect sense as \"give me whatever you got, and btw I can do webp, too\". ") (str "\n  ")] (str "\n\n  ")

/-- Notice 1277 (httpolice/notices.xml 2027-2033). -/
def notice1277 : Xml :=
  .elem (.notice .comment) [(str "id", str "1277")] (str "\n    ") [
    .elem .title [] (str "Obsolete ‘X-’ prefix in headers") [] (str "\n    "),
    .elem .explain [] (str "Adding an ‘X-’ prefix to “experimental” headers is an old practice that is now considered obsolete. See ") [
      .elem .rfc [(str "num", str "6648"), (str "sect", str "3")] ([]) [] (str ".")] (str "\n    "),
    .elem .explain [] (str "For custom headers that may be generally useful, it’s best to drop the ‘X-’ prefix (but check the ") [
      .elem .cite [(str "title", str "IANA message headers registry"), (str "url", str "https://www.iana.org/assignments/message-headers/message-headers.xhtml")] ([]) [] (str " to avoid collisions with existing names).")] (str "\n    "),
    .elem .explain [] (str "For private headers not intended to be used by others, ‘X-’ can be replaced with something like the organization’s name.") [] (str "\n    "),
    .elem .ref [(str "to", str "headers")] ([]) [] (str "\n  ")] (str "\n\n  ")

/-- Notice 1278 (httpolice/notices.xml 2035-2038). -/
def notice1278 : Xml :=
  .elem (.notice .comment) [(str "id", str "1278")] (str "\n    ") [
    .elem .title [] (str "Missing reverse stream") [] (str "\n    "),
    .elem .explain [] (str "There is a stream file ") [
      .elem .var [(str "ref", str "path")] ([]) [] (str ", but there is no corresponding stream file for the reverse direction. HTTPolice will try to process this file on its own.")] (str "\n  ")] (str "\n\n  ")

/-- Notice 1279 (httpolice/notices.xml 2040-2047). -/
def notice1279 : Xml :=
  .elem (.notice .error) [(str "id", str "1279")] (str "\n    ") [
    .elem .title [] (str "Unprocessable streams") [] (str "\n    "),
    .elem .explain [] (str "HTTPolice has found the following stream files:") [] (str "\n    "),
    .elem .explain [] (str "file 1: ") [
      .elem .var [(str "ref", str "path1")] ([]) [] ([])] (str "\n    "),
    .elem .explain [] (str "file 2: ") [
      .elem .var [(str "ref", str "path2")] ([]) [] ([])] (str "\n    "),
    .elem .explain [] (str "but cannot detect which of them is the inbound stream and which is the outbound.") [] (str "\n    "),
    .elem .explain [] (str "This means that the connection was not HTTP/1.x, or was encrypted, or that the files are somehow malformed. They will not be processed.") [] (str "\n  ")] (str "\n\n  ")

/-- Notice 1280 (httpolice/notices.xml 2049-2054). -/
def notice1280 : Xml :=
  .elem (.notice .comment) [(str "id", str "1280")] (str "\n    ") [
    .elem .title [] (str "‘charset’ parameter is undefined for ") [
      .elem (.known .media) [] (str "application/json") [] ([])] (str "\n    "),
    .elem .explain [] (str "The ") [
      .elem (.known .media) [] (str "application/json") [] (str " media type does not have a ‘charset’ parameter. "),
      .elem .rfc [(str "num", str "8259"), (str "sect", str "11")] (str "Adding one really has no effect on compliant recipients.") [] ([])] (str "\n    "),
    .elem .ref [(str "to", str "header")] ([]) [] (str "\n    "),
    .elem .explain [] (str "See also ") [
      .elem .rfc [(str "num", str "8259"), (str "sect", str "8.1")] ([]) [] (str ".")] (str "\n  ")] (str "\n\n  ")

/-- Notice 1281 (httpolice/notices.xml 2056-2064). -/
def notice1281 : Xml :=
  .elem (.notice .error) [(str "id", str "1281")] (str "\n    ") [
    .elem .title [] ([]) [
      .elem .var [(str "ref", str "msg.guessed_charset")] ([]) [] (str " is a bad encoding for JSON")] (str "\n    "),
    .elem .rfc [(str "num", str "8259"), (str "sect", str "8.1")] (str "\n      JSON text exchanged between systems that are not part of a closed\n   ecosystem MUST be encoded using UTF-8\n    ") [] (str "\n    "),
    .elem .ref [(str "to", str "msg.headers.content_type")] ([]) [] (str "\n    "),
    .elem .ref [(str "to", str "msg.displayable_body")] ([]) [] (str "\n  ")] (str "\n\n  ")

/-- Notice 1282 (httpolice/notices.xml 2066-2069). -/
def notice1282 : Xml :=
  .elem (.notice .error) [(str "id", str "1282")] (str "\n    ") [
    .elem .title [] (str "Wrong media type ") [
      .elem .var [(str "ref", str "bad")] ([]) [] (str " in "),
      .elem .var [(str "ref", str "place")] ([]) [] ([])] (str "\n    "),
    .elem .explain [] (str "There is no such media type ") [
      .elem .var [(str "ref", str "bad")] ([]) [] (str ". Probably "),
      .elem .var [(str "ref", str "good")] ([]) [] (str " was intended.")] (str "\n  ")] (str "\n\n  ")

/-- Notice 1283 (httpolice/notices.xml 2071-2076). -/
def notice1283 : Xml :=
  .elem (.notice .comment) [(str "id", str "1283")] (str "\n    ") [
    .elem .title [] (str "Cacheable ") [
      .elem (.known .st) [] (str "421") [] (str " response may cause problems")] (str "\n    "),
    .elem .explain [] ([]) [
      .elem (.known .st) [] (str "421") [] (str " responses are defined as cacheable by default. However, because of how an HTTP cache works ("),
      .elem .rfc [(str "num", str "7234"), (str "sect", str "2")] ([]) [] (str "), it is harmful to cache a 421 response, as it would be returned on subsequent requests to the same URI, without even trying to connect to the right server.")] (str "\n    "),
    .elem .explain [] (str "To avoid this, a 421 response to ") [
      .elem .var [(str "ref", str "msg.request.method")] ([]) [] (str " should be marked as non-cacheable with a header like “"),
      .elem (.known .h) [] (str "Cache-Control") [] (str ": "),
      .elem (.known .cache) [] (str "no-store") [] (str "”.")] (str "\n    "),
    .elem .explain [] (str "See ") [
      .elem .rfc [(str "num", str "7540"), (str "errata", str "4666")] ([]) [] (str ".")] (str "\n  ")] (str "\n\n  ")

/-- Notice 1284 (httpolice/notices.xml 2078-2086). -/
def notice1284 : Xml :=
  .elem (.notice .comment) [(str "id", str "1284")] (str "\n    ") [
    .elem .title [] ([]) [
      .elem (.known .st) [] (str "202") [] (str " response should have a body")] (str "\n    "),
    .elem .rfc [(str "num", str "7231"), (str "sect", str "6.3.3")] (str "\n      The representation sent with this\n   response ought to describe the request's current status and point to\n   (or embed) a status monitor that can provide the user with an\n   estimate of when the request will be fulfilled.\n    ") [] (str "\n  ")] (str "\n\n  ")

/-- Notice 1285 (httpolice/notices.xml 2088-2094). -/
def notice1285 : Xml :=
  .elem (.notice .comment) [(str "id", str "1285")] (str "\n    ") [
    .elem .title [] (str "Duplicate ‘") [
      .elem .var [(str "ref", str "name")] ([]) [] (str "’ token in "),
      .elem (.known .h) [] (str "Prefer") [] ([])] (str "\n    "),
    .elem .rfc [(str "num", str "7240"), (str "sect", str "2")] (str "\n      To avoid any possible ambiguity, individual preference tokens SHOULD\n   NOT appear multiple times within a single request.\n    ") [] (str "\n  ")] (str "\n\n  ")

/-- Notice 1286 (httpolice/notices.xml 2096-2100). -/
def notice1286 : Xml :=
  .elem (.notice .error) [(str "id", str "1286")] (str "\n    ") [
    .elem .title [] ([]) [
      .elem (.known .h) [] (str "Preference-Applied") [] (str ": "),
      .elem .var [(str "ref", str "name")] ([]) [] ([]),
      .elem .var [(str "ref", str "value")] ([]) [] (str " was not requested")] (str "\n    "),
    .elem .explain [] (str "“") [
      .elem (.known .h) [] (str "Preference-Applied") [] (str ": "),
      .elem .var [(str "ref", str "name")] ([]) [] ([]),
      .elem .var [(str "ref", str "value")] ([]) [] (str "” means that the server honored the client’s preference "),
      .elem .var [(str "ref", str "name")] ([]) [] ([]),
      .elem .var [(str "ref", str "value")] ([]) [] (str ". But the client did not request "),
      .elem .var [(str "ref", str "name")] ([]) [] ([]),
      .elem .var [(str "ref", str "value")] ([]) [] (str " in its "),
      .elem (.known .h) [] (str "Prefer") [] (str " header.")] (str "\n    "),
    .elem .ref [(str "to", str "msg.request.headers.prefer")] ([]) [] (str "\n  ")] (str "\n\n  ")

/-- Notice 1287 (httpolice/notices.xml 2102-2106). -/
def notice1287 : Xml :=
  .elem (.notice .error) [(str "id", str "1287")] (str "\n    ") [
    .elem .title [] ([]) [
      .elem .var [(str "ref", str "msg.method")] ([]) [] (str " request cannot "),
      .elem (.known .h) [] (str "Prefer") [] (str ": "),
      .elem (.known .prefer) [] (str "respond-async") [] ([])] (str "\n    "),
    .elem .explain [] (str "The whole point of a ") [
      .elem .var [(str "ref", str "msg.method")] ([]) [] (str " request is to retrieve information from the server. It’s impossible to respond asynchronously to such a request: the response would not contain the requested information.")] (str "\n    "),
    .elem .explain [] (str "If the intention was to submit a task that would eventually send the results somewhere, this submission itself should probably be a ") [
      .elem (.known .m) [] (str "POST") [] (str ".")] (str "\n  ")] (str "\n\n  ")

/-- Notice 1288 (httpolice/notices.xml 2108-2112). -/
def notice1288 : Xml :=
  .elem (.notice .error) [(str "id", str "1288")] (str "\n    ") [
    .elem .title [] ([]) [
      .elem (.known .m) [] (str "GET") [] (str " request cannot "),
      .elem (.known .h) [] (str "Prefer") [] (str ": "),
      .elem (.known .prefer) [] (str "return") [] (str "=minimal")] (str "\n    "),
    .elem .explain [] (str "The whole point of a ") [
      .elem (.known .m) [] (str "GET") [] (str " request is to retrieve a representation of the resource (as in “"),
      .elem (.known .prefer) [] (str "return") [] (str "=representation”). There is no “minimal” response that could satisfy this request.")] (str "\n    "),
    .elem .explain [] (str "Instead, the ") [
      .elem (.known .h) [] (str "Accept") [] (str " header could be used to select the desired kind of representation.")] (str "\n  ")] (str "\n\n  ")

/-- Notice 1289 (httpolice/notices.xml 2114-2120). -/
def notice1289 : Xml :=
  .elem (.notice .error) [(str "id", str "1289")] (str "\n    ") [
    .elem .title [] ([]) [
      .elem (.known .h) [] (str "Prefer") [] (str ": "),
      .elem (.known .prefer) [] (str "return") [] (str "=minimal contradicts "),
      .elem (.known .prefer) [] (str "return") [] (str "=representation")] (str "\n    "),
    .elem .rfc [(str "num", str "7240"), (str "sect", str "4.2")] (str "\n      The \"return=minimal\" and \"return=representation\" preferences are\n   mutually exclusive directives.\n    ") [] (str "\n  ")] (str "\n\n  ")

/-- Notice 1290 (httpolice/notices.xml 2122-2128). -/
def notice1290 : Xml :=
  .elem (.notice .error) [(str "id", str "1290")] (str "\n    ") [
    .elem .title [] ([]) [
      .elem (.known .h) [] (str "Prefer") [] (str ": "),
      .elem (.known .prefer) [] (str "handling") [] (str "=strict contradicts "),
      .elem (.known .prefer) [] (str "handling") [] (str "=lenient")] (str "\n    "),
    .elem .rfc [(str "num", str "7240"), (str "sect", str "4.4")] (str "\n      The \"handling=strict\" and \"handling=lenient\" preferences are mutually\n   exclusive directives.\n    ") [] (str "\n  ")] (str "\n\n  ")

/-- Notice 1291 (httpolice/notices.xml 2130-2139). -/
def notice1291 : Xml :=
  .elem (.notice .comment) [(str "id", str "1291")] (str "\n    ") [
    .elem .title [] (str "Response with ") [
      .elem (.known .h) [] (str "Preference-Applied") [] (str " may need “"),
      .elem (.known .h) [] (str "Vary") [] (str ": "),
      .elem (.known .h) [] (str "Prefer") [] (str "”")] (str "\n    "),
    .elem .rfc [(str "num", str "7240"), (str "sect", str "2")] (str "\n      If a server supports the optional\n   application of a preference that might result in a variance to a\n   cache's handling of a response entity, a ") [
      .elem (.known .h) [] (str "Vary") [] (str " header field MUST be\n   included in the response listing the "),
      .elem (.known .h) [] (str "Prefer") [] (str " header field\n    ")] (str "\n    "),
    .elem .ref [(str "to", str "msg.request.headers.prefer")] ([]) [] (str "\n  ")] (str "\n\n  ")

/-- Notice 1292 (httpolice/notices.xml 2141-2144). -/
def notice1292 : Xml :=
  .elem (.notice .error) [(str "id", str "1292")] (str "\n    ") [
    .elem .title [] (str "Invalid method ‘") [
      .elem .var [(str "ref", str "msg.method")] ([]) [] (str "’")] (str "\n    "),
    .elem .exception [] ([]) [] (str "\n  ")] (str "\n\n  ")

/-- Notice 1293 (httpolice/notices.xml 2146-2149). -/
def notice1293 : Xml :=
  .elem (.notice .error) [(str "id", str "1293")] (str "\n    ") [
    .elem .title [] (str "Invalid field name ‘") [
      .elem .var [(str "ref", str "header")] ([]) [] (str "’")] (str "\n    "),
    .elem .exception [] ([]) [] (str "\n  ")] (str "\n\n  ")

/-- Notice 1294 (httpolice/notices.xml 2151-2155). -/
def notice1294 : Xml :=
  .elem (.notice .error) [(str "id", str "1294")] (str "\n    ") [
    .elem .title [] (str "Syntax error in reason phrase") [] (str "\n    "),
    .elem .exception [] ([]) [] (str "\n    "),
    .elem .ref [(str "to", str "msg.status")] ([]) [] (str "\n  ")] (str "\n\n  ")

/-- Notice 1295 (httpolice/notices.xml 2157-2160). -/
def notice1295 : Xml :=
  .elem (.notice .error) [(str "id", str "1295")] (str "\n    ") [
    .elem .title [] (str "Method ‘") [
      .elem .var [(str "ref", str "msg.method")] ([]) [] (str "’ should probably be ‘"),
      .elem .var [(str "ref", str "uppercase")] ([]) [] (str "’")] (str "\n    "),
    .elem .rfc [(str "num", str "7231"), (str "sect", str "4.1")] (str "The method token is case-sensitive") [] (str "\n  ")] (str "\n\n  ")

/-- Notice 1296 (httpolice/notices.xml 2162-2167). -/
def notice1296 : Xml :=
  .elem (.notice .error) [(str "id", str "1296")] (str "\n    ") [
    .elem .title [] (str "Duplicate ‘") [
      .elem .var [(str "ref", str "param")] ([]) [] (str "’ parameter in "),
      .elem .var [(str "ref", str "entry")] ([]) [] ([])] (str "\n    "),
    .elem .rfc [(str "num", str "7239"), (str "sect", str "4")] (str "\n      Each parameter MUST NOT occur more than once per field-value.\n    ") [] (str "\n  ")] (str "\n\n  ")

/-- Notice 1297 (httpolice/notices.xml 2169-2173). -/
def notice1297 : Xml :=
  .elem (.notice .comment) [(str "id", str "1297")] (str "\n    ") [
    .elem .title [] (str "Possibly bad syntax in ") [
      .elem .var [(str "ref", str "entry")] ([]) [] ([])] (str "\n    "),
    .elem .explain [] (str "The ") [
      .elem (.known .h) [(str "ref", str "no")] (str "Forwarded") [] (str " header here contains "),
      .elem .var [(str "ref", str "n_elements")] ([]) [] (str " elements, describing "),
      .elem .var [(str "ref", str "n_elements")] ([]) [] (str " proxy hops, with only one parameter for each proxy — yet all parameters have different names.")] (str "\n    "),
    .elem .explain [] (str "If this was intended to be ") [
      .elem .var [(str "ref", str "n_elements")] ([]) [] (str " parameters for a single proxy hop, then the pairs must be separated with semicolons, not commas.")] (str "\n  ")] (str "\n\n  ")

/-- Notice 1298 (httpolice/notices.xml 2175-2178). -/
def notice1298 : Xml :=
  .elem (.notice .debug) [(str "id", str "1298")] (str "\n    ") [
    .elem .title [] (str "Body is too long to be checked") [] (str "\n    "),
    .elem .explain [] (str "This message’s ") [
      .elem .var [(str "ref", str "place")] ([]) [] (str " indicates that the body is at least "),
      .elem .var [(str "ref", str "size")] ([]) [] (str " bytes long. HTTPolice does not attempt to process bodies longer than "),
      .elem .var [(str "ref", str "max_size")] ([]) [] (str " bytes. The rest of the stream will not be processed either.")] (str "\n  ")] (str "\n\n  ")

/-- Notice 1299 (httpolice/notices.xml 2180-2183). -/
def notice1299 : Xml :=
  .elem (.notice .comment) [(str "id", str "1299")] (str "\n    ") [
    .elem .title [] (str "Quoted comma in ") [
      .elem .var [(str "ref", str "entry")] ([]) [] (str " might confuse a naive parser")] (str "\n    "),
    .elem .explain [] (str "This message’s ") [
      .elem .var [(str "ref", str "entry")] ([]) [] (str " header contains a comma inside a quoted string. But experience shows that headers like "),
      .elem .var [(str "ref", str "entry")] ([]) [] (str " are often parsed without regard for quoted strings—such a naive parser might interpret this comma as a separator between "),
      .elem .var [(str "ref", str "entry")] ([]) [] (str " elements. If possible, avoiding this comma might help interoperability.")] (str "\n  ")] (str "\n\n  ")

/-- Notice 1300 (httpolice/notices.xml 2185-2188). -/
def notice1300 : Xml :=
  .elem (.notice .comment) [(str "id", str "1300")] (str "\n    ") [
    .elem .title [] (str "Quoted semicolon in ") [
      .elem .var [(str "ref", str "entry")] ([]) [] (str " might confuse a naive parser")] (str "\n    "),
    .elem .explain [] (str "This message’s ") [
      .elem .var [(str "ref", str "entry")] ([]) [] (str " header contains a semicolon inside a quoted string. But experience shows that headers like "),
      .elem .var [(str "ref", str "entry")] ([]) [] (str " are often parsed without regard for quoted strings—such a naive parser might interpret this semicolon as a separator between "),
      .elem .var [(str "ref", str "entry")] ([]) [] (str " parameters. If possible, avoiding this semicolon might help interoperability.")] (str "\n  ")] (str "\n\n  ")

/-- Notice 1301 (httpolice/notices.xml 2190-2193). -/
def notice1301 : Xml :=
  .elem (.notice .comment) [(str "id", str "1301")] (str "\n    ") [
    .elem .title [] ([]) [
      .elem (.known .h) [] (str "Cache-Control") [] (str ": "),
      .elem (.known .cache) [] (str "immutable") [] (str " probably needs "),
      .elem (.known .cache) [] (str "max-age") [] ([])] (str "\n    "),
    .elem .explain [] (str "“") [
      .elem (.known .h) [] (str "Cache-Control") [] (str ": "),
      .elem (.known .cache) [] (str "immutable") [] (str "” is typically only useful with a large "),
      .elem (.known .cache) [] (str "max-age") [] (str " or an "),
      .elem (.known .h) [] (str "Expires") [] (str " far in the future, because immutable applies only for as long as the response is considered fresh. Without explicit max-age or Expires, most caches will consider this response fresh only for a brief period or not at all.")] (str "\n  ")] (str "\n\n  ")

/-- Notice 1302 (httpolice/notices.xml 2195-2201). -/
def notice1302 : Xml :=
  .elem (.notice .comment) [(str "id", str "1302")] (str "\n    ") [
    .elem .title [] ([]) [
      .elem (.known .h) [] (str "Cache-Control") [] (str ": "),
      .elem (.known .cache) [] (str "immutable") [] (str " may be ignored without TLS")] (str "\n    "),
    .elem .rfc [(str "num", str "8246"), (str "section", str "3")] (str "\n      Clients SHOULD ignore the ") [
      .elem (.known .cache) [] (str "immutable") [] (str " extension from resources that\n      are not part of an authenticated context such as HTTPS.\n    ")] (str "\n  ")] (str "\n\n  ")

/-- Notice 1303 (httpolice/notices.xml 2203-2211). -/
def notice1303 : Xml :=
  .elem (.notice .comment) [(str "id", str "1303")] (str "\n    ") [
    .elem .title [] ([]) [
      .elem (.known .h) [] (str "Cache-Control") [] (str ": "),
      .elem (.known .cache) [] (str "immutable") [] (str " may be ignored without response length")] (str "\n    "),
    .elem .rfc [(str "num", str "8246"), (str "section", str "3")] (str "\n      Clients SHOULD ignore the ") [
      .elem (.known .cache) [] (str "immutable") [] (str " extension for resources that\n      do not provide a strong indication that the stored response size\n      is the correct response size such as responses delimited by\n      connection close.\n    ")] (str "\n  ")] (str "\n\n  ")

/-- Notice 1304 (httpolice/notices.xml 2213-2217). -/
def notice1304 : Xml :=
  .elem (.notice .error) [(str "id", str "1304")] (str "\n    ") [
    .elem .title [] ([]) [
      .elem .var [(str "ref", str "msg.status")] ([]) [] (str " response after "),
      .elem .var [(str "ref", str "previous.status")] ([]) [] ([])] (str "\n    "),
    .elem .explain [] (str "It appears like this ") [
      .elem .var [(str "ref", str "msg.status")] ([]) [] (str " response was preceded by a "),
      .elem .var [(str "ref", str "previous.status")] ([]) [] (str " response to the same request. But a "),
      .elem .var [(str "ref", str "previous.status")] ([]) [] (str " response can only be the final response to a request. See also "),
      .elem .rfc [(str "num", str "7231"), (str "sect", str "6.2")] ([]) [] (str ".")] (str "\n    "),
    .elem .explain [] (str "This is more likely to be a bug in your HTTPolice integration than in the actual HTTP traffic being inspected. For example, responses to different requests may have been mixed up somehow.") [] (str "\n  ")] (str "\n\n  ")

/-- Notice 1305 (httpolice/notices.xml 2219-2228). -/
def notice1305 : Xml :=
  .elem (.notice .error) [(str "id", str "1305")] (str "\n    ") [
    .elem .title [] (str "Expected ") [
      .elem (.known .st) [] (str "100") [] (str " (Continue) before switching protocols")] (str "\n    "),
    .elem .rfc [(str "num", str "7230"), (str "sect", str "6.7")] (str "\n      If a server receives both an ") [
      .elem (.known .h) [(str "ref", str "no")] (str "Upgrade") [] (str " and an "),
      .elem (.known .h) [] (str "Expect") [] (str " header field with\n   the \"100-continue\" expectation (Section 5.1.1 of [RFC7231]), the\n   server MUST send a "),
      .elem (.known .st) [] (str "100") [] (str " (Continue) response before sending a "),
      .elem (.known .st) [] (str "101") [] (str "\n   (Switching Protocols) response.\n    ")] (str "\n    "),
    .elem .ref [(str "to", str "msg.request.headers.expect")] ([]) [] (str "\n  ")] (str "\n\n  ")

/-- Notice 1306 (httpolice/notices.xml 2230-2237). -/
def notice1306 : Xml :=
  .elem (.notice .error) [(str "id", str "1306")] (str "\n    ") [
    .elem .title [] (str "Response to ") [
      .elem .var [(str "ref", str "msg.request.version")] ([]) [] (str " can’t have "),
      .elem (.known .h) [] (str "Transfer-Encoding") [] ([])] (str "\n    "),
    .elem .rfc [(str "num", str "7231"), (str "sect", str "3.3.1")] (str "\n      A server MUST NOT send a\n   response containing Transfer-Encoding unless the corresponding\n   request indicates HTTP/1.1 (or later).\n    ") [] (str "\n  ")] (str "\n\n  ")

/-- Notice 1307 (httpolice/notices.xml 2239-2247). -/
def notice1307 : Xml :=
  .elem (.notice .comment) [(str "id", str "1307")] (str "\n    ") [
    .elem .title [] (str "Unquoted ‘title’ parameter in ") [
      .elem .var [(str "ref", str "place")] ([]) [] (str " may cause problems")] (str "\n    "),
    .elem .rfc [(str "num", str "8288"), (str "sect", str "3")] (str "\n      Previous definitions of the Link header did not equate the token and\n   quoted-string forms explicitly; the title parameter was always\n   quoted, and the hreflang parameter was always a token.  Senders\n   wishing to maximize interoperability will send them in those forms.\n    ") [] (str "\n  ")] (str "\n\n  ")

/-- Notice 1308 (httpolice/notices.xml 2249-2257). -/
def notice1308 : Xml :=
  .elem (.notice .comment) [(str "id", str "1308")] (str "\n    ") [
    .elem .title [] (str "Quoted ‘hreflang’ parameter in ") [
      .elem .var [(str "ref", str "place")] ([]) [] (str " may cause problems")] (str "\n    "),
    .elem .rfc [(str "num", str "8288"), (str "sect", str "3")] (str "\n      Previous definitions of the Link header did not equate the token and\n   quoted-string forms explicitly; the title parameter was always\n   quoted, and the hreflang parameter was always a token.  Senders\n   wishing to maximize interoperability will send them in those forms.\n    ") [] (str "\n  ")] (str "\n\n  ")

/-- Notice 1309 (httpolice/notices.xml 2259-2265). -/
def notice1309 : Xml :=
  .elem (.notice .error) [(str "id", str "1309")] (str "\n    ") [
    .elem .title [] (str "Missing ‘rel’ parameter in ") [
      .elem .var [(str "ref", str "place")] ([]) [] ([])] (str "\n    "),
    .elem .rfc [(str "num", str "8288"), (str "sect", str "3.3")] (str "\n      The rel parameter MUST be\n   present\n    ") [] (str "\n  ")] (str "\n\n  ")

/-- Notice 1310 (httpolice/notices.xml 2267-2270). -/
def notice1310 : Xml :=
  .elem (.notice .error) [(str "id", str "1310")] (str "\n    ") [
    .elem .title [] ([]) [
      .elem (.known .h) [] (str "Accept-Post") [] (str " implies “"),
      .elem (.known .h) [] (str "Allow") [] (str ": "),
      .elem (.known .m) [(str "ref", str "no")] (str "POST") [] (str "”")] (str "\n    "),
    .elem .explain [] (str "This response’s ") [
      .elem (.known .h) [] (str "Accept-Post") [] (str " header means that this resource supports the "),
      .elem (.known .m) [(str "ref", str "no")] (str "POST") [] (str " method, but it’s missing from the "),
      .elem (.known .h) [] (str "Allow") [] (str " header.")] (str "\n  ")] (str "\n\n")

/-- The notices of the file (httpolice/notices.xml 26-2273). -/
def noticesXml : List Xml := [
  notice1000, notice1001, notice1002, notice1003, notice1004, notice1005,
  notice1006, notice1007, notice1008, notice1009, notice1010, notice1011,
  notice1012, notice1013, notice1014, notice1015, notice1016, notice1017,
  notice1018, notice1019, notice1020, notice1021, notice1022, notice1023,
  notice1024, notice1025, notice1026, notice1027, notice1028, notice1029,
  notice1030, notice1031, notice1032, notice1033, notice1034, notice1035,
  notice1036, notice1037, notice1038, notice1039, notice1040, notice1041,
  notice1042, notice1045, notice1046, notice1047, notice1048, notice1049,
  notice1050, notice1051, notice1052, notice1053, notice1054, notice1055,
  notice1056, notice1057, notice1058, notice1059, notice1060, notice1061,
  notice1062, notice1063, notice1064, notice1066, notice1067, notice1068,
  notice1070, notice1071, notice1072, notice1073, notice1074, notice1076,
  notice1077, notice1078, notice1079, notice1080, notice1081, notice1082,
  notice1083, notice1084, notice1085, notice1086, notice1087, notice1088,
  notice1089, notice1090, notice1092, notice1093, notice1094, notice1095,
  notice1096, notice1097, notice1098, notice1099, notice1100, notice1101,
  notice1102, notice1103, notice1104, notice1105, notice1106, notice1107,
  notice1108, notice1109, notice1110, notice1111, notice1112, notice1113,
  notice1114, notice1115, notice1116, notice1117, notice1118, notice1119,
  notice1120, notice1121, notice1122, notice1123, notice1124, notice1125,
  notice1127, notice1128, notice1129, notice1130, notice1131, notice1132,
  notice1133, notice1134, notice1135, notice1136, notice1137, notice1138,
  notice1139, notice1140, notice1141, notice1142, notice1143, notice1144,
  notice1145, notice1146, notice1147, notice1148, notice1149, notice1150,
  notice1151, notice1152, notice1153, notice1154, notice1155, notice1156,
  notice1157, notice1158, notice1159, notice1160, notice1161, notice1162,
  notice1163, notice1164, notice1165, notice1166, notice1167, notice1168,
  notice1169, notice1170, notice1171, notice1172, notice1173, notice1174,
  notice1175, notice1176, notice1177, notice1178, notice1179, notice1180,
  notice1181, notice1182, notice1183, notice1184, notice1185, notice1186,
  notice1187, notice1188, notice1189, notice1190, notice1191, notice1192,
  notice1193, notice1194, notice1195, notice1196, notice1197, notice1198,
  notice1199, notice1200, notice1201, notice1202, notice1203, notice1204,
  notice1205, notice1206, notice1207, notice1208, notice1209, notice1210,
  notice1211, notice1212, notice1213, notice1214, notice1215, notice1216,
  notice1217, notice1218, notice1219, notice1220, notice1221, notice1222,
  notice1223, notice1224, notice1225, notice1226, notice1227, notice1228,
  notice1230, notice1231, notice1232, notice1233, notice1234, notice1235,
  notice1236, notice1237, notice1238, notice1239, notice1240, notice1241,
  notice1242, notice1243, notice1244, notice1245, notice1246, notice1247,
  notice1248, notice1249, notice1250, notice1251, notice1252, notice1253,
  notice1254, notice1256, notice1257, notice1258, notice1260, notice1261,
  notice1262, notice1263, notice1264, notice1265, notice1266, notice1267,
  notice1268, notice1269, notice1270, notice1271, notice1272, notice1273,
  notice1274, notice1275, notice1276, notice1277, notice1278, notice1279,
  notice1280, notice1281, notice1282, notice1283, notice1284, notice1285,
  notice1286, notice1287, notice1288, notice1289, notice1290, notice1291,
  notice1292, notice1293, notice1294, notice1295, notice1296, notice1297,
  notice1298, notice1299, notice1300, notice1301, notice1302, notice1303,
  notice1304, notice1305, notice1306, notice1307, notice1308, notice1309,
  notice1310]

end Httpolice.Model
