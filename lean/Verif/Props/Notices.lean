import Verif.Lemmas.ToyNotices

/-!
# When a notice is reported

For each notice, exactly which exchanges get it, in terms of the raw header entries (Spec/Notices.lean).
-/

set_option linter.unusedSectionVars false

namespace Httpolice.Props

open Httpolice.Model Httpolice.Spec Httpolice.Lemmas.Check

section

variable (E : Env) (hE : Sensible E) (ex : Exchange) (hok : exchangeRaises E ex = false)
include hE hok

/-! ## C59. Headers that a message must have

A notice about a missing header is reported on exactly the messages that lack it. -/

/-- 1048: 101 (Switching Protocols) without `Upgrade`. -/
theorem C59_notice_1048 (ha : Apart E ex 1048) (i : Nat) : ReportedId E ex (.resp i) 1048 ↔
    OnResponse ex i fun r => r.status = 101 ∧ ¬Has E r.fields "Upgrade" := by
  at_status hok ha
  raw hE

/-- 1078: a 301 redirect without `Location`. -/
theorem C59_notice_1078 (ha : Apart E ex 1078) (i : Nat) : ReportedId E ex (.resp i) 1078 ↔
    OnResponse ex i fun r => r.status = 301 ∧ ¬Has E r.fields "Location" := by
  at_status hok ha
  raw hE
  grind

/-- 1079: a 302 redirect without `Location`. -/
theorem C59_notice_1079 (ha : Apart E ex 1079) (i : Nat) : ReportedId E ex (.resp i) 1079 ↔
    OnResponse ex i fun r => r.status = 302 ∧ ¬Has E r.fields "Location" := by
  at_status hok ha
  raw hE
  grind

/-- 1080: a 303 redirect without `Location`. -/
theorem C59_notice_1080 (ha : Apart E ex 1080) (i : Nat) : ReportedId E ex (.resp i) 1080 ↔
    OnResponse ex i fun r => r.status = 303 ∧ ¬Has E r.fields "Location" := by
  at_status hok ha
  raw hE
  grind

/-- 1084: a 307 redirect without `Location`. -/
theorem C59_notice_1084 (ha : Apart E ex 1084) (i : Nat) : ReportedId E ex (.resp i) 1084 ↔
    OnResponse ex i fun r => r.status = 307 ∧ ¬Has E r.fields "Location" := by
  at_status hok ha
  raw hE
  grind

/-- 1205: a 308 redirect without `Location`. -/
theorem C59_notice_1205 (ha : Apart E ex 1205) (i : Nat) : ReportedId E ex (.resp i) 1205 ↔
    OnResponse ex i fun r => r.status = 308 ∧ ¬Has E r.fields "Location" := by
  at_status hok ha
  raw hE
  grind

/-- 1089: 405 (Method Not Allowed) without `Allow`. -/
theorem C59_notice_1089 (ha : Apart E ex 1089) (i : Nat) : ReportedId E ex (.resp i) 1089 ↔
    OnResponse ex i fun r => r.status = 405 ∧ ¬Has E r.fields "Allow" := by
  at_status hok ha
  raw hE

/-- 1094: 408 (Request Timeout) without `Connection: close`. -/
theorem C59_notice_1094 (ha : Apart E ex 1094) (i : Nat) : ReportedId E ex (.resp i) 1094 ↔
    OnResponse ex i fun r => r.status = 408 ∧ ¬HasOption E r.fields "close" := by
  at_status hok ha
  raw hE

/-- 1110: 2xx, 3xx or 4xx without `Date`. -/
theorem C59_notice_1110 (ha : Apart E ex 1110) (i : Nat) : ReportedId E ex (.resp i) 1110 ↔
    OnResponse ex i fun r => ¬Has E r.fields "Date" ∧ 200 ≤ r.status ∧ r.status ≤ 499 := by
  at_status hok ha
  raw hE
  refine and_congr_right fun _ => ?_
  unfold StatusClass
  omega

/-- 1194: 401 (Unauthorized) without `WWW-Authenticate`. -/
theorem C59_notice_1194 (ha : Apart E ex 1194) (i : Nat) : ReportedId E ex (.resp i) 1194 ↔
    OnResponse ex i fun r => r.status = 401 ∧ ¬Has E r.fields "WWW-Authenticate" := by
  at_headers hok ha
  raw hE

/-- 1195: 407 (Proxy Authentication Required) without `Proxy-Authenticate`. -/
theorem C59_notice_1195 (ha : Apart E ex 1195) (i : Nat) : ReportedId E ex (.resp i) 1195 ↔
    OnResponse ex i fun r => r.status = 407 ∧ ¬Has E r.fields "Proxy-Authenticate" := by
  at_headers hok ha
  raw hE

/-- 1138: 206 (Partial Content) with a single part and no `Content-Range`. -/
theorem C59_notice_1138 (ha : Apart E ex 1138) (i : Nat) : ReportedId E ex (.resp i) 1138 ↔
    OnResponse ex i fun r => r.status = 206 ∧ ¬HasMediaType E r.fields "multipart/byteranges" ∧
      ¬Has E r.fields "Content-Range" := by
  at_headers hok ha
  raw hE
  rename_i r hr
  have hq := quiet_of (t := .resp i)
    ((checkByteranges_only ⟨i, r, ex.request⟩).ne (N := 1138) (by decide) id)
  simp only [hq, and_false, false_or]

/-- 1073: 201 (Created) in response to POST without `Location`. -/
theorem C59_notice_1073 (ha : Apart E ex 1073) (i : Nat) : ReportedId E ex (.resp i) 1073 ↔
    OnAnswer ex i fun r req => r.status = 201 ∧ req.method = str "POST" ∧ ¬Has E r.fields
      "Location" := by
  at_against hok ha
  raw hE

/-- 1150: 416 (Range Not Satisfiable) in response to a request for bytes, without `Content-Range`.
  -/
theorem C59_notice_1150 (ha : Apart E ex 1150) (i : Nat) : ReportedId E ex (.resp i) 1150 ↔
    OnAnswer ex i fun r req => r.status = 416 ∧ (∃ x, LastOf E req.fields "Range" E.grammars.range
      x ∧ IsWord E x.1 "bytes") ∧ ¬Has E r.fields "Content-Range" := by
  at_negotiation hok ha
  raw hE

/-- 1215: 415 (Unsupported Media Type) in response to PATCH without `Accept-Patch`. -/
theorem C59_notice_1215 (ha : Apart E ex 1215) (i : Nat) : ReportedId E ex (.resp i) 1215 ↔
    OnAnswer ex i fun r req => req.method = str "PATCH" ∧ r.status = 415 ∧ ¬Has E r.fields
      "Accept-Patch" := by
  at_cached hok ha
  raw hE

/-- 1216: a response to OPTIONS that allows PATCH but has no `Accept-Patch`. -/
theorem C59_notice_1216 (ha : Apart E ex 1216) (i : Nat) : ReportedId E ex (.resp i) 1216 ↔
    OnAnswer ex i fun r req => r.status ≠ 103 ∧ req.method = str "OPTIONS" ∧ Listed E r.fields
      "Allow" E.grammars.allow (str "PATCH") ∧ ¬Has E r.fields "Accept-Patch" := by
  at_answer hok ha
  raw hE

/-- 1031: an HTTP/1.1 request without `Host`. -/
theorem C59_notice_1031 (ha : Apart E ex 1031) : ReportedId E ex .req 1031 ↔
    OnRequest ex fun req => Version req.toMessage "HTTP/1.1" ∧ ¬Has E req.fields "Host" := by
  at_basics hok ha
  raw hE

/-- 1021: an HTTP/1.x request with a method that gives meaning to a body, without `Content-Length`
  and `Transfer-Encoding`. -/
theorem C59_notice_1021 (ha : Apart E ex 1021) : ReportedId E ex .req 1021 ↔
    OnRequest ex fun req => (Version req.toMessage "HTTP/1.0" ∨ Version req.toMessage "HTTP/1.1")
      ∧ IsMethod req methodsWithBody ∧ ¬Has E req.fields "Content-Length" ∧ ¬Has E req.fields
      "Transfer-Encoding" := by
  at_basics hok ha
  raw hE

/-- 1070: a request without `User-Agent`. -/
theorem C59_notice_1070 (ha : Apart E ex 1070) : ReportedId E ex .req 1070 ↔
    OnRequest ex fun req => ¬Has E req.fields "User-Agent" := by
  at_basics hok ha
  raw hE
  refine or_iff_left ?_
  rintro ⟨_, h⟩
  exact quiet_of (by plain_ne) h

/-- 1134: `If-Range` without `Range`. -/
theorem C59_notice_1134 (ha : Apart E ex 1134) : ReportedId E ex .req 1134 ↔
    OnRequest ex fun req => Has E req.fields "If-Range" ∧ ¬Has E req.fields "Range" := by
  at_caching hok ha
  raw hE

/-- 1231: an upgrade to `h2c` without `HTTP2-Settings`. -/
theorem C59_notice_1231 (ha : Apart E ex 1231) : ReportedId E ex .req 1231 ↔
    OnRequest ex fun req => ∃ x, Listed E req.fields "Upgrade" E.grammars.upgrade x ∧ x.1 = str
      "h2c" ∧ ¬Has E req.fields "HTTP2-Settings" := by
  at_extras hok ha
  raw hE

/-! ## C60. Bodies where there should be none

A notice about a body is reported on exactly the messages in question. -/

/-- 1240: 204 (No Content) with a body. -/
theorem C60_notice_1240 (ha : Apart E ex 1240) (i : Nat) : ReportedId E ex (.resp i) 1240 ↔
    OnResponse ex i fun r => r.status = 204 ∧ HasContent r.body := by
  at_status hok ha
  raw hE

/-- 1076: 205 (Reset Content) with a body. -/
theorem C60_notice_1076 (ha : Apart E ex 1076) (i : Nat) : ReportedId E ex (.resp i) 1076 ↔
    OnResponse ex i fun r => r.status = 205 ∧ HasContent r.body := by
  at_status hok ha
  raw hE

/-- 1239: a response to HEAD with a body. -/
theorem C60_notice_1239 (ha : Apart E ex 1239) (i : Nat) : ReportedId E ex (.resp i) 1239 ↔
    OnAnswer ex i fun r req => req.method = str "HEAD" ∧ HasContent r.body := by
  at_against hok ha
  raw hE

/-- 1056: a GET request with a body. -/
theorem C60_notice_1056 (ha : Apart E ex 1056) : ReportedId E ex .req 1056 ↔
    OnRequest ex fun req => HasContent req.body ∧ req.method = str "GET" := by
  at_basics hok ha
  raw hE

/-- 1057: a HEAD request with a body. -/
theorem C60_notice_1057 (ha : Apart E ex 1057) : ReportedId E ex .req 1057 ↔
    OnRequest ex fun req => HasContent req.body ∧ req.method = str "HEAD" := by
  at_basics hok ha
  raw hE
  refine and_congr_right fun _ => ⟨fun h => by grind, fun h => ?_⟩
  rw [h]
  decide

/-- 1059: a DELETE request with a body. -/
theorem C60_notice_1059 (ha : Apart E ex 1059) : ReportedId E ex .req 1059 ↔
    OnRequest ex fun req => HasContent req.body ∧ req.method = str "DELETE" := by
  at_basics hok ha
  raw hE
  refine and_congr_right fun _ => ⟨fun h => by grind, fun h => ?_⟩
  rw [h]
  decide

/-- 1061: a CONNECT request with a body. -/
theorem C60_notice_1061 (ha : Apart E ex 1061) : ReportedId E ex .req 1061 ↔
    OnRequest ex fun req => HasContent req.body ∧ req.method = str "CONNECT" := by
  at_basics hok ha
  raw hE
  refine and_congr_right fun _ => ⟨fun h => by grind, fun h => ?_⟩
  rw [h]
  decide

/-- 1062: an OPTIONS request with a body of unknown type. -/
theorem C60_notice_1062 (ha : Apart E ex 1062) : ReportedId E ex .req 1062 ↔
    OnRequest ex fun req => req.method = str "OPTIONS" ∧ HasContent req.body ∧ ¬Has E req.fields
      "Content-Type" := by
  at_basics hok ha
  raw hE

/-- 1022: `Content-Length` without a body, for a method that gives no meaning to a body. -/
theorem C60_notice_1022 (ha : Apart E ex 1022) : ReportedId E ex .req 1022 ↔
    OnRequest ex fun req => IsMethod req methodsWithoutBody ∧ req.body = .val [] ∧ Has E
      req.fields "Content-Length" := by
  at_basics hok ha
  raw hE

/-- 1098: 413 (Payload Too Large) in response to a request without a body. -/
theorem C60_notice_1098 (ha : Apart E ex 1098) (i : Nat) : ReportedId E ex (.resp i) 1098 ↔
    OnAnswer ex i fun r req => req.body = .val [] ∧ r.status = 413 := by
  at_negotiation hok ha
  raw hE

/-- 1099: 415 (Unsupported Media Type) in response to a request without a body and without
  `Content-Type`. -/
theorem C60_notice_1099 (ha : Apart E ex 1099) (i : Nat) : ReportedId E ex (.resp i) 1099 ↔
    OnAnswer ex i fun r req => req.body = .val [] ∧ r.status = 415 ∧ ¬Has E req.fields
      "Content-Type" := by
  at_negotiation hok ha
  raw hE

/-! ## C61. Headers in messages where they make no sense

Such a notice is reported on exactly the messages with a header that does not belong there. -/

/-- 1063: a request with a header that is for responses. -/
theorem C61_notice_1063 (ha : Apart E ex 1063) : ReportedId E ex .req 1063 ↔
    OnRequest ex fun req => Carries E req.fields responseHeaders := by
  at_basics hok ha
  raw hE

/-- 1064: a response with a header that is for requests. -/
theorem C61_notice_1064 (ha : Apart E ex 1064) (i : Nat) : ReportedId E ex (.resp i) 1064 ↔
    OnResponse ex i fun r => Carries E r.fields requestHeaders := by
  at_status hok ha
  raw hE

/-- 1018: `Transfer-Encoding` in 1xx or 204. -/
theorem C61_notice_1018 (ha : Apart E ex 1018) (i : Nat) : ReportedId E ex (.resp i) 1018 ↔
    OnResponse ex i fun r => r.status ≠ 103 ∧ (StatusClass r 1 ∨ r.status = 204) ∧ Has E r.fields
      "Transfer-Encoding" := by
  at_settled hok ha
  raw hE

/-- 1023: `Content-Length` in 1xx or 204. -/
theorem C61_notice_1023 (ha : Apart E ex 1023) (i : Nat) : ReportedId E ex (.resp i) 1023 ↔
    OnResponse ex i fun r => r.status ≠ 103 ∧ (StatusClass r 1 ∨ r.status = 204) ∧ Has E r.fields
      "Content-Length" := by
  at_settled hok ha
  raw hE

/-- 1198: `Connection: close` in 1xx. -/
theorem C61_notice_1198 (ha : Apart E ex 1198) (i : Nat) : ReportedId E ex (.resp i) 1198 ↔
    OnResponse ex i fun r => r.status ≠ 103 ∧ StatusClass r 1 ∧ HasOption E r.fields "close" := by
  at_settled hok ha
  raw hE

/-- 1052: headers that describe a body in 1xx. -/
theorem C61_notice_1052 (ha : Apart E ex 1052) (i : Nat) : ReportedId E ex (.resp i) 1052 ↔
    OnResponse ex i fun r => r.status ≠ 103 ∧ StatusClass r 1 ∧ Carries E r.fields describing :=
      by
  at_settled hok ha
  raw hE
  rw [← names_oneOf]
  grind

/-- 1112: `Location` in a response that is neither a redirect nor 201. -/
theorem C61_notice_1112 (ha : Apart E ex 1112) (i : Nat) : ReportedId E ex (.resp i) 1112 ↔
    OnResponse ex i fun r => r.status ≠ 103 ∧ Has E r.fields "Location" ∧ ¬StatusClass r 3 ∧
      r.status ≠ 201 := by
  at_settled hok ha
  raw hE

/-- 1113: `Retry-After` in a response that is neither a redirect nor 413, 429, 503. -/
theorem C61_notice_1113 (ha : Apart E ex 1113) (i : Nat) : ReportedId E ex (.resp i) 1113 ↔
    OnResponse ex i fun r => r.status ≠ 103 ∧ Has E r.fields "Retry-After" ∧ ¬StatusClass r 3 ∧
      r.status ≠ 413 ∧ r.status ≠ 503 ∧ r.status ≠ 429 := by
  at_settled hok ha
  raw hE

/-- 1147: `Content-Range` in a response other than 206 and 416. -/
theorem C61_notice_1147 (ha : Apart E ex 1147) (i : Nat) : ReportedId E ex (.resp i) 1147 ↔
    OnResponse ex i fun r => r.status ≠ 103 ∧ Has E r.fields "Content-Range" ∧ r.status ≠ 206 ∧
      r.status ≠ 416 := by
  at_settled hok ha
  raw hE

/-- 1127: 304 (Not Modified) with headers that describe a body, other than the validators. -/
theorem C61_notice_1127 (ha : Apart E ex 1127) (i : Nat) : ReportedId E ex (.resp i) 1127 ↔
    OnResponse ex i fun r => r.status = 304 ∧ Carries E r.fields ["Content-Disposition",
      "Content-Encoding", "Content-Language", "Content-Location", "Content-Type"] := by
  at_headers hok ha
  raw hE
  refine and_congr_right fun _ => names_carries fun n => ?_
  rw [← and_assoc, oneOf_two]
  exact oneOf_diff (by decide +kernel) (by decide +kernel)

/-- 1019: `Transfer-Encoding` in a successful response to CONNECT. -/
theorem C61_notice_1019 (ha : Apart E ex 1019) (i : Nat) : ReportedId E ex (.resp i) 1019 ↔
    OnAnswer ex i fun r req => req.method = str "CONNECT" ∧ StatusClass r 2 ∧ Has E r.fields
      "Transfer-Encoding" := by
  at_against hok ha
  raw hE

/-- 1024: `Content-Length` in a successful response to CONNECT. -/
theorem C61_notice_1024 (ha : Apart E ex 1024) (i : Nat) : ReportedId E ex (.resp i) 1024 ↔
    OnAnswer ex i fun r req => req.method = str "CONNECT" ∧ StatusClass r 2 ∧ Has E r.fields
      "Content-Length" := by
  at_against hok ha
  raw hE

/-- 1199: `Connection: close` in a successful response to CONNECT. -/
theorem C61_notice_1199 (ha : Apart E ex 1199) (i : Nat) : ReportedId E ex (.resp i) 1199 ↔
    OnAnswer ex i fun r req => req.method = str "CONNECT" ∧ StatusClass r 2 ∧ HasOption E r.fields
      "close" := by
  at_against hok ha
  raw hE

/-- 1306: `Transfer-Encoding` in response to an HTTP/1.0 request. -/
theorem C61_notice_1306 (ha : Apart E ex 1306) (i : Nat) : ReportedId E ex (.resp i) 1306 ↔
    OnAnswer ex i fun r req => Version req.toMessage "HTTP/1.0" ∧ Has E r.fields
      "Transfer-Encoding" := by
  at_against hok ha
  raw hE

/-- 1246: 101 (Switching Protocols) in HTTP/2. -/
theorem C61_notice_1246 (ha : Apart E ex 1246) (i : Nat) : ReportedId E ex (.resp i) 1246 ↔
    OnResponse ex i fun r => r.status = 101 ∧ Version r.toMessage "HTTP/2" := by
  at_status hok ha
  raw hE

/-- 1258: `Alt-Svc` in HTTP/2. -/
theorem C61_notice_1258 (ha : Apart E ex 1258) (i : Nat) : ReportedId E ex (.resp i) 1258 ↔
    OnResponse ex i fun r => Has E r.fields "Alt-Svc" ∧ Version r.toMessage "HTTP/2" := by
  at_headers hok ha
  raw hE

/-- 1260: `Alt-Svc` in 421 (Misdirected Request). -/
theorem C61_notice_1260 (ha : Apart E ex 1260) (i : Nat) : ReportedId E ex (.resp i) 1260 ↔
    OnResponse ex i fun r => Has E r.fields "Alt-Svc" ∧ r.status = 421 := by
  at_headers hok ha
  raw hE

/-- 1221: `Strict-Transport-Security` without TLS. -/
theorem C61_notice_1221 (ha : Apart E ex 1221) (i : Nat) : ReportedId E ex (.resp i) 1221 ↔
    OnAnswer ex i fun r req => Has E r.fields "Strict-Transport-Security" ∧ req.scheme = some (str
      "http") := by
  at_cached hok ha
  raw hE

/-- 1066: `Expect: 100-continue` without a body. -/
theorem C61_notice_1066 (ha : Apart E ex 1066) : ReportedId E ex .req 1066 ↔
    OnRequest ex fun req => (∃ x, LastOf E req.fields "Expect" E.grammars.expect x ∧ IsWord E x
      "100-continue") ∧ NoBody E req := by
  at_basics hok ha
  raw hE

/-- 1053: headers that describe a body in a request without a body. -/
theorem C61_notice_1053 (ha : Apart E ex 1053) : ReportedId E ex .req 1053 ↔
    OnRequest ex fun req => NoBody E req ∧ Carries E req.fields ["Content-Encoding",
      "Content-Language", "Content-Location", "Content-Type"] := by
  at_basics hok ha
  raw hE
  rw [← names_carries fun n => oneOf_diff (l := describing) (l' := responseHeaders)
    (by decide +kernel) (by decide +kernel)]
  grind

/-- 1067: `Max-Forwards` with a method other than OPTIONS and TRACE. -/
theorem C61_notice_1067 (ha : Apart E ex 1067) : ReportedId E ex .req 1067 ↔
    OnRequest ex fun req => Has E req.fields "Max-Forwards" ∧ req.method ≠ str "OPTIONS" ∧
      req.method ≠ str "TRACE" := by
  at_basics hok ha
  raw hE

/-- 1132: `Range` with a method other than GET. -/
theorem C61_notice_1132 (ha : Apart E ex 1132) : ReportedId E ex .req 1132 ↔
    OnRequest ex fun req => Has E req.fields "Range" ∧ req.method ≠ str "GET" := by
  at_caching hok ha
  raw hE

/-- 1122: `If-Modified-Since` with an inappropriate method. -/
theorem C61_notice_1122 (ha : Apart E ex 1122) : ReportedId E ex .req 1122 ↔
    OnRequest ex fun req => (req.method ≠ str "CONNECT" ∧ req.method ≠ str "OPTIONS" ∧ req.method
      ≠ str "TRACE" ∧ req.method ≠ str "GET" ∧ req.method ≠ str "HEAD") ∧ Has E req.fields
      "If-Modified-Since" := by
  at_caching hok ha
  raw hE

/-- 1130: preconditions in CONNECT, OPTIONS, TRACE. -/
theorem C61_notice_1130 (ha : Apart E ex 1130) : ReportedId E ex .req 1130 ↔
    OnRequest ex fun req => (req.method = str "CONNECT" ∨ req.method = str "OPTIONS" ∨ req.method
      = str "TRACE") ∧ Carries E req.fields ["If-Modified-Since", "If-Unmodified-Since",
      "If-Match", "If-None-Match", "If-Range"] := by
  at_caching hok ha
  raw hE
  refine and_congr_right fun _ => names_carries fun n => oneOf_any hE (by decide)

/-- 1131: preconditions in HEAD. -/
theorem C61_notice_1131 (ha : Apart E ex 1131) : ReportedId E ex .req 1131 ↔
    OnRequest ex fun req => req.method = str "HEAD" ∧ Carries E req.fields preconditions := by
  at_caching hok ha
  raw hE

/-! ## C62. Responses that contradict their requests

Such a notice is reported on exactly the responses that contradict their request. -/

/-- 1072: 201 in response to a safe method. -/
theorem C62_notice_1072 (ha : Apart E ex 1072) (i : Nat) : ReportedId E ex (.resp i) 1072 ↔
    OnAnswer ex i fun r req => IsMethod req safeMethods ∧ r.status = 201 := by
  at_against hok ha
  raw hE

/-- 1074: 202 in response to a safe method. -/
theorem C62_notice_1074 (ha : Apart E ex 1074) (i : Nat) : ReportedId E ex (.resp i) 1074 ↔
    OnAnswer ex i fun r req => IsMethod req safeMethods ∧ r.status = 202 := by
  at_against hok ha
  raw hE
  refine and_congr_right fun _ => ?_
  omega

/-- 1095: 409 in response to a safe method. -/
theorem C62_notice_1095 (ha : Apart E ex 1095) (i : Nat) : ReportedId E ex (.resp i) 1095 ↔
    OnAnswer ex i fun r req => IsMethod req safeMethods ∧ r.status = 409 := by
  at_against hok ha
  raw hE
  refine and_congr_right fun _ => ?_
  omega

/-- 1058: success in response to PUT with `Content-Range`. -/
theorem C62_notice_1058 (ha : Apart E ex 1058) (i : Nat) : ReportedId E ex (.resp i) 1058 ↔
    OnAnswer ex i fun r req => req.method = str "PUT" ∧ Has E req.fields "Content-Range" ∧
      StatusClass r 2 := by
  at_against hok ha
  raw hE

/-- 1071: 1xx other than 101 in response to an HTTP/1.0 request. -/
theorem C62_notice_1071 (ha : Apart E ex 1071) (i : Nat) : ReportedId E ex (.resp i) 1071 ↔
    OnAnswer ex i fun r req => r.status ≠ 101 ∧ StatusClass r 1 ∧ Version req.toMessage "HTTP/1.0"
      := by
  at_against hok ha
  raw hE

/-- 1051: 101 (Switching Protocols) in response to an HTTP/1.0 request. -/
theorem C62_notice_1051 (ha : Apart E ex 1051) (i : Nat) : ReportedId E ex (.resp i) 1051 ↔
    OnAnswer ex i fun r req => r.status = 101 ∧ Version req.toMessage "HTTP/1.0" := by
  at_against hok ha
  raw hE

/-- 1049: switching to a protocol that the client did not offer. -/
theorem C62_notice_1049 (ha : Apart E ex 1049) (i : Nat) : ReportedId E ex (.resp i) 1049 ↔
    OnAnswer ex i fun r req => r.status = 101 ∧ ∃ x, Listed E r.fields "Upgrade"
      E.grammars.upgrade x ∧ ¬Listed E req.fields "Upgrade" E.grammars.upgrade x := by
  at_against hok ha
  raw hE

/-- 1100: 417 (Expectation Failed) in response to a request without `Expect`. -/
theorem C62_notice_1100 (ha : Apart E ex 1100) (i : Nat) : ReportedId E ex (.resp i) 1100 ↔
    OnAnswer ex i fun r req => r.status = 417 ∧ ¬Has E req.fields "Expect" := by
  at_negotiation hok ha
  raw hE

/-- 1097: 411 (Length Required) in response to a request with `Content-Length`. -/
theorem C62_notice_1097 (ha : Apart E ex 1097) (i : Nat) : ReportedId E ex (.resp i) 1097 ↔
    OnAnswer ex i fun r req => r.status = 411 ∧ ∃ n, LastOf E req.fields "Content-Length"
      E.grammars.contentLength n := by
  at_negotiation hok ha
  raw hE

/-- 1090: 406 (Not Acceptable) in response to a request without preferences. -/
theorem C62_notice_1090 (ha : Apart E ex 1090) (i : Nat) : ReportedId E ex (.resp i) 1090 ↔
    OnAnswer ex i fun r req => r.status = 406 ∧ ¬Carries E req.fields negotiation := by
  at_negotiation hok ha
  raw hE
  rw [clearly_nil (conneg_iff hE)]

/-- 1114: 405 (Method Not Allowed) that allows the method. -/
theorem C62_notice_1114 (ha : Apart E ex 1114) (i : Nat) : ReportedId E ex (.resp i) 1114 ↔
    OnAnswer ex i fun r req => r.status = 405 ∧ Listed E r.fields "Allow" E.grammars.allow
      req.method := by
  at_negotiation hok ha
  raw hE

/-- 1115: success with `Allow` that does not allow the method. -/
theorem C62_notice_1115 (ha : Apart E ex 1115) (i : Nat) : ReportedId E ex (.resp i) 1115 ↔
    OnAnswer ex i fun r req => StatusClass r 2 ∧ Has E r.fields "Allow" ∧ ¬Listed E r.fields
      "Allow" E.grammars.allow req.method := by
  at_negotiation hok ha
  raw hE
  unfold StatusClass
  grind

/-- 1124: 304 (Not Modified) in response to a method other than GET and HEAD. -/
theorem C62_notice_1124 (ha : Apart E ex 1124) (i : Nat) : ReportedId E ex (.resp i) 1124 ↔
    OnAnswer ex i fun r req => r.status = 304 ∧ req.method ≠ str "GET" ∧ req.method ≠ str "HEAD"
      := by
  at_negotiation hok ha
  raw hE
  grind

/-- 1125: 304 or 412 in response to a request without preconditions. -/
theorem C62_notice_1125 (ha : Apart E ex 1125) (i : Nat) : ReportedId E ex (.resp i) 1125 ↔
    OnAnswer ex i fun r req => ((r.status = 304 ∧ (req.method = str "GET" ∨ req.method = str
      "HEAD")) ∨ r.status = 412) ∧ ¬Carries E req.fields preconditions := by
  at_negotiation hok ha
  raw hE
  rw [clearly_nil (precondition_iff hE)]
  grind

/-- 1136: 206 (Partial Content) in response to a request without `Range`. -/
theorem C62_notice_1136 (ha : Apart E ex 1136) (i : Nat) : ReportedId E ex (.resp i) 1136 ↔
    OnAnswer ex i fun r req => r.status = 206 ∧ ¬Has E req.fields "Range" := by
  at_negotiation hok ha
  raw hE

/-- 1137: 206 (Partial Content) in response to a method other than GET. -/
theorem C62_notice_1137 (ha : Apart E ex 1137) (i : Nat) : ReportedId E ex (.resp i) 1137 ↔
    OnAnswer ex i fun r req => r.status = 206 ∧ Has E req.fields "Range" ∧ req.method ≠ str "GET"
      := by
  at_negotiation hok ha
  raw hE

/-- 1149: 416 (Range Not Satisfiable) in response to a request without `Range`. -/
theorem C62_notice_1149 (ha : Apart E ex 1149) (i : Nat) : ReportedId E ex (.resp i) 1149 ↔
    OnAnswer ex i fun r req => r.status = 416 ∧ ¬Has E req.fields "Range" := by
  at_negotiation hok ha
  raw hE

/-- 1200: 428 (Precondition Required) in response to a request with preconditions. -/
theorem C62_notice_1200 (ha : Apart E ex 1200) (i : Nat) : ReportedId E ex (.resp i) 1200 ↔
    OnAnswer ex i fun r req => r.status = 428 ∧ Carries E req.fields preconditions := by
  at_cached hok ha
  raw hE
  refine and_congr_right fun _ => ?_
  rw [← names_oneOf]
  split
  · next n h =>
    simp only [says_say, and_self, true_iff]
    exact ⟨n, List.mem_of_find?_eq_some h, (precondition_iff hE n).1 (List.find?_some h)⟩
  · next h =>
    simp only [says_nil, false_iff]
    rintro ⟨n, hn, ho⟩
    exact List.find?_eq_none.1 h n hn ((precondition_iff hE n).2 ho)

/-- 1105: 505 (HTTP Version Not Supported) in the version of the request. -/
theorem C62_notice_1105 (ha : Apart E ex 1105) (i : Nat) : ReportedId E ex (.resp i) 1105 ↔
    OnAnswer ex i fun r req => r.status = 505 ∧ ∃ v, v ≠ [] ∧ r.version = some v ∧ req.version =
      some v := by
  at_negotiation hok ha
  raw hE
  refine and_congr_right fun _ => ?_
  split
  · next v h =>
    rw [h]
    simp only [Bool.and_eq_true, Bool.not_eq_eq_eq_not, Bool.not_true, List.isEmpty_eq_false_iff,
      beq_iff_eq, Option.some.injEq, ne_eq]
    constructor
    · rintro ⟨h1, h2⟩
      exact ⟨v, h1, rfl, h2⟩
    · rintro ⟨w, h1, rfl, h2⟩
      exact ⟨h1, h2⟩
  · next h => simp [h]

/-! ## C63. Instructions to caches

Notices about directives. -/

/-- 1161: `Cache-Control: no-cache` without `Pragma: no-cache`. -/
theorem C63_notice_1161 (ha : Apart E ex 1161) : ReportedId E ex .req 1161 ↔
    OnRequest ex fun req => Directs E req.fields "no-cache" ∧ ¬∃ x, Listed E req.fields "Pragma"
      E.grammars.pragma x ∧ IsNoCache x := by
  at_caching hok ha
  raw hE

/-- 1162: `Pragma: no-cache` in a response. -/
theorem C63_notice_1162 (ha : Apart E ex 1162) (i : Nat) : ReportedId E ex (.resp i) 1162 ↔
    OnResponse ex i fun r => ∃ x, Listed E r.fields "Pragma" E.grammars.pragma x ∧ IsNoCache x :=
      by
  at_headers hok ha
  raw hE

/-- 1301: `immutable` without an expiration time. -/
theorem C63_notice_1301 (ha : Apart E ex 1301) (i : Nat) : ReportedId E ex (.resp i) 1301 ↔
    OnResponse ex i fun r => r.status ≠ 103 ∧ Directs E r.fields "immutable" ∧ (¬Has E r.fields
      "Expires" ∨ ∃ d e, LastOf E r.fields "Date" E.grammars.date d ∧ LastOf E r.fields "Expires"
      E.grammars.date e ∧ e ≤ d) ∧ ¬Directs E r.fields "max-age" := by
  at_settled hok ha
  raw hE

/-- 1283: 421 (Misdirected Request) that may be cached. -/
theorem C63_notice_1283 (ha : Apart E ex 1283) (i : Nat) : ReportedId E ex (.resp i) 1283 ↔
    OnAnswer ex i fun r req => r.status = 421 ∧ IsMethod req cacheableMethods ∧ ¬Directs E
      r.fields "no-store" := by
  at_cached hok ha
  raw hE

end

/-! ## Examples -/

section

open Httpolice.Spec.Toy

/-- A POST without headers, answered with 201. -/
def bare : Exchange := ⟨some (req "POST" [] "x"), [resp 201 [h "Date" "900"]]⟩

theorem bare_quiet : exchangeRaises env bare = false := quiet _ (by decide +kernel)

theorem bare_apart (id : Nat) : Apart env bare id := apart _ _ rfl (of_decide_eq_true (by rfl)) id

/-- C59: there is no `Location` in the response. -/
example : ReportedId env bare (.resp 0) 1073 :=
  (C59_notice_1073 env sensible bare bare_quiet (bare_apart _) 0).2
    ⟨_, _, rfl, rfl, rfl, rfl, by decide +kernel⟩

/-- C59: there is no `Host` in the request. -/
example : ReportedId env bare .req 1031 :=
  (C59_notice_1031 env sensible bare bare_quiet (bare_apart _)).2
    ⟨_, rfl, rfl, by decide +kernel⟩

/-- C59: but there is `Date` in the response. -/
example : ¬ReportedId env bare (.resp 0) 1110 := by
  rw [C59_notice_1110 env sensible bare bare_quiet (bare_apart _)]
  rintro ⟨r, hr, h, _⟩
  cases hr
  exact h (by decide +kernel)

/-- A GET with a body and a header of responses, answered with 204 that has a body and a header of
requests. -/
def odd : Exchange :=
  ⟨some (req "GET" [h "Host" "a", h "eTaG" "b", h "Cache-Control" "no-cache"] "x"),
    [resp 204 [h "Date" "900", h "hosT" "a", h "Content-Length" "1"] "y",
     resp 304 [h "Date" "900", h "Pragma" "no-cache"]]⟩

theorem odd_quiet : exchangeRaises env odd = false := quiet _ (by decide +kernel)

theorem odd_apart (id : Nat) : Apart env odd id := apart _ _ rfl (of_decide_eq_true (by rfl)) id

/-- C60: both bodies are reported. -/
example : ReportedId env odd .req 1056 ∧ ReportedId env odd (.resp 0) 1240 :=
  ⟨(C60_notice_1056 env sensible odd odd_quiet (odd_apart _)).2 ⟨_, rfl, by decide +kernel, rfl⟩,
    (C60_notice_1240 env sensible odd odd_quiet (odd_apart _) 0).2 ⟨_, rfl, rfl, by decide +kernel⟩⟩

/-- C60: the second response has no body. -/
example : ¬ReportedId env odd (.resp 1) 1240 := by
  rw [C60_notice_1240 env sensible odd odd_quiet (odd_apart _)]
  rintro ⟨r, hr, h, _⟩
  cases hr
  cases h

/-- C61: the headers on the wrong side are reported, and `Content-Length` in 204. -/
example : ReportedId env odd .req 1063 ∧ ReportedId env odd (.resp 0) 1064 ∧
    ReportedId env odd (.resp 0) 1023 :=
  ⟨(C61_notice_1063 env sensible odd odd_quiet (odd_apart _)).2 ⟨_, rfl, by decide +kernel⟩,
    (C61_notice_1064 env sensible odd odd_quiet (odd_apart _) 0).2 ⟨_, rfl, by decide +kernel⟩,
    (C61_notice_1023 env sensible odd odd_quiet (odd_apart _) 0).2
      ⟨_, rfl, by decide, .inr rfl, by decide +kernel⟩⟩

/-- C61: the second response has no such header. -/
example : ¬ReportedId env odd (.resp 1) 1064 := by
  rw [C61_notice_1064 env sensible odd odd_quiet (odd_apart _)]
  rintro ⟨r, hr, h⟩
  cases hr
  exact absurd h (by decide +kernel)

/-- C62: 304, though the request has no preconditions. -/
example : ReportedId env odd (.resp 1) 1125 :=
  (C62_notice_1125 env sensible odd odd_quiet (odd_apart _) 1).2
    ⟨_, _, rfl, rfl, .inl ⟨rfl, .inl rfl⟩, by decide +kernel⟩

/-- C62: the method is right for 304. -/
example : ¬ReportedId env odd (.resp 1) 1124 := by
  rw [C62_notice_1124 env sensible odd odd_quiet (odd_apart _)]
  rintro ⟨r, q, hr, hq, _, h, _⟩
  cases hq
  exact h rfl

/-- C63: `no-cache` is given by the request in one way only, and by the second response in the way of
requests. -/
example : ReportedId env odd .req 1161 ∧ ReportedId env odd (.resp 1) 1162 := by
  refine ⟨(C63_notice_1161 env sensible odd odd_quiet (odd_apart _)).2 ⟨_, rfl, ?_, ?_⟩,
    (C63_notice_1162 env sensible odd odd_quiet (odd_apart _) 1).2 ⟨_, rfl, ?_⟩⟩
  · exact ⟨.none, ⟨[], _, [], by rfl, by decide +kernel, by simp⟩, trivial⟩
  · rintro ⟨x, ⟨e, he, hn, _⟩, _⟩
    exact absurd ⟨e, he, hn⟩ (show ¬Has env _ "Pragma" by decide +kernel)
  · exact ⟨.extension (str "no-cache"), ⟨h "Pragma" "no-cache", by decide +kernel, by decide +kernel, _,
      rfl, by decide +kernel⟩, rfl⟩

end

end Httpolice.Props
