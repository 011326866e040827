import Verif.Model.HeaderTable

/-!
# Tables behind the checks (httpolice/known/*.csv)

Generated from the CSV files, one row per line, in file order: the columns that the checks in
message.py, request.py and response.py look at. An empty cell is `none` where the code tells an
empty cell from `False`.
-/

namespace Httpolice.Model

/-- A row of known/header.csv as the checks see it (known/__init__.py 202-239). `deprecated` is
`HeaderKnowledge.is_deprecated` (237-239): `iana_status` is `deprecated` or `obsoleted`. -/
structure HeaderFlags where
  key : String
  forRequest : Option Bool
  forResponse : Option Bool
  precondition : Bool
  proactiveConneg : Bool
  representationMetadata : Bool
  deprecated : Bool
deriving DecidableEq, Repr

/-- Rows of known/header.csv. -/
def headerFlags : List HeaderFlags := [
  ⟨"A-IM", none, none, false, false, false, false⟩,
  ⟨"ALPN", none, none, false, false, false, false⟩,
  ⟨"AMP-Cache-Transform", none, none, false, false, false, false⟩,
  ⟨"Accept", some true, some false, false, true, false, false⟩,
  ⟨"Accept-Additions", none, none, false, false, false, false⟩,
  ⟨"Accept-Charset", some true, some false, false, true, false, false⟩,
  ⟨"Accept-Datetime", none, none, false, false, false, false⟩,
  ⟨"Accept-Encoding", some true, some true, false, true, false, false⟩,
  ⟨"Accept-Features", none, none, false, false, false, false⟩,
  ⟨"Accept-Language", some true, some false, false, true, false, false⟩,
  ⟨"Accept-Patch", some false, some true, false, false, false, false⟩,
  ⟨"Accept-Post", some false, some true, false, false, false, false⟩,
  ⟨"Accept-Ranges", some false, some true, false, false, false, false⟩,
  ⟨"Access-Control", none, none, false, false, false, true⟩,
  ⟨"Access-Control-Allow-Credentials", some false, some true, false, false, false, false⟩,
  ⟨"Access-Control-Allow-Headers", some false, some true, false, false, false, false⟩,
  ⟨"Access-Control-Allow-Methods", some false, some true, false, false, false, false⟩,
  ⟨"Access-Control-Allow-Origin", some false, some true, false, false, false, false⟩,
  ⟨"Access-Control-Expose-Headers", some false, some true, false, false, false, false⟩,
  ⟨"Access-Control-Max-Age", some false, some true, false, false, false, false⟩,
  ⟨"Access-Control-Request-Headers", some true, some false, false, false, false, false⟩,
  ⟨"Access-Control-Request-Method", some true, some false, false, false, false, false⟩,
  ⟨"Age", some false, some true, false, false, false, false⟩,
  ⟨"Allow", some false, some true, false, false, false, false⟩,
  ⟨"Alt-Svc", some false, some true, false, false, false, false⟩,
  ⟨"Alt-Used", some true, some false, false, false, false, false⟩,
  ⟨"Alternates", none, none, false, false, false, false⟩,
  ⟨"Apply-To-Redirect-Ref", none, none, false, false, false, false⟩,
  ⟨"Authentication-Control", none, none, false, false, false, false⟩,
  ⟨"Authentication-Info", none, none, false, false, false, false⟩,
  ⟨"Authorization", some true, some false, false, false, false, false⟩,
  ⟨"C-Ext", none, none, false, false, false, false⟩,
  ⟨"C-Man", none, none, false, false, false, false⟩,
  ⟨"C-Opt", none, none, false, false, false, false⟩,
  ⟨"C-PEP", none, none, false, false, false, false⟩,
  ⟨"C-PEP-Info", none, none, false, false, false, false⟩,
  ⟨"CDN-Loop", none, none, false, false, false, false⟩,
  ⟨"Cache-Control", some true, some true, false, false, false, false⟩,
  ⟨"Cal-Managed-ID", none, none, false, false, false, false⟩,
  ⟨"CalDAV-Timezones", none, none, false, false, false, false⟩,
  ⟨"Close", none, none, false, false, false, false⟩,
  ⟨"Compliance", none, none, false, false, false, false⟩,
  ⟨"Connection", some true, some true, false, false, false, false⟩,
  ⟨"Content-Base", none, none, false, false, false, true⟩,
  ⟨"Content-Disposition", some false, some true, false, false, true, false⟩,
  ⟨"Content-Encoding", none, none, false, false, true, false⟩,
  ⟨"Content-ID", none, none, false, false, false, false⟩,
  ⟨"Content-Language", none, none, false, false, true, false⟩,
  ⟨"Content-Length", some true, some true, false, false, false, false⟩,
  ⟨"Content-Location", none, none, false, false, true, false⟩,
  ⟨"Content-MD5", none, none, false, false, false, false⟩,
  ⟨"Content-Range", some false, some true, false, false, false, false⟩,
  ⟨"Content-Script-Type", none, none, false, false, false, false⟩,
  ⟨"Content-Style-Type", none, none, false, false, false, false⟩,
  ⟨"Content-Transfer-Encoding", none, none, false, false, false, false⟩,
  ⟨"Content-Type", none, none, false, false, true, false⟩,
  ⟨"Content-Version", none, none, false, false, false, false⟩,
  ⟨"Cookie", none, none, false, false, false, false⟩,
  ⟨"Cookie2", none, none, false, false, false, true⟩,
  ⟨"Cost", none, none, false, false, false, false⟩,
  ⟨"Cross-Origin-Resource-Policy", some false, some true, false, false, false, false⟩,
  ⟨"DASL", none, none, false, false, false, false⟩,
  ⟨"DAV", none, none, false, false, false, false⟩,
  ⟨"Date", some true, some true, false, false, false, false⟩,
  ⟨"Default-Style", none, none, false, false, false, false⟩,
  ⟨"Delta-Base", none, none, false, false, false, false⟩,
  ⟨"Depth", none, none, false, false, false, false⟩,
  ⟨"Derived-From", none, none, false, false, false, false⟩,
  ⟨"Destination", none, none, false, false, false, false⟩,
  ⟨"Differential-ID", none, none, false, false, false, false⟩,
  ⟨"Digest", none, none, false, false, false, false⟩,
  ⟨"EDIINT-Features", none, none, false, false, false, false⟩,
  ⟨"ETag", some false, some true, false, false, true, false⟩,
  ⟨"Early-Data", none, none, false, false, false, false⟩,
  ⟨"Expect", some true, some false, false, false, false, false⟩,
  ⟨"Expires", some false, some true, false, false, false, false⟩,
  ⟨"Ext", none, none, false, false, false, false⟩,
  ⟨"Forwarded", some true, some false, false, false, false, false⟩,
  ⟨"From", some true, some false, false, false, false, false⟩,
  ⟨"GetProfile", none, none, false, false, false, false⟩,
  ⟨"HTTP2-Settings", some true, some false, false, false, false, false⟩,
  ⟨"HTTPolice-Silence", some true, some true, false, false, false, false⟩,
  ⟨"Hobareg", none, none, false, false, false, false⟩,
  ⟨"Host", some true, some false, false, false, false, false⟩,
  ⟨"IM", none, none, false, false, false, false⟩,
  ⟨"If", none, none, true, false, false, false⟩,
  ⟨"If-Match", some true, some false, true, false, false, false⟩,
  ⟨"If-Modified-Since", some true, some false, true, false, false, false⟩,
  ⟨"If-None-Match", some true, some false, true, false, false, false⟩,
  ⟨"If-Range", some true, some false, false, false, false, false⟩,
  ⟨"If-Schedule-Tag-Match", none, none, true, false, false, false⟩,
  ⟨"If-Unmodified-Since", some true, some false, true, false, false, false⟩,
  ⟨"Include-Referred-Token-Binding-ID", none, none, false, false, false, false⟩,
  ⟨"Keep-Alive", none, none, false, false, false, false⟩,
  ⟨"Label", none, none, false, false, false, false⟩,
  ⟨"Last-Modified", some false, some true, false, false, true, false⟩,
  ⟨"Link", none, some true, false, false, false, false⟩,
  ⟨"Location", some false, some true, false, false, false, false⟩,
  ⟨"Lock-Token", none, none, false, false, false, false⟩,
  ⟨"MIME-Version", none, none, false, false, false, false⟩,
  ⟨"Man", none, none, false, false, false, false⟩,
  ⟨"Max-Forwards", some true, some false, false, false, false, false⟩,
  ⟨"Memento-Datetime", none, none, false, false, false, false⟩,
  ⟨"Message-ID", none, none, false, false, false, false⟩,
  ⟨"Meter", none, none, false, false, false, false⟩,
  ⟨"Method-Check", none, none, false, false, false, true⟩,
  ⟨"Method-Check-Expires", none, none, false, false, false, true⟩,
  ⟨"Negotiate", none, none, false, false, false, false⟩,
  ⟨"Non-Compliance", none, none, false, false, false, false⟩,
  ⟨"Opt", none, none, false, false, false, false⟩,
  ⟨"Optional", none, none, false, false, false, false⟩,
  ⟨"Optional-WWW-Authenticate", none, none, false, false, false, false⟩,
  ⟨"Ordering-Type", none, none, false, false, false, false⟩,
  ⟨"Origin", some true, some false, false, false, false, false⟩,
  ⟨"Overwrite", none, none, true, false, false, false⟩,
  ⟨"P3P", none, none, false, false, false, false⟩,
  ⟨"PEP", none, none, false, false, false, false⟩,
  ⟨"PICS-Label", none, none, false, false, false, false⟩,
  ⟨"Pep-Info", none, none, false, false, false, false⟩,
  ⟨"Position", none, none, false, false, false, false⟩,
  ⟨"Pragma", some true, some true, false, false, false, false⟩,
  ⟨"Prefer", some true, some false, false, false, false, false⟩,
  ⟨"Preference-Applied", some false, some true, false, false, false, false⟩,
  ⟨"ProfileObject", none, none, false, false, false, false⟩,
  ⟨"Protocol", none, none, false, false, false, false⟩,
  ⟨"Protocol-Info", none, none, false, false, false, false⟩,
  ⟨"Protocol-Query", none, none, false, false, false, false⟩,
  ⟨"Protocol-Request", none, none, false, false, false, false⟩,
  ⟨"Proxy-Authenticate", some false, some true, false, false, false, false⟩,
  ⟨"Proxy-Authentication-Info", none, none, false, false, false, false⟩,
  ⟨"Proxy-Authorization", some true, some false, false, false, false, false⟩,
  ⟨"Proxy-Features", none, none, false, false, false, false⟩,
  ⟨"Proxy-Instruction", none, none, false, false, false, false⟩,
  ⟨"Public", none, none, false, false, false, false⟩,
  ⟨"Public-Key-Pins", none, none, false, false, false, false⟩,
  ⟨"Public-Key-Pins-Report-Only", none, none, false, false, false, false⟩,
  ⟨"Range", some true, some false, false, false, false, false⟩,
  ⟨"Redirect-Ref", none, none, false, false, false, false⟩,
  ⟨"Referer", some true, some false, false, false, false, false⟩,
  ⟨"Referer-Root", none, none, false, false, false, true⟩,
  ⟨"Replay-Nonce", none, none, false, false, false, false⟩,
  ⟨"Resolution-Hint", none, none, false, false, false, false⟩,
  ⟨"Resolver-Location", none, none, false, false, false, false⟩,
  ⟨"Retry-After", some false, some true, false, false, false, false⟩,
  ⟨"SLUG", none, none, false, false, false, false⟩,
  ⟨"Safe", none, none, false, false, false, false⟩,
  ⟨"Schedule-Reply", none, none, false, false, false, false⟩,
  ⟨"Schedule-Tag", none, none, false, false, false, false⟩,
  ⟨"Sec-Token-Binding", none, none, false, false, false, false⟩,
  ⟨"Sec-WebSocket-Accept", none, none, false, false, false, false⟩,
  ⟨"Sec-WebSocket-Extensions", none, none, false, false, false, false⟩,
  ⟨"Sec-WebSocket-Key", none, none, false, false, false, false⟩,
  ⟨"Sec-WebSocket-Protocol", none, none, false, false, false, false⟩,
  ⟨"Sec-WebSocket-Version", none, none, false, false, false, false⟩,
  ⟨"Security-Scheme", none, none, false, false, false, false⟩,
  ⟨"Server", some false, some true, false, false, false, false⟩,
  ⟨"Set-Cookie", none, none, false, false, false, false⟩,
  ⟨"Set-Cookie2", none, none, false, false, false, true⟩,
  ⟨"SetProfile", none, none, false, false, false, false⟩,
  ⟨"SoapAction", none, none, false, false, false, false⟩,
  ⟨"Status-URI", none, none, false, false, false, false⟩,
  ⟨"Strict-Transport-Security", some false, some true, false, false, false, false⟩,
  ⟨"SubOK", none, none, false, false, false, false⟩,
  ⟨"Subst", none, none, false, false, false, false⟩,
  ⟨"Sunset", none, none, false, false, false, false⟩,
  ⟨"Surrogate-Capability", none, none, false, false, false, false⟩,
  ⟨"Surrogate-Control", none, none, false, false, false, false⟩,
  ⟨"TCN", none, none, false, false, false, false⟩,
  ⟨"TE", some true, some false, false, false, false, false⟩,
  ⟨"TTL", none, none, false, false, false, false⟩,
  ⟨"Timeout", none, none, false, false, false, false⟩,
  ⟨"Timing-Allow-Origin", none, none, false, false, false, false⟩,
  ⟨"Title", none, none, false, false, false, false⟩,
  ⟨"Topic", none, none, false, false, false, false⟩,
  ⟨"Traceparent", none, none, false, false, false, false⟩,
  ⟨"Tracestate", none, none, false, false, false, false⟩,
  ⟨"Trailer", none, none, false, false, false, false⟩,
  ⟨"Transfer-Encoding", some true, some true, false, false, false, false⟩,
  ⟨"UA-Color", none, none, false, false, false, false⟩,
  ⟨"UA-Media", none, none, false, false, false, false⟩,
  ⟨"UA-Pixels", none, none, false, false, false, false⟩,
  ⟨"UA-Resolution", none, none, false, false, false, false⟩,
  ⟨"UA-Windowpixels", none, none, false, false, false, false⟩,
  ⟨"URI", none, none, false, false, false, false⟩,
  ⟨"Upgrade", some true, some true, false, false, false, false⟩,
  ⟨"Urgency", none, none, false, false, false, false⟩,
  ⟨"User-Agent", some true, some false, false, false, false, false⟩,
  ⟨"Variant-Vary", none, none, false, false, false, false⟩,
  ⟨"Vary", some false, some true, false, false, false, false⟩,
  ⟨"Version", none, none, false, false, false, false⟩,
  ⟨"Via", some true, some true, false, false, false, false⟩,
  ⟨"WWW-Authenticate", some false, some true, false, false, false, false⟩,
  ⟨"Want-Digest", none, none, false, false, false, false⟩,
  ⟨"Warning", some true, some true, false, false, false, false⟩,
  ⟨"X-ATT-DeviceId", none, none, false, false, false, false⟩,
  ⟨"X-Aspnet-Version", none, none, false, false, false, false⟩,
  ⟨"X-CSRF-Token", none, none, false, false, false, false⟩,
  ⟨"X-CSRFToken", none, none, false, false, false, false⟩,
  ⟨"X-Content-Duration", none, none, false, false, false, false⟩,
  ⟨"X-Content-Security-Policy", none, none, false, false, false, false⟩,
  ⟨"X-Content-Type-Options", some false, some true, false, false, false, false⟩,
  ⟨"X-Device-Accept", none, none, false, false, false, false⟩,
  ⟨"X-Device-Accept-Charset", none, none, false, false, false, false⟩,
  ⟨"X-Device-Accept-Encoding", none, none, false, false, false, false⟩,
  ⟨"X-Device-Accept-Language", none, none, false, false, false, false⟩,
  ⟨"X-Device-User-Agent", none, none, false, false, false, false⟩,
  ⟨"X-Firefox-SPDY", none, none, false, false, false, false⟩,
  ⟨"X-Forwarded-For", none, none, false, false, false, false⟩,
  ⟨"X-Forwarded-Host", none, none, false, false, false, false⟩,
  ⟨"X-Forwarded-Proto", none, none, false, false, false, false⟩,
  ⟨"X-Frame-Options", none, none, false, false, false, false⟩,
  ⟨"X-GitHub-Request-ID", none, none, false, false, false, false⟩,
  ⟨"X-HTTP-Method-Override", none, none, false, false, false, false⟩,
  ⟨"X-Powered-By", none, none, false, false, false, false⟩,
  ⟨"X-Real-IP", none, none, false, false, false, false⟩,
  ⟨"X-Requested-With", none, none, false, false, false, false⟩,
  ⟨"X-UA-Compatible", none, none, false, false, false, false⟩,
  ⟨"X-UIDH", none, none, false, false, false, false⟩,
  ⟨"X-Varnish", none, none, false, false, false, false⟩,
  ⟨"X-Wap-Profile", none, none, false, false, false, false⟩,
  ⟨"X-WebKit-CSP", none, none, false, false, false, false⟩,
  ⟨"X-XSRF-Token", none, none, false, false, false, false⟩,
  ⟨"X-XSS-Protection", none, none, false, false, false, false⟩]

/-- A row of known/method.csv: `cacheable`, `defines_body`, `safe`. -/
structure MethodRow where
  key : String
  cacheable : Option Bool
  definesBody : Option Bool
  safe : Option Bool
deriving DecidableEq, Repr

/-- Rows of known/method.csv. -/
def methodRows : List MethodRow := [
  ⟨"ACL", none, none, some false⟩,
  ⟨"BASELINE-CONTROL", none, none, some false⟩,
  ⟨"BIND", none, none, some false⟩,
  ⟨"CHECKIN", none, none, some false⟩,
  ⟨"CHECKOUT", none, none, some false⟩,
  ⟨"CONNECT", some false, some false, some false⟩,
  ⟨"COPY", none, none, some false⟩,
  ⟨"DELETE", some false, some false, some false⟩,
  ⟨"GET", some true, some false, some true⟩,
  ⟨"HEAD", some true, some false, some true⟩,
  ⟨"LABEL", none, none, some false⟩,
  ⟨"LINK", none, none, some false⟩,
  ⟨"LOCK", none, none, some false⟩,
  ⟨"MERGE", none, none, some false⟩,
  ⟨"MKACTIVITY", none, none, some false⟩,
  ⟨"MKCALENDAR", none, none, some false⟩,
  ⟨"MKCOL", none, none, some false⟩,
  ⟨"MKREDIRECTREF", none, none, some false⟩,
  ⟨"MKWORKSPACE", none, none, some false⟩,
  ⟨"MOVE", none, none, some false⟩,
  ⟨"OPTIONS", some false, none, some true⟩,
  ⟨"ORDERPATCH", none, none, some false⟩,
  ⟨"PATCH", some false, some true, some false⟩,
  ⟨"POST", some true, some true, some false⟩,
  ⟨"PRI", none, none, some true⟩,
  ⟨"PROPFIND", none, some true, some true⟩,
  ⟨"PROPPATCH", none, none, some false⟩,
  ⟨"PUT", some false, some true, some false⟩,
  ⟨"REBIND", none, none, some false⟩,
  ⟨"REPORT", none, none, some true⟩,
  ⟨"SEARCH", none, none, some true⟩,
  ⟨"TRACE", some false, some false, some true⟩,
  ⟨"UNBIND", none, none, some false⟩,
  ⟨"UNCHECKOUT", none, none, some false⟩,
  ⟨"UNLINK", none, none, some false⟩,
  ⟨"UNLOCK", none, none, some false⟩,
  ⟨"UPDATE", none, none, some false⟩,
  ⟨"UPDATEREDIRECTREF", none, none, some false⟩,
  ⟨"VERSION-CONTROL", none, none, some false⟩]

/-- `Cacheable` (known/__init__.py 264-267). -/
inductive Cacheable
  | notAtAll
  | notByDefault
  | byDefault
deriving DecidableEq, Repr

/-- Rows of known/status_code.csv with a `cacheable` cell. -/
def statusCacheable : List (Int × Cacheable) := [
  (100, .notByDefault),
  (101, .notByDefault),
  (200, .byDefault),
  (201, .notByDefault),
  (202, .notByDefault),
  (203, .byDefault),
  (204, .byDefault),
  (205, .notByDefault),
  (206, .byDefault),
  (300, .byDefault),
  (301, .byDefault),
  (302, .notByDefault),
  (303, .notByDefault),
  (307, .notByDefault),
  (308, .byDefault),
  (400, .notByDefault),
  (401, .notByDefault),
  (403, .notByDefault),
  (404, .byDefault),
  (405, .byDefault),
  (406, .notByDefault),
  (407, .notByDefault),
  (408, .notByDefault),
  (409, .notByDefault),
  (410, .byDefault),
  (411, .notByDefault),
  (412, .notByDefault),
  (413, .notByDefault),
  (414, .byDefault),
  (415, .notByDefault),
  (416, .notByDefault),
  (417, .notByDefault),
  (421, .byDefault),
  (422, .notByDefault),
  (423, .notByDefault),
  (424, .notByDefault),
  (426, .notByDefault),
  (428, .notAtAll),
  (429, .notAtAll),
  (431, .notAtAll),
  (451, .byDefault),
  (500, .notByDefault),
  (501, .byDefault),
  (502, .notByDefault),
  (503, .notByDefault),
  (504, .notByDefault),
  (505, .notByDefault),
  (507, .notByDefault),
  (511, .notAtAll)]

/-- Rows of known/cache_directive.csv: `for_request` and `for_response`. -/
def cacheDirectiveRows : List (String × Option Bool × Option Bool) := [
  ("immutable", some false, some true),
  ("max-age", some true, some true),
  ("max-stale", some true, some false),
  ("min-fresh", some true, some false),
  ("must-revalidate", some false, some true),
  ("no-cache", some true, some true),
  ("no-store", some true, some true),
  ("no-transform", some true, some true),
  ("only-if-cached", some true, some false),
  ("private", some false, some true),
  ("proxy-revalidate", some false, some true),
  ("public", some false, some true),
  ("s-maxage", some false, some true),
  ("stale-if-error", some true, some true),
  ("stale-while-revalidate", some false, some true)]

end Httpolice.Model
