import Verif.Model.CaseInsens

/-!
# Table of known headers (httpolice/known/header.csv, columns `key`, `rule`, `syntax_symbol`,
`bad_for_trailer`, `bad_for_connection`)

Generated from the CSV file, one row per line, in file order.
-/

namespace Httpolice.Model

/-- `HeaderRule` (known/__init__.py 183-186). -/
inductive HeaderRule
  | single
  | multi
  | special
deriving DecidableEq, Repr

/-- A row of header.csv: the columns used by the header views. A boolean is true if the cell says
`True` (an empty cell and `False` are both falsy). -/
structure HeaderRow where
  key : String
  rule : Option HeaderRule
  hasSyntax : Bool
  badForTrailer : Bool
  badForConnection : Bool
deriving DecidableEq, Repr

/-- Rows of known/header.csv. -/
def headerRows : List HeaderRow := [
  ⟨"A-IM", none, false, false, false⟩,
  ⟨"ALPN", none, false, false, false⟩,
  ⟨"AMP-Cache-Transform", none, false, false, false⟩,
  ⟨"Accept", some .multi, true, false, false⟩,
  ⟨"Accept-Additions", none, false, false, false⟩,
  ⟨"Accept-Charset", some .multi, true, false, false⟩,
  ⟨"Accept-Datetime", none, false, false, false⟩,
  ⟨"Accept-Encoding", some .multi, true, false, false⟩,
  ⟨"Accept-Features", none, false, false, false⟩,
  ⟨"Accept-Language", some .multi, true, false, false⟩,
  ⟨"Accept-Patch", some .multi, true, false, false⟩,
  ⟨"Accept-Post", some .multi, true, false, false⟩,
  ⟨"Accept-Ranges", some .multi, true, false, false⟩,
  ⟨"Access-Control", none, false, false, false⟩,
  ⟨"Access-Control-Allow-Credentials", some .single, true, true, true⟩,
  ⟨"Access-Control-Allow-Headers", some .multi, true, true, true⟩,
  ⟨"Access-Control-Allow-Methods", some .multi, true, true, true⟩,
  ⟨"Access-Control-Allow-Origin", some .single, true, true, true⟩,
  ⟨"Access-Control-Expose-Headers", some .multi, true, true, true⟩,
  ⟨"Access-Control-Max-Age", some .single, true, true, true⟩,
  ⟨"Access-Control-Request-Headers", some .multi, true, true, true⟩,
  ⟨"Access-Control-Request-Method", some .single, true, true, true⟩,
  ⟨"Age", some .single, true, true, true⟩,
  ⟨"Allow", some .multi, true, false, false⟩,
  ⟨"Alt-Svc", some .special, true, false, false⟩,
  ⟨"Alt-Used", some .single, true, true, false⟩,
  ⟨"Alternates", none, false, false, false⟩,
  ⟨"Apply-To-Redirect-Ref", none, false, false, false⟩,
  ⟨"Authentication-Control", none, false, false, false⟩,
  ⟨"Authentication-Info", none, false, false, false⟩,
  ⟨"Authorization", some .single, true, true, true⟩,
  ⟨"C-Ext", none, false, false, false⟩,
  ⟨"C-Man", none, false, false, false⟩,
  ⟨"C-Opt", none, false, false, false⟩,
  ⟨"C-PEP", none, false, false, false⟩,
  ⟨"C-PEP-Info", none, false, false, false⟩,
  ⟨"CDN-Loop", none, false, false, false⟩,
  ⟨"Cache-Control", some .special, true, true, true⟩,
  ⟨"Cal-Managed-ID", none, false, false, false⟩,
  ⟨"CalDAV-Timezones", none, false, false, false⟩,
  ⟨"Close", none, false, false, false⟩,
  ⟨"Compliance", none, false, false, false⟩,
  ⟨"Connection", some .multi, true, false, false⟩,
  ⟨"Content-Base", none, false, false, false⟩,
  ⟨"Content-Disposition", some .single, true, false, false⟩,
  ⟨"Content-Encoding", some .multi, true, true, true⟩,
  ⟨"Content-ID", none, false, false, false⟩,
  ⟨"Content-Language", some .multi, true, false, true⟩,
  ⟨"Content-Length", some .single, true, true, false⟩,
  ⟨"Content-Location", some .single, true, false, false⟩,
  ⟨"Content-MD5", none, false, false, false⟩,
  ⟨"Content-Range", some .single, true, true, true⟩,
  ⟨"Content-Script-Type", none, false, false, false⟩,
  ⟨"Content-Style-Type", none, false, false, false⟩,
  ⟨"Content-Transfer-Encoding", none, false, false, false⟩,
  ⟨"Content-Type", some .single, true, true, false⟩,
  ⟨"Content-Version", none, false, false, false⟩,
  ⟨"Cookie", none, false, false, false⟩,
  ⟨"Cookie2", none, false, false, false⟩,
  ⟨"Cost", none, false, false, false⟩,
  ⟨"Cross-Origin-Resource-Policy", some .single, true, false, true⟩,
  ⟨"DASL", none, false, false, false⟩,
  ⟨"DAV", none, false, false, false⟩,
  ⟨"Date", some .single, true, true, false⟩,
  ⟨"Default-Style", none, false, false, false⟩,
  ⟨"Delta-Base", none, false, false, false⟩,
  ⟨"Depth", none, false, false, false⟩,
  ⟨"Derived-From", none, false, false, false⟩,
  ⟨"Destination", none, false, false, false⟩,
  ⟨"Differential-ID", none, false, false, false⟩,
  ⟨"Digest", none, false, false, false⟩,
  ⟨"EDIINT-Features", none, false, false, false⟩,
  ⟨"ETag", some .single, true, false, true⟩,
  ⟨"Early-Data", none, false, false, false⟩,
  ⟨"Expect", some .single, true, true, false⟩,
  ⟨"Expires", some .single, true, true, true⟩,
  ⟨"Ext", none, false, false, false⟩,
  ⟨"Forwarded", some .special, true, false, true⟩,
  ⟨"From", some .single, false, false, false⟩,
  ⟨"GetProfile", none, false, false, false⟩,
  ⟨"HTTP2-Settings", some .single, true, false, false⟩,
  ⟨"HTTPolice-Silence", some .multi, true, false, false⟩,
  ⟨"Hobareg", none, false, false, false⟩,
  ⟨"Host", some .single, true, true, false⟩,
  ⟨"IM", none, false, false, false⟩,
  ⟨"If", none, false, true, false⟩,
  ⟨"If-Match", some .multi, true, true, false⟩,
  ⟨"If-Modified-Since", some .single, true, true, false⟩,
  ⟨"If-None-Match", some .multi, true, true, false⟩,
  ⟨"If-Range", some .single, true, true, false⟩,
  ⟨"If-Schedule-Tag-Match", none, false, true, false⟩,
  ⟨"If-Unmodified-Since", some .single, true, true, false⟩,
  ⟨"Include-Referred-Token-Binding-ID", none, false, false, false⟩,
  ⟨"Keep-Alive", none, false, false, false⟩,
  ⟨"Label", none, false, false, false⟩,
  ⟨"Last-Modified", some .single, true, false, true⟩,
  ⟨"Link", some .multi, true, false, false⟩,
  ⟨"Location", some .single, true, true, false⟩,
  ⟨"Lock-Token", none, false, false, false⟩,
  ⟨"MIME-Version", none, false, false, false⟩,
  ⟨"Man", none, false, false, false⟩,
  ⟨"Max-Forwards", some .single, true, true, false⟩,
  ⟨"Memento-Datetime", none, false, false, false⟩,
  ⟨"Message-ID", none, false, false, false⟩,
  ⟨"Meter", none, false, false, false⟩,
  ⟨"Method-Check", none, false, false, false⟩,
  ⟨"Method-Check-Expires", none, false, false, false⟩,
  ⟨"Negotiate", none, false, false, false⟩,
  ⟨"Non-Compliance", none, false, false, false⟩,
  ⟨"Opt", none, false, false, false⟩,
  ⟨"Optional", none, false, false, false⟩,
  ⟨"Optional-WWW-Authenticate", none, false, false, false⟩,
  ⟨"Ordering-Type", none, false, false, false⟩,
  ⟨"Origin", some .single, true, true, true⟩,
  ⟨"Overwrite", none, false, false, false⟩,
  ⟨"P3P", none, false, false, false⟩,
  ⟨"PEP", none, false, false, false⟩,
  ⟨"PICS-Label", none, false, false, false⟩,
  ⟨"Pep-Info", none, false, false, false⟩,
  ⟨"Position", none, false, false, false⟩,
  ⟨"Pragma", some .multi, true, true, false⟩,
  ⟨"Prefer", some .special, true, false, false⟩,
  ⟨"Preference-Applied", some .special, true, false, false⟩,
  ⟨"ProfileObject", none, false, false, false⟩,
  ⟨"Protocol", none, false, false, false⟩,
  ⟨"Protocol-Info", none, false, false, false⟩,
  ⟨"Protocol-Query", none, false, false, false⟩,
  ⟨"Protocol-Request", none, false, false, false⟩,
  ⟨"Proxy-Authenticate", some .multi, true, false, false⟩,
  ⟨"Proxy-Authentication-Info", none, false, false, false⟩,
  ⟨"Proxy-Authorization", some .single, true, true, false⟩,
  ⟨"Proxy-Features", none, false, false, false⟩,
  ⟨"Proxy-Instruction", none, false, false, false⟩,
  ⟨"Public", none, false, false, false⟩,
  ⟨"Public-Key-Pins", none, false, false, false⟩,
  ⟨"Public-Key-Pins-Report-Only", none, false, false, false⟩,
  ⟨"Range", some .single, true, true, false⟩,
  ⟨"Redirect-Ref", none, false, false, false⟩,
  ⟨"Referer", some .single, true, false, false⟩,
  ⟨"Referer-Root", none, false, false, false⟩,
  ⟨"Replay-Nonce", none, false, false, false⟩,
  ⟨"Resolution-Hint", none, false, false, false⟩,
  ⟨"Resolver-Location", none, false, false, false⟩,
  ⟨"Retry-After", some .single, true, true, false⟩,
  ⟨"SLUG", none, false, false, false⟩,
  ⟨"Safe", none, false, false, false⟩,
  ⟨"Schedule-Reply", none, false, false, false⟩,
  ⟨"Schedule-Tag", none, false, false, false⟩,
  ⟨"Sec-Token-Binding", none, false, false, false⟩,
  ⟨"Sec-WebSocket-Accept", none, false, false, false⟩,
  ⟨"Sec-WebSocket-Extensions", none, false, false, false⟩,
  ⟨"Sec-WebSocket-Key", none, false, false, false⟩,
  ⟨"Sec-WebSocket-Protocol", none, false, false, false⟩,
  ⟨"Sec-WebSocket-Version", none, false, false, false⟩,
  ⟨"Security-Scheme", none, false, false, false⟩,
  ⟨"Server", some .single, true, false, false⟩,
  ⟨"Set-Cookie", none, false, false, false⟩,
  ⟨"Set-Cookie2", none, false, false, false⟩,
  ⟨"SetProfile", none, false, false, false⟩,
  ⟨"SoapAction", none, false, false, false⟩,
  ⟨"Status-URI", none, false, false, false⟩,
  ⟨"Strict-Transport-Security", some .special, true, false, false⟩,
  ⟨"SubOK", none, false, false, false⟩,
  ⟨"Subst", none, false, false, false⟩,
  ⟨"Sunset", none, false, false, false⟩,
  ⟨"Surrogate-Capability", none, false, false, false⟩,
  ⟨"Surrogate-Control", none, false, false, false⟩,
  ⟨"TCN", none, false, false, false⟩,
  ⟨"TE", some .multi, true, true, false⟩,
  ⟨"TTL", none, false, false, false⟩,
  ⟨"Timeout", none, false, false, false⟩,
  ⟨"Timing-Allow-Origin", none, false, false, false⟩,
  ⟨"Title", none, false, false, false⟩,
  ⟨"Topic", none, false, false, false⟩,
  ⟨"Traceparent", none, false, false, false⟩,
  ⟨"Tracestate", none, false, false, false⟩,
  ⟨"Trailer", some .multi, true, true, false⟩,
  ⟨"Transfer-Encoding", some .multi, true, true, false⟩,
  ⟨"UA-Color", none, false, false, false⟩,
  ⟨"UA-Media", none, false, false, false⟩,
  ⟨"UA-Pixels", none, false, false, false⟩,
  ⟨"UA-Resolution", none, false, false, false⟩,
  ⟨"UA-Windowpixels", none, false, false, false⟩,
  ⟨"URI", none, false, false, false⟩,
  ⟨"Upgrade", some .multi, true, false, false⟩,
  ⟨"Urgency", none, false, false, false⟩,
  ⟨"User-Agent", some .single, true, false, false⟩,
  ⟨"Variant-Vary", none, false, false, false⟩,
  ⟨"Vary", some .multi, true, true, true⟩,
  ⟨"Version", none, false, false, false⟩,
  ⟨"Via", some .multi, true, false, true⟩,
  ⟨"WWW-Authenticate", some .multi, true, false, true⟩,
  ⟨"Want-Digest", none, false, false, false⟩,
  ⟨"Warning", some .multi, true, true, true⟩,
  ⟨"X-ATT-DeviceId", none, false, false, false⟩,
  ⟨"X-Aspnet-Version", none, false, false, false⟩,
  ⟨"X-CSRF-Token", none, false, false, false⟩,
  ⟨"X-CSRFToken", none, false, false, false⟩,
  ⟨"X-Content-Duration", none, false, false, false⟩,
  ⟨"X-Content-Security-Policy", none, false, false, false⟩,
  ⟨"X-Content-Type-Options", some .single, true, true, true⟩,
  ⟨"X-Device-Accept", none, false, false, false⟩,
  ⟨"X-Device-Accept-Charset", none, false, false, false⟩,
  ⟨"X-Device-Accept-Encoding", none, false, false, false⟩,
  ⟨"X-Device-Accept-Language", none, false, false, false⟩,
  ⟨"X-Device-User-Agent", none, false, false, false⟩,
  ⟨"X-Firefox-SPDY", none, false, false, false⟩,
  ⟨"X-Forwarded-For", none, false, false, false⟩,
  ⟨"X-Forwarded-Host", none, false, false, false⟩,
  ⟨"X-Forwarded-Proto", none, false, false, false⟩,
  ⟨"X-Frame-Options", none, false, false, false⟩,
  ⟨"X-GitHub-Request-ID", none, false, false, false⟩,
  ⟨"X-HTTP-Method-Override", none, false, false, false⟩,
  ⟨"X-Powered-By", none, false, false, false⟩,
  ⟨"X-Real-IP", none, false, false, false⟩,
  ⟨"X-Requested-With", none, false, false, false⟩,
  ⟨"X-UA-Compatible", none, false, false, false⟩,
  ⟨"X-UIDH", none, false, false, false⟩,
  ⟨"X-Varnish", none, false, false, false⟩,
  ⟨"X-Wap-Profile", none, false, false, false⟩,
  ⟨"X-WebKit-CSP", none, false, false, false⟩,
  ⟨"X-XSRF-Token", none, false, false, false⟩,
  ⟨"X-XSS-Protection", none, false, false, false⟩]

end Httpolice.Model
