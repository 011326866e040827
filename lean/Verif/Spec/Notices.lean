import Verif.Spec.Checks

/-!
# Vocabulary for stating when a notice is reported

Everything is read off the raw header entries of a message.
-/

namespace Httpolice.Spec

open Httpolice.Model

/-- Headers that are ignored in trailers (those with `bad_for_trailer` in known/header.csv), as far as
the statements here mention them. -/
def notInTrailers : List String := [
  "Age", "Authorization", "Cache-Control", "Content-Encoding", "Content-Length", "Content-Range",
  "Content-Type", "Date", "Expect", "Expires", "Host", "If-Match", "If-Modified-Since",
  "If-None-Match", "If-Range", "If-Unmodified-Since", "Location", "Max-Forwards", "Pragma",
  "Proxy-Authorization", "Range", "Retry-After", "TE", "Trailer", "Transfer-Encoding", "Vary",
  "Warning"]

/-- The entries in which a header is looked for: the header section, and the trailers unless the header
is ignored there. -/
def fieldsFor (m : Msg) (name : String) : List Entry :=
  m.headers ++ if name ∈ notInTrailers then [] else m.trailers

/-- The message has the header. -/
def Has (E : Env) (m : Msg) (name : String) : Prop := ∃ e ∈ fieldsFor m name, HasName E e name

/-- The last entry of a header, if it is well-formed. -/
def LastOf {V : Type} (E : Env) (m : Msg) (name : String) (parse : Entry → Option V) (v : V) : Prop :=
  ∃ a e b, fieldsFor m name = a ++ e :: b ∧ HasName E e name ∧ (∀ x ∈ b, ¬HasName E x name) ∧
    parse e = some v

/-- An element of a list header, in any of its entries. -/
def Listed {V : Type} (E : Env) (m : Msg) (name : String) (parse : Entry → Parsed V) (x : V) : Prop :=
  ∃ e ∈ fieldsFor m name, HasName E e name ∧ ∃ l, parse e = .list l ∧ x ∈ l

/-- The text is the word, in any case. -/
def IsWord (E : Env) (x : Str) (word : String) : Prop := E.lower x = asciiLower (str word)

/-- The message has the connection option. -/
def HasOption (E : Env) (m : Msg) (option : String) : Prop :=
  ∃ o, Listed E m "Connection" E.grammars.connection o ∧ IsWord E o option

/-- The body is known and not empty, or it is known that there is one. -/
def HasContent : PyVal Str → Prop
  | .none => False
  | .unavailable => True
  | .val s => s ≠ []

/-- A status in the range from `100 * n` to `100 * n + 99`. -/
def StatusClass (r : Response) (n : Int) : Prop := 100 * n ≤ r.status ∧ r.status ≤ 100 * n + 99

/-- Protocol versions. -/
def Version (m : Message) (v : String) : Prop := m.version = some (str v)

/-- Headers that only make sense in responses. -/
def responseHeaders : List String := [
  "Accept-Patch", "Accept-Post", "Accept-Ranges", "Access-Control-Allow-Credentials",
  "Access-Control-Allow-Headers", "Access-Control-Allow-Methods", "Access-Control-Allow-Origin",
  "Access-Control-Expose-Headers", "Access-Control-Max-Age", "Age", "Allow", "Alt-Svc",
  "Content-Disposition", "Content-Range", "Cross-Origin-Resource-Policy", "ETag", "Expires",
  "Last-Modified", "Location", "Preference-Applied", "Proxy-Authenticate", "Retry-After",
  "Server", "Strict-Transport-Security", "Vary", "WWW-Authenticate", "X-Content-Type-Options"]

/-- Headers that only make sense in requests. -/
def requestHeaders : List String := [
  "Accept", "Accept-Charset", "Accept-Language", "Access-Control-Request-Headers",
  "Access-Control-Request-Method", "Alt-Used", "Authorization", "Expect", "Forwarded", "From",
  "HTTP2-Settings", "Host", "If-Match", "If-Modified-Since", "If-None-Match", "If-Range",
  "If-Unmodified-Since", "Max-Forwards", "Origin", "Prefer", "Proxy-Authorization", "Range",
  "Referer", "TE", "User-Agent"]

/-- Headers that are conditions on which a server performs a request. -/
def preconditions : List String := [
  "If", "If-Match", "If-Modified-Since", "If-None-Match", "If-Schedule-Tag-Match",
  "If-Unmodified-Since", "Overwrite"]

/-- Headers by which a client says which representations it prefers. -/
def negotiation : List String := [
  "Accept", "Accept-Charset", "Accept-Encoding", "Accept-Language"]

/-- Headers that describe the representation in the body. -/
def describing : List String := [
  "Content-Disposition", "Content-Encoding", "Content-Language", "Content-Location",
  "Content-Type", "ETag", "Last-Modified"]

/-- The message has one of the headers, perhaps in the trailers. -/
def Carries (E : Env) (m : Msg) (names : List String) : Prop :=
  ∃ e ∈ m.headers ++ m.trailers, ∃ name ∈ names, HasName E e name

/-- The method is one of these. -/
def IsMethod (req : Request) (names : List String) : Prop := ∃ n ∈ names, req.method = str n

/-- Methods that give a meaning to a body. -/
def methodsWithBody : List String := ["PATCH", "POST", "PROPFIND", "PUT"]

/-- Methods that give no meaning to a body. -/
def methodsWithoutBody : List String := ["CONNECT", "DELETE", "GET", "HEAD", "TRACE"]

/-- Methods that do not change anything on the server. -/
def safeMethods : List String := ["GET", "HEAD", "OPTIONS", "PRI", "PROPFIND", "REPORT", "SEARCH", "TRACE"]

/-- Methods with responses that can be cached. -/
def cacheableMethods : List String := ["GET", "HEAD", "POST"]

/-- Methods with responses that cannot be cached. -/
def uncacheableMethods : List String := ["CONNECT", "DELETE", "OPTIONS", "PATCH", "PUT", "TRACE"]

/-- The elements of `Cache-Control`, in all of its entries. -/
def cacheDirectives (E : Env) (m : Msg) : List (Str × ArgVal CacheArg) :=
  ((fieldsFor m "Cache-Control").filter fun e =>
    decide (E.lower e.name = asciiLower (str "Cache-Control"))).flatMap fun e =>
      match E.grammars.cacheControl e with
      | .list l => l
      | _ => []

/-- The argument of the first directive of that name. -/
def FirstDirective (E : Env) (m : Msg) (name : String) (a : ArgVal CacheArg) : Prop :=
  ∃ l d l', cacheDirectives E m = l ++ (d, a) :: l' ∧ IsWord E d name ∧
    ∀ x ∈ l, ¬IsWord E x.1 name

/-- The argument of a directive does not cancel it: it is not zero or empty. -/
def ArgStands : ArgVal CacheArg → Prop
  | .raw s => s ≠ []
  | .parsed (.num n) => n ≠ 0
  | .parsed (.names l) => l ≠ []
  | _ => True

/-- The directive is given. -/
def Directs (E : Env) (m : Msg) (name : String) : Prop :=
  ∃ a, FirstDirective E m name a ∧ ArgStands a

/-- The directive is given without restricting it to some fields. -/
def DirectsFully (E : Env) (m : Msg) (name : String) : Prop :=
  FirstDirective E m name .none ∨ FirstDirective E m name (.parsed (.names [])) ∨
    FirstDirective E m name (.parsed (.num 1))

/-- The message has a warning with the code. -/
def Warns (E : Env) (m : Msg) (code : Nat) : Prop :=
  ∃ w, Listed E m "Warning" E.grammars.warning w ∧ w.code = code

/-- The last `Content-Type` has the media type. -/
def HasMediaType (E : Env) (m : Msg) (media : String) : Prop :=
  ∃ ct, LastOf E m "Content-Type" E.grammars.contentType ct ∧ IsWord E ct.1 media

/-- The request is known to have no body. -/
def NoBody (E : Env) (req : Request) : Prop :=
  ¬HasContent req.body ∧ (Version req.toMessage "HTTP/1.0" ∨ Version req.toMessage "HTTP/1.1") ∧
    ¬Has E req.fields "Content-Length" ∧ ¬Has E req.fields "Transfer-Encoding"

/-- The pragma `no-cache`. -/
def IsNoCache : PragmaValue → Prop
  | .noCache => True
  | .extension n => n = str "no-cache"

/-- The `i`-th response, for which something holds. -/
def OnResponse (ex : Exchange) (i : Nat) (P : Response → Prop) : Prop :=
  ∃ r, ex.responses[i]? = some r ∧ P r

/-- The request, for which something holds. -/
def OnRequest (ex : Exchange) (P : Request → Prop) : Prop := ∃ req, ex.request = some req ∧ P req

/-- The `i`-th response and the request. -/
def OnAnswer (ex : Exchange) (i : Nat) (P : Response → Request → Prop) : Prop :=
  ∃ r req, ex.responses[i]? = some r ∧ ex.request = some req ∧ P r req

/-- The elements of a list header in all of its entries, in order, with `none` for a malformed entry. -/
def ListItems {V : Type} (E : Env) (m : Msg) (name : String) (parse : Entry → Parsed V) : List (Option V) :=
  ((fieldsFor m name).filter fun e => decide (E.lower e.name = asciiLower (str name))).flatMap fun e =>
    match parse e with
    | .list l => l.map some
    | _ => [none]

/-- No entry of the header is a value that cannot be in a list (`*`). -/
def Unmixed {V : Type} (E : Env) (m : Msg) (name : String) (parse : Entry → Parsed V) : Prop :=
  ∀ e ∈ fieldsFor m name, HasName E e name → ∀ v, parse e ≠ .single v

/-- The only entry of the header is a value that cannot be in a list. -/
def SoleValue {V : Type} (E : Env) (m : Msg) (name : String) (parse : Entry → Parsed V) (v : V) : Prop :=
  ∃ a e b, fieldsFor m name = a ++ e :: b ∧ HasName E e name ∧ parse e = .single v ∧
    ∀ x ∈ a ++ b, ¬HasName E x name

/-- A name of a header in the message, as first spelled. -/
def FirstSpelled (E : Env) (m : Msg) (n : Str) : Prop :=
  ∃ a e b, m.headers ++ m.trailers = a ++ e :: b ∧ e.name = n ∧ ∀ x ∈ a, E.lower x.name ≠ E.lower n

/-- Headers that concern more than one connection, hence make no sense as connection options. -/
def endToEnd : List String := [
  "Access-Control-Allow-Credentials", "Access-Control-Allow-Headers",
  "Access-Control-Allow-Methods", "Access-Control-Allow-Origin", "Access-Control-Expose-Headers",
  "Access-Control-Max-Age", "Access-Control-Request-Headers", "Access-Control-Request-Method", "Age",
  "Authorization", "Cache-Control", "Content-Encoding", "Content-Language", "Content-Range",
  "Cross-Origin-Resource-Policy", "ETag", "Expires", "Forwarded", "Last-Modified", "Origin", "Vary",
  "Via", "WWW-Authenticate", "Warning", "X-Content-Type-Options"]

/-- Headers that are not to be used any more. -/
def deprecatedHeaders : List String := [
  "Access-Control", "Content-Base", "Cookie2", "Method-Check", "Method-Check-Expires", "Referer-Root",
  "Set-Cookie2"]

/-- The name is one of the 223 in known/header.csv. -/
def IsKnownName (E : Env) (name : Str) : Prop := ∃ r ∈ headerFlags, IsWord E name r.key

/-- Two of the names are the same up to case. -/
def Repeats (E : Env) (names : List Str) : Prop := ¬(names.map E.lower).Nodup

/-- There is a parameter of that name. -/
def HasParam (E : Env) (ps : List (Str × Str)) (name : String) : Prop := ∃ p ∈ ps, IsWord E p.1 name

/-- The value of the first parameter of that name. -/
def FirstParam (E : Env) (ps : List (Str × Str)) (name : String) (v : Str) : Prop :=
  ∃ l n l', ps = l ++ (n, v) :: l' ∧ IsWord E n name ∧ ∀ x ∈ l, ¬IsWord E x.1 name

/-- A `token`: letters, digits and some punctuation. -/
def TokenText (s : Str) : Prop :=
  s ≠ [] ∧ ∀ c ∈ s, (65 ≤ c ∧ c ≤ 90) ∨ (97 ≤ c ∧ c ≤ 122) ∨ (48 ≤ c ∧ c ≤ 57) ∨ c ∈ str "!#$%&'*+-.^_`|~"

/-- The message on which a notice would be reported, for which something holds. -/
def OnMessage (ex : Exchange) (t : Target) (P : Message → Prop) : Prop :=
  match t with
  | .req => OnRequest ex fun req => P req.toMessage
  | .resp i => OnResponse ex i fun r => P r.toMessage
  | .exch => False

/-- As `OnMessage`, but leaving out 103 (Early Hints) responses. -/
def OnSettled (ex : Exchange) (t : Target) (P : Message → Prop) : Prop :=
  match t with
  | .req => OnRequest ex fun req => P req.toMessage
  | .resp i => OnResponse ex i fun r => r.status ≠ 103 ∧ P r.toMessage
  | .exch => False

/-- The message is at that place in the exchange. -/
def InExchange (ex : Exchange) (t : Target) (msg : Message) : Prop := OnMessage ex t fun m => m = msg

/-- A proxy says that it transformed the message: by a warning, or by 203 (Non-Authoritative
Information). -/
def Transformed (E : Env) (ex : Exchange) (t : Target) : Prop :=
  match t with
  | .req => OnRequest ex fun req => Warns E req.fields 214
  | .resp i => OnResponse ex i fun r => r.status ≠ 103 ∧ (r.status = 203 ∨ Warns E r.fields 214)
  | .exch => False

/-- What is assumed of the functions outside of the checks: `str.lower` on ASCII, and that headers
other than those with `*` or `clear` as a value always give lists. -/
structure Sensible (E : Env) : Prop where
  lower : LowersAscii E.lower
  acceptPatch : ∀ e v, E.grammars.acceptPatch e ≠ .single v
  accept : ∀ n e v, E.grammars.accept n e ≠ .single v
  allow : ∀ e v, E.grammars.allow e ≠ .single v
  cacheControl : ∀ e v, E.grammars.cacheControl e ≠ .single v
  connection : ∀ e v, E.grammars.connection e ≠ .single v
  silence : ∀ e v, E.grammars.httpoliceSilence e ≠ .single v
  link : ∀ e v, E.grammars.link e ≠ .single v
  pragma : ∀ e v, E.grammars.pragma e ≠ .single v
  prefer : ∀ e v, E.grammars.prefer e ≠ .single v
  preferenceApplied : ∀ e v, E.grammars.preferenceApplied e ≠ .single v
  te : ∀ e v, E.grammars.te e ≠ .single v
  trailer : ∀ e v, E.grammars.trailer e ≠ .single v
  transferEncoding : ∀ e v, E.grammars.transferEncoding e ≠ .single v
  upgrade : ∀ e v, E.grammars.upgrade e ≠ .single v
  warning : ∀ e v, E.grammars.warning e ≠ .single v
  challenge : ∀ e v, E.grammars.challenge e ≠ .single v

end Httpolice.Spec
