import Verif.Model.CheckBase
import Verif.Model.Comments
import Verif.Model.FetchModules
import Verif.Model.Rfc7232
import Verif.Model.Rfc7235
import Verif.Model.Rfc7838
import Verif.Model.Rfc8187
import Verif.Model.SmallModules
import Verif.Model.Views

/-!
# The checks with the grammars that they use

`Model/CheckBase.lean` has what parsing gives as parameters (`Grammars`, and `kind` in `Env`). Here they are made of the grammars in
httpolice/syntax, with the symbols from the table of headers.
-/

namespace Httpolice.Model

/-! ## Modules in memory -/

/-- A module that has been run: the names it had before (none, for Python), and the objects that had been made by then
(httpolice/parse.py 633-658). -/
structure Loaded (N : Type) where
  env : N → Sym
  heap : PyHeap

/-- The names of a module and the objects (httpolice/parse.py 633-658). -/
def Loaded.run {N : Type} [DecidableEq N] (l : Loaded N) (ds : List (N × Defn N)) : (N → Sym) × PyHeap := runDefs l.env l.heap ds

/-- `parse` for a symbol, with all objects that there are. A terminal is never given to it
(httpolice/parse.py 53-131). -/
def symParser (h : PyHeap) (ann : GVal → Bool) : Sym → SymParser
  | .nt k => fun data => innerParse h.grammar (pyOps ann) data k
  | .term _ _ => fun _ => .error .index

/-- All of httpolice/syntax as it is when something is checked: `final` are all objects, which were made by the modules in any order.
Modules that import from another have a copy of it here (`Model/Import.lean`), whereas Python has one of each; `order` is how
Python iterates over sets of integers; and `annotate` says which values are annotated (parse.py 722), which makes no difference to
anything here. -/
structure World where
  order : List Nat → List Nat
  annotate : GVal → Bool
  final : PyHeap
  hop : Loaded HopName
  sem : Loaded SemName
  lang : Loaded LangName
  uri : Loaded UriName
  comment : Loaded CommentName
  tag : Loaded TagName
  range : Loaded RangeName
  cache : Loaded CacheName
  auth : Loaded AuthName
  small : Loaded SmallName
  http2 : Loaded Http2Name
  fetch : Loaded FetchName
  authority : Loaded AuthorityName
  alt : Loaded AltName
  ext : Loaded ExtName
  link : Loaded LinkName

namespace World
variable (W : World)

/-- `parse` with a symbol (httpolice/parse.py 53-131). -/
def parser (s : Sym) : SymParser := symParser W.final W.annotate s

/-- The parser in `_check_alt_authority` (syntax/rfc7838.py 29). Here it has the objects that there were when its module had been run. -/
def altParser : AltParser :=
  symParser (W.authority.run authorityDefs).2 W.annotate ((W.authority.run authorityDefs).1 .whole)

/-- The parsers in `_process_params` (syntax/rfc8288.py 32-38); similarly. -/
def linkParser : LinkParser := fun s =>
  symParser (W.ext.run (extDefs W.order)).2 W.annotate ((W.ext.run (extDefs W.order)).1 s.name)

/-- Symbols of httpolice/syntax/rfc7230.py. -/
def hopSym : HopName → Sym := (W.hop.run (hopDefs W.order)).1
/-- Symbols of httpolice/syntax/rfc7231.py. -/
def semSym : SemName → Sym := (W.sem.run (semDefs W.order)).1
/-- Symbols of httpolice/syntax/rfc5646.py, rfc4647.py and rfc7231.py. -/
def langSym : LangName → Sym := (W.lang.run (langDefs W.order)).1
/-- Symbols of httpolice/syntax/rfc3986.py, rfc7230.py and rfc7231.py. -/
def uriSym : UriName → Sym := (W.uri.run uriDefs).1
/-- Symbols of httpolice/syntax/rfc7230.py, rfc7231.py and rfc7234.py. -/
def commentSym : CommentName → Sym := (W.comment.run (commentDefs W.order)).1
/-- Symbols of httpolice/syntax/rfc7232.py and rfc7233.py. -/
def tagSym : TagName → Sym := (W.tag.run tagDefs).1
/-- Symbols of httpolice/syntax/rfc7233.py. -/
def rangeSym : RangeName → Sym := (W.range.run (rangeDefs W.order)).1
/-- Symbols of httpolice/syntax/rfc7234.py. -/
def cacheSym : CacheName → Sym := (W.cache.run (cacheDefs W.order)).1
/-- Symbols of httpolice/syntax/rfc7235.py. -/
def authSym : AuthName → Sym := (W.auth.run authDefs).1
/-- Symbols of httpolice/syntax/rfc7240.py, rfc6797.py, internal.py, rfc5789.py and w3c_ldp.py. -/
def smallSym : SmallName → Sym := (W.small.run (smallDefs W.order)).1
/-- Symbols of httpolice/syntax/rfc7540.py. -/
def http2Sym : Http2Name → Sym := (W.http2.run http2Defs).1
/-- Symbols of httpolice/syntax/rfc7239.py, whatwg_fetch.py and rfc6749.py. -/
def fetchSym : FetchName → Sym := (W.fetch.run (fetchDefs W.order)).1
/-- Symbols of httpolice/syntax/rfc7838.py. -/
def altSym : AltName → Sym := (W.alt.run (altDefs W.order W.altParser)).1
/-- Symbols of httpolice/syntax/rfc8187.py and rfc6266.py. -/
def extSym : ExtName → Sym := (W.ext.run (extDefs W.order)).1
/-- Symbols of httpolice/syntax/rfc8288.py. -/
def linkSym : LinkName → Sym := (W.link.run (linkDefs W.linkParser)).1

/-! ## The table of headers -/

/-- A header without arguments (httpolice/known/__init__.py 155-180). -/
def plain (key : String) (s : Sym) : String × HeaderKind GVal := (key, knownKind key (W.parser s) plainProcess)

/-- Preferences (known/preference.csv). -/
def preferences : Str → ArgRule := argRule asciiLower
  (preferRules (W.parser (W.smallSym .handling)) (W.parser (W.smallSym .return_)) (W.parser (W.smallSym .wait)))

/-- The headers with a syntax (`key`, `syntax_module` and `syntax_symbol` in known/header.csv), with the views for those where
`rule` is `special` (header.py 47-69). -/
def kinds : List (String × HeaderKind GVal) := [
  W.plain "Accept" (W.semSym .accept),
  W.plain "Accept-Charset" (W.semSym .acceptCharset),
  W.plain "Accept-Encoding" (W.semSym .acceptEncoding),
  W.plain "Accept-Language" (W.langSym .acceptLanguage),
  W.plain "Accept-Patch" (W.smallSym .acceptPatch),
  W.plain "Accept-Post" (W.smallSym .acceptPost),
  W.plain "Accept-Ranges" (W.rangeSym .acceptRanges),
  W.plain "Access-Control-Allow-Credentials" (W.fetchSym .allowCredentials),
  W.plain "Access-Control-Allow-Headers" (W.fetchSym .allowHeaders),
  W.plain "Access-Control-Allow-Methods" (W.fetchSym .allowMethods),
  W.plain "Access-Control-Allow-Origin" (W.fetchSym .allowOrigin),
  W.plain "Access-Control-Expose-Headers" (W.fetchSym .exposeHeaders),
  W.plain "Access-Control-Max-Age" (W.fetchSym .maxAge),
  W.plain "Access-Control-Request-Headers" (W.fetchSym .requestHeaders),
  W.plain "Access-Control-Request-Method" (W.fetchSym .requestMethod),
  W.plain "Age" (W.cacheSym .age),
  W.plain "Allow" (W.semSym .allow),
  ("Alt-Svc", knownKind "Alt-Svc" (W.parser (W.altSym .altSvc)) (altProcess (argRule id
    (altRules (W.parser (W.altSym .ma)) (W.parser (W.altSym .persist)))))),
  W.plain "Alt-Used" (W.altSym .altUsed),
  W.plain "Authorization" (W.authSym .authorization),
  ("Cache-Control", knownKind "Cache-Control" (W.parser (W.cacheSym .cacheControl)) (cacheProcess (argRule asciiLower
    (cacheRules (W.parser (W.cacheSym .deltaSeconds)) (W.parser (W.cacheSym .noCache)) (W.parser (W.cacheSym .private_))))
    cacheForm)),
  W.plain "Connection" (W.hopSym .connection),
  W.plain "Content-Disposition" (W.extSym .contentDisposition),
  W.plain "Content-Encoding" (W.semSym .contentEncoding),
  W.plain "Content-Language" (W.langSym .contentLanguage),
  W.plain "Content-Length" (W.hopSym .contentLength),
  W.plain "Content-Location" (W.uriSym .contentLocation),
  W.plain "Content-Range" (W.rangeSym .contentRange),
  W.plain "Content-Type" (W.semSym .contentType),
  W.plain "Cross-Origin-Resource-Policy" (W.fetchSym .resourcePolicy),
  W.plain "Date" (W.semSym .dateHeader),
  W.plain "ETag" (W.tagSym .etag),
  W.plain "Expect" (W.semSym .expect),
  W.plain "Expires" (W.cacheSym .expires),
  ("Forwarded", knownKind "Forwarded" (W.parser (W.fetchSym .forwarded)) (forwardedProcess (argRule asciiLower
    (forwardedRules (W.parser (W.fetchSym .node)) (W.parser (W.fetchSym (.uri .hostHeader)))
      (W.parser (W.fetchSym (.uri .scheme))))))),
  W.plain "HTTP2-Settings" (W.http2Sym .http2Settings),
  W.plain "HTTPolice-Silence" (W.smallSym .silence),
  W.plain "Host" (W.uriSym .hostHeader),
  W.plain "If-Match" (W.tagSym .ifMatch),
  W.plain "If-Modified-Since" (W.tagSym .ifModifiedSince),
  W.plain "If-None-Match" (W.tagSym .ifNoneMatch),
  W.plain "If-Range" (W.tagSym .ifRange),
  W.plain "If-Unmodified-Since" (W.tagSym .ifUnmodifiedSince),
  W.plain "Last-Modified" (W.tagSym .lastModified),
  W.plain "Link" (W.linkSym .link),
  W.plain "Location" (W.uriSym .location),
  W.plain "Max-Forwards" (W.semSym .maxForwards),
  W.plain "Origin" (W.fetchSym .originHeader),
  W.plain "Pragma" (W.cacheSym .pragma),
  ("Prefer", knownKind "Prefer" (W.parser (W.smallSym .prefer)) (preferProcess W.preferences)),
  ("Preference-Applied", knownKind "Preference-Applied" (W.parser (W.smallSym .preferenceApplied)) (argumentsProcess W.preferences)),
  W.plain "Proxy-Authenticate" (W.authSym .proxyAuthenticate),
  W.plain "Proxy-Authorization" (W.authSym .proxyAuthorization),
  W.plain "Range" (W.rangeSym .range),
  W.plain "Referer" (W.uriSym .referer),
  W.plain "Retry-After" (W.semSym .retryAfter),
  W.plain "Server" (W.commentSym .server),
  ("Strict-Transport-Security", knownKind "Strict-Transport-Security" (W.parser (W.smallSym .hsts)) (argumentsProcess
    (argRule asciiLower (hstsRules (W.parser (W.smallSym .maxAge)))))),
  W.plain "TE" (W.hopSym .te),
  W.plain "Trailer" (W.hopSym .trailer),
  W.plain "Transfer-Encoding" (W.hopSym .transferEncoding),
  W.plain "Upgrade" (W.hopSym .upgrade),
  W.plain "User-Agent" (W.commentSym .userAgent),
  W.plain "Vary" (W.semSym .vary),
  W.plain "Via" (W.commentSym .via),
  W.plain "WWW-Authenticate" (W.authSym .wwwAuthenticate),
  W.plain "Warning" (W.commentSym .warning),
  W.plain "X-Content-Type-Options" (W.fetchSym .contentTypeOptions)]

/-- `known.header.syntax_for(name)` (known/__init__.py 56-65, header.py 132, 138-149). Without a syntax the value is the raw one. -/
def kind (lower : Str → Str) (name : Str) : HeaderKind GVal :=
  match W.kinds.find? fun r => lower (str r.1) == lower name with
  | some r => r.2
  | none => ⟨false, fun e => (.single (.text e.value), [])⟩

end World

/-! ## Values as the checks see them -/

/-- `datetime(...)` in seconds (`toordinal` counts days from 1) (httpolice/syntax/rfc7231.py 103-106). -/
def dateSeconds : GVal → Option DateTime
  | .obj cls [.int y, .int m, .int d, .int h, .int mi, .int s] =>
    if cls = str "datetime" then
      some ((pyDaysBeforeYear y.toNat + pyDaysBeforeMonth y.toNat m.toNat + d.toNat - 1) * 86400 +
        h.toNat * 3600 + mi.toNat * 60 + s.toNat)
    else none
  | _ => none

/-- A whole number (httpolice/parse.py 661-680). -/
def wholeNumber : GVal → Option Nat
  | .int n => some n.toNat
  | _ => none

/-- A name without what belongs to it (`Parametrized`, `Versioned`) (httpolice/structure.py 56-73, 133-140). -/
def itemOf : GVal → GVal
  | .obj _ [a, _] => a
  | v => v

/-- What belongs to it (httpolice/structure.py 56-73, 133-140). -/
def partOf : GVal → GVal
  | .obj _ [_, b] => b
  | _ => .none

/-- `isinstance(v, str)` or `None` (httpolice/structure.py 143-150). -/
def textOrNone : GVal → Option Str
  | .none => none
  | v => some (strText v)

/-- The entries of a `MultiDict`, with their values as text. Encoded values in Content-Disposition are not looked into: they come out
as empty (httpolice/structure.py 76-131). -/
def dictPairs : GVal → List (Str × Str)
  | .obj _ [.list l] => l.map fun v => (strText (unpackPair v |>.map Prod.fst |>.getD .none),
      strText (unpackPair v |>.map Prod.snd |>.getD .none))
  | _ => []

/-- `EntityTag` (structure.py 293-302). -/
def entityTagOf : GVal → Option EntityTag
  | .obj cls [.obj weak [], .text s] => if cls = str "EntityTag" then some ⟨weak = str "True", s⟩ else none
  | _ => none

/-- Digits after the point, in thousandths (httpolice/syntax/rfc7231.py 188-192). -/
def fractionOf : List Nat → Str → Nat
  | w :: ws, c :: ds => w * (c - 48) + fractionOf ws ds
  | _, _ => 0

/-- `float(s)` in thousandths, for a weight (at most three digits after the point)
(httpolice/syntax/rfc7231.py 188-192). -/
def thousandths : Str → Nat
  | c :: 46 :: ds => 1000 * (c - 48) + fractionOf [100, 10, 1] ds
  | c :: _ => 1000 * (c - 48)
  | [] => 0

/-- The second part of an element of `Accept` and others: a weight, nothing, or a dictionary with a weight as `q`
(request.py 440-443). -/
def weightOf : GVal → Option Nat
  | .obj cls [.text s] => if cls = str "float" then some (thousandths s) else none
  | .obj _ [.list l] => match l.find? fun v => strText (unpackPair v |>.map Prod.fst |>.getD .none) == str "q" with
    | some v => match unpackPair v with
      | some (_, .obj _ [.text s]) => some (thousandths s)
      | _ => none
    | none => none
  | _ => none

/-- A processed argument (header.py 340-355). -/
def argumentOf {A : Type} (f : GVal → Option A) : GVal → ArgVal A
  | .none => .none
  | .text s => .raw s
  | .obj cls args => if cls = str "Unavailable" then .unavailable (strText (.obj cls args))
    else match f (.obj cls args) with
      | some a => .parsed a
      | none => .none
  | v => match f v with
    | some a => .parsed a
    | none => .none

/-- The argument of a cache directive (httpolice/header.py 373-393). -/
def cacheArgOf : GVal → Option CacheArg
  | .int n => some (.num n.toNat)
  | .list l => some (.names (l.map strText))
  | _ => none

/-- The argument of a preference (httpolice/header.py 421-443). -/
def prefArgOf : GVal → Option PrefArg
  | .int n => some (.num n.toNat)
  | .obj cls args => some (.word (strText (.obj cls args)))
  | _ => none

/-- What follows the scheme of a challenge or of credentials (httpolice/syntax/rfc7235.py 25-44). -/
def authParamsOf : GVal → AuthParams
  | .text s => .token68 s
  | v => .params (dictPairs v)

/-- `PragmaValue` (syntax/rfc7234.py 37-44). -/
def pragmaOf : GVal → PragmaValue
  | .obj _ [n, _] => .extension (strText n)
  | _ => .noCache

/-- `WarningValue` (structure.py 338-352). -/
def warningOf : GVal → WarningValue
  | .obj _ [.obj _ [.int n], _, _, .none] => ⟨n.toNat, .none⟩
  | .obj _ [.obj _ [.int n], _, _, d] => ⟨n.toNat, match dateSeconds d with | some t => .val t | none => .unavailable⟩
  | _ => ⟨0, .none⟩

/-- An element of `HTTPolice-Silence` (syntax/internal.py). -/
def silenceOf : GVal → Nat × Bool
  | .tuple [.int n, .none] => (n.toNat, false)
  | .tuple [.int n, _] => (n.toNat, true)
  | _ => (0, false)

/-- `RangeSpecifier` (structure.py 305-310), with `len(ranges)`. -/
def rangeOf : GVal → Option (Str × Nat)
  | .obj _ [u, .list l] => some (strText u, l.length)
  | .obj _ [u, .text s] => some (strText u, s.length)
  | _ => none

/-- An element of `User-Agent` (httpolice/syntax/rfc7231.py 40-47). -/
def productOf : GVal → Option Str
  | .obj _ [n, _] => some (strText n)
  | _ => none

/-- `If-Range` (httpolice/syntax/rfc7233.py 71). -/
def ifRangeOf (v : GVal) : Option IfRange :=
  match entityTagOf v with
  | some t => some (.tag t)
  | none => (dateSeconds v).map .date

/-- The value of an entry of a `single` header; `none` if it is not available (httpolice/header.py 282-295). -/
def oneOf {A : Type} (f : GVal → Option A) : Parsed GVal → Option A
  | .single v => f v
  | .list l => f (.list l)
  | .unavailable _ => none

/-- The elements of an entry of a list header (httpolice/header.py 298-325). -/
def someOf {A : Type} (f : GVal → A) : Parsed GVal → Parsed A
  | .single v => .single (f v)
  | .list l => .list (l.map f)
  | .unavailable s => .unavailable s

/-- The elements of a list (httpolice/header.py 298-325). -/
def listOf {A : Type} (f : GVal → A) : GVal → Option (List A)
  | .list l => some (l.map f)
  | _ => none

/-- The header with this key in the table (httpolice/known/__init__.py 155-180). -/
def World.byKey (W : World) (key : String) : HeaderKind GVal :=
  match W.kinds.find? fun r => r.1 == key with
  | some r => r.2
  | none => ⟨false, fun e => (.single (.text e.value), [])⟩

/-- The value of an entry of the header with this key (httpolice/header.py 128-153). -/
def World.read (W : World) (key : String) (e : Entry) : Parsed GVal := ((W.byKey key).parse e).1

/-- The value of an entry of one of several headers, by its name (httpolice/header.py 128-153). -/
def World.readAny (W : World) (lower : Str → Str) (keys : List String) (default : String) (name : Str) (e : Entry) : Parsed GVal :=
  W.read ((keys.find? fun k => lower (str k) == lower name).getD default) e

/-- What the grammars make of entries, for the checks. `Link` is as before (it may raise exceptions, C79)
(httpolice/header.py 128-153). -/
def World.grammars (W : World) (lower : Str → Str) (link : Entry → Parsed LinkRel) : Grammars where
  age e := oneOf wholeNumber (W.read "Age" e)
  contentDisposition e := oneOf (fun v => some (dictPairs (partOf v))) (W.read "Content-Disposition" e)
  contentLocation e := oneOf textOrNone (W.read "Content-Location" e)
  contentLength e := oneOf wholeNumber (W.read "Content-Length" e)
  contentType e := oneOf (fun v => some (strText (itemOf v), dictPairs (partOf v))) (W.read "Content-Type" e)
  date e := oneOf dateSeconds (W.readAny lower ["Expires", "If-Modified-Since", "If-Unmodified-Since", "Last-Modified"] "Date"
    e.name e)
  etag e := oneOf entityTagOf (W.read "ETag" e)
  expect e := oneOf textOrNone (W.read "Expect" e)
  host e := oneOf textOrNone (W.read "Host" e)
  http2Settings e := oneOf textOrNone (W.read "HTTP2-Settings" e)
  ifRange e := oneOf ifRangeOf (W.read "If-Range" e)
  location e := oneOf textOrNone (W.read "Location" e)
  range e := oneOf rangeOf (W.read "Range" e)
  referer e := oneOf textOrNone (W.read "Referer" e)
  authorization e := oneOf (fun v => some (strText (itemOf v), authParamsOf (partOf v)))
    (W.readAny lower ["Proxy-Authorization"] "Authorization" e.name e)
  strictTransportSecurity e := oneOf (listOf fun v => (strText (itemOf v), argumentOf wholeNumber (partOf v)))
    (W.read "Strict-Transport-Security" e)
  userAgent e := oneOf (listOf productOf) (W.read "User-Agent" e)
  accept name e := someOf (fun v => (strText (itemOf (itemOf v)), weightOf (partOf v)))
    (W.readAny lower ["Accept-Charset", "Accept-Encoding", "Accept-Language"] "Accept" name e)
  acceptPatch e := someOf (fun v => strText (itemOf v)) (W.read "Accept-Patch" e)
  allow e := someOf strText (W.read "Allow" e)
  cacheControl e := someOf (fun v => (strText (itemOf v), argumentOf cacheArgOf (partOf v))) (W.read "Cache-Control" e)
  connection e := someOf strText (W.read "Connection" e)
  httpoliceSilence e := someOf silenceOf (W.read "HTTPolice-Silence" e)
  ifMatch e := someOf (fun v => (entityTagOf v).getD ⟨false, strText v⟩) (W.readAny lower ["If-None-Match"] "If-Match" e.name e)
  link := link
  pragma e := someOf pragmaOf (W.read "Pragma" e)
  prefer e := someOf (fun v => (strText (itemOf (itemOf v)), argumentOf prefArgOf (partOf (itemOf v)))) (W.read "Prefer" e)
  preferenceApplied e := someOf (fun v => (strText (itemOf v), argumentOf prefArgOf (partOf v))) (W.read "Preference-Applied" e)
  te e := someOf (fun v => strText (itemOf (itemOf v))) (W.read "TE" e)
  trailer e := someOf strText (W.read "Trailer" e)
  transferEncoding e := someOf (fun v => strText (itemOf v)) (W.read "Transfer-Encoding" e)
  upgrade e := someOf (fun v => (strText (itemOf v), textOrNone (partOf v))) (W.read "Upgrade" e)
  vary e := someOf strText (W.read "Vary" e)
  warning e := someOf warningOf (W.read "Warning" e)
  challenge e := someOf (fun v => (strText (itemOf v), authParamsOf (partOf v)))
    (W.readAny lower ["Proxy-Authenticate"] "WWW-Authenticate" e.name e)

/-- The kind of value alone (httpolice/header.py 298-325). -/
def shapeOf : Parsed GVal → Parsed Unit
  | .list l => .list (l.map fun _ => ())
  | .single _ => .single ()
  | .unavailable s => .unavailable s

/-- `parse(text, rfc6749.x)` succeeds (response.py 591-604). -/
def World.oauth (W : World) (name s : Str) : Bool :=
  match [(str "scope", FetchName.scope), (str "error", .error), (str "error_description", .errorDescription),
      (str "error_uri", .errorUri)].lookup name with
  | some n => match W.parser (W.fetchSym n) s with
    | .ok _ => true
    | .error _ => false
  | none => false

/-- The checks' surroundings with these grammars; all else is as it was (httpolice/header.py 128-153). -/
def World.env (W : World) (base : Env) : Env :=
  { base with
    grammars := W.grammars base.lower base.grammars.link
    kind := fun name e =>
      let r := (W.kind base.lower name).parse e
      (shapeOf r.1, r.2)
    oauthSyntax := W.oauth }

end Httpolice.Model
