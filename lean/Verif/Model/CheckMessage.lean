import Verif.Model.CheckBase

/-!
# Model of `check_message` (httpolice/message.py 255-352) and of `check_request`
(httpolice/request.py 201-456)

Reading a derived property again reports nothing new (`Blackboard.complain` ignores repeated
complaints, and see C53), so a function that reads a derived property simply includes what the
property reports.
-/

namespace Httpolice.Model

/-- `Message.transformed_by_proxy` (message.py 243-248). -/
def messageTransformed (E : Env) (t : Target) (m : Msg) : Option Bool × List Act :=
  if E.hasWarning m 214 then (some true, say t 1189) else (none, [])

/-- The loop of message.py 261-274 over the headers of a message. The notice of the field name
grammar has the exception in its context. -/
def checkHeaders (E : Env) (t : Target) (m : Msg) : List Act :=
  inOrder [
    each (E.names m) fun n => inOrder [
      whenever (!isToken n) (say t 1293 [("header", .header (E.lower n)),
        ("place", .text (str "field name")), ("error", .other)]),
      each (E.viewNotes m n) (sayNote t),
      whenever (E.isDeprecated n) (say t 1197 [("header", .header (E.lower n))])],
    whenever ((E.names m).any fun n => (E.lower (str "X-")).isPrefixOf (E.lower n) && !E.isKnownHeader n)
      (say t 1277 [("headers", .headers ((E.names m).filter fun n =>
        (E.lower (str "X-")).isPrefixOf (E.lower n) && !E.isKnownHeader n))])]

/-- The part of `check_message` (message.py 276-328) that applies to every message. -/
def checkAnyMessage (E : Env) (t : Target) (msg : Message) (tls : Option Bool) : List Act :=
  let m := msg.fields
  let g := E.grammars
  inOrder [
    each msg.payload.notes fun n => say t n.1 n.2,
    whenever (msg.version == some (str "HTTP/1.1") && E.present m "Trailer" && !E.chunked m)
      (say t 1054),
    each m.trailers fun e =>
      whenever (!(E.items m "Trailer" g.trailer).any fun n => E.same n e.name)
        (say t 1030 [("header", .entry e)]),
    whenever (E.present m "Transfer-Encoding" && E.present m "Content-Length") (say t 1020),
    each (E.items m "Connection" g.connection) fun o =>
      whenever (E.badForConnection o) (say t 1034 [("header", .header (E.lower o))]),
    whenever (okayAnd (E.single m "Content-Type" g.contentType) fun ct => E.mediaDeprecated ct.1)
      (say t 1035),
    (match E.single m "Content-Type" g.contentType with
      | .val ct => each (E.dupNames (ct.2.map Prod.fst)) fun d => say t 1042 [("param", .text d)]
      | _ => []),
    whenever (okayAnd (E.single m "Content-Type" g.contentType) fun ct =>
        E.same ct.1 (str "application/json") && E.inParams "charset" ct.2)
      (say t 1280 [("header", .header (E.lower (str "Content-Type")))]),
    whenever (okayAnd (E.single m "Date" g.date) fun d => decide (d > E.now + 10)) (say t 1109),
    each (E.items m "Warning" g.warning) fun w => inOrder [
      whenever (decide (w.code < 100) || decide (w.code > 299)) (say t 1163 [("code", .num w.code)]),
      whenever (w.date.okay && compareView (fun a b : DateTime => a != b) (E.single m "Date" g.date)
        w.date) (say t 1164 [("code", .num w.code)])],
    each (E.items m "Pragma" g.pragma) fun p =>
      (match p with
        | .noCache => []
        | .extension n => whenever (n != str "no-cache") (say t 1160 [("pragma", .text n)])),
    each (E.items m "Upgrade" g.upgrade) fun p => inOrder [
      whenever (p.1 == str "h2") (say t 1228),
      whenever (p.1 == str "h2c" && tls == some true) (say t 1233)]]

/-- The part of `check_message` (message.py 338-352) that is skipped for 103 (Early Hints)
responses. -/
def checkSettledMessage (E : Env) (t : Target) (msg : Message)
    (transformed : Option Bool × List Act) : List Act :=
  let m := msg.fields
  inOrder [
    whenever (E.present m "Upgrade" && !E.inConnection m "upgrade") (say t 1050),
    transformed.2,
    whenever (transformed.1 == some true && !E.hasWarning m 214) (say t 1191),
    whenever (transformed.1 == some true && cacheTruthy (E.cache m "no-transform")) (say t 1192),
    whenever (msg.version == some (str "HTTP/2")) (each (E.names m) fun n =>
      if E.same n (str "Connection") || E.same n (str "Transfer-Encoding")
          || E.same n (str "Keep-Alive") then say t 1244 [("header", .header (E.lower n))]
      else if E.same n (str "Upgrade") then say t 1245 else [])]

/-- `check_message` (message.py 255-352); `status` is that of a response. -/
def checkMessage (E : Env) (t : Target) (msg : Message) (tls : Option Bool)
    (transformed : Option Bool × List Act) (status : Option Int) : List Act :=
  inOrder [
    checkHeaders E t msg.fields,
    checkAnyMessage E t msg tls,
    if status == some 103 then [] else checkSettledMessage E t msg transformed]

/-! ## Derived properties of requests -/

/-- `Request.is_tls` (request.py 157-163). -/
def Request.isTls (req : Request) : Option Bool :=
  if req.scheme = some (str "http") then some false
  else if req.scheme = some (str "https") then some true
  else none

/-- The forms of target permitted for a method (request.py 21-23, 117-122). -/
def targetForms (method : Str) : List TargetForm :=
  if method = str "CONNECT" then [.authority]
  else if method = str "OPTIONS" then [.origin, .asterisk, .absolute]
  else [.origin, .absolute]

/-- `Request.target_form` (request.py 115-128): the form, if the target is well-formed. -/
def Request.targetForm (E : Env) (req : Request) : Option TargetForm :=
  (E.parseTarget (targetForms req.method) req.target).map Prod.fst

/-- What reading `Request.target_form` reports (request.py 123-124). -/
def targetActs (E : Env) (req : Request) : List Act :=
  match E.parseTarget (targetForms req.method) req.target with
  | some r => each r.2 (sayNote .req)
  | none => say .req 1045 [("place", .text (str "request target")), ("error", .other)]

/-- `Request.effective_uri` (request.py 130-154). -/
def Request.effectiveUri (E : Env) (req : Request) : Option Str :=
  if req.targetForm E = some .absolute then some req.target
  else match req.scheme with
    | none => none
    | some scheme =>
      if scheme.isEmpty then none
      else if req.targetForm E = some .authority then
        some (scheme ++ str "://" ++ req.target)
      else match E.single req.fields "Host" E.grammars.host with
        | .val host => match req.targetForm E with
          | some .asterisk => some (scheme ++ str "://" ++ host)
          | some .origin => some (scheme ++ str "://" ++ host ++ req.target)
          | _ => none
        | _ => none

/-- `version in [http10, http11]` (httpolice/request.py 172, 195, 225). -/
def isHttp1 (version : Option Str) : Bool :=
  version == some (str "HTTP/1.0") || version == some (str "HTTP/1.1")

/-- `Request.is_to_proxy` (request.py 165-177), and what reading it reports on the request. -/
def Request.isToProxy (E : Env) (req : Request) : Option Bool × List Act :=
  if req.proxyUnknown then (none, [])
  else if isHttp1 req.version then
    if req.targetForm E = some .absolute then (some true, say .req 1236) else (some false, [])
  else (none, [])

/-- The keys of `Request.query_params` (request.py 179-185). -/
def Request.queryKeys (E : Env) (req : Request) : List Str :=
  match req.effectiveUri E with
  | some uri => E.queryKeys uri
  | none => []

/-- `Request.has_body` (request.py 187-198). -/
def Request.hasBody (E : Env) (req : Request) : Option Bool :=
  if truthyBody req.body then some true
  else if isHttp1 req.version then
    some (E.present req.fields "Content-Length" || E.present req.fields "Transfer-Encoding")
  else none

/-! ## Checks of requests -/

/-- A control character (syntax/common.py: `CTL`). -/
def isCtl (c : Nat) : Bool := decide (c < 32) || c == 127

/-- `_check_basic_auth` (request.py 408-424). -/
def checkBasicAuth (E : Env) (hdr : String) : AuthParams → List Act
  | .token68 s =>
    (match E.b64decode s with
      | none => say .req 1210 [("header", .header (E.lower (str hdr))), ("error", .other)]
      | some cs => inOrder [
        whenever (!cs.contains 58) (say .req 1211 [("header", .header (E.lower (str hdr)))]),
        each cs fun c => whenever (isCtl c)
          (say .req 1212 [("header", .header (E.lower (str hdr))), ("char", .num c)])])
  | .params _ => say .req 1209 [("header", .header (E.lower (str hdr)))]

/-- `_check_bearer_auth` (request.py 427-431). -/
def checkBearerAuth (E : Env) (req : Request) (hdr : String) (creds : AuthParams) : List Act :=
  inOrder [
    whenever (req.isTls == some false) (say .req 1261 [("header", .header (E.lower (str hdr)))]),
    (match creds with
      | .token68 _ => []
      | .params _ => say .req 1262 [("header", .header (E.lower (str hdr)))])]

/-- The loop of request.py 344-352 for one of the two headers. -/
def checkAuth (E : Env) (req : Request) (hdr : String) : List Act :=
  match E.single req.fields hdr E.grammars.authorization with
  | .val a =>
    if E.same a.1 (str "Basic") then checkBasicAuth E hdr a.2
    else if E.same a.1 (str "Bearer") then checkBearerAuth E req hdr a.2
    else match a.2 with
      | .token68 s => whenever s.isEmpty (say .req 1274 [("header", .header (E.lower (str hdr)))])
      | .params ps => whenever ps.isEmpty (say .req 1274 [("header", .header (E.lower (str hdr)))])
  | _ => []

/-- Ordered pairs of items at different positions (`itertools.permutations(l, 2)`) (httpolice/request.py 446). -/
def permutations2 {α : Type} (l : List α) : List (α × α) :=
  l.zipIdx.flatMap fun x => (l.zipIdx.filter fun y => y.2 ≠ x.2).map fun y => (x.1, y.1)

/-- The condition of request.py 447-450; `Accept-Encoding` and others may have plain strings or
`CaseInsensitive` ones, `endswith` of the latter ignores case. -/
def subsumes (E : Env) (p : (Str × Option Nat) × (Str × Option Nat)) : Bool :=
  (p.1.1 == str "*" || (str "/*").isSuffixOf p.1.1) && E.fnmatch p.2.1 p.1.1 &&
    !E.fnmatch p.1.1 p.2.1 && p.1.2.getD 1000 == p.2.2.getD 1000

/-- `_accept_subsumptions` (request.py 434-451) with the loop of request.py 383-388, which stops after
the first one. -/
def checkAccept (E : Env) (m : Msg) (hdr : String) : List Act :=
  match (permutations2 (E.items m hdr (E.grammars.accept (str hdr)))).find? (subsumes E) with
  | some p => say .req 1276 [("header", .header (E.lower (str hdr))), ("wildcard", .text p.1.1),
      ("value", .text p.2.1)]
  | none => []

/-- `_is_urlsafe_base64` (request.py 454-456). -/
def isUrlsafeBase64 (s : Str) : Bool :=
  s.all fun c => isAsciiLetter c || isAsciiDigit c || c == 45 || c == 95

/-- Pairs of directives that make no sense together in a request (request.py 337-340). -/
def requestConflicts : List (String × String) :=
  [("max-stale", "min-fresh"), ("stale-if-error", "min-fresh"), ("max-stale", "no-cache"),
   ("max-age", "no-cache")]

/-- `known.cache_directive.is_for_request`, `is_for_response` (known/__init__.py 294-298). -/
def cacheDirectiveFor (E : Env) (d : Str) : Option Bool × Option Bool :=
  match cacheDirectiveRows.find? fun r => E.same (str r.1) d with
  | some r => r.2
  | none => (none, none)

/-- `check_request` (request.py 201-290), first half: after silencing and `check_message`. -/
def checkRequestBasics (E : Env) (req : Request) : List Act :=
  let m := req.fields
  let g := E.grammars
  let method := req.method
  inOrder [
    whenever (!isToken method) (say .req 1292 [("place", .text (str "request method")),
      ("error", .other)]),
    targetActs E req,
    whenever (method != E.upper method && isKnownMethod (E.upper method))
      (say .req 1295 [("uppercase", .text (E.upper method))]),
    whenever (truthyBody req.body && E.absent m "Content-Type") (say .req 1041),
    whenever (isHttp1 req.version && definesBody method == some true && E.absent m "Content-Length"
      && E.absent m "Transfer-Encoding") (say .req 1021),
    whenever (definesBody method == some false && emptyBody req.body && E.present m "Content-Length")
      (say .req 1022),
    whenever ((E.items m "TE" g.te).any fun c => E.same c (str "chunked")) (say .req 1028),
    whenever (req.version == some (str "HTTP/2") && (match E.multi m "TE" g.te with
        | .elems [] => false
        | .elems [.ok c] => !E.same c (str "trailers")
        | _ => true)) (say .req 1244 [("header", .header (E.lower (str "TE")))]),
    whenever (req.version == some (str "HTTP/1.1") && (match E.multi m "TE" g.te with
        | .elems [] => false
        | _ => true) && !E.inConnection m "TE") (say .req 1029),
    whenever (req.version == some (str "HTTP/1.1") && E.absent m "Host") (say .req 1031),
    -- `req.header_entries[0]` raises `IndexError` if there are no headers
    (if E.present m "Host" then
      (match m.headers with
        | [] => [.raise]
        | e :: _ => whenever (!E.same e.name (str "Host")) (say .req 1032))
     else []),
    each (E.names m) fun n =>
      if E.forRequest n = some false then say .req 1063 [("header", .header (E.lower n))]
      else whenever (E.isReprMetadata n && req.hasBody E == some false)
        (say .req 1053 [("header", .header (E.lower n))]),
    whenever (truthyBody req.body) (
      if method = str "GET" then say .req 1056
      else if method = str "HEAD" then say .req 1057
      else if method = str "DELETE" then say .req 1059
      else if method = str "CONNECT" then say .req 1061
      else []),
    whenever (method == str "OPTIONS" && truthyBody req.body && E.absent m "Content-Type")
      (say .req 1062),
    whenever (okayAnd (E.single m "Expect" g.expect) (fun x => E.same x (str "100-continue"))
      && req.hasBody E == some false) (say .req 1066),
    whenever (E.present m "Max-Forwards" && method != str "OPTIONS" && method != str "TRACE")
      (say .req 1067),
    whenever (okayAnd (E.single m "Referer" g.referer) fun r =>
      req.isTls == some false && E.urlScheme r == str "https") (say .req 1068),
    (if E.absent m "User-Agent" then say .req 1070
     else match E.single m "User-Agent" g.userAgent with
      | .val ua => (match ua.filterMap id with
        | [] => []
        | p :: ps => whenever ((p :: ps).all E.productLibrary) (say .req 1093 [("library", .text p)]))
      | _ => []),
    each (E.items m "Accept-Encoding" (g.accept (str "Accept-Encoding"))) fun x =>
      whenever ((E.same x.1 (str "x-gzip") || E.same x.1 (str "x-compress")) && x.2.isSome)
        (say .req 1116 [("coding", .text (E.lower x.1))])]

/-- `check_request` (request.py 291-335), second part: conditional requests, ranges, caching. -/
def checkRequestCaching (E : Env) (req : Request) : List Act :=
  let m := req.fields
  let g := E.grammars
  let method := req.method
  inOrder [
    whenever ((E.items m "If-Match" g.ifMatch).any EntityTag.weak) (say .req 1120),
    whenever (method == str "HEAD") (each (E.names m) fun n =>
      whenever (E.isPrecondition n) (say .req 1131 [("header", .header (E.lower n))])),
    (if method = str "CONNECT" ∨ method = str "OPTIONS" ∨ method = str "TRACE" then
      each (E.names m) fun n => whenever
        (["If-Modified-Since", "If-Unmodified-Since", "If-Match", "If-None-Match", "If-Range"].any
          fun h => E.same n (str h)) (say .req 1130 [("header", .header (E.lower n))])
     else whenever (method != str "GET" && method != str "HEAD" && E.present m "If-Modified-Since")
      (say .req 1122)),
    whenever (E.present m "Range" && method != str "GET") (say .req 1132),
    whenever (E.present m "If-Range" && E.absent m "Range") (say .req 1134),
    whenever (okayAnd (E.single m "If-Range" g.ifRange) fun r => match r with
      | .tag t => t.weak
      | .date _ => false) (say .req 1135),
    each (E.items m "Cache-Control" g.cacheControl) fun d => inOrder [
      whenever ((cacheDirectiveFor E d.1).1 == some false)
        (say .req 1152 [("directive", .text (E.lower d.1))]),
      whenever (E.same d.1 (str "no-cache") && d.2 != .none)
        (say .req 1159 [("directive", .text (E.lower d.1))])],
    whenever (cacheTruthy (E.cache m "no-cache") && !E.pragmaNoCache m) (say .req 1161),
    each (E.items m "Warning" g.warning) fun w =>
      whenever (decide (100 ≤ w.code ∧ w.code ≤ 199)) (say .req 1165 [("code", .num w.code)]),
    whenever (methodCacheable method == some false) (
      each (E.items m "Cache-Control" g.cacheControl) fun d => whenever
        (["max-age", "max-stale", "min-fresh", "no-cache", "no-store", "only-if-cached"].any
          fun x => E.same d.1 (str x)) (say .req 1171 [("directive", .text (E.lower d.1))])),
    each requestConflicts fun p =>
      whenever (cacheTruthy (E.cache m p.1) && cacheTruthy (E.cache m p.2))
        (say .req 1193 [("directive1", .text (str p.1)), ("directive2", .text (str p.2))])]

/-- `check_request` (request.py 344-405), third part: authentication, upgrades, preferences. -/
def checkRequestExtras (E : Env) (req : Request) : List Act :=
  let m := req.fields
  let g := E.grammars
  let method := req.method
  inOrder [
    checkAuth E req "Authorization",
    checkAuth E req "Proxy-Authorization",
    whenever (method == str "PATCH" && okayAnd (E.single m "Content-Type" g.contentType)
      (fun ct => E.mediaPatch ct.1 == some false)) (say .req 1213),
    each (E.items m "Upgrade" g.upgrade) fun p => whenever (p.1 == str "h2c") (inOrder [
      whenever (req.isTls == some true) (say .req 1233),
      whenever (E.absent m "HTTP2-Settings") (say .req 1231)]),
    whenever (truthyBody (E.single m "HTTP2-Settings" g.http2Settings) &&
      !E.inConnection m "HTTP2-Settings") (say .req 1230),
    whenever (okayAnd (E.single m "HTTP2-Settings" g.http2Settings) fun s => !isUrlsafeBase64 s)
      (say .req 1234),
    whenever ((req.queryKeys E).contains (str "access_token")) (inOrder [
      say .req 1270,
      whenever (req.isTls == some false) (say .req 1271 [("where", .text req.target)]),
      whenever (!cacheTruthy (E.cache m "no-store")) (say .req 1272)]),
    whenever ((match req.payload.formKeys with
        | some ks => ks.contains (str "access_token")
        | none => false) && req.isTls == some false) (say .req 1271 [("where", .other)]),
    checkAccept E m "Accept",
    checkAccept E m "Accept-Charset",
    checkAccept E m "Accept-Encoding",
    checkAccept E m "Accept-Language",
    each (E.dupNames ((E.preferences m).map Prod.fst)) fun d => say .req 1285 [("name", .text d)],
    whenever ((match E.preference m "respond-async" with
        | .none => false
        | .arg (.raw s) => !s.isEmpty
        | .arg (.parsed (.num n)) => n != 0
        | .arg .none => false
        | _ => true) && methodSafe method == some true) (say .req 1287),
    whenever ((match E.preference m "return" with
        | .arg a => E.sameArg a (.raw (str "minimal"))
        | _ => false) && method == str "GET") (say .req 1288),
    whenever (E.hasPref m "return" "minimal" && E.hasPref m "return" "representation")
      (say .req 1289),
    whenever (E.hasPref m "handling" "strict" && E.hasPref m "handling" "lenient") (say .req 1290)]

/-- The IDs in `HTTPolice-Silence` with their markers (syntax/internal.py 10). -/
def silenceItems (E : Env) (m : Msg) : List (Nat × Bool) :=
  E.items m "HTTPolice-Silence" E.grammars.httpoliceSilence

/-- `check_request` (request.py 201-405). -/
def checkRequest (E : Env) (req : Request) : List Act :=
  inOrder [
    -- reading `httpolice_silence` reports its syntax errors
    each (E.viewNotes req.fields (str "HTTPolice-Silence")) (sayNote .req),
    [.op (.silence .req (((silenceItems E req.fields).filter fun x => !x.2).map Prod.fst))],
    checkMessage E .req req.toMessage req.isTls (messageTransformed E .req req.fields) none,
    checkRequestBasics E req,
    checkRequestCaching E req,
    checkRequestExtras E req]

end Httpolice.Model
