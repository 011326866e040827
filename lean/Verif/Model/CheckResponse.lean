import Verif.Model.CheckMessage

/-!
# Model of the checks of responses (httpolice/response.py) and exchanges (httpolice/exchange.py)
-/

namespace Httpolice.Model

/-- A response as seen by its checks: its number in the exchange, and its request if known
(`resp.request`, exchange.py 32-33). -/
structure Placed where
  index : Nat
  resp : Response
  req : Option Request

namespace Placed

/-- The blackboard of the response (httpolice/response.py 225-235). -/
def here (p : Placed) : Target := .resp p.index

/-- `resp.status` (httpolice/response.py 225-235). -/
def status (p : Placed) : Int := p.resp.status

/-- `resp.headers` (httpolice/response.py 225-235). -/
def fields (p : Placed) : Msg := p.resp.fields

end Placed

/-! ## Derived properties (response.py 97-204) -/

/-- `Response.from_cache` (response.py 111-132): the value, and what reading it does. The sum
`date + age` raises `OverflowError` if it is after `datetime.max`; so does `timedelta(seconds=age)`
for an even greater age. -/
def fromCache (E : Env) (p : Placed) : Option Bool × List Act :=
  let m := p.fields
  if p.status = 103 then (some false, [])
  else
    let age := E.single m "Age" E.grammars.age
    let date := E.single m "Date" E.grammars.date
    if okayAnd date (fun d => okayAnd age fun a => decide (d + a > maxDateTime)) then (none, [.raise])
    else if okayAnd date (fun d => okayAnd age fun a => decide (d + a > E.now + 30)) then
      (none, say p.here 1241)
    else if E.present m "Age" then (some true, say p.here 1168)
    else match (E.items m "Warning" E.grammars.warning).find? fun w =>
        decide (100 ≤ w.code ∧ w.code < 200) with
      | some w => (some true, say p.here 1169 [("code", .num w.code)])
      | none => (none, [])

/-- `Response.heuristic_expiration` (response.py 134-148). -/
def heuristicExpiration (E : Env) (p : Placed) : Option Bool × List Act :=
  let m := p.fields
  if (fromCache E p).1 ≠ some true then ((fromCache E p).1, [])
  else if E.hasWarning m 113 then (some true, say p.here 1179)
  else if E.present m "Expires" then (some false, [])
  else if cacheTruthy (E.cache m "max-age") then (some false, [])
  else if E.absent m "Cache-Control" then (some true, say p.here 1178)
  else (none, [])

/-- `headers.age > x` for a number or `headers.cache_control.max_age` (httpolice/response.py 162, 168, 460,
731). -/
def ageOver (E : Env) (m : Msg) (x : PyVal Int) : Bool :=
  compareView (fun (a : Nat) (b : Int) => decide ((a : Int) > b)) (E.single m "Age" E.grammars.age) x

/-- A number found in a directive as an operand of a comparison (httpolice/response.py 162, 731,
header.py 223-244). -/
def foundInt (f : Found CacheArg) : PyVal Int :=
  match cacheNumber f with
  | .val n => .val n
  | .unavailable => .unavailable
  | .none => .none

/-- `expires - date` in seconds, if both are okay (response.py 165-167). -/
def lifetime (E : Env) (m : Msg) : PyVal Int :=
  match E.single m "Expires" E.grammars.date, E.single m "Date" E.grammars.date with
  | .val e, .val d => .val ((e : Int) - d)
  | _, _ => .none

/-- `x is None` for what `headers.cache_control[...]` gives (httpolice/response.py 161, 165, 465, 742-745). -/
def notGiven (f : Found CacheArg) : Bool := f == .none

/-- `Response.stale` (response.py 150-171). -/
def stale (E : Env) (p : Placed) : Option Bool × List Act :=
  let m := p.fields
  if p.status = 103 then (some false, [])
  else if E.hasWarning m 110 then (some true, say p.here 1183 [("code", .num 110)])
  else if E.hasWarning m 111 then (some true, say p.here 1183 [("code", .num 111)])
  else if notGiven (E.cache m "s-maxage") && ageOver E m (foundInt (E.cache m "max-age")) then
    (some true, say p.here 1184)
  else if notGiven (E.cache m "s-maxage") && notGiven (E.cache m "max-age")
      && ageOver E m (lifetime E m) then (some true, say p.here 1185)
  else (none, [])

/-- `Response.transformed_by_proxy` (response.py 173-180). -/
def responseTransformed (E : Env) (p : Placed) : Option Bool × List Act :=
  if p.status = 103 then (none, [])
  else if p.status = 203 then (some true, say p.here 1190)
  else messageTransformed E p.here p.fields

/-- `Response.is_tls` (response.py 182-186). -/
def Placed.isTls (p : Placed) : Option Bool := p.req.bind Request.isTls

/-- `Response.delimited_by_close` (response.py 188-204). -/
def delimitedByClose (E : Env) (p : Placed) : Option Bool × List Act :=
  let m := p.fields
  if E.present m "Content-Length" || E.chunked m || isInformational p.status || p.status == 204
      || p.status == 304 || p.resp.version == some (str "HTTP/2") then (some false, [])
  else match p.req with
    | some req =>
      if req.method = str "HEAD" then (some false, [])
      else if req.method = str "CONNECT" ∧ isSuccessful p.status then (some false, [])
      else if isHttp1 p.resp.version then (some true, say p.here 1025)
      else (none, [])
    | none => (none, [])

/-! ## Challenges (response.py 798-891) -/

/-- `_check_basic_challenge` (response.py 798-808). The names in 1207 come from a set; they are taken
in order here. -/
def checkBasicChallenge (E : Env) (p : Placed) (hdr : String) : AuthParams → List Act
  | .token68 _ => say p.here 1273 [("header", .header (E.lower (str hdr)))]
  | .params ps => inOrder [
    whenever (!E.inParams "realm" ps) (say p.here 1206 [("header", .header (E.lower (str hdr)))]),
    each (ps.filter fun x => E.same x.1 (str "charset")) fun x =>
      whenever (E.lower x.2 != str "utf-8")
        (say p.here 1208 [("header", .header (E.lower (str hdr))), ("charset", .text x.2)]),
    each (ps.filter fun x => !E.same x.1 (str "charset") && !E.same x.1 (str "realm")) fun x =>
      say p.here 1207 [("header", .header (E.lower (str hdr))), ("param", .text (E.lower x.1))]]

/-- Whether a request has a bearer token in one of the defined forms (response.py 830-841). -/
def requestHasToken (E : Env) (req : Request) : Bool :=
  okayAnd (E.single req.fields "Authorization" E.grammars.authorization)
      (fun a => E.same a.1 (str "Bearer")) ||
    (match req.payload.formKeys with
      | some ks => ks.contains (str "access_token")
      | none => false) ||
    (req.queryKeys E).contains (str "access_token")

/-- Statuses expected for error codes (response.py 870-874). -/
def expectedStatus (code : Str) : Option Int :=
  if code = str "invalid_request" then some 400
  else if code = str "invalid_token" then some 401
  else if code = str "insufficient_scope" then some 403
  else none

/-- `_check_bearer_challenge` (response.py 811-882) for `WWW-Authenticate`. -/
def checkBearerChallenge (E : Env) (p : Placed) (creds : AuthParams) : List Act :=
  inOrder [
    whenever (p.isTls == some false) (say p.here 1263),
    (match creds with
      | .token68 _ => say p.here 1264
      | .params [] => say p.here 1264
      | .params ps => inOrder [
        each (E.dupNames (ps.map Prod.fst)) fun d => whenever
          (["realm", "scope", "error", "error_description", "error_uri"].any fun x =>
            d == E.lower (str x)) (say p.here 1265 [("param", .text d)]),
        each ["scope", "error", "error_description", "error_uri"] fun x =>
          (match E.getParam x ps with
            | some v => whenever (!E.oauthSyntax (str x) v)
              (say p.here 1266 [("param", .text (str x)), ("value", .text v), ("error", .other)])
            | none => []),
        whenever (p.status == 401 && !E.inParams "error" ps && (match p.req with
            | some req => okayAnd (E.single req.fields "Authorization" E.grammars.authorization)
                fun a => E.same a.1 (str "Bearer")
            | none => false)) (say p.here 1267),
        (match E.getParam "error" ps with
          | some code => (match expectedStatus code with
            | some st => whenever (p.status != st)
              (say p.here 1268 [("error_code", .text code), ("expected_status", .num st)])
            | none => [])
          | none => []),
        (match p.req with
          | some req => whenever (E.absent req.fields "Authorization" && !requestHasToken E req)
            (each ["error", "error_description", "error_uri"] fun x =>
              whenever (E.inParams x ps) (say p.here 1269 [("param", .text (str x))]))
          | none => [])])]

/-- The loop of response.py 402-407 for one of the two headers. -/
def checkChallenges (E : Env) (p : Placed) (hdr : String) : List Act :=
  each (E.items p.fields hdr E.grammars.challenge) fun c => inOrder [
    whenever (E.same c.1 (str "Basic")) (checkBasicChallenge E p hdr c.2),
    whenever (E.same c.1 (str "Bearer") && hdr == "WWW-Authenticate") (checkBearerChallenge E p c.2)]

/-- `_check_multipart_byteranges` (response.py 885-891). -/
def checkByteranges (p : Placed) : List Act :=
  match p.resp.payload.parts with
  | some parts => each parts.zipIdx fun x => inOrder [
    whenever (!x.1.1) (say p.here 1141 [("part_num", .num (x.2 + 1))]),
    whenever (!x.1.2) (say p.here 1142 [("part_num", .num (x.2 + 1))])]
  | none => []

/-! ## `check_response_itself` (response.py 225-490) -/

/-- A hexadecimal digit of either case (httpolice/util/text.py 225-232). -/
def isHexDigit (c : Nat) : Bool := isAsciiDigit c || (97 ≤ c && c ≤ 102) || (65 ≤ c && c ≤ 70)

/-- `contains_percent_encodes` (util/text.py 225-232). -/
def containsPercentEncodes : Str → Bool
  | 37 :: a :: b :: s => (isHexDigit a && isHexDigit b) || containsPercentEncodes (a :: b :: s)
  | _ :: s => containsPercentEncodes s
  | [] => false

/-- `is_ascii` (util/text.py 192-203). -/
def isAscii (s : Str) : Bool := s.all fun c => decide (c < 128)

/-- Checks of the status (response.py 237-300): reason phrase, framing, headers that go with certain
statuses. -/
def checkStatus (E : Env) (p : Placed) : List Act :=
  let m := p.fields
  let g := E.grammars
  let t := p.here
  let status := p.status
  inOrder [
    (match p.resp.reason with
      | some r => whenever (!isReason r)
        (say t 1294 [("place", .text (str "reason phrase")), ("error", .other)])
      | none => []),
    whenever (!decide (100 ≤ status ∧ status ≤ 599)) (say t 1167),
    (delimitedByClose E p).2,
    whenever ((delimitedByClose E p).1 == some true && p.resp.version == some (str "HTTP/1.1") &&
      !E.inConnection m "close") (say t 1047),
    each (E.names m) fun n =>
      whenever (E.forResponse n == some false) (say t 1064 [("header", .header (E.lower n))]),
    whenever (status == 101 && E.absent m "Upgrade") (say t 1048),
    whenever (status == 101 && p.resp.version == some (str "HTTP/2")) (say t 1246),
    whenever (status == 204 && truthyBody p.resp.body) (say t 1240),
    whenever (status == 205 && truthyBody p.resp.body) (say t 1076),
    whenever (E.absent m "Location") (
      if status = 301 then say t 1078
      else if status = 302 then say t 1079
      else if status = 303 then say t 1080
      else if status = 307 then say t 1084
      else if status = 308 then say t 1205
      else []),
    (if status = 305 then say t 1082
     else if status = 306 then say t 1083
     else if status = 402 then say t 1088
     else []),
    whenever (status == 405 && E.absent m "Allow") (say t 1089),
    whenever (status == 408 && !E.inConnection m "close") (say t 1094),
    whenever (E.absent m "Date" && (isSuccessful status || redirection status || clientError status))
      (say t 1110),
    whenever (status == 201 && okayAnd (E.single m "Location" g.location)
      (fun l => !(E.urlFragment l).isEmpty)) (say t 1111),
    whenever (compareView (fun a b : DateTime => decide (a < b)) (E.single m "Date" g.date)
      (E.single m "Last-Modified" g.date)) (say t 1118)]

/-- The test of response.py 328-329: whether some link has the relation `blocked-by`; `none` for the
`TypeError` raised on a malformed `rel` (which is `Unavailable`, hence not iterable). -/
def anyBlockedBy (E : Env) : List LinkRel → Option Bool
  | [] => some false
  | .absent :: ls => anyBlockedBy E ls
  | .malformed :: _ => none
  | .rels l :: ls => if l.any fun r => E.same r (str "blocked-by") then some true else anyBlockedBy E ls

/-- Pairs of directives that contradict each other in a response (response.py 374-379). -/
def responseConflicts : List (String × String) :=
  [("public", "no-store"), ("private", "public"), ("private", "no-store"),
   ("must-revalidate", "stale-while-revalidate"), ("must-revalidate", "stale-if-error")]

/-- Pairs of directives where the second makes the first useless (response.py 383-387). -/
def responseUseless : List (String × String) :=
  [("max-age", "no-cache"), ("max-age", "no-store"), ("s-maxage", "private"),
   ("s-maxage", "no-cache"), ("s-maxage", "no-store")]

/-- Checks of various headers of a response (response.py 301-407). `includeSubDomains` is given an
argument only as `Unavailable` (hsts_directive.csv, header.py 347-349), which is true. -/
def checkResponseHeaders (E : Env) (p : Placed) : List Act :=
  let m := p.fields
  let g := E.grammars
  let t := p.here
  let status := p.status
  inOrder [
    whenever (status == 304) (each (E.names m) fun n => whenever
      (!E.same n (str "ETag") && !E.same n (str "Last-Modified") && E.isReprMetadata n)
      (say t 1127 [("header", .header (E.lower n))])),
    whenever (status == 206) (
      if E.contentTypeIs m "multipart/byteranges" then inOrder [
        checkByteranges p,
        whenever (E.present m "Content-Range") (say t 1143)]
      else whenever (E.absent m "Content-Range") (say t 1138)),
    each (E.items m "Cache-Control" g.cacheControl) fun d =>
      whenever ((cacheDirectiveFor E d.1).2 == some false)
        (say t 1153 [("directive", .text (E.lower d.1))]),
    whenever (E.pragmaNoCache m) (say t 1162),
    (if status = 451 then
      (match anyBlockedBy E (E.items m "Link" g.link) with
        | some b => whenever (!b) (say t 1243)
        | none => [.raise])
     else []),
    (match E.single m "Content-Disposition" g.contentDisposition with
      | .val ps => inOrder [
        each (E.dupNames (ps.map Prod.fst)) fun d => say t 1247 [("param", .text d)],
        (match E.getParam "filename" ps with
          | some f => inOrder [
            whenever (containsPercentEncodes f) (say t 1248),
            whenever (f.contains 34 || f.contains 92) (say t 1249),
            whenever (!isAscii f) (say t 1250)]
          | none => []),
        whenever (E.inParams "filename*" ps) (
          if E.inParams "filename" ps then
            whenever (decide (ps.findIdx (fun x => E.same x.1 (str "filename*")) <
              ps.findIdx (fun x => E.same x.1 (str "filename")))) (say t 1252)
          else say t 1251)]
      | _ => []),
    whenever (E.present m "Alt-Svc" && p.resp.version == some (str "HTTP/2")) (say t 1258),
    whenever (E.present m "Alt-Svc" && status == 421) (say t 1260),
    (match E.single m "Strict-Transport-Security" g.strictTransportSecurity with
      | .val ds => inOrder [
        whenever (!ds.any fun d => E.same d.1 (str "max-age")) (say t 1218),
        whenever (directiveGet E.lower (str "max-age") (ds.map .ok) == .arg (.parsed 0) &&
          (match directiveGet E.lower (str "includeSubDomains") (ds.map .ok) with
            | .none => false
            | _ => true)) (say t 1219),
        each (E.dupNames (ds.map Prod.fst)) fun d => say t 1220 [("directive", .text d)]]
      | _ => []),
    each (E.items m "Accept-Patch" g.acceptPatch) fun x =>
      whenever (E.mediaPatch x == some false) (say t 1227 [("patch_type", .text (E.lower x))]),
    each responseConflicts fun x =>
      whenever (cacheTruthy (E.cache m x.1) && cacheTruthy (E.cache m x.2))
        (say t 1193 [("directive1", .text (str x.1)), ("directive2", .text (str x.2))]),
    each responseUseless fun x =>
      whenever (cacheTruthy (E.cache m x.1) && cacheUnqualified (E.cache m x.2))
        (say t 1238 [("directive1", .text (str x.1)), ("directive2", .text (str x.2))]),
    whenever ((E.items m "Vary" g.vary).any fun v => E.same v (str "Host")) (say t 1235),
    whenever (status == 401 && E.absent m "WWW-Authenticate") (say t 1194),
    whenever (status == 407 && E.absent m "Proxy-Authenticate") (say t 1195),
    checkChallenges E p "WWW-Authenticate",
    checkChallenges E p "Proxy-Authenticate"]

/-- The checks of a response that are skipped for 103 (Early Hints) (response.py 417-490). -/
def checkSettledResponse (E : Env) (p : Placed) : List Act :=
  let m := p.fields
  let g := E.grammars
  let t := p.here
  let status := p.status
  inOrder [
    whenever ((isInformational status || status == 204) && E.present m "Transfer-Encoding")
      (say t 1018),
    whenever ((isInformational status || status == 204) && E.present m "Content-Length") (say t 1023),
    whenever (isInformational status && E.inConnection m "close") (say t 1198),
    each (E.names m) fun n => whenever (E.isReprMetadata n && isInformational status)
      (say t 1052 [("header", .header (E.lower n))]),
    whenever (E.present m "Location" && !redirection status && status != 201) (say t 1112),
    whenever (E.present m "Retry-After" && !redirection status && status != 413 && status != 503 &&
      status != 429) (say t 1113),
    whenever (E.present m "Content-Range" && status != 206 && status != 416) (say t 1147),
    (fromCache E p).2,
    whenever ((fromCache E p).1 == some true) (inOrder [
      whenever (E.absent m "Age") (say t 1166),
      whenever (cacheUnqualified (E.cache m "no-cache")) (say t 1175),
      whenever (cacheTruthy (E.cache m "no-store")) (say t 1176),
      whenever (cacheability status == some .notAtAll) (say t 1202),
      whenever (cacheability status == some .notByDefault && E.absent m "Expires" &&
        E.absent m "Cache-Control") (say t 1177)]),
    (heuristicExpiration E p).2,
    whenever ((heuristicExpiration E p).1 == some true) (inOrder [
      whenever (ageOver E m (.val 86400) && !E.hasWarning m 113) (say t 1180),
      (if E.present m "Expires" then say t 1181
       else whenever (!notGiven (E.cache m "max-age")) (say t 1182))]),
    (stale E p).2,
    whenever ((stale E p).1 == some true) (inOrder [
      whenever (!E.hasWarning m 110) (say t 1186),
      whenever (cacheTruthy (E.cache m "must-revalidate")) (say t 1187)]),
    whenever (cacheTruthy (E.cache m "immutable")) (inOrder [
      whenever ((E.absent m "Expires" || compareView (fun a b : DateTime => decide (b ≤ a))
          (E.single m "Date" g.date) (E.single m "Expires" g.date)) &&
        !cacheTruthy (E.cache m "max-age")) (say t 1301),
      whenever (p.isTls == some false) (say t 1302),
      whenever ((delimitedByClose E p).1 == some true) (say t 1303)]),
    whenever (E.present m "Allow" && E.present m "Accept-Patch" && !E.allows m (str "PATCH"))
      (say t 1217),
    whenever (E.present m "Allow" && E.present m "Accept-Post" && !E.allows m (str "POST"))
      (say t 1310),
    whenever ((responseTransformed E p).1 == some true && E.absent m "Via") (say t 1046)]

/-- `check_response_itself` (response.py 225-490). -/
def checkResponseItself (E : Env) (p : Placed) : List Act :=
  inOrder [
    each (E.viewNotes p.fields (str "HTTPolice-Silence")) (sayNote p.here),
    [.op (.silence p.here ((silenceItems E p.fields).map Prod.fst))],
    checkMessage E p.here p.resp.toMessage p.isTls (responseTransformed E p) (some p.status),
    checkStatus E p,
    checkResponseHeaders E p,
    if p.status = 103 then [] else checkSettledResponse E p]

/-! ## `check_response_in_context` (response.py 493-795) -/

/-- The notice for an empty body that should explain something (response.py 581-605). -/
def emptyBodyNotice (status : Int) : Option Nat :=
  if status = 202 then some 1284
  else if status = 300 then some 1077
  else if status = 303 then some 1081
  else if status = 406 then some 1092
  else if status = 409 then some 1096
  else if status = 428 then some 1201
  else if status = 429 then some 1203
  else if status = 451 then some 1242
  else if clientError status then some 1087
  else if status = 505 then some 1106
  else if status = 511 then some 1204
  else if serverError status then some 1104
  else none

/-- Checks against the request (response.py 502-610). Derived properties that were read before are
listed again: reporting the same notice again makes no difference (blackboard.py 52-58). -/
def checkAgainstRequest (E : Env) (p : Placed) (req : Request) : List Act :=
  let m := p.fields
  let g := E.grammars
  let t := p.here
  let status := p.status
  let method := req.method
  inOrder [
    whenever (truthyBody p.resp.body && E.absent m "Content-Type" &&
      (status != 206 || E.absent req.fields "If-Range")) (say t 1041),
    whenever (method == str "CONNECT" && isSuccessful status) (inOrder [
      whenever (E.present m "Transfer-Encoding") (say t 1019),
      whenever (E.present m "Content-Length") (say t 1024),
      whenever (E.inConnection m "close") (say t 1199)]),
    whenever (method == str "HEAD" && truthyBody p.resp.body) (say t 1239),
    whenever (req.version == some (str "HTTP/1.0") && E.present m "Transfer-Encoding") (say t 1306),
    whenever (req.version == some (str "HTTP/1.1") &&
      (!(E.single req.fields "Host" g.host).okay || decide (E.totalEntries req.fields "Host" > 1)) &&
      (isSuccessful status || redirection status)) (say t 1033),
    (responseTransformed E p).2,
    (req.isToProxy E).2,
    whenever ((responseTransformed E p).1 == some true && (req.isToProxy E).1 == some false)
      (say t 1237),
    whenever ((req.isToProxy E).1 == some true && isSuccessful status && E.absent m "Via")
      (say t 1046),
    (if status = 101 then inOrder [
      each (E.items m "Upgrade" g.upgrade) fun x =>
        if x ∈ E.items req.fields "Upgrade" g.upgrade then
          whenever (x.1 == str "h2c" && !(E.single req.fields "HTTP2-Settings" g.http2Settings).okay)
            (say t 1232)
        else say t 1049,
      whenever (req.version == some (str "HTTP/1.0")) (say t 1051)]
     else whenever (isInformational status && req.version == some (str "HTTP/1.0")) (say t 1071)),
    (match E.single m "Content-Location" g.contentLocation, req.effectiveUri E with
      | .val l, some uri => whenever (!uri.isEmpty && uri == E.urlJoin uri l) (inOrder [
        whenever ((method == str "GET" || method == str "HEAD") &&
          [200, 203, 204, 206, 304].contains status) (say t 1055),
        whenever (method == str "DELETE") (say t 1060)])
      | _, _ => []),
    (match E.single m "Location" g.location, req.effectiveUri E with
      | .val l, some uri => whenever ((match req.scheme with
          | some s => !s.isEmpty
          | none => false) && !uri.isEmpty && uri == E.urlJoin uri l) (inOrder [
        whenever ([300, 307, 308].contains status) (say t 1085),
        whenever ([301, 302, 303].contains status && method != str "POST") (say t 1085)])
      | _, _ => []),
    whenever (method == str "PUT" && E.present req.fields "Content-Range" && isSuccessful status)
      (say t 1058),
    whenever (methodSafe method == some true) (
      if status = 201 then say t 1072
      else if status = 202 then say t 1074
      else if status = 409 then say t 1095
      else []),
    whenever (status == 201 && method == str "POST" && E.absent m "Location") (say t 1073),
    whenever (method != str "HEAD" && emptyBody p.resp.body) (match emptyBodyNotice status with
      | some id => say t id
      | none => []),
    whenever (method == str "OPTIONS" && req.targetForm E == some .asterisk &&
      [300, 301, 302, 307, 308].contains status) (say t 1086)]

/-- `headers.clearly(predicate)` (header.py 95-96). -/
def clearly (E : Env) (m : Msg) (p : Str → Bool) : List Str := (E.names m).filter p

/-- Checks of negotiation, conditional requests and ranges (response.py 612-726). The context of 1102
and 1103 is reduced to the name of the protocol. -/
def checkNegotiation (E : Env) (p : Placed) (req : Request) : List Act :=
  let m := p.fields
  let g := E.grammars
  let t := p.here
  let status := p.status
  let method := req.method
  let get := method == str "GET" || method == str "HEAD"
  inOrder [
    whenever (status == 406) (
      if clearly E req.fields E.isProactiveConneg = [] then say t 1090
      else whenever ((clearly E req.fields E.isProactiveConneg).all
        fun n => E.same n (str "Accept-Language")) (say t 1117)),
    whenever (status == 411 && (E.single req.fields "Content-Length" g.contentLength).okay)
      (say t 1097),
    whenever (emptyBody req.body && status == 413) (say t 1098),
    whenever (emptyBody req.body && status == 415 && E.absent req.fields "Content-Type")
      (say t 1099),
    whenever (status == 417 && E.absent req.fields "Expect") (say t 1100),
    (match (E.items m "Upgrade" g.upgrade).find?
        fun x => decide (x ∈ E.items req.fields "Upgrade" g.upgrade) with
      | some x =>
        if status = 426 then say t 1102 [("protocol", .text x.1)]
        else whenever (isSuccessful status) (say t 1103 [("protocol", .text x.1)])
      | none => []),
    whenever (status == 426 && (match E.multi m "Upgrade" g.upgrade with
        | .elems [] => true
        | _ => false)) (say t 1101),
    whenever (status == 505 && (match p.resp.version with
        | some v => !v.isEmpty && req.version == some v
        | none => false)) (say t 1105),
    (if status = 405 then whenever (E.allows m method) (say t 1114)
     else whenever (isSuccessful status && E.present m "Allow" && !E.allows m method) (say t 1115)),
    whenever (get && isSuccessful status) (
      match E.single m "ETag" g.etag with
      | .val tag =>
        (match E.multi req.fields "If-None-Match" g.ifMatch with
          | .single _ => say t 1121
          | .elems _ => whenever ((E.items req.fields "If-None-Match" g.ifMatch).any
            fun x => x.weakEquiv tag) (say t 1121))
      | _ => whenever (compareView (fun a b : DateTime => decide (b ≤ a))
          (E.single req.fields "If-Modified-Since" g.date) (E.single m "Last-Modified" g.date))
        (say t 1123)),
    whenever (status == 304 || status == 412) (
      if (!get && status == 304) = true then say t 1124
      else if clearly E req.fields E.isPrecondition = [] then say t 1125
      else if (clearly E req.fields E.isPrecondition).all
          fun n => E.same n (str "If-Modified-Since") then whenever (!get) (say t 1128)
      else whenever ((clearly E req.fields E.isPrecondition).all fun n =>
          ["If-Match", "If-None-Match", "If-Modified-Since", "If-Unmodified-Since", "If-Range"].any
            fun h => E.same n (str h))
        (whenever (method == str "CONNECT" || method == str "OPTIONS" || method == str "TRACE")
          (say t 1129))),
    whenever (status == 206) (inOrder [
      (if E.absent req.fields "Range" then say t 1136
       else whenever (method != str "GET") (say t 1137)),
      whenever (E.contentTypeIs m "multipart/byteranges" &&
        okayAnd (E.single req.fields "Range" g.range) fun r => E.same r.1 (str "bytes") && r.2 == 1)
        (say t 1144),
      whenever (okayAnd (E.single req.fields "If-Range" g.ifRange) fun r => match r with
        | .tag x => okayAnd (E.single m "ETag" g.etag) fun tag => !tag.strongEquiv x
        | .date _ => false) (say t 1145),
      whenever (E.present req.fields "If-Range") (each (E.names m) fun n =>
        whenever (E.isReprMetadata n && !E.same n (str "ETag") && !E.same n (str "Content-Location"))
          (say t 1146 [("header", .header (E.lower n))]))]),
    whenever (status == 416) (inOrder [
      whenever (E.absent req.fields "Range") (say t 1149),
      whenever (okayAnd (E.single req.fields "Range" g.range) (fun r => E.same r.1 (str "bytes")) &&
        E.absent m "Content-Range") (say t 1150)])]

/-- Checks of caching and the rest (response.py 728-774), which apply to 103 (Early Hints) too. -/
def checkCachedAnswer (E : Env) (p : Placed) (req : Request) : List Act :=
  let m := p.fields
  let g := E.grammars
  let t := p.here
  let status := p.status
  let method := req.method
  inOrder [
    (fromCache E p).2,
    whenever ((fromCache E p).1 == some true) (inOrder [
      whenever (methodCacheable method == some false) (say t 1172),
      whenever (ageOver E m (foundInt (E.cache req.fields "max-age"))) (say t 1170),
      (if cacheTruthy (E.cache req.fields "no-cache") then say t 1173
       else whenever (E.absent req.fields "Cache-Control" && E.pragmaNoCache req.fields)
        (say t 1174))]),
    (stale E p).2,
    whenever ((stale E p).1 == some true && !E.hasWarning m 111 && !E.hasWarning m 112 &&
      notGiven (E.cache req.fields "max-stale") && notGiven (E.cache req.fields "stale-if-error") &&
      notGiven (E.cache m "stale-if-error") && notGiven (E.cache m "stale-while-revalidate"))
      (say t 1188),
    whenever (status == 428) (match (E.names req.fields).find? E.isPrecondition with
      | some n => say t 1200 [("header", .header (E.lower n))]
      | none => []),
    whenever (method == str "PATCH" && isSuccessful status &&
      okayAnd (E.single req.fields "Content-Type" g.contentType)
        (fun ct => E.mediaPatch ct.1 == some false)) (say t 1214),
    whenever (method == str "PATCH" && status == 415 && E.absent m "Accept-Patch") (say t 1215),
    whenever (E.present m "Strict-Transport-Security" && req.isTls == some false) (say t 1221),
    whenever (status == 421 && methodCacheable method == some true &&
      !cacheTruthy (E.cache m "no-store")) (say t 1283),
    each (E.items m "Preference-Applied" g.preferenceApplied) fun x =>
      whenever (!(E.preferences req.fields).any fun y => E.samePref x y)
        (say t 1286 [("name", .text (E.lower x.1)), ("value", .other)])]

/-- Checks against the request that are skipped for 103 (Early Hints) (response.py 786-795). -/
def checkSettledAnswer (E : Env) (p : Placed) (req : Request) : List Act :=
  let m := p.fields
  inOrder [
    whenever (req.method == str "OPTIONS" && E.allows m (str "PATCH") && E.absent m "Accept-Patch")
      (say p.here 1216),
    whenever (E.present m "Preference-Applied" && req.method == str "GET" &&
      (match E.multi m "Vary" E.grammars.vary with
        | .single v => v != str "*"
        | .elems _ => !(E.items m "Vary" E.grammars.vary).any fun v => E.same v (str "Prefer")))
      (say p.here 1291)]

/-- `check_response_in_context` (response.py 493-795). -/
def checkResponseInContext (E : Env) (p : Placed) (req : Request) : List Act :=
  inOrder [
    [.op (.silence p.here (((silenceItems E req.fields).filter fun x => x.2).map Prod.fst))],
    checkAgainstRequest E p req,
    checkNegotiation E p req,
    checkCachedAnswer E p req,
    if p.status = 103 then [] else checkSettledAnswer E p req]

/-- `check_response` (response.py 218-222). -/
def checkResponse (E : Env) (p : Placed) : List Act :=
  checkResponseItself E p ++ (match p.req with
    | some req => checkResponseInContext E p req
    | none => [])

/-- The loop of `check_responses` (response.py 207-215) from the `i`-th response on; `final` is the
first non-informational response so far. -/
def checkResponsesFrom (E : Env) (req : Option Request) : Nat → Option Nat → List Response → List Act
  | _, _, [] => []
  | i, none, r :: rs =>
    checkResponse E ⟨i, r, req⟩ ++
      checkResponsesFrom E req (i + 1) (if isInformational r.status then none else some i) rs
  | i, some j, r :: rs =>
    say (.resp i) 1304 [("previous", .response j)] ++ checkResponse E ⟨i, r, req⟩ ++
      checkResponsesFrom E req (i + 1) (some j) rs

/-- The loop of `check_exchange` over the responses (exchange.py 67-71). -/
def checkExpectFrom : Nat → Bool → List Response → List Act
  | _, _, [] => []
  | i, expect100, r :: rs =>
    let expect100 := if r.status = 100 then false else expect100
    whenever (expect100 && r.status == 101) (say (.resp i) 1305) ++ checkExpectFrom (i + 1) expect100 rs

/-- `headers.expect == u'100-continue'` (exchange.py 63). -/
def expects100 (E : Env) (req : Request) : Bool :=
  okayAnd (E.single req.fields "Expect" E.grammars.expect) fun x => E.same x (str "100-continue")

/-- `check_exchange` (exchange.py 57-71): everything it does, were it not for exceptions. -/
def exchangeActs (E : Env) (ex : Exchange) : List Act :=
  inOrder [
    (match ex.request with
      | some req => checkRequest E req
      | none => []),
    checkResponsesFrom E ex.request 0 none ex.responses,
    checkExpectFrom 0 (match ex.request with
      | some req => expects100 E req
      | none => false) ex.responses]

/-- `check_exchange` raises (httpolice/exchange.py 57-71). -/
def exchangeRaises (E : Env) (ex : Exchange) : Bool := (exchangeActs E ex).contains .raise

/-- The blackboards after `check_exchange(Exchange(req, resps))`, also if it raised
(httpolice/exchange.py 57-71). -/
def checkExchange (E : Env) (ex : Exchange) : ExchBoards Ctx :=
  (ExchBoards.fresh Ctx ex.request.isSome ex.responses.length).run (untilRaise (exchangeActs E ex))

end Httpolice.Model
