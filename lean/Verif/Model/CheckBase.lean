import Verif.Model.Blackboard
import Verif.Model.Header
import Verif.Model.KnownTables
import Verif.Model.Structure

/-!
# What the checks read and write (message.py, request.py, response.py, exchange.py)

Messages are given by their raw header entries; every header a check looks at is obtained through
the header views of `Model/Header.lean`. What the grammars, `urllib`, `base64`, `fnmatch` and the
payload decoders give is a parameter (`Grammars`, `Env`, `PayloadInfo`), so whatever is proved
about the checks holds for any such functions. A check writes on the message it is about, on the
request of the response it is about, and may raise.
-/

namespace Httpolice.Model

/-- Values in the context of a notice. HeaderViews are compared by identity in Python, and there is
one view per header of a message: the lower-cased name stands for the view. `other` stands for
objects that are not described further (such as exceptions) (httpolice/blackboard.py 52-58). -/
inductive Datum
  | text (s : Str)
  | num (n : Int)
  | entry (e : Entry)
  | entries (es : List Entry)
  | header (name : Str)
  | headers (names : List Str)
  | response (i : Nat)
  | other
deriving DecidableEq, Repr

/-- The keyword arguments of `complain` (blackboard.py 52). -/
abbrev Ctx := List (String × Datum)

/-- One thing a check does: a write on one of the blackboards, or an exception (httpolice/blackboard.py 52-70). -/
inductive Act
  | op (o : BoardOp Ctx)
  | raise
deriving DecidableEq, Repr

/-- `complain(id, **ctx)` (httpolice/blackboard.py 52-58). -/
def say (t : Target) (id : Nat) (ctx : Ctx := []) : List Act := [.op (.complain t ⟨id, ctx⟩)]

/-- `if b: ...` (httpolice/message.py 255-352, request.py 201-432, response.py 207-891). -/
def whenever (b : Bool) (acts : List Act) : List Act := if b then acts else []

/-- `for x in l: ...` (httpolice/message.py 255-352, request.py 201-432, response.py 207-891). -/
def each {α : Type} (l : List α) (f : α → List Act) : List Act := l.flatMap f

/-- Statements one after the other (httpolice/message.py 255-352, request.py 201-432, response.py 207-891). -/
def inOrder (l : List (List Act)) : List Act := l.flatten

/-- What happens up to the first exception (httpolice/exchange.py 57-71). -/
def untilRaise : List Act → List (BoardOp Ctx)
  | [] => []
  | .raise :: _ => []
  | .op o :: acts => o :: untilRaise acts

/-- A value of type `datetime`: whole seconds since 0001-01-01 00:00:00 (dates in headers have no
fraction, and the fraction of `utcnow()` makes no difference when compared with such a date)
(httpolice/syntax/rfc7231.py 103-106, response.py 112-178). -/
abbrev DateTime := Nat

/-- `datetime.max` without the fraction: 9999-12-31 23:59:59 (httpolice/response.py 112-121). -/
def maxDateTime : DateTime := 315537897599

/-! ## Parsed values of the headers that checks look into -/

/-- A pragma directive (syntax/rfc7234.py 37-44): `no-cache` in any case, or an extension. -/
inductive PragmaValue
  | noCache
  | extension (name : Str)
deriving DecidableEq, Repr

/-- `pragma == u'no-cache'` (`CaseInsensitive`, or `Parametrized` around a plain string)
(httpolice/request.py 323, response.py 324, message.py 320-322). -/
def PragmaValue.isNoCache : PragmaValue → Bool
  | .noCache => true
  | .extension n => n == str "no-cache"

/-- A warning value (structure.py 338-352): code and date (`None`, `Unavailable` or a datetime). -/
structure WarningValue where
  code : Nat
  date : PyVal DateTime

/-- An argument of a cache directive parsed with the directive's syntax (cache_directive.csv):
delta-seconds, or a list of field names. -/
inductive CacheArg
  | num (n : Nat)
  | names (l : List Str)
deriving DecidableEq, Repr

/-- An argument of a preference parsed with its syntax (preference.csv): a keyword or a number. -/
inductive PrefArg
  | word (s : Str)
  | num (n : Nat)
deriving DecidableEq, Repr

/-- Credentials or a challenge without the scheme (syntax/rfc7235.py 28-40): the `token68` form, or
a (possibly empty) dictionary of parameters. -/
inductive AuthParams
  | token68 (s : Str)
  | params (ps : List (Str × Str))
deriving DecidableEq, Repr

/-- The value of the `rel` parameter of a link (syntax/rfc8288.py 15-44): absent, malformed
(`Unavailable`), or a list of relation types. -/
inductive LinkRel
  | absent
  | malformed
  | rels (l : List Str)
deriving DecidableEq, Repr

/-- `If-Range` (syntax/rfc7233.py): an entity tag or a date. -/
inductive IfRange
  | tag (t : EntityTag)
  | date (d : DateTime)
deriving DecidableEq, Repr

/-- What the grammars (httpolice/syntax) make of a header entry, for the headers that checks look
into; `none` for a malformed entry of a `single` header (httpolice/header.py 128-153). -/
structure Grammars where
  age : Entry → Option Nat
  contentDisposition : Entry → Option (List (Str × Str))
  contentLocation : Entry → Option Str
  contentLength : Entry → Option Nat
  contentType : Entry → Option (Str × List (Str × Str))
  date : Entry → Option DateTime
  etag : Entry → Option EntityTag
  expect : Entry → Option Str
  host : Entry → Option Str
  http2Settings : Entry → Option Str
  ifRange : Entry → Option IfRange
  location : Entry → Option Str
  /-- unit, and the number of ranges for the `bytes` unit -/
  range : Entry → Option (Str × Nat)
  referer : Entry → Option Str
  authorization : Entry → Option (Str × AuthParams)
  strictTransportSecurity : Entry → Option (List (Str × ArgVal Nat))
  /-- the names of the products; `none` for a comment -/
  userAgent : Entry → Option (List (Option Str))
  /-- items and weights of `Accept`, `Accept-Charset`, `Accept-Encoding`, `Accept-Language`; weights
  in thousandths, `none` if there is no weight -/
  accept : Str → Entry → Parsed (Str × Option Nat)
  acceptPatch : Entry → Parsed Str
  allow : Entry → Parsed Str
  cacheControl : Entry → Parsed (Str × ArgVal CacheArg)
  connection : Entry → Parsed Str
  httpoliceSilence : Entry → Parsed (Nat × Bool)
  /-- `If-Match` and `If-None-Match`: entity tags; a singular value stands for `*` -/
  ifMatch : Entry → Parsed EntityTag
  link : Entry → Parsed LinkRel
  pragma : Entry → Parsed PragmaValue
  prefer : Entry → Parsed (Str × ArgVal PrefArg)
  preferenceApplied : Entry → Parsed (Str × ArgVal PrefArg)
  te : Entry → Parsed Str
  trailer : Entry → Parsed Str
  transferEncoding : Entry → Parsed Str
  /-- protocol name and version -/
  upgrade : Entry → Parsed (Str × Option Str)
  vary : Entry → Parsed Str
  warning : Entry → Parsed WarningValue
  /-- `WWW-Authenticate` and `Proxy-Authenticate` -/
  challenge : Entry → Parsed (Str × AuthParams)

/-- The forms of a request target (request.py 21-23, syntax/rfc7230.py). -/
inductive TargetForm
  | origin
  | absolute
  | authority
  | asterisk
deriving DecidableEq, Repr

/-- Everything outside of the checks themselves (httpolice/header.py 128-153, request.py 115-150,
known/__init__.py 310-334). -/
structure Env where
  /-- `str.lower` -/
  lower : Str → Str
  /-- `str.upper` -/
  upper : Str → Str
  /-- `datetime.utcnow()` -/
  now : DateTime
  grammars : Grammars
  /-- for any header: the shape of what parsing an entry gives, and the notices reported (1000, or
  those of the grammar and of `_process_parsed`) -/
  kind : Str → Entry → Parsed Unit × List Note
  /-- parsing a request target as one of some forms, with the notices of the grammar -/
  parseTarget : List TargetForm → Str → Option (TargetForm × List Note)
  /-- whether a text matches the grammar of `scope`, `error`, `error_description`, `error_uri`
  (syntax/rfc6749.py) -/
  oauthSyntax : Str → Str → Bool
  /-- `known.media_type.is_deprecated`, `is_patch` (known/__init__.py 312-325) -/
  mediaDeprecated : Str → Bool
  mediaPatch : Str → Option Bool
  /-- `known.product.is_library` (known/__init__.py 333-334) -/
  productLibrary : Str → Bool
  /-- `urlparse(s).scheme`, `urlparse(s).fragment`, `urljoin` -/
  urlScheme : Str → Str
  urlFragment : Str → Str
  urlJoin : Str → Str → Str
  /-- the keys of `parse_qs(urlparse(s).query)` -/
  queryKeys : Str → List Str
  /-- `base64.b64decode`; `none` for an exception -/
  b64decode : Str → Option Str
  /-- `fnmatch.fnmatch` -/
  fnmatch : Str → Str → Bool

/-- What the payload properties give (message.py 71-196): the notices they report on the message,
the keys of `url_encoded_data` if it is okay, and for every part of `multipart_data`, if it is okay,
whether it has `Content-Range` and `Content-Type`. -/
structure PayloadInfo where
  notes : List (Nat × Ctx)
  formKeys : Option (List Str)
  parts : Option (List (Bool × Bool))

/-- What requests and responses have in common (message.py 44-56). -/
structure Message where
  version : Option Str
  fields : Msg
  body : PyVal Str
  payload : PayloadInfo

/-- `Request` (request.py 26-110). -/
structure Request extends Message where
  scheme : Option Str
  method : Str
  target : Str
  /-- `is_to_proxy` was set to `None` (inputs/har.py 94) -/
  proxyUnknown : Bool := false

/-- `Response` (response.py 17-92), without the reference to its request. -/
structure Response extends Message where
  status : Int
  reason : Option Str

/-- `Exchange` (exchange.py 17-35). -/
structure Exchange where
  request : Option Request
  responses : List Response

/-- `bool(x)` of a body: `None` is false, `Unavailable` is true (structure.py 12-47 defines no
`__bool__`), a byte string is true unless empty. -/
def truthyBody : PyVal Str → Bool
  | .none => false
  | .unavailable => true
  | .val s => !s.isEmpty

/-- `body == b''` (httpolice/message.py 255-352). -/
def emptyBody : PyVal Str → Bool
  | .val s => s.isEmpty
  | _ => false

/-! ## Access to headers -/

namespace Env
variable (E : Env)

/-- `==` of `CaseInsensitive` strings (structure.py 157-160). -/
def same (a b : Str) : Bool := E.lower a == E.lower b

/-- Lookup in known/header.csv (known/__init__.py 56-65). -/
def flags (name : Str) : Option HeaderFlags :=
  headerFlags.find? fun r => E.same (str r.key) name

/-- `name in known.header` (known/__init__.py 50-51). -/
def isKnownHeader (name : Str) : Bool := (E.flags name).isSome

/-- `is_bad_for_trailer` (known/__init__.py 212-213). -/
def badForTrailer (name : Str) : Bool :=
  match headerRows.find? fun r => E.same (str r.key) name with
  | some r => r.badForTrailer
  | none => false

/-- `is_bad_for_connection` (known/__init__.py 209-210). -/
def badForConnection (name : Str) : Bool :=
  match headerRows.find? fun r => E.same (str r.key) name with
  | some r => r.badForConnection
  | none => false

/-- `is_for_request` (known/__init__.py 219-220). -/
def forRequest (name : Str) : Option Bool := (E.flags name).bind HeaderFlags.forRequest

/-- `is_for_response` (known/__init__.py 222-223). -/
def forResponse (name : Str) : Option Bool := (E.flags name).bind HeaderFlags.forResponse

/-- `is_precondition` (known/__init__.py 225-226). -/
def isPrecondition (name : Str) : Bool :=
  match E.flags name with
  | some r => r.precondition
  | none => false

/-- `is_proactive_conneg` (known/__init__.py 228-229). -/
def isProactiveConneg (name : Str) : Bool :=
  match E.flags name with
  | some r => r.proactiveConneg
  | none => false

/-- `is_representation_metadata` (known/__init__.py 231-232). -/
def isReprMetadata (name : Str) : Bool :=
  match E.flags name with
  | some r => r.representationMetadata
  | none => false

/-- `is_deprecated` (known/__init__.py 237-239). -/
def isDeprecated (name : Str) : Bool :=
  match E.flags name with
  | some r => r.deprecated
  | none => false

/-- `for hdr in headers` (header.py 81-83): the name of every view. -/
def names (m : Msg) : List Str := headerNames E.lower m

/-- The entries a view is made of (header.py 128-150). -/
def entriesOf (m : Msg) (name : String) : List Entry :=
  (preParse E.lower ⟨E.badForTrailer (str name), fun _ => (Parsed.list ([] : List Unit), [])⟩ m
    (str name)).1

/-- `headers.x.is_present` (header.py 192-196). -/
def present (m : Msg) (name : String) : Bool := !(E.entriesOf m name).isEmpty

/-- `headers.x.is_absent` (header.py 198-200). -/
def absent (m : Msg) (name : String) : Bool := !E.present m name

/-- `headers.x.total_entries` (header.py 176-178). -/
def totalEntries (m : Msg) (name : String) : Nat :=
  (enumerateHeaders E.lower m (some (str name))).length

/-- `headers.x.value` of a `SingleHeaderView` (header.py 282-295). -/
def single {V : Type} (m : Msg) (name : String) (p : Entry → Option V) : PyVal V :=
  match (singleView E.lower ⟨E.badForTrailer (str name), fun e =>
      (match p e with
        | some v => Parsed.single v
        | none => Parsed.unavailable none, [])⟩ m (str name)).value with
  | some (.single v) => .val v
  | some _ => .unavailable
  | none => .none

/-- `headers.x.value` of a `MultiHeaderView` (header.py 298-322). -/
def multi {V : Type} (m : Msg) (name : String) (p : Entry → Parsed V) : MultiValue V :=
  (multiView E.lower ⟨E.badForTrailer (str name), fun e => (p e, [])⟩ m (str name)).value

/-- `for x in headers.x` for a `MultiHeaderView` (header.py 324-325). The checks never iterate over
a singular value (which is a string: `*` or `clear`), so nothing is given for it. -/
def items {V : Type} (m : Msg) (name : String) (p : Entry → Parsed V) : List V :=
  match E.multi m name p with
  | .single _ => []
  | .elems xs => xs.filterMap fun x => match x with
    | .ok v => some v
    | .unavailable _ => none

/-- The notices reported when the value of a header is first read (header.py 128-150, 274-322), with
the view class chosen by `HeadersView.__getitem__` (47-69). The context is reduced to the entries the
notice is about. -/
def viewNotes (m : Msg) (name : Str) : List Note :=
  match viewClass E.lower name with
  | some .single => (singleView E.lower ⟨E.badForTrailer name, E.kind name⟩ m name).notes
  | some .multi => (multiView E.lower ⟨E.badForTrailer name, E.kind name⟩ m name).notes
  | some .unknown => (unknownView E.lower (E.badForTrailer name) m name).notes
  | some (.special s) =>
    if s = "Strict-Transport-Security" then
      (singleView E.lower ⟨E.badForTrailer name, E.kind name⟩ m name).notes
    else (multiView E.lower ⟨E.badForTrailer name, E.kind name⟩ m name).notes
  | none => []

end Env

/-- A notice of a header view, on the message (httpolice/header.py 128-175). -/
def sayNote (t : Target) (n : Note) : List Act := say t n.id [("entries", .entries n.entries)]

/-- `okay(x)` and a condition on `x` (httpolice/structure.py 52-53). -/
def okayAnd {α : Type} (v : PyVal α) (p : α → Bool) : Bool :=
  match v with
  | .val a => p a
  | _ => false

/-! ## Cache-Control and Prefer -/

/-- `bool(x)` of what `headers.cache_control[...]` gives (`Unavailable` is true) (httpolice/header.py 365-370). -/
def cacheTruthy : Found CacheArg → Bool
  | .none => false
  | .true => true
  | .arg .none => false
  | .arg (.unavailable _) => true
  | .arg (.raw s) => !s.isEmpty
  | .arg (.parsed (.num n)) => n != 0
  | .arg (.parsed (.names l)) => !l.isEmpty

/-- `x in [True, []]` (httpolice/response.py 448). -/
def cacheUnqualified : Found CacheArg → Bool
  | .true => true
  | .arg (.parsed (.num n)) => n == 1
  | .arg (.parsed (.names l)) => l.isEmpty
  | _ => false

/-- `x` as an operand of a comparison with a number (`True` is 1). Directives compared with numbers
have a syntax that gives numbers (cache_directive.csv), other arguments do not occur for them. -/
def cacheNumber : Found CacheArg → PyVal Nat
  | .none => .none
  | .true => .val 1
  | .arg (.parsed (.num n)) => .val n
  | _ => .unavailable

namespace Env
variable (E : Env)

/-- `headers.cache_control[d]` (header.py 362-369). -/
def cache (m : Msg) (d : String) : Found CacheArg :=
  match E.multi m "Cache-Control" E.grammars.cacheControl with
  | .single _ => .none
  | .elems xs => directiveGet E.lower (str d) xs

/-- `headers.prefer.without_params` (header.py 440-442). -/
def preferences (m : Msg) : List (Str × ArgVal PrefArg) := E.items m "Prefer" E.grammars.prefer

/-- `headers.prefer[d]` (header.py 434-438). -/
def preference (m : Msg) (d : String) : Found PrefArg :=
  directiveGet E.lower (str d) ((E.preferences m).map .ok)

/-- `==` of two arguments of preferences: keywords are `CaseInsensitive`, `Unavailable` objects are
compared by what they wrap (structure.py 39-46). -/
def sameArg : ArgVal PrefArg → ArgVal PrefArg → Bool
  | .none, .none => true
  | .unavailable s, .unavailable s' => s == s'
  | .raw s, .raw s' => s == s'
  | .raw s, .parsed (.word w) => E.same s w
  | .parsed (.word w), .raw s => E.same w s
  | .parsed (.word w), .parsed (.word w') => E.same w w'
  | .parsed (.num n), .parsed (.num n') => n == n'
  | _, _ => false

/-- `==` of two preferences (structure.py 60-69: compared as tuples). -/
def samePref (a b : Str × ArgVal PrefArg) : Bool := E.same a.1 b.1 && E.sameArg a.2 b.2

/-- `pref in headers.prefer.without_params` (httpolice/request.py 399-404, header.py 441-443). -/
def hasPref (m : Msg) (name : String) (value : String) : Bool :=
  (E.preferences m).any fun p => E.samePref p (str name, .raw (str value))

/-- `name in params` for a `MultiDict` with `CaseInsensitive` keys (structure.py 111-112). -/
def inParams (name : String) (ps : List (Str × Str)) : Bool := ps.any fun p => E.same p.1 (str name)

/-- `params.get(name)`, `params[name]` for a `MultiDict` with `CaseInsensitive` keys
(structure.py 108-109, 120-121). -/
def getParam (name : String) (ps : List (Str × Str)) : Option Str :=
  (ps.find? fun p => E.same p.1 (str name)).map Prod.snd

/-- `params.duplicates()` (structure.py 126-127), `duplicates` (util/data.py 4-10) of
`CaseInsensitive` strings: lower-cased. -/
def dupNames (names : List Str) : List Str := duplicates (names.map E.lower)

/-- `x in headers.warning` for a warn code (structure.py 349-352). -/
def hasWarning (m : Msg) (code : Nat) : Bool :=
  (E.items m "Warning" E.grammars.warning).any fun w => w.code == code

/-- `x in headers.connection` (header.py 214-221). -/
def inConnection (m : Msg) (opt : String) : Bool :=
  (E.items m "Connection" E.grammars.connection).any fun o => E.same o (str opt)

/-- `tc.chunked in headers.transfer_encoding` (httpolice/message.py 285, response.py 191). -/
def chunked (m : Msg) : Bool :=
  (E.items m "Transfer-Encoding" E.grammars.transferEncoding).any fun c => E.same c (str "chunked")

/-- `u'no-cache' in headers.pragma` (httpolice/request.py 323, response.py 324, 736). -/
def pragmaNoCache (m : Msg) : Bool :=
  (E.items m "Pragma" E.grammars.pragma).any PragmaValue.isNoCache

/-- `method in headers.allow`; methods are compared exactly (structure.py 189). -/
def allows (m : Msg) (method : Str) : Bool :=
  (E.items m "Allow" E.grammars.allow).any fun a => a == method

/-- `headers.content_type == media.x` (httpolice/header.py 223-244). -/
def contentTypeIs (m : Msg) (media : String) : Bool :=
  okayAnd (E.single m "Content-Type" E.grammars.contentType) fun ct => E.same ct.1 (str media)

end Env

/-! ## Methods and status codes -/

/-- `known.method.defines_body` (known/__init__.py 251-252). -/
def definesBody (method : Str) : Option Bool :=
  (methodRows.find? fun r => str r.key == method).bind MethodRow.definesBody

/-- `known.method.is_cacheable` (known/__init__.py 254-255). -/
def methodCacheable (method : Str) : Option Bool :=
  (methodRows.find? fun r => str r.key == method).bind MethodRow.cacheable

/-- `known.method.is_safe` (known/__init__.py 257-258). -/
def methodSafe (method : Str) : Option Bool :=
  (methodRows.find? fun r => str r.key == method).bind MethodRow.safe

/-- `name in known.method` (known/__init__.py 50-51). -/
def isKnownMethod (method : Str) : Bool := methodRows.any fun r => str r.key == method

/-- `known.status_code.is_cacheable` (known/__init__.py 273-274). -/
def cacheability (status : Int) : Option Cacheable :=
  (statusCacheable.find? fun r => r.1 == status).map Prod.snd

/-- `StatusCode.informational` (structure.py 201). -/
def isInformational (status : Int) : Bool := decide (100 ≤ status ∧ status ≤ 199)

/-- `StatusCode.successful` (structure.py 202). -/
def isSuccessful (status : Int) : Bool := decide (200 ≤ status ∧ status ≤ 299)

/-- `StatusCode.redirection` (structure.py 203). -/
def redirection (status : Int) : Bool := decide (300 ≤ status ∧ status ≤ 399)

/-- `StatusCode.client_error` (structure.py 204). -/
def clientError (status : Int) : Bool := decide (400 ≤ status ∧ status ≤ 499)

/-- `StatusCode.server_error` (structure.py 205). -/
def serverError (status : Int) : Bool := decide (500 ≤ status ∧ status ≤ 599)

/-- Whether a text matches `token` (syntax/rfc7230.py 17-20), the grammar of field names and
methods. -/
def isToken (s : Str) : Bool :=
  !s.isEmpty && s.all fun c =>
    isAsciiLetter c || isAsciiDigit c || (str "!#$%&'*+-.^_`|~").contains c

/-- Whether a text matches `reason_phrase` (syntax/rfc7230.py 105): tab, space, visible ASCII and
obsolete text. -/
def isReason (s : Str) : Bool :=
  s.all fun c => c == 9 || (32 ≤ c && c ≤ 126) || (128 ≤ c && c ≤ 255)

end Httpolice.Model
