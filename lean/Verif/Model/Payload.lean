import Verif.Model.CheckMessage
import Verif.Model.Decoding
import Verif.Model.Knowledge
import Verif.Model.World

/-!
# Model of the payload properties (httpolice/message.py 71-196, httpolice/response.py 98-109), of the rest of
`known.media_type` and `known.product`, and of the request target with the real grammar (httpolice/request.py 20-23, 115-128)

The Python libraries that take payloads apart are parameters. Exceptions that the code does not catch are not modelled: `LookupError`
of a charset that is no text encoding, `RecursionError` and `MemoryError`.
-/

namespace Httpolice.Model

/-- What `defusedxml.ElementTree.fromstring` does: fine, `EntitiesForbidden`, or `ParseError` or `UnicodeError`
(httpolice/message.py 144-161). -/
inductive XmlOutcome
  | fine
  | entities
  | broken
deriving DecidableEq, Repr

/-- A defect found by `email` (`NoBoundaryInMultipartDefect`, `StartBoundaryNotFoundDefect`, or another)
(httpolice/message.py 163-183). -/
inductive Defect
  | noBoundary
  | noStart
  | other
deriving DecidableEq, Repr

/-- What `email.message_from_bytes` gives: `defects`, and the parts if `is_multipart()`, with whether they have `Content-Range` and
`Content-Type` (httpolice/message.py 163-183). -/
structure EmailMessage where
  defects : List Defect
  parts : Option (List (Bool × Bool))

/-- The libraries (httpolice/message.py 71-196, codings.py 8-18). -/
structure Libs where
  codecs : Codecs
  /-- `codecs.lookup(s).name`; `none` for `LookupError` or `UnicodeError` -/
  charsetName : Str → Option Str
  /-- `bytes.decode(charset)`; `none` for `UnicodeError` -/
  decode : Str → Str → Option Str
  /-- `json.loads(s)` gives something rather than raises `ValueError` -/
  isJson : Str → Bool
  xml : Str → XmlOutcome
  email : Str → EmailMessage
  /-- the keys of `parse_qs(s)` -/
  formKeys : Str → List Str

/-- Values given to derived properties from outside (inputs/har.py 92, 148-151): an assigned value is the value (blackboard.py 17-38). -/
structure Assigned where
  decoded : Option Str := none
  unicode : Option Str := none

/-! ## Media types -/

/-- Media types with `is_json` in known/media_type.csv. -/
def jsonMedia : List String := ["application/json"]

/-- Media types with `is_xml` in known/media_type.csv. -/
def xmlMedia : List String := ["application/xml", "text/xml"]

/-- Media types with `deprecated` in known/media_type.csv. -/
def deprecatedMedia : List String :=
  ["application/font-sfnt", "application/font-woff", "application/smil", "image/x-emf", "image/x-wmf", "message/news",
    "text/directory", "text/ecmascript", "text/javascript"]

/-- Media types with a value of `patch` in known/media_type.csv. -/
def patchMedia : List (String × Bool) :=
  [("application/json", false), ("application/json-patch+json", true), ("application/merge-patch+json", true),
    ("application/x-www-form-urlencoded", false), ("application/xml", false), ("application/xml-patch+xml", true),
    ("text/event-stream", false), ("text/html", false), ("text/plain", false), ("text/xml", false)]

/-- Products with `library` in known/product.csv. -/
def libraryProducts : List String :=
  ["Apache-HttpAsyncClient", "Apache-HttpClient", "CFNetwork", "CPython", "Dalvik", "Darwin", "Go-http-client", "Java", "Linux",
    "OpenSSL", "PHP", "PyPy", "PycURL", "Python-urllib", "Ruby", "android-async-http", "hyper", "libcurl", "libidn", "libsoup",
    "libwww-perl", "lua-http", "nghttp2", "okhttp", "php-requests", "python-requests", "zlib"]

/-- `known.media_type.is_json` (known/__init__.py 315-316) with the table as it is. -/
def isJsonMedia (lower : Str → Str) (t : Str) : Bool :=
  jsonMedia.any (fun k => lower (str k) == lower t) || endsWithCi lower t (str "+json")

/-- `known.media_type.is_xml` (known/__init__.py 318-319) with the table as it is. -/
def isXmlMedia (lower : Str → Str) (t : Str) : Bool :=
  xmlMedia.any (fun k => lower (str k) == lower t) || endsWithCi lower t (str "+xml")

/-! ## Payloads -/

/-- The body of a message as `decoded_body` begins with it (httpolice/message.py 71-93). -/
def bodyPayload : PyVal Str → Payload
  | .none => .none
  | .unavailable => .unavailable none
  | .val b => .bytes b

/-- `headers.content_encoding.value`; it is never a singular value (C90) (httpolice/message.py 71-93). -/
def codingsOf : MultiValue Str → List (Elem Str)
  | .single _ => []
  | .elems xs => xs

/-- `decoded_body` (message.py 71-93) and what it reports. -/
def decodedPayload (L : Libs) (lower : Str → Str) (a : Assigned) (codings : List (Elem Str)) (body : PyVal Str) :
    Payload × List CodingNote :=
  match a.decoded with
  | some b => (.bytes b, [])
  | none => decodedBody lower L.codecs codings (bodyPayload body)

/-- The bytes, if the value is okay (httpolice/message.py 95-196). -/
def okayBytes : Payload → Option Str
  | .bytes b => some b
  | _ => none

/-- `guessed_charset` (message.py 95-113). -/
def guessedCharset (L : Libs) (E : Env) (ctype : PyVal (Str × List (Str × Str))) (decoded : Option Str) : Option Str :=
  match L.charsetName ((match ctype with
    | .val ct => E.getParam "charset" ct.2
    | _ => none).getD (str "utf-8")) with
  | none => none
  | some name => match decoded with
    | some b => if (L.decode name b).isSome then some name else none
    | none => some name

/-- `unicode_body` (message.py 115-122), if it is okay. -/
def unicodeText (L : Libs) (a : Assigned) (charset : Option Str) (decoded : Option Str) : Option Str :=
  match a.unicode with
  | some s => some s
  | none => match decoded, charset with
    | some b, some c => L.decode c b
    | _, _ => none

/-- What `json_data` reports (message.py 129-143). -/
def jsonNotes (L : Libs) (lower : Str → Str) (ctype : PyVal (Str × List (Str × Str))) (text charset : Option Str) (full : Bool) :
    List (Nat × Ctx) :=
  match ctype, text with
  | .val ct, some s =>
    if isJsonMedia lower ct.1 && full then
      if L.isJson s then
        if charset = none || charset = some (str "ascii") || charset = some (str "utf-8") then [] else [(1281, [])]
      else [(1038, [("error", .other)])]
    else []
  | _, _ => []

/-- What `xml_data` reports (message.py 145-162). -/
def xmlNotes (L : Libs) (lower : Str → Str) (ctype : PyVal (Str × List (Str × Str))) (decoded : Option Str) (full : Bool) :
    List (Nat × Ctx) :=
  match ctype, decoded with
  | .val ct, some b =>
    if isXmlMedia lower ct.1 && full then
      match L.xml b with
      | .fine => []
      | .entities => [(1275, [])]
      | .broken => [(1039, [("error", .other)])]
    else []
  | _, _ => []

/-- `multipart_code` (message.py 173-174). -/
def multipartCode (entry : Entry) (b : Str) : Str := str "Content-Type: " ++ entry.value ++ str "\r\n\r\n" ++ b

/-- The parsed message in `multipart_data` (message.py 164-175); `ctype.entries[0]` is the last one (header.py 288-291). -/
def multipartMessage (L : Libs) (E : Env) (m : Msg) (ctype : PyVal (Str × List (Str × Str))) (decoded : Option Str) (full : Bool) :
    Option EmailMessage :=
  match ctype, decoded, (E.entriesOf m "Content-Type").getLast? with
  | .val ct, some b, some entry =>
    if mediaIsMultipart E.lower ct.1 && full then some (L.email (multipartCode entry b)) else none
  | _, _, _ => none

/-- What `multipart_data` reports for a defect (message.py 176-180). -/
def defectNotes : Defect → List (Nat × Ctx)
  | .noBoundary => [(1139, [])]
  | .noStart => [(1140, [])]
  | .other => []

/-- `URL_ENCODED_GOOD_CHARS` (message.py 32-36). -/
def urlEncodedGood (c : Nat) : Bool :=
  [0x25, 0x26, 0x2A, 0x2B, 0x2D, 0x2E, 0x5F].contains c || (0x30 ≤ c && c < 0x40) || (0x41 ≤ c && c < 0x5B) || (0x61 ≤ c && c < 0x7B)

/-- The body that `url_encoded_data` looks at (message.py 188-190), if any. -/
def urlEncodedBody (E : Env) (m : Msg) (decoded : Option Str) (full : Bool) : Option Str :=
  if E.contentTypeIs m "application/x-www-form-urlencoded" && full then decoded else none

/-- What `url_encoded_data` reports (message.py 191-194). -/
def urlEncodedNotes (b : Str) : List (Nat × Ctx) :=
  match b.find? fun c => !urlEncodedGood c with
  | some c => [(1040, [("char", .text (formatChars [c]))])]
  | none => []

/-- The payload properties of a message, read in the order of `check_message` (message.py 276-282); `codings` is the grammar of
`Content-Encoding`, and `full` is `content_is_full`. -/
def payloadOf (L : Libs) (E : Env) (codings : Entry → Parsed Str) (a : Assigned) (m : Msg) (body : PyVal Str) (full : Bool) :
    PayloadInfo :=
  let ctype := E.single m "Content-Type" E.grammars.contentType
  let d := decodedPayload L E.lower a (codingsOf (E.multi m "Content-Encoding" codings)) body
  let decoded := okayBytes d.1
  let charset := guessedCharset L E ctype decoded
  let text := unicodeText L a charset decoded
  let email := multipartMessage L E m ctype decoded full
  let form := urlEncodedBody E m decoded full
  { notes := d.2.map (fun n => (n.id, if n.id = 1037 then [("coding", .text n.coding), ("error", .other)]
        else [("coding", .text n.coding)])) ++
      jsonNotes L E.lower ctype text charset full ++ xmlNotes L E.lower ctype decoded full ++
      (match email with
        | some x => x.defects.flatMap defectNotes
        | none => []) ++
      (match form with
        | some b => urlEncodedNotes b
        | none => [])
    formKeys := form.bind fun b => if b.all urlEncodedGood then some (L.formKeys b) else none
    parts := email.bind EmailMessage.parts }

/-- `Response.content_is_full` (response.py 98-109) as a condition. -/
def contentIsFull (E : Env) (request : Option Request) (r : Response) : Bool :=
  if r.status == 304 || r.status == 103 then false
  else if r.status == 206 && compareView (fun ct media => !E.same ct.1 media)
      (E.single r.fields "Content-Type" E.grammars.contentType) (.val (str "multipart/byteranges")) then false
  else match request with
    | some req => req.method != str "HEAD"
    | none => truthyBody r.body

/-- The exchange with the payloads of its messages as they are read by the checks (httpolice/message.py 71-196). -/
def loadPayloads (L : Libs) (E : Env) (codings : Entry → Parsed Str) (given : Target → Assigned) (ex : Exchange) : Exchange where
  request := ex.request.map fun req => { req with
    payload := payloadOf L E codings (given .req) req.fields req.body true }
  responses := ex.responses.mapIdx fun i r => { r with
    payload := payloadOf L E codings (given (.resp i)) r.fields r.body (contentIsFull E ex.request r) }

/-! ## Request targets -/

/-- The symbols of request.py 21-23 by the forms they stand for. -/
def formsE : List TargetForm → GExpr UriName
  | [.authority] => connectTargetE
  | [.origin, .asterisk, .absolute] => optionsTargetE
  | _ => normalTargetE

/-- The symbol that `Request.target_form` returns (request.py 126-128). -/
def targetFormOf : GVal → Option TargetForm
  | .tuple [.obj name _, _] =>
    [(str "origin_form", TargetForm.origin), (str "absolute_form", .absolute), (str "authority_form", .authority),
      (str "asterisk_form", .asterisk)].lookup name
  | _ => none

/-- Parsing a request target (request.py 123-128). The symbols of request.py are made last of all here. -/
def World.target (W : World) (forms : List TargetForm) (s : Str) : Option (TargetForm × List Note) :=
  let built := ((formsE forms).expr W.uriSym).build W.final
  match symParser built.2 W.annotate built.1 s with
  | .ok (.val v, cs, _) => (targetFormOf v).map fun f => (f, cs.map fun c => ⟨c.1, []⟩)
  | _ => none

/-- The grammar of `Content-Encoding` (httpolice/message.py 71-93, header.py 298-325). -/
def World.codings (W : World) (e : Entry) : Parsed Str := someOf strText (W.read "Content-Encoding" e)

/-- `link.param.get(u'rel')` (response.py 328) of a link; an exception in parsing it (C79) is not one here. -/
def linkRelOf : GVal → LinkRel
  | .obj _ [_, .obj _ [.list l]] =>
    match l.find? fun v => asciiLower (strText (unpackPair v |>.map Prod.fst |>.getD .none)) == str "rel" with
    | none => .absent
    | some v => match unpackPair v |>.map Prod.snd with
      | some (.list rels) => .rels (rels.map strText)
      | _ => .malformed
  | _ => .absent

/-- The surroundings of the checks, with the tables as they are (httpolice/known/__init__.py 310-334,
request.py 115-128). -/
def World.around (W : World) (base : Env) : Env := { base with
  grammars := { base.grammars with link := fun e => someOf linkRelOf (W.read "Link" e) }
  parseTarget := W.target
  mediaDeprecated := fun t => deprecatedMedia.any fun k => base.lower (str k) == base.lower t
  mediaPatch := fun t => (patchMedia.find? fun p => base.lower (str p.1) == base.lower t).map Prod.snd
  productLibrary := fun s => libraryProducts.any fun k => str k == s }

/-- All surroundings of the checks, other than Python's own functions (httpolice/exchange.py 57-71). -/
def World.all (W : World) (base : Env) : Env := W.env (W.around base)

end Httpolice.Model
