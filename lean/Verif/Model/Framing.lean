import Verif.Model.Stream
import Verif.Model.Header
import Verif.Model.Helpers

/-!
# Model of `httpolice/framing1.py`

Parameters (`FrameEnv`): the parser of the value of one Transfer-Encoding entry, giving the list of
codings, and the gzip/deflate decoders (`none` for any exception). Content-Length is parsed
concretely (rfc7230.py 164). Header names are compared by ASCII lower-case form, which is exact for
comparing ISO-8859-1 text with an ASCII name. Notices reported by the header views (1000, 1013) are
not part of this model (see `Model/Header.lean`), nor are the symbols and texts in parse errors.
Ghost fields, not stored by the code: `stop` of a message, offsets of 1016/1224 notices.
-/

namespace Httpolice.Model

/-- A transfer coding as `framing1` distinguishes them (270-284); `x-gzip` counts as gzip
(httpolice/framing1.py 264-284). -/
inductive Coding
  | chunked
  | gzip
  | deflate
  | other
  | unavailable
deriving DecidableEq, Repr

/-- Parameters of the model (httpolice/framing1.py 140-158, 203-236, 264-284). -/
structure FrameEnv where
  te : Str → Option (List Coding)
  gunzip : Str → Option Str
  inflate : Str → Option Str

/-- A message body: `bytes`, or `Unavailable(inner)` (httpolice/structure.py 12-53). -/
inductive Body
  | bytes (b : Str)
  | unavailable (inner : Option Str)
deriving DecidableEq, Repr

/-- A notice of framing: its ID, and for 1016 and 1224 the offset of the line (ghost)
(httpolice/stream.py 92-99). -/
structure FNote where
  id : Nat
  line : Option Nat
deriving DecidableEq, Repr

/-- What framing determines of a message: `start` is shown in the remark (framing1.py 117, 197). -/
structure FMsg where
  start : Nat
  entries : List Entry
  trailers : List Entry
  body : Body
  notes : List FNote
  stop : Nat
deriving DecidableEq, Repr

/-- A request (framing1.py 103-119). -/
structure FReq where
  method : Str
  target : Str
  version : Str
  msg : FMsg
deriving DecidableEq, Repr

/-- A response (framing1.py 180-200). -/
structure FResp where
  version : Str
  status : Nat
  reason : Str
  msg : FMsg
deriving DecidableEq, Repr

/-- `MAX_BODY_SIZE` (framing1.py 31). -/
def maxBodySize : Nat := 1024 * 1024 * 1024

/-- A decimal digit of `HTTP_VERSION`, `STATUS_CODE` (httpolice/framing1.py 27-28). -/
def isDigit (c : Nat) : Bool := 48 ≤ c && c ≤ 57

/-- `HTTP_VERSION.match` (framing1.py 27). The text has no LF, so `$` is the end. -/
def isHttpVersion (s : Str) : Bool :=
  match s with
  | [72, 84, 84, 80, 47, a, 46, b] => isDigit a && isDigit b
  | _ => false

/-- `STATUS_CODE.match` (framing1.py 28) and `StatusCode(...)` (194): the number, if it matches. -/
def parseStatus (s : Str) : Option Nat :=
  match s with
  | [a, b, c] => if isDigit a && isDigit b && isDigit c then
      some ((a - 48) * 100 + (b - 48) * 10 + (c - 48)) else none
  | _ => none

/-- `s.partition(c)`: before, after; `none` if there is no separator (httpolice/framing1.py 252, 300). -/
def partitionOn (c : Nat) : Str → Option (Str × Str)
  | [] => none
  | x :: s => if x = c then some ([], s) else (partitionOn c s).map fun p => (x :: p.1, p.2)

/-- `b in b' \t'` (httpolice/framing1.py 256-260). -/
def isBlank (c : Nat) : Bool := c == 32 || c == 9

/-- `s.lstrip(b' \t')` (httpolice/framing1.py 258). -/
def lstripBlank (s : Str) : Str := s.dropWhile isBlank

/-- `s.rstrip(b' \t')` (httpolice/framing1.py 260). -/
def rstripBlank (s : Str) : Str := (s.reverse.dropWhile isBlank).reverse

/-- `s.strip(b' \t')` (httpolice/framing1.py 260). -/
def stripBlank (s : Str) : Str := rstripBlank (lstripBlank s)

/-- The inner loop of `parse_header_fields` (framing1.py 255-257): continuation lines.
`fuel` bounds the iterations; running out is `Exc.diverge`. -/
def contLines : Nat → SS → Out (List Str)
  | 0, s => .exc .diverge s
  | fuel + 1, s =>
    if s.peek = some 32 ∨ s.peek = some 9 then
      match (s.complain 1016 s.pos).readline with
      | .exc e s' => .exc e s'
      | .ok line s' =>
        match contLines fuel s' with
        | .exc e s'' => .exc e s''
        | .ok vs s'' => .ok ((32 :: lstripBlank line) :: vs) s''
    else .ok [] s

/-- The loop of `parse_header_fields` (framing1.py 246-261). -/
def headerLoop : Nat → SS → Out (List Entry)
  | 0, s => .exc .diverge s
  | fuel + 1, s =>
    if s.peek = some 13 ∨ s.peek = some 10 ∨ s.peek = none then .ok [] s
    else
      match s.readline with
      | .exc e s' => .exc e s'
      | .ok line s' =>
        match partitionOn 58 line with
        | none => s'.error s.pos
        | some (name, v) =>
          match contLines fuel s' with
          | .exc e s'' => .exc e s''
          | .ok vs s'' =>
            match headerLoop fuel s'' with
            | .exc e s3 => .exc e s3
            | .ok es s3 => .ok (⟨name, stripBlank (v ++ vs.flatten)⟩ :: es) s3

/-- `parse_header_fields` (framing1.py 239-261). -/
def parseHeaderFields (s : SS) : Out (List Entry) := headerLoop (s.rest.length + 1) s

/-- Notices dumped from a stream (httpolice/stream.py 92-99). -/
def lineNotes (cs : List (Nat × Nat)) : List FNote := cs.map fun c => ⟨c.1, some c.2⟩

/-- A request heading: method, target, version, entries, notices (httpolice/framing1.py 103-119). -/
structure ReqHeading where
  start : Nat
  method : Str
  target : Str
  version : Str
  entries : List Entry
  notes : List FNote
deriving DecidableEq, Repr

/-- `_parse_request_heading` (framing1.py 103-119). -/
def parseRequestHeading (s : SS) : Out ReqHeading :=
  match s.readline with
  | .exc e s1 => .exc e s1
  | .ok line s1 =>
    match splitOn 32 line with
    | [method, target, version] =>
      if isHttpVersion version then
        match parseHeaderFields s1 with
        | .exc e s2 => .exc e s2
        | .ok entries s2 =>
          match s2.readlineend with
          | .exc e s3 => .exc e s3
          | .ok _ s3 =>
            .ok ⟨s.pos, method, target, version, entries, lineNotes s3.dumpComplaints.1⟩
              s3.dumpComplaints.2
      else s1.error s.pos
    | _ => s1.error s.pos

/-- The rest of `int(s, 16)` once sign and prefix are read: hexadecimal digits, single underscores
between them (httpolice/framing1.py 296-313). -/
def hexDigitVal (c : Nat) : Option Nat :=
  if 48 ≤ c ∧ c ≤ 57 then some (c - 48)
  else if 97 ≤ c ∧ c ≤ 102 then some (c - 87)
  else if 65 ≤ c ∧ c ≤ 70 then some (c - 55)
  else none

/-- Hexadecimal digits, single underscores between them (httpolice/framing1.py 296-313). -/
def hexGo (acc : Nat) (afterDigit : Bool) : Str → Option Nat
  | [] => if afterDigit then some acc else none
  | c :: s =>
    if c = 95 then if afterDigit then hexGo acc false s else none
    else match hexDigitVal c with
      | none => none
      | some d => hexGo (acc * 16 + d) true s

/-- White space as `int()` strips it from ISO-8859-1 text (httpolice/framing1.py 296-313). -/
def isIntSpace (c : Nat) : Bool := (9 ≤ c && c ≤ 13) || c == 32 || c == 0x85 || c == 0xA0

/-- The sign in the text given to `int()`: is it negative, and the rest (httpolice/framing1.py 296-313). -/
def intSign : Str → Bool × Str
  | 45 :: t => (true, t)
  | 43 :: t => (false, t)
  | t => (false, t)

/-- Drop the prefix `0x` that `int(s, 16)` accepts (httpolice/framing1.py 296-313). -/
def hexPrefix : Str → Str
  | 48 :: 120 :: 95 :: t => t
  | 48 :: 88 :: 95 :: t => t
  | 48 :: 120 :: t => t
  | 48 :: 88 :: t => t
  | t => t

/-- White space around the number, as `int()` removes it (httpolice/framing1.py 296-313). -/
def intStrip (s : Str) : Str := ((s.dropWhile isIntSpace).reverse.dropWhile isIntSpace).reverse

/-- Python `int(s, 16)` on ISO-8859-1 text (framing1.py 302); `none` models `ValueError`. -/
def pyIntHex (s : Str) : Option Int :=
  let (neg, t) := intSign (intStrip s)
  (hexGo 0 false (hexPrefix t)).map fun (n : Nat) => if neg then -(n : Int) else n

/-- The size in a chunk-size line (framing1.py 300-304): everything before the first `;`, with
blanks at the end removed, as a hexadecimal integer. -/
def chunkSize (line : Str) : Option Int :=
  pyIntHex (rstripBlank (match partitionOn 59 line with
    | some (a, _) => a
    | none => line))

/-- `_parse_chunk` (framing1.py 296-313): `current` is the total size so far; `none` after the last
chunk, else the data of the chunk. -/
def parseChunk (s : SS) (current : Nat) : Out (Option Str) :=
  match s.readline with
  | .exc e s1 => .exc e s1
  | .ok line s1 =>
    match chunkSize line with
    | none => s1.error s.pos
    | some size =>
      if size = 0 then .ok none s1
      else if size + current > maxBodySize then
        .exc (.tooLong (size + current)) { s1 with sane := false }
      else
        match s1.read size with
        | .exc e s2 => .exc e s2
        | .ok d s2 =>
          match s2.readlineend with
          | .exc e s3 => .exc e s3
          | .ok _ s3 => .ok (some d) s3

/-- The loop of `_parse_chunked` (framing1.py 320-321); `data` is what has been read so far. -/
def chunkLoop : Nat → SS → Str → Out Str
  | 0, s, _ => .exc .diverge s
  | fuel + 1, s, data =>
    match parseChunk s data.length with
    | .exc e s' => .exc e s'
    | .ok none s' => .ok data s'
    | .ok (some d) s' => chunkLoop fuel s' (data ++ d)

/-- The result of parsing a body (httpolice/framing1.py 140-158, 203-236). -/
structure BodyRes where
  body : Body
  trailers : List Entry
  notes : List FNote
deriving DecidableEq, Repr

/-- A notice without a line (httpolice/framing1.py 140-236). -/
def plainNote (id : Nat) : FNote := ⟨id, none⟩

/-- The `try` block of `_parse_chunked` (framing1.py 319-324). -/
def parseChunkedRaw (s : SS) : Out (Str × List Entry) :=
  match chunkLoop (s.rest.length + 1) s [] with
  | .exc e s1 => .exc e s1
  | .ok data s1 =>
    match parseHeaderFields s1 with
    | .exc e s2 => .exc e s2
    | .ok trailer s2 =>
      match s2.readlineend with
      | .exc e s3 => .exc e s3
      | .ok _ s3 => .ok (data, trailer) s3

/-- `_parse_chunked` (framing1.py 316-336). -/
def parseChunked (s : SS) : Out BodyRes :=
  match parseChunkedRaw s with
  | .exc (.parse _) s' => .ok ⟨.unavailable none, [], [plainNote 1005]⟩ s'
  | .exc (.tooLong _) s' => .ok ⟨.unavailable none, [], [plainNote 1298]⟩ s'
  | .exc e s' => .exc e s'
  | .ok (data, trailer) s' =>
    .ok ⟨.bytes data, trailer, lineNotes s'.dumpComplaints.1⟩ s'.dumpComplaints.2

/-- `_decode_transfer_coding` (framing1.py 264-284). -/
def decodeTransferCoding (env : FrameEnv) (b : Str) : Coding → Body × List FNote
  | .chunked => (.unavailable (some b), [plainNote 1002])
  | .gzip => match env.gunzip b with
    | some b' => (.bytes b', [])
    | none => (.unavailable (some b), [plainNote 1027])
  | .deflate => match env.inflate b with
    | some b' => (.bytes b', [])
    | none => (.unavailable (some b), [plainNote 1027])
  | .other => (.unavailable (some b), [plainNote 1003])
  | .unavailable => (.unavailable (some b), [])

/-- `while codings and okay(msg.body)` (framing1.py 151-152, 227-228); the codings are given in the
order in which they are popped. -/
def decodeCodings (env : FrameEnv) : List Coding → Body → Body × List FNote
  | [], b => (b, [])
  | _ :: _, .unavailable inner => (.unavailable inner, [])
  | c :: cs, .bytes b =>
    let (b1, ns1) := decodeTransferCoding env b c
    let (b2, ns2) := decodeCodings env cs b1
    (b2, ns1 ++ ns2)

/-- Transfer-Encoding (known/header.csv): a list header, bad for trailers. -/
def teKind (env : FrameEnv) : HeaderKind Coding :=
  ⟨true, fun e => match env.te e.value with
    | some cs => (.list cs, [])
    | none => (.unavailable (some e.value), [])⟩

/-- The value of the Transfer-Encoding header (header.py 302-322). -/
def teCodings (env : FrameEnv) (entries : List Entry) : List Coding :=
  match (multiView asciiLower (teKind env) ⟨entries, []⟩ (str "Transfer-Encoding")).value with
  | .elems xs => xs.map fun x => match x with
    | .ok c => c
    | .unavailable _ => .unavailable
  | .single c => [c]

/-- `int` on decimal digits (httpolice/syntax/rfc7230.py 164). -/
def decimal (s : Str) : Nat := s.foldl (fun n c => n * 10 + (c - 48)) 0

/-- `Content_Length` (rfc7230.py 164): `int << string1(DIGIT)`. -/
def parseContentLength (s : Str) : Option Nat :=
  if s ≠ [] ∧ s.all isDigit then some (decimal s) else none

/-- Content-Length (known/header.csv): a single header, bad for trailers. -/
def clKind : HeaderKind Nat :=
  ⟨true, fun e => match parseContentLength e.value with
    | some n => (.single n, [])
    | none => (.unavailable (some e.value), [])⟩

/-- The value of the Content-Length header (header.py 286-295). -/
def contentLength (entries : List Entry) : PyVal Nat :=
  match (singleView asciiLower clKind ⟨entries, []⟩ (str "Content-Length")).value with
  | none => .none
  | some (.single n) => .val n
  | some _ => .unavailable

/-- `_process_content_length` (framing1.py 122-137). -/
def processContentLength (n : PyVal Nat) (s : SS) : Out BodyRes :=
  match n with
  | .none | .unavailable => .ok ⟨.unavailable none, [], []⟩ { s with sane := false }
  | .val n =>
    if n > maxBodySize then
      .ok ⟨.unavailable none, [], [plainNote 1298]⟩ { s with sane := false }
    else
      match s.read n with
      | .exc (.parse _) s' => .ok ⟨.unavailable none, [], [plainNote 1004]⟩ s'
      | .exc e s' => .exc e s'
      | .ok b s' => .ok ⟨.bytes b, [], []⟩ s'

/-- `bool(req.headers.content_length)` (framing1.py 154, header.py 204-205): false if absent or
zero; `Unavailable` is truthy. -/
def clTruthy : PyVal Nat → Bool
  | .none => false
  | .unavailable => true
  | .val n => n != 0

/-- `_parse_request_body` (framing1.py 140-158). -/
def parseRequestBody (env : FrameEnv) (entries : List Entry) (s : SS) : Out BodyRes :=
  match (teCodings env entries).reverse with
  | c :: cs =>
    let first : Out BodyRes :=
      if c = .chunked then parseChunked s
      else .ok ⟨.unavailable none, [], [plainNote 1001]⟩ { s with sane := false }
    match first with
    | .exc e s' => .exc e s'
    | .ok r s' =>
      let (b, ns) := decodeCodings env cs r.body
      .ok ⟨b, r.trailers, r.notes ++ ns⟩ s'
  | [] =>
    if clTruthy (contentLength entries) then processContentLength (contentLength entries) s
    else .ok ⟨.bytes [], [], []⟩ s

/-- `_parse_request` (framing1.py 93-100): a request, or a complaint box 1006. -/
def parseRequest (env : FrameEnv) (s : SS) : Out (Option FReq) :=
  match parseRequestHeading s with
  | .exc (.parse _) s' => .ok none s'
  | .exc e s' => .exc e s'
  | .ok h s1 =>
    match parseRequestBody env h.entries s1 with
    | .exc e s2 => .exc e s2
    | .ok r s2 => .ok (some ⟨h.method, h.target, h.version,
        ⟨h.start, h.entries, r.trailers, r.body, h.notes ++ r.notes, s2.pos⟩⟩) s2

/-- `line.split(u' ', 2)` (framing1.py 184): three pieces, or `none`. -/
def splitTwice (line : Str) : Option (Str × Str × Str) :=
  match partitionOn 32 line with
  | none => none
  | some (a, r) => match partitionOn 32 r with
    | none => none
    | some (b, c) => some (a, b, c)

/-- A response heading (httpolice/framing1.py 180-200). -/
structure RespHeading where
  start : Nat
  version : Str
  status : Nat
  reason : Str
  entries : List Entry
  notes : List FNote
deriving DecidableEq, Repr

/-- `_parse_response_heading` (framing1.py 180-200). -/
def parseResponseHeading (s : SS) : Out RespHeading :=
  match s.readline with
  | .exc e s1 => .exc e s1
  | .ok line s1 =>
    match splitTwice line with
    | none => s1.error s.pos
    | some (version, code, reason) =>
      if isHttpVersion version then
        match parseStatus code with
        | none => s1.error s.pos
        | some status =>
          match parseHeaderFields s1 with
          | .exc e s2 => .exc e s2
          | .ok entries s2 =>
            match s2.readlineend with
            | .exc e s3 => .exc e s3
            | .ok _ s3 =>
              .ok ⟨s.pos, version, status, reason, entries, lineNotes s3.dumpComplaints.1⟩
                s3.dumpComplaints.2
      else s1.error s.pos

/-- `resp.body = stream.read()` (framing1.py 226, 236). -/
def readToEnd (s : SS) : Out BodyRes :=
  match s.read (-1) with
  | .exc e s' => .exc e s'
  | .ok b s' => .ok ⟨.bytes b, [], []⟩ s'

/-- `StatusCode.informational`, `.successful` (structure.py 201-202). -/
def informational (status : Nat) : Bool := 100 ≤ status && status ≤ 199

/-- `StatusCode.successful` (structure.py 202). -/
def successful (status : Nat) : Bool := 200 ≤ status && status ≤ 299

/-- `_parse_response_body` (framing1.py 203-236); `method` is that of the request, if known. -/
def parseResponseBody (env : FrameEnv) (method : Option Str) (status : Nat)
    (entries : List Entry) (s : SS) : Out BodyRes :=
  if status = 101 then .ok ⟨.bytes [], [], [plainNote 1011]⟩ { s with sane := false }
  else if method = some (str "CONNECT") ∧ successful status then
    .ok ⟨.bytes [], [], [plainNote 1012]⟩ { s with sane := false }
  else if informational status ∨ status = 204 ∨ status = 304 ∨ method = some (str "HEAD") then
    .ok ⟨.bytes [], [], []⟩ s
  else
    match (teCodings env entries).reverse with
    | c :: cs =>
      let first : Out BodyRes := if c = .chunked then parseChunked s else readToEnd s
      match first with
      | .exc e s' => .exc e s'
      | .ok r s' =>
        let (b, ns) := decodeCodings env (if c = .chunked then cs else c :: cs) r.body
        .ok ⟨b, r.trailers, r.notes ++ ns⟩ s'
    | [] =>
      match contentLength entries with
      | .none => readToEnd s
      | n => processContentLength n s

/-- The loop of `_parse_responses` (framing1.py 161-177): the responses, and whether a complaint
box 1009 is returned. -/
def parseResponses (env : FrameEnv) (method : Option Str) : Nat → SS → Out (List FResp × Bool)
  | 0, s => .exc .diverge s
  | fuel + 1, s =>
    if s.good then
      match parseResponseHeading s with
      | .exc (.parse _) s' => .ok ([], true) s'
      | .exc e s' => .exc e s'
      | .ok h s1 =>
        match parseResponseBody env method h.status h.entries s1 with
        | .exc e s2 => .exc e s2
        | .ok r s2 =>
          let resp : FResp := ⟨h.version, h.status, h.reason,
            ⟨h.start, h.entries, r.trailers, r.body, h.notes ++ r.notes, s2.pos⟩⟩
          if !informational h.status ∨ h.status = 101 then .ok ([resp], false) s2
          else
            match parseResponses env method fuel s2 with
            | .exc e s3 => .exc e s3
            | .ok (resps, box) s3 => .ok (resp :: resps, box) s3
    else .ok ([], false) s

/-- What `parse_streams` yields: an exchange, or a complaint box (by notice ID) (httpolice/framing1.py 34-90). -/
inductive Yield
  | exch (req : Option FReq) (resps : List FResp)
  | box (id : Nat)
deriving DecidableEq, Repr

/-- A complaint box, if any (httpolice/framing1.py 34-90). -/
def boxIf (b : Bool) (id : Nat) : List Yield := if b then [.box id] else []

/-- Is nothing on the inbound stream after this exchange HTTP any more (framing1.py 61-65)? -/
def switches (req : FReq) (resps : List FResp) : Bool :=
  match resps.getLast? with
  | none => false
  | some r => r.status == 101 || (req.method == str "CONNECT" && successful r.status)

/-- `stream.sane = False` if `b` (httpolice/framing1.py 122-158, 203-236). -/
def SS.spoil (s : SS) (b : Bool) : SS := if b then { s with sane := false } else s

/-- The first loop of `parse_streams` (framing1.py 55-71): what is yielded, and either the final
state of both streams or the escaping exception. -/
def requestLoop (env : FrameEnv) : Nat → SS → Option SS →
    List Yield × Except Exc (SS × Option SS)
  | 0, _, _ => ([], .error .diverge)
  | fuel + 1, inb, outb =>
    if inb.good then
      match parseRequest env inb with
      | .exc e _ => ([], .error e)
      | .ok none inb' =>
        let (ys, r) := requestLoop env fuel inb' outb
        (.box 1006 :: ys, r)
      | .ok (some req) inb' =>
        match outb with
        | none =>
          let (ys, r) := requestLoop env fuel inb' none
          (.exch (some req) [] :: ys, r)
        | some o =>
          if o.good then
            match parseResponses env (some req.method) (o.rest.length + 2) o with
            | .exc e _ => ([], .error e)
            | .ok (resps, box) o' =>
              let (ys, r) := requestLoop env fuel (inb'.spoil (switches req resps)) (some o')
              (.exch (some req) resps :: boxIf box 1009 ++ ys, r)
          else
            let (ys, r) := requestLoop env fuel inb' (some o)
            (.exch (some req) [] :: ys, r)
    else ([], .ok (inb, outb))

/-- The second loop of `parse_streams` (framing1.py 82-87). -/
def responseLoop (env : FrameEnv) : Nat → SS → List Yield × Except Exc SS
  | 0, _ => ([], .error .diverge)
  | fuel + 1, o =>
    if o.good then
      match parseResponses env none (o.rest.length + 2) o with
      | .exc e _ => ([], .error e)
      | .ok (resps, box) o' =>
        let (ys, r) := responseLoop env fuel o'
        ((if resps.isEmpty then [] else [.exch none resps]) ++ boxIf box 1009 ++ ys, r)
    else ([], .ok o)

/-- The part of `parse_streams` after the requests (framing1.py 73-90). -/
def finishStreams (env : FrameEnv) (inb outb : Option SS) :
    List Yield × Except Exc (Option SS × Option SS) :=
  let ys1 := boxIf (inb.any fun s => !s.eof) 1007
  match outb with
  | none => (ys1, .ok (inb, none))
  | some o =>
    if o.good then
      let (ys2, r) := responseLoop env (o.rest.length + 2) o
      let ys := ys1 ++ boxIf inb.isSome 1008 ++ ys2
      match r with
      | .error e => (ys, .error e)
      | .ok o' => (ys ++ boxIf (!o'.eof) 1010, .ok (inb, some o'))
    else (ys1 ++ boxIf (!o.eof) 1010, .ok (inb, some o))

/-- `parse_streams` (framing1.py 34-90): everything it yields, and how it ends: with the final
state of the streams, or with an exception. -/
def parseStreams (env : FrameEnv) (inb outb : Option SS) :
    List Yield × Except Exc (Option SS × Option SS) :=
  match inb with
  | none => finishStreams env none outb
  | some i =>
    match requestLoop env (i.rest.length + 2) i outb with
    | (ys, .error e) => (ys, .error e)
    | (ys, .ok (i', outb')) =>
      let (ys', r) := finishStreams env (some i') outb'
      (ys ++ ys', r)

end Httpolice.Model
