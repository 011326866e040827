import Verif.Model.Framing

/-!
# HTTP/1.x messages on the wire

What messages look like as bytes, for stating what parsing them should give. No parsing function of
the model is used here.
-/

namespace Httpolice.Spec

open Httpolice.Model (Str Entry FMsg FReq FResp FNote Coding FrameEnv Body str asciiLower)

/-- Space or tab. -/
def Blank (c : Nat) : Prop := c = 32 ∨ c = 9

instance (c : Nat) : Decidable (Blank c) := by unfold Blank; infer_instance

/-- A line: its text, and whether it ends with CR LF or only LF. -/
structure WLine where
  text : Str
  cr : Bool
deriving DecidableEq, Repr

/-- The bytes of a line. -/
def WLine.bytes (l : WLine) : Str := l.text ++ if l.cr then [13, 10] else [10]

/-- A possible line: not longer than 16384 bytes, and it is clear where it ends. -/
structure WLine.Ok (l : WLine) : Prop where
  lf : 10 ∉ l.text
  cr : l.cr = false → ∀ t, l.text ≠ t ++ [13]
  len : l.bytes.length ≤ 16384

/-- A continuation line of a header field: blanks, then something else. -/
structure Fold where
  indent : Str
  content : Str
  cr : Bool
deriving DecidableEq, Repr

/-- The line. -/
def Fold.line (f : Fold) : WLine := ⟨f.indent ++ f.content, f.cr⟩

/-- A possible continuation line. -/
structure Fold.Ok (f : Fold) : Prop where
  line : f.line.Ok
  ne : f.indent ≠ []
  blank : ∀ c ∈ f.indent, Blank c
  content : ∀ c s, f.content = c :: s → ¬Blank c

/-- A header field: the text before the first colon, that after it, the continuation lines. -/
structure WField where
  name : Str
  after : Str
  cr : Bool
  folds : List Fold
deriving DecidableEq, Repr

/-- The first line. -/
def WField.first (f : WField) : WLine := ⟨f.name ++ [58] ++ f.after, f.cr⟩

/-- The bytes of a field. -/
def WField.bytes (f : WField) : Str := f.first.bytes ++ f.folds.flatMap fun l => l.line.bytes

/-- A possible field, which does not start like the end of the header block. -/
structure WField.Ok (f : WField) : Prop where
  first : f.first.Ok
  colon : 58 ∉ f.name
  start : ∀ s, f.name ≠ 13 :: s
  folds : ∀ l ∈ f.folds, l.Ok

/-- The bytes of a header block. -/
def blockBytes (fs : List WField) : Str := fs.flatMap WField.bytes

/-- A possible header block: fields other than the first do not start like continuation lines. -/
structure BlockOk (fs : List WField) : Prop where
  ok : ∀ f ∈ fs, f.Ok
  blank : ∀ f ∈ fs.tail, ∀ c s, f.name = c :: s → ¬Blank c

/-- `v` is `raw` without blanks at the ends. -/
def Trimmed (raw v : Str) : Prop :=
  ∃ a b, raw = a ++ v ++ b ∧ (∀ c ∈ a, Blank c) ∧ (∀ c ∈ b, Blank c) ∧
    (∀ c s, v = c :: s → ¬Blank c) ∧ (∀ s c, v = s ++ [c] → ¬Blank c)

/-- The header entry for a field. -/
def IsEntry (f : WField) (e : Entry) : Prop :=
  e.name = f.name ∧ Trimmed (f.after ++ f.folds.flatMap fun l => 32 :: l.content) e.value

/-- The header entries for a header block. -/
def AreEntries : List WField → List Entry → Prop
  | [], [] => True
  | f :: fs, e :: es => IsEntry f e ∧ AreEntries fs es
  | _, _ => False

/-- What is wrong with a line at an offset: 1224 for a missing CR. -/
def lineFaults (off : Nat) (l : WLine) : List (Nat × Nat) := if l.cr then [] else [(1224, off)]

/-- What is wrong with continuation lines: 1016 for each, and 1224. -/
def foldFaults : Nat → List Fold → List (Nat × Nat)
  | _, [] => []
  | off, l :: ls =>
    [(1016, off)] ++ lineFaults off l.line ++ foldFaults (off + l.line.bytes.length) ls

/-- What is wrong with the lines of a header block. -/
def blockFaults : Nat → List WField → List (Nat × Nat)
  | _, [] => []
  | off, f :: fs => lineFaults off f.first ++ foldFaults (off + f.first.bytes.length) f.folds ++
    blockFaults (off + f.bytes.length) fs

/-- A field as it should be: one line ending with CR LF. -/
def WField.Clean (f : WField) : Prop := f.cr = true ∧ f.folds = []

/-- The heading of a message: start line, header fields, and whether the empty line at the end is
CR LF. -/
structure WHeading where
  start : WLine
  fields : List WField
  cr : Bool
deriving DecidableEq, Repr

/-- The empty line at the end of a heading. -/
def WHeading.last (h : WHeading) : WLine := ⟨[], h.cr⟩

/-- The bytes of a heading. -/
def WHeading.bytes (h : WHeading) : Str := h.start.bytes ++ blockBytes h.fields ++ h.last.bytes

/-- What is wrong with the lines of a heading. -/
def WHeading.faults (off : Nat) (h : WHeading) : List (Nat × Nat) :=
  lineFaults off h.start ++ blockFaults (off + h.start.bytes.length) h.fields ++
    lineFaults (off + h.start.bytes.length + (blockBytes h.fields).length) h.last

/-- A heading the lines of which are as they should be. -/
structure WHeading.Clean (h : WHeading) : Prop where
  start : h.start.cr = true
  fields : ∀ f ∈ h.fields, f.Clean
  last : h.cr = true

/-- A digit. -/
def Digit (c : Nat) : Prop := 48 ≤ c ∧ c ≤ 57

instance (c : Nat) : Decidable (Digit c) := by unfold Digit; infer_instance

/-- `HTTP/` digit `.` digit. -/
def HttpVersion (v : Str) : Prop := ∃ a b, v = str "HTTP/" ++ [a, 46, b] ∧ Digit a ∧ Digit b

/-- The number denoted by digits in a base, given the value of each digit. -/
def number (base : Nat) (val : Nat → Nat) : Str → Nat
  | [] => 0
  | c :: s => val c * base ^ s.length + number base val s

/-- The text is a decimal number. -/
def Decimal (s : Str) (n : Nat) : Prop :=
  s ≠ [] ∧ (∀ c ∈ s, Digit c) ∧ number 10 (fun c => c - 48) s = n

/-- A hexadecimal digit. -/
def HexDigit (c : Nat) : Prop := Digit c ∨ (65 ≤ c ∧ c ≤ 70) ∨ (97 ≤ c ∧ c ≤ 102)

instance (c : Nat) : Decidable (HexDigit c) := by unfold HexDigit; infer_instance

/-- The value of a hexadecimal digit. -/
def hexVal (c : Nat) : Nat := if c ≤ 57 then c - 48 else if c ≤ 70 then c - 55 else c - 87

/-- The text is a hexadecimal number. -/
def Hexadecimal (s : Str) (n : Nat) : Prop :=
  s ≠ [] ∧ (∀ c ∈ s, HexDigit c) ∧ number 16 hexVal s = n

/-- A chunk-size line: hexadecimal digits, blanks, perhaps an extension. -/
structure SizeLine where
  digits : Str
  blanks : Str
  ext : Option Str
deriving DecidableEq, Repr

/-- The bytes of a chunk-size line. -/
def SizeLine.bytes (l : SizeLine) : Str :=
  l.digits ++ l.blanks ++ (match l.ext with
    | none => []
    | some x => 59 :: x) ++ [13, 10]

/-- A chunk-size line for a size. -/
structure SizeLine.Ok (l : SizeLine) (n : Nat) : Prop where
  digits : Hexadecimal l.digits n
  blanks : ∀ c ∈ l.blanks, Blank c
  ext : ∀ x, l.ext = some x → 10 ∉ x
  len : l.bytes.length ≤ 16384

/-- A chunk on the wire. -/
structure WChunk where
  size : SizeLine
  data : Str
deriving DecidableEq, Repr

/-- The bytes of a chunk. -/
def WChunk.bytes (c : WChunk) : Str := c.size.bytes ++ c.data ++ [13, 10]

/-- A chunk that is not the last one. -/
structure WChunk.Ok (c : WChunk) : Prop where
  size : c.size.Ok c.data.length
  ne : c.data ≠ []

/-- Chunked framing, whatever the chunk-size lines say: chunks (size line, data, whether the end of
line after it is CR LF), the line of the last chunk, trailer fields, and whether the empty line at
the end is CR LF. -/
structure WChunked where
  chunks : List (WLine × Str × Bool)
  last : WLine
  trailer : List WField
  cr : Bool
deriving DecidableEq, Repr

/-- The bytes of chunks. -/
def chunksBytes : List (WLine × Str × Bool) → Str
  | [] => []
  | (l, d, cr) :: cs => l.bytes ++ d ++ (⟨[], cr⟩ : WLine).bytes ++ chunksBytes cs

/-- What is wrong with the lines between the data. -/
def chunksFaults : Nat → List (WLine × Str × Bool) → List (Nat × Nat)
  | _, [] => []
  | off, (l, d, cr) :: cs => lineFaults off l ++
    lineFaults (off + l.bytes.length + d.length) ⟨[], cr⟩ ++
    chunksFaults (off + l.bytes.length + d.length + (⟨[], cr⟩ : WLine).bytes.length) cs

/-- The bytes of the framing and the data. -/
def WChunked.bytes (g : WChunked) : Str :=
  chunksBytes g.chunks ++ g.last.bytes ++ blockBytes g.trailer ++ (⟨[], g.cr⟩ : WLine).bytes

/-- What is wrong with the lines of the framing. -/
def WChunked.faults (off : Nat) (g : WChunked) : List (Nat × Nat) :=
  chunksFaults off g.chunks ++ lineFaults (off + (chunksBytes g.chunks).length) g.last ++
  blockFaults (off + (chunksBytes g.chunks ++ g.last.bytes).length) g.trailer ++
  lineFaults (off + (chunksBytes g.chunks ++ g.last.bytes ++ blockBytes g.trailer).length) ⟨[], g.cr⟩

/-- White space that Python allows around a number in ISO-8859-1 text. -/
def Pad (c : Nat) : Prop := (9 ≤ c ∧ c ≤ 13) ∨ c = 32 ∨ c = 0x85 ∨ c = 0xA0

instance (c : Nat) : Decidable (Pad c) := by unfold Pad; infer_instance

/-- Hexadecimal digits, perhaps with single underscores between them. -/
structure Grouped (s : Str) (n : Nat) : Prop where
  digits : Hexadecimal (s.filter (· ≠ 95)) n
  first : s.head? ≠ some 95
  last : s.getLast? ≠ some 95
  single : ∀ a b, s ≠ a ++ 95 :: 95 :: b

/-- What a chunk-size line may say instead of only hexadecimal digits: there may be white space around the number, a sign (but not
of a negative number), `0x` before the digits, underscores between them; and an extension after a semicolon. -/
def SaysSize (t : Str) (n : Nat) : Prop :=
  ∃ pre sign px num post ext, t = pre ++ sign ++ px ++ num ++ post ++ ext ∧ (∀ c ∈ pre, Pad c) ∧ (∀ c ∈ post, Pad c) ∧
    (sign = [] ∨ sign = [43] ∨ (sign = [45] ∧ n = 0)) ∧
    px ∈ [[], str "0x", str "0X", str "0x_", str "0X_"] ∧ Grouped num n ∧ (ext = [] ∨ ∃ x, ext = 59 :: x)

/-- The data and the trailer of chunked framing: as many bytes in each chunk as its line says, not more than 1 GiB in all. -/
structure WChunked.Holds (g : WChunked) (data : Str) (tes : List Entry) : Prop where
  lines : (∀ c ∈ g.chunks, c.1.Ok) ∧ g.last.Ok
  sizes : (∀ c ∈ g.chunks, SaysSize c.1.text c.2.1.length ∧ c.2.1 ≠ []) ∧ SaysSize g.last.text 0
  small : data.length ≤ 2 ^ 30
  data : g.chunks.flatMap (fun c => c.2.1) = data
  block : BlockOk g.trailer
  entries : AreEntries g.trailer tes

/-- The 1016 and 1224 notices among these, with the offsets of the lines. -/
def lineFaultsOf (ns : List FNote) : List (Nat × Nat) := ns.filterMap fun n => n.line.map (n.id, ·)

/-- Responses to a request with this method are expected to have a body. -/
structure HasBody (method : Option Str) (st : Nat) : Prop where
  interim : ¬(100 ≤ st ∧ st ≤ 199)
  s204 : st ≠ 204
  s304 : st ≠ 304
  head : method ≠ some (str "HEAD")
  connect : ¬(method = some (str "CONNECT") ∧ 200 ≤ st ∧ st ≤ 299)

/-- The entries with this name, whatever its case. -/
def withName (name : String) (es : List Entry) : List Entry :=
  es.filter fun e => asciiLower (str name) = asciiLower e.name

/-- The transfer codings of a message, `unavailable` standing for each value that is not valid. -/
def codings (env : FrameEnv) (es : List Entry) : List Coding :=
  (withName "Transfer-Encoding" es).flatMap fun e => (env.te e.value).getD [.unavailable]

/-- The limit on the size of bodies: 1 GiB. -/
def gib : Nat := 2 ^ 30

/-- How a body with a definite length is sent, given the entries of the header section: the bytes
and the entries of the trailer section. -/
inductive BodyWire (env : FrameEnv) (es : List Entry) : Str → List Entry → Str → Prop
  /-- with Content-Length, as is -/
  | sized (body : Str) (e : Entry) (hte : withName "Transfer-Encoding" es = [])
      (hlast : (withName "Content-Length" es).getLast? = some e)
      (hn : Decimal e.value body.length) (hmax : body.length ≤ gib) : BodyWire env es body [] body
  /-- with chunked transfer coding -/
  | chunked (chunks : List WChunk) (last : SizeLine) (trailer : List WField) (tes : List Entry)
      (hte : (withName "Transfer-Encoding" es).map (fun e => env.te e.value)
        = [some [Coding.chunked]])
      (hc : ∀ c ∈ chunks, c.Ok) (hl : last.Ok 0) (ht : BlockOk trailer)
      (hclean : ∀ f ∈ trailer, f.Clean) (hent : AreEntries trailer tes)
      (hmax : (chunks.flatMap (·.data)).length ≤ gib) :
      BodyWire env es (chunks.flatMap (·.data)) tes
        (chunks.flatMap WChunk.bytes ++ last.bytes ++ blockBytes trailer ++ [13, 10])

/-- A request line and header section: the start line is method, target and version with single
spaces between them. -/
structure RequestHeading (h : WHeading) (method target version : Str) (es : List Entry) : Prop where
  text : h.start.text = method ++ [32] ++ target ++ [32] ++ version
  method : 32 ∉ method
  target : 32 ∉ target
  version : HttpVersion version
  start : h.start.Ok
  fields : BlockOk h.fields
  entries : AreEntries h.fields es

/-- The number denoted by three digits. -/
def status (a b c : Nat) : Nat := number 10 (fun x => x - 48) [a, b, c]

/-- A status line and header section: the start line is version, three digits and anything, with
single spaces between them. -/
structure ResponseHeading (h : WHeading) (version : Str) (a b c : Nat) (reason : Str)
    (es : List Entry) : Prop where
  text : h.start.text = version ++ [32] ++ [a, b, c] ++ [32] ++ reason
  version : HttpVersion version
  status : Digit a ∧ Digit b ∧ Digit c
  start : h.start.Ok
  fields : BlockOk h.fields
  entries : AreEntries h.fields es

/-- A request as it should be, when sent at an offset, and its bytes. -/
inductive RequestWire (env : FrameEnv) (off : Nat) : FReq → Str → Prop
  | mk (h : WHeading) (method target version : Str) (es tes : List Entry) (body bodyBytes : Str)
      (hh : RequestHeading h method target version es) (hclean : h.Clean)
      (hb : (withName "Transfer-Encoding" es = [] ∧ withName "Content-Length" es = [] ∧ body = [] ∧
        tes = [] ∧ bodyBytes = []) ∨ BodyWire env es body tes bodyBytes) :
      RequestWire env off ⟨method, target, version,
          ⟨off, es, tes, .bytes body, [], off + (h.bytes ++ bodyBytes).length⟩⟩
        (h.bytes ++ bodyBytes)

/-- A response with a definite length as it should be, to a request with this method, when sent at
an offset, and its bytes. Not 101, and not 2xx to CONNECT. -/
inductive ResponseWire (env : FrameEnv) (method : Option Str) (off : Nat) : FResp → Str → Prop
  | mk (h : WHeading) (version : Str) (a b c : Nat) (reason : Str) (es tes : List Entry)
      (body bodyBytes : Str)
      (hh : ResponseHeading h version a b c reason es) (hclean : h.Clean)
      (h101 : status a b c ≠ 101)
      (hcon : method = some (str "CONNECT") → ¬(200 ≤ status a b c ∧ status a b c ≤ 299))
      (hb : (((100 ≤ status a b c ∧ status a b c ≤ 199) ∨ status a b c = 204 ∨
          status a b c = 304 ∨ method = some (str "HEAD")) ∧
          body = [] ∧ tes = [] ∧ bodyBytes = []) ∨
        (¬(100 ≤ status a b c ∧ status a b c ≤ 199) ∧ status a b c ≠ 204 ∧ status a b c ≠ 304 ∧
          method ≠ some (str "HEAD") ∧ BodyWire env es body tes bodyBytes)) :
      ResponseWire env method off ⟨version, status a b c, reason,
          ⟨off, es, tes, .bytes body, [], off + (h.bytes ++ bodyBytes).length⟩⟩
        (h.bytes ++ bodyBytes)

/-- Any number of interim responses, then a final one. -/
inductive ResponsesWire (env : FrameEnv) (method : Option Str) : Nat → List FResp → Str → Prop
  | final (off : Nat) (r : FResp) (b : Str) (h : ResponseWire env method off r b)
      (hf : ¬(100 ≤ r.status ∧ r.status ≤ 199)) : ResponsesWire env method off [r] b
  | interim (off : Nat) (r : FResp) (b : Str) (rs : List FResp) (bs : Str)
      (h : ResponseWire env method off r b) (hi : 100 ≤ r.status ∧ r.status ≤ 199)
      (hrs : ResponsesWire env method (off + b.length) rs bs) :
      ResponsesWire env method off (r :: rs) (b ++ bs)

/-- Requests one after another. -/
inductive RequestsWire (env : FrameEnv) : Nat → List FReq → Str → Prop
  | nil (off : Nat) : RequestsWire env off [] []
  | cons (off : Nat) (r : FReq) (b : Str) (rs : List FReq) (bs : Str) (h : RequestWire env off r b)
      (hrs : RequestsWire env (off + b.length) rs bs) : RequestsWire env off (r :: rs) (b ++ bs)

/-- Groups of responses one after another, each to an unknown request. -/
inductive GroupsWire (env : FrameEnv) : Nat → List (List FResp) → Str → Prop
  | nil (off : Nat) : GroupsWire env off [] []
  | cons (off : Nat) (g : List FResp) (b : Str) (gs : List (List FResp)) (bs : Str)
      (h : ResponsesWire env none off g b) (hgs : GroupsWire env (off + b.length) gs bs) :
      GroupsWire env off (g :: gs) (b ++ bs)

/-- A sequence of requests, each with its responses: the bytes sent in both directions from given
offsets. -/
inductive Dialogue (env : FrameEnv) : Nat → Nat → List (FReq × List FResp) → Str → Str → Prop
  | nil (i o : Nat) : Dialogue env i o [] [] []
  | cons (i o : Nat) (req : FReq) (b : Str) (resps : List FResp) (c : Str)
      (rest : List (FReq × List FResp)) (bs cs : Str)
      (hreq : RequestWire env i req b) (hresps : ResponsesWire env (some req.method) o resps c)
      (hrest : Dialogue env (i + b.length) (o + c.length) rest bs cs) :
      Dialogue env i o ((req, resps) :: rest) (b ++ bs) (c ++ cs)

end Httpolice.Spec
