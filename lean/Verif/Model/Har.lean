import Verif.Model.Header
import Verif.Model.Helpers

/-!
# Model of `httpolice/inputs/har.py`

The generator is modelled as the list of what it yields and how it ends. What the standard library
makes of strings is a parameter (`HarLib`). `remark` (the path of the file) is left out.
-/

namespace Httpolice.Model

/-- What `json.load` gives. A floating-point number is represented by what the code can see of it:
how it compares with zero (`none` for NaN), and `int(x)` (`none` for an exception, as for NaN and
infinities). The keys of an object are distinct (httpolice/inputs/har.py 22-38). -/
inductive Json
  | null
  | bool (b : Bool)
  | int (n : Int)
  | float (cmp : Option Ordering) (trunc : Option Int)
  | text (s : Str)
  | arr (xs : List Json)
  | obj (kvs : List (Str × Json))

/-- The exceptions that can occur; `value` stands for `ValueError` and `OverflowError`
(httpolice/inputs/har.py 22-38). -/
inductive HarErr
  | key
  | type
  | attribute
  | value
deriving DecidableEq, Repr

/-- What `urlparse` gives, without the parts that are not used (httpolice/inputs/har.py 46-66). -/
structure UrlParts where
  scheme : Str
  netloc : Str
  path : Str
  query : Str
deriving DecidableEq, Repr

/-- The standard library: `str.lower`; `str(x)` for objects other than strings; `int(s)` and
`urlparse(s)` of strings, `none` for a `ValueError`; `base64.b64decode(s)` of strings, `none` for a
`ValueError` (httpolice/inputs/har.py 22-166). -/
structure HarLib where
  lower : Str → Str
  shown : Json → Str
  intOf : Str → Option Int
  urlparse : Str → Option UrlParts
  b64decode : Str → Option Str

namespace Json

/-- Lookup in a dictionary (httpolice/inputs/har.py 22-166). -/
def lookup (kvs : List (Str × Json)) (k : String) : Option Json :=
  (kvs.find? fun kv => kv.1 == str k).map Prod.snd

/-- `x[k]` for a string `k`: other things than dictionaries either cannot be indexed, or cannot be
indexed with strings (httpolice/inputs/har.py 31-33, 41-42, 47-49). -/
def item (j : Json) (k : String) : Except HarErr Json :=
  match j with
  | .obj kvs => match lookup kvs k with
    | some v => .ok v
    | none => .error .key
  | _ => .error .type

/-- `x.get(k)`; `none` for `None` (which is what `null` becomes) (httpolice/inputs/har.py 82-84, 131-132). -/
def get (j : Json) (k : String) : Except HarErr (Option Json) :=
  match j with
  | .obj kvs => .ok (lookup kvs k)
  | _ => .error .attribute

/-- What iteration goes over: the elements of a list, the keys of a dictionary, the characters of
a string (httpolice/inputs/har.py 32, 152-153). -/
def iter : Json → Except HarErr (List Json)
  | .arr xs => .ok xs
  | .obj kvs => .ok (kvs.map fun kv => .text kv.1)
  | .text s => .ok (s.map fun c => .text [c])
  | _ => .error .type

/-- `bool(x)` (httpolice/inputs/har.py 83, 131). -/
def truthy : Json → Bool
  | .null => false
  | .bool b => b
  | .int n => n != 0
  | .float c _ => c != some .eq
  | .text s => !s.isEmpty
  | .arr xs => !xs.isEmpty
  | .obj kvs => !kvs.isEmpty

/-- `x == 0` (httpolice/inputs/har.py 68, 99, 114). -/
def isZero : Json → Bool
  | .bool b => !b
  | .int n => n == 0
  | .float c _ => c == some .eq
  | _ => false

/-- `x > 0` (httpolice/inputs/har.py 71, 122). -/
def isPositive : Json → Except HarErr Bool
  | .bool b => .ok b
  | .int n => .ok (decide (n > 0))
  | .float c _ => .ok (c == some .gt)
  | _ => .error .type

/-- `x == s` for a string `s` (httpolice/inputs/har.py 52, 85, 106). -/
def isText (j : Json) (s : Str) : Bool :=
  match j with
  | .text t => t == s
  | _ => false

/-- `s in x` for a string `s` (httpolice/inputs/har.py 85, 145). -/
def has (j : Json) (s : Str) : Except HarErr Bool :=
  match j with
  | .text t => .ok (decide (s <:+: t))
  | .arr xs => .ok (xs.any fun x => x.isText s)
  | .obj kvs => .ok (kvs.any fun kv => kv.1 == s)
  | _ => .error .type

end Json

namespace HarLib
variable (L : HarLib)

/-- `str(x)` (httpolice/structure.py 189-205). -/
def toText : Json → Str
  | .text s => s
  | j => L.shown j

/-- `force_bytes(x)` (util/text.py 110-113). -/
def toBytes : Json → Except HarErr Str
  | .text s => .ok (encodeLatin1 s)
  | _ => .error .attribute

/-- `int(x)` (structure.py 195). -/
def toInt : Json → Except HarErr Int
  | .int n => .ok n
  | .bool b => .ok (if b then 1 else 0)
  | .float _ (some n) => .ok n
  | .float _ none => .error .value
  | .text s => match L.intOf s with
    | some n => .ok n
    | none => .error .value
  | _ => .error .type

/-- `urlparse(x)`. It takes false values for an empty URL, and other non-strings for byte strings,
which they are not (httpolice/inputs/har.py 49). -/
def parseUrl : Json → Except HarErr UrlParts
  | .text s => match L.urlparse s with
    | some u => .ok u
    | none => .error .value
  | j => if j.truthy then .error .attribute else .ok ⟨[], [], [], []⟩

/-- `creator in FIDDLER` (har.py 16). -/
def isFiddler (creator : Json) : Bool := creator.isText (str "Fiddler")

/-- `creator in FIREFOX` (har.py 18). -/
def isFirefox (creator : Json) : Bool := creator.isText (str "Firefox")

/-- `creator in CHROME + FIREFOX + EDGE` (har.py 17-19). -/
def isBrowser (creator : Json) : Bool :=
  creator.isText (str "WebInspector") || creator.isText (str "Firefox") ||
    creator.isText (str "F12 Developer Tools")

/-- `_process_message` (har.py 149-166): version and header entries. -/
def processMessage (data creator : Json) : Except HarErr (Option Str × List (Str × Json)) := do
  let hs ← data.item "headers"
  let ds ← hs.iter
  let entries ← ds.mapM fun d => do
    let name ← d.item "name"
    let value ← d.item "value"
    pure (L.toText name, value)
  let entries := (popPseudoHeaders entries).1
  let v ← data.item "httpVersion"
  match v with
  | .text s => pure (if (str "HTTP/").isPrefixOf s && !isBrowser creator then some s else none, entries)
  | _ => .error .attribute

/-- What `Request.__init__` (request.py 26-110) was given, and `unicode_body` if it was set. -/
structure HarRequest where
  scheme : Str
  method : Str
  target : Str
  version : Option Str
  headers : List Entry
  body : PyVal Str
  unicodeBody : Option Json

/-- What `Response.__init__` (response.py 17-92) was given, and `decoded_body` and `unicode_body` if
they were set. -/
structure HarResponse where
  version : Option Str
  status : Int
  reason : Option Str
  headers : List Entry
  body : PyVal Str
  decodedBody : Option Str
  unicodeBody : Option Json

/-- `[HeaderEntry(k, v) for k, v in header_entries]` (message.py 49-50, structure.py 218-221). -/
def headerEntries (hs : List (Str × Json)) : Except HarErr (List Entry) :=
  hs.mapM fun h => do
    let v ← toBytes h.2
    pure ⟨h.1, v⟩

/-- The target of a request (har.py 52-67). -/
def requestTarget (method url : Json) (u : UrlParts) (hs : List (Str × Json)) : Str :=
  if method.isText (str "CONNECT") then u.netloc
  else if hs.any fun h => L.lower h.1 == L.lower (str "Host") then
    if u.query.isEmpty then u.path else u.path ++ str "?" ++ u.query
  else L.toText url

/-- The body of a request as far as `bodySize` tells (har.py 69-79). -/
def requestBody (size : Json) : Except HarErr (PyVal Str) :=
  if size.isZero then .ok (.val [])
  else do
    let p ← size.isPositive
    pure (if p then .unavailable else .none)

/-- The text of a request (har.py 81-90); `none` if there is none, and whether it is only Fiddler's
debug information. -/
def requestText (data method creator : Json) : Except HarErr (Option Json × Bool) := do
  let post ← data.get "postData"
  match post with
  | none => pure (none, false)
  | some p =>
    if p.truthy then
      let t ← p.get "text"
      match t with
      | none => pure (none, false)
      | some t =>
        if t.truthy then
          if isFiddler creator && method.isText (str "CONNECT") then
            let f ← t.has (str "Fiddler")
            pure (if f then (none, true) else (some t, false))
          else pure (some t, false)
        else pure (none, false)
    else pure (none, false)

/-- `_process_request` (har.py 46-97). -/
def processRequest (data creator : Json) : Except HarErr HarRequest := do
  let (version, hs) ← L.processMessage data creator
  let method ← data.item "method"
  let url ← data.item "url"
  let u ← L.parseUrl url
  let target := L.requestTarget method url u hs
  let size ← data.item "bodySize"
  let body ← requestBody size
  let (text, debug) ← requestText data method creator
  let es ← headerEntries hs
  pure ⟨u.scheme, L.toText method, target, version, es, if debug then .val [] else body, text⟩

/-- The body of a response (har.py 113-126). -/
def responseBody (data creator : Json) (status : Int) : Except HarErr (PyVal Str) := do
  let size ← data.item "bodySize"
  let empty ← (if size.isZero then pure true else do
    let content ← data.item "content"
    let csize ← content.item "size"
    pure (csize.isZero || status == 304))
  if empty then pure (.val [])
  else if isFirefox creator then pure .none
  else do
    let p ← size.isPositive
    let q ← (if p then pure true else do
      let content ← data.item "content"
      let csize ← content.item "size"
      csize.isPositive)
    pure (if q then .unavailable else .none)

/-- Setting `body`, `decoded_body` or `unicode_body` of a response (har.py 131-147): the new `body`,
`decoded_body` and `unicode_body`. -/
def responseText (data creator : Json) (isConnect : Bool) (status : Int) (body : PyVal Str) :
    Except HarErr (PyVal Str × Option Str × Option Json) := do
  let content ← data.item "content"
  let t ← content.get "text"
  match t with
  | none => pure (body, none, none)
  | some t =>
    if t.truthy && status != 304 then
      let e ← content.get "encoding"
      match e with
      | none => pure (body, none, some t)
      | some (.text e) =>
        if L.lower e == str "base64" then
          match t with
          | .text s => match L.b64decode s with
            | none => pure (body, none, none)
            | some decoded =>
              if isFiddler creator && isConnect && decide (200 ≤ status ∧ status ≤ 299) &&
                  decide (str "Fiddler" <:+: decoded) then
                pure (.val [], none, none)
              else pure (body, some decoded, none)
          | _ => .error .type
        else pure (body, none, none)
      | some _ => .error .attribute
    else pure (body, none, none)

/-- The header entries that Fiddler adds to responses to CONNECT (har.py 105-111). -/
def debugHeader (name : Str) : Bool :=
  L.lower name == L.lower (str "EndTime") || L.lower name == L.lower (str "ClientToServerBytes") ||
    L.lower name == L.lower (str "ServerToClientBytes")

/-- `_process_response` (har.py 100-147). -/
def processResponse (data : Json) (reqMethod : Str) (creator : Json) :
    Except HarErr (Option HarResponse) := do
  let st ← data.item "status"
  if st.isZero then pure none
  else do
    let (version, hs) ← L.processMessage data creator
    let status ← L.toInt st
    let reason ← data.item "statusText"
    let isConnect := reqMethod == str "CONNECT"
    let hs := if isFiddler creator && isConnect && decide (200 ≤ status ∧ status ≤ 299) then
      hs.filter fun h => !L.debugHeader h.1 else hs
    let body ← responseBody data creator status
    let es ← headerEntries hs
    let (body, decoded, text) ← L.responseText data creator isConnect status body
    pure (some ⟨version, status, match reason with | .null => none | r => some (L.toText r), es,
      body, decoded, text⟩)

/-- `_process_entry` (har.py 40-43). -/
def processEntry (data creator : Json) : Except HarErr (HarRequest × List HarResponse) := do
  let rq ← data.item "request"
  let req ← L.processRequest rq creator
  let rs ← data.item "response"
  let resp ← L.processResponse rs req.method creator
  pure (req, resp.toList)

/-- How reading ends: normally, with an `InputError`, or with another exception (httpolice/inputs/har.py 22-38). -/
inductive HarEnd
  | done
  | inputError
  | crash (e : HarErr)
deriving DecidableEq, Repr

/-- `except (TypeError, KeyError)` (har.py 35). -/
def harEnd : HarErr → HarEnd
  | .key => .inputError
  | .type => .inputError
  | e => .crash e

/-- The loop over the entries of a file (har.py 33-34). -/
def processEntries (creator : Json) : List Json → List (HarRequest × List HarResponse) × HarEnd
  | [] => ([], .done)
  | d :: ds => match L.processEntry d creator with
    | .error e => ([], harEnd e)
    | .ok x => (x :: (processEntries creator ds).1, (processEntries creator ds).2)

/-- Reading one file (har.py 27-37); `none` if it is not JSON in UTF-8. -/
def harFile (data : Option Json) : List (HarRequest × List HarResponse) × HarEnd :=
  match data with
  | none => ([], .inputError)
  | some data =>
    match (do
      let log ← data.item "log"
      let c ← log.item "creator"
      let creator ← c.item "name"
      let entries ← log.item "entries"
      let ds ← entries.iter
      pure (creator, ds) : Except HarErr (Json × List Json)) with
    | .error e => ([], harEnd e)
    | .ok (creator, ds) => L.processEntries creator ds

/-- `har_input` (har.py 22-37), for the contents of the files. -/
def harInput : List (Option Json) → List (HarRequest × List HarResponse) × HarEnd
  | [] => ([], .done)
  | f :: fs => match L.harFile f with
    | (xs, .done) => (xs ++ (harInput fs).1, (harInput fs).2)
    | r => r

end HarLib
end Httpolice.Model
