import Verif.Model.Har
import Verif.Spec.Negotiation

/-!
# HAR files (HTTP Archive 1.2)

Only the types of the model are used, and the standard library that the model takes as a parameter.
-/

namespace Httpolice.Spec

open Httpolice.Model

/-- The object `j` has the member `k` with the value `v`. -/
def Member (j : Json) (k : String) (v : Json) : Prop :=
  ∃ l r, j = .obj (l ++ (str k, v) :: r) ∧ ∀ p ∈ l, p.1 ≠ str k

/-- The object `j` has no member `k`. -/
def Lacks (j : Json) (k : String) : Prop := ∃ kvs, j = .obj kvs ∧ ∀ p ∈ kvs, p.1 ≠ str k

/-- The member `k` of the object `j` is null, or there is none. -/
def Unset (j : Json) (k : String) : Prop := Lacks j k ∨ Member j k .null

/-- The number `j` is negative, zero or positive. -/
inductive Sign : Json → Ordering → Prop
  | negative (n : Int) : n < 0 → Sign (.int n) .lt
  | zero : Sign (.int 0) .eq
  | positive (n : Int) : n > 0 → Sign (.int n) .gt
  | float (o : Ordering) (t : Option Int) : Sign (.float (some o) t) o

/-- The headers that the member `headers` lists. -/
def Headers (m : Json) (hs : List (Str × Str)) : Prop :=
  ∃ items, Member m "headers" (.arr items) ∧
    Pairwise2 (fun i h => Member i "name" (.text h.1) ∧ Member i "value" (.text h.2)) items hs

/-- The text in the member `text`, which may be missing, null or empty. -/
def Text (j : Json) (t : Option Str) : Prop :=
  match t with
  | some t => t ≠ [] ∧ Member j "text" (.text t)
  | none => Unset j "text" ∨ Member j "text" (.text [])

/-- The text that was posted. -/
def Posted (rq : Json) (t : Option Str) : Prop :=
  (∃ p, Member rq "postData" p ∧ Text p t) ∨ (Unset rq "postData" ∧ t = none)

/-! ## Valid files -/

/-- What requests and responses have in common. -/
def ValidMessage (m : Json) : Prop := (∃ hs, Headers m hs) ∧ ∃ v, Member m "httpVersion" (.text v)

/-- A request. -/
def ValidRequest (L : HarLib) (rq : Json) : Prop :=
  ValidMessage rq ∧ (∃ s, Member rq "method" (.text s)) ∧
  (∃ s u, Member rq "url" (.text s) ∧ L.urlparse s = some u) ∧
  (∃ n o, Member rq "bodySize" n ∧ Sign n o) ∧ ∃ t, Posted rq t

/-- A response. -/
def ValidResponse (rs : Json) : Prop :=
  ValidMessage rs ∧ (∃ n, Member rs "status" (.int n)) ∧ (∃ s, Member rs "statusText" (.text s)) ∧
  (∃ n o, Member rs "bodySize" n ∧ Sign n o) ∧
  ∃ c, Member rs "content" c ∧ (∃ n o, Member c "size" n ∧ Sign n o) ∧ (∃ t, Text c t) ∧
    (Lacks c "encoding" ∨ ∃ e, Member c "encoding" (.text e))

/-- An entry. -/
def ValidEntry (L : HarLib) (e : Json) : Prop :=
  (∃ rq, Member e "request" rq ∧ ValidRequest L rq) ∧ ∃ rs, Member e "response" rs ∧ ValidResponse rs

/-- A file by the given creator with the given entries. -/
def FileOf (f : Json) (creator : Str) (entries : List Json) : Prop :=
  ∃ log c, Member f "log" log ∧ Member log "creator" c ∧ Member c "name" (.text creator) ∧
    Member log "entries" (.arr entries)

/-! ## What is made of them -/

/-- Header entries: pseudo-headers are left out, characters outside of ISO-8859-1 are replaced. -/
def EntriesOf (hs : List (Str × Str)) (es : List Entry) : Prop :=
  es = (hs.filter fun h => h.1.head? ≠ some 58).map fun h => ⟨h.1, encodeLatin1 h.2⟩

/-- Browsers, whose HTTP versions are not to be trusted. -/
def Browser (creator : Str) : Prop :=
  creator = str "WebInspector" ∨ creator = str "Firefox" ∨ creator = str "F12 Developer Tools"

/-- The protocol version. -/
def VersionOf (creator : Str) (m : Json) (v : Option Str) : Prop :=
  ∃ s, Member m "httpVersion" (.text s) ∧
    (v = some s ∧ str "HTTP/" <+: s ∧ ¬ Browser creator ∨
      v = none ∧ (¬ str "HTTP/" <+: s ∨ Browser creator))

/-- The text is debug information that Fiddler adds to a CONNECT request. -/
def Debug (creator method text : Str) : Prop :=
  creator = str "Fiddler" ∧ method = str "CONNECT" ∧ str "Fiddler" <:+: text

/-- The target of a request: the authority for CONNECT; the path and query if there is a `Host`
header; otherwise the whole URL. -/
def TargetOf (L : HarLib) (method url : Str) (u : UrlParts) (es : List Entry) (target : Str) : Prop :=
  if method = str "CONNECT" then target = u.netloc
  else if ∃ e ∈ es, L.lower e.name = L.lower (str "Host") then
    target = u.path ++ if u.query = [] then [] else str "?" ++ u.query
  else target = url

/-- What is known of a request body: that it is empty, that there is one, or nothing. -/
def sizedBody : Ordering → PyVal Str
  | .eq => .val []
  | .gt => .unavailable
  | .lt => .none

/-- The request that a HAR request stands for. -/
structure RequestOf (L : HarLib) (creator : Str) (rq : Json) (r : HarLib.HarRequest) : Prop where
  method : Member rq "method" (.text r.method)
  url : ∃ url u, Member rq "url" (.text url) ∧ L.urlparse url = some u ∧ r.scheme = u.scheme ∧
    TargetOf L r.method url u r.headers r.target
  version : VersionOf creator rq r.version
  headers : ∃ hs, Headers rq hs ∧ EntriesOf hs r.headers
  body : ∃ n o t, Member rq "bodySize" n ∧ Sign n o ∧ Posted rq t ∧
    ((∃ x, t = some x ∧ Debug creator r.method x) ∧ r.body = .val [] ∧ r.unicodeBody = none ∨
     (¬ ∃ x, t = some x ∧ Debug creator r.method x) ∧ r.body = sizedBody o ∧
        r.unicodeBody = t.map Json.text)

/-- A response to CONNECT that Fiddler adds debug information to. -/
def Tunnel (creator method : Str) (status : Int) : Prop :=
  creator = str "Fiddler" ∧ method = str "CONNECT" ∧ 200 ≤ status ∧ status ≤ 299

/-- A header that Fiddler adds. -/
def DebugHeader (L : HarLib) (name : Str) : Prop :=
  ∃ n ∈ [str "EndTime", str "ClientToServerBytes", str "ServerToClientBytes"], L.lower name = L.lower n

instance (L : HarLib) (name : Str) : Decidable (DebugHeader L name) := by
  unfold DebugHeader; infer_instance

/-- What is known of a response body, given `bodySize` and `content.size`. -/
inductive BodyOf (creator : Str) (status : Int) (bs cs : Ordering) : PyVal Str → Prop
  | empty : bs = .eq ∨ cs = .eq ∨ status = 304 → BodyOf creator status bs cs (.val [])
  | firefox : ¬ (bs = .eq ∨ cs = .eq ∨ status = 304) → creator = str "Firefox" →
    BodyOf creator status bs cs .none
  | some : ¬ (bs = .eq ∨ cs = .eq ∨ status = 304) → creator ≠ str "Firefox" → bs = .gt ∨ cs = .gt →
    BodyOf creator status bs cs .unavailable
  | unknown : status ≠ 304 → creator ≠ str "Firefox" → bs = .lt → cs = .lt →
    BodyOf creator status bs cs .none

/-- The content of a response: its text if it is not encoded, or the bytes if it is in Base64. -/
inductive ContentOf (L : HarLib) (c : Json) (status : Int) : Option Str → Option Json → Prop
  | text (t : Str) : status ≠ 304 → Text c (some t) → Lacks c "encoding" →
    ContentOf L c status none (some (.text t))
  | bytes (t e b : Str) : status ≠ 304 → Text c (some t) → Member c "encoding" (.text e) →
    L.lower e = str "base64" → L.b64decode t = some b → ContentOf L c status (some b) none
  | garbled (t e : Str) : Text c (some t) → Member c "encoding" (.text e) →
    L.lower e = str "base64" → L.b64decode t = none → ContentOf L c status none none
  | other (e : Str) : Member c "encoding" (.text e) → L.lower e ≠ str "base64" →
    ContentOf L c status none none
  | nothing : status = 304 ∨ Text c none → ContentOf L c status none none

/-- The response that a HAR response stands for. -/
structure ResponseOf (L : HarLib) (creator method : Str) (rs : Json) (r : HarLib.HarResponse) : Prop where
  status : Member rs "status" (.int r.status)
  reason : ∃ s, Member rs "statusText" (.text s) ∧ r.reason = some s
  version : VersionOf creator rs r.version
  headers : ∃ hs hs', Headers rs hs ∧ EntriesOf hs' r.headers ∧
    (Tunnel creator method r.status ∧ hs' = (hs.filter fun h => ¬ DebugHeader L h.1) ∨
      ¬ Tunnel creator method r.status ∧ hs' = hs)
  content : ∃ c n o n' o' d t b, Member rs "content" c ∧ Member rs "bodySize" n ∧ Sign n o ∧
    Member c "size" n' ∧ Sign n' o' ∧ BodyOf creator r.status o o' b ∧ ContentOf L c r.status d t ∧
    ((∃ x, d = some x ∧ Tunnel creator method r.status ∧ str "Fiddler" <:+: x) ∧
        r.body = .val [] ∧ r.decodedBody = none ∧ r.unicodeBody = none ∨
     (¬ ∃ x, d = some x ∧ Tunnel creator method r.status ∧ str "Fiddler" <:+: x) ∧
        r.body = b ∧ r.decodedBody = d ∧ r.unicodeBody = t)

/-- The exchange that an entry stands for; status 0 stands for an error without a response. -/
def ExchangeOf (L : HarLib) (creator : Str) (e : Json)
    (x : HarLib.HarRequest × List HarLib.HarResponse) : Prop :=
  (∃ rq, Member e "request" rq ∧ RequestOf L creator rq x.1) ∧
  ∃ rs, Member e "response" rs ∧
    ((Member rs "status" (.int 0) ∧ x.2 = []) ∨
     ∃ r, x.2 = [r] ∧ r.status ≠ 0 ∧ ResponseOf L creator x.1.method rs r)

/-! ## Files that are not understood -/

/-- What is wrong with a request or response that may not be reported as an input error. -/
inductive MessageDefect (m : Json) : Prop
  | version (v : Json) : Member m "httpVersion" v → (∀ s, v ≠ .text s) → MessageDefect m
  | value (xs : List Json) (h v : Json) : Member m "headers" (.arr xs) → h ∈ xs → Member h "value" v →
    (∀ s, v ≠ .text s) → MessageDefect m

/-- The same for a request in particular. -/
inductive RequestDefect (L : HarLib) (rq : Json) : Prop
  | message : MessageDefect rq → RequestDefect L rq
  | url (s : Str) : Member rq "url" (.text s) → L.urlparse s = none → RequestDefect L rq
  | noUrl (v : Json) : Member rq "url" v → (∀ s, v ≠ .text s) → RequestDefect L rq
  | post (v : Json) : Member rq "postData" v → v ≠ .null → (∀ kvs, v ≠ .obj kvs) → RequestDefect L rq

/-- The same for a response in particular. -/
inductive ResponseDefect (L : HarLib) (rs : Json) : Prop
  | message : MessageDefect rs → ResponseDefect L rs
  | status (s : Str) : Member rs "status" (.text s) → L.intOf s = none → ResponseDefect L rs
  | infinite (c : Option Ordering) : Member rs "status" (.float c none) → ResponseDefect L rs
  | content (c : Json) : Member rs "content" c → (∀ kvs, c ≠ .obj kvs) → ResponseDefect L rs
  | encoding (c e : Json) : Member rs "content" c → Member c "encoding" e → (∀ s, e ≠ .text s) →
    ResponseDefect L rs

/-- The same for an entry. -/
def EntryDefect (L : HarLib) (e : Json) : Prop :=
  (∃ rq, Member e "request" rq ∧ RequestDefect L rq) ∨ ∃ rs, Member e "response" rs ∧ ResponseDefect L rs

/-- All of the members are there. -/
def HasAll (j : Json) (ks : List String) : Prop := ∀ k ∈ ks, ∃ v, Member j k v

/-- A number that is zero (or `false`, which is zero in Python). -/
def IsZero (j : Json) : Prop := j = .int 0 ∨ j = .bool false ∨ ∃ t, j = .float (some .eq) t

/-- Nothing is missing from an entry. There need not be much of a response if the status is 0. -/
def Complete (e : Json) : Prop :=
  ∃ rq rs st, Member e "request" rq ∧ Member e "response" rs ∧
    HasAll rq ["headers", "httpVersion", "method", "url", "bodySize"] ∧ Member rs "status" st ∧
    (IsZero st ∨ HasAll rs ["headers", "httpVersion", "statusText", "bodySize", "content"])

end Httpolice.Spec
