import Verif.Model.CheckResponse

/-!
# Specification vocabulary for the checks

Which notices exist, who may report them, and what is reported on the messages of an exchange.
-/

namespace Httpolice.Spec

open Httpolice.Model

/-- The notice is reported on the object after `check_exchange` (it may be silenced there). -/
def Reported (E : Env) (ex : Exchange) (t : Target) (c : Complaint Ctx) : Prop :=
  ∃ b, (checkExchange E ex).get t = some b ∧ c ∈ b.stored

/-- The notice is among `obj.notices` after `check_exchange`. -/
def Visible (E : Env) (ex : Exchange) (t : Target) (c : Complaint Ctx) : Prop :=
  ∃ b, (checkExchange E ex).get t = some b ∧ c ∈ b.complaints

/-- Some notice with the ID is reported on the object. -/
def ReportedId (E : Env) (ex : Exchange) (t : Target) (id : Nat) : Prop :=
  ∃ c, Reported E ex t c ∧ c.id = id

/-- Neither parsing headers, nor parsing the request target, nor decoding payloads reports the
notice. -/
structure Apart (E : Env) (ex : Exchange) (id : Nat) : Prop where
  headers : ∀ name e, ∀ n ∈ (E.kind name e).2, n.id ≠ id
  target : ∀ forms s r, E.parseTarget forms s = some r → ∀ n ∈ r.2, n.id ≠ id
  request : ∀ req, ex.request = some req → ∀ n ∈ req.payload.notes, n.1 ≠ id
  responses : ∀ r ∈ ex.responses, ∀ n ∈ r.payload.notes, n.1 ≠ id

/-- A function that lowers ASCII letters and keeps other ASCII characters, like `str.lower`. -/
def LowersAscii (lower : Str → Str) : Prop :=
  ∀ s, (∀ c ∈ s, c < 128) → lower s = asciiLower s

/-- A response that is not informational (1xx). -/
def Final (r : Response) : Prop := ¬(100 ≤ r.status ∧ r.status ≤ 199)

/-- The entry has the name, in whatever case. -/
def HasName (E : Env) (e : Entry) (name : String) : Prop := E.lower e.name = asciiLower (str name)

/-- The message has an `HTTPolice-Silence` header, possibly in a trailer, that lists the ID with
(`true`) or without (`false`) the marker `resp`. -/
def Lists (E : Env) (m : Msg) (id : Nat) (marker : Bool) : Prop :=
  ∃ e l, (e ∈ m.headers ∨ e ∈ m.trailers) ∧ HasName E e "HTTPolice-Silence" ∧
    E.grammars.httpoliceSilence e = .list l ∧ (id, marker) ∈ l

/-- The notice is silenced on the object by the headers of the exchange. -/
def SilencedBy (E : Env) (ex : Exchange) (id : Nat) : Target → Prop
  | .exch => False
  | .req => ∃ req, ex.request = some req ∧ Lists E req.fields id false
  | .resp i => (∃ r marker, ex.responses[i]? = some r ∧ Lists E r.fields id marker) ∨
      ∃ req, ex.request = some req ∧ Lists E req.fields id true

/-- The last entry with a name in the header section, if it is well-formed. -/
def LastValue {V : Type} (E : Env) (m : Msg) (name : String) (parse : Entry → Option V) (v : V) :
    Prop :=
  ∃ a e b, m.headers = a ++ e :: b ∧ HasName E e name ∧ (∀ x ∈ b, ¬HasName E x name) ∧
    parse e = some v

/-- The year 9999 ends before the age of the response is added to its date. -/
def TooOld (E : Env) (r : Response) : Prop :=
  r.status ≠ 103 ∧ ∃ d a, LastValue E r.fields "Date" E.grammars.date d ∧
    LastValue E r.fields "Age" E.grammars.age a ∧ d + a > 315537897599

/-- The elements of all well-formed entries with a name, those in trailers included. -/
def ValueElements {V : Type} (E : Env) (m : Msg) (name : String) (parse : Entry → Parsed V) : List V :=
  ((m.headers ++ m.trailers).filter fun e => E.lower e.name = asciiLower (str name)).flatMap fun e =>
    match parse e with
    | .list l => l
    | _ => []

/-- A link with the relation `blocked-by`. -/
def IsBlockedBy (E : Env) (rel : LinkRel) : Prop :=
  ∃ l, rel = .rels l ∧ ∃ x ∈ l, E.lower x = asciiLower (str "blocked-by")

/-- A 451 response with a link whose `rel` is malformed, before any link that has `blocked-by`. -/
def BadLink (E : Env) (r : Response) : Prop :=
  r.status = 451 ∧ ∃ a b, ValueElements E r.fields "Link" E.grammars.link = a ++ .malformed :: b ∧
    ∀ x ∈ a, ¬IsBlockedBy E x

/-- IDs of notices about a response that depend on its request. -/
def needsRequest : List Nat := [
  1019, 1024, 1025, 1033, 1041, 1046, 1047, 1049, 1051, 1055, 1058, 1060, 1071, 1072, 1073, 1074,
  1077, 1081, 1085, 1086, 1087, 1090, 1092, 1095, 1096, 1097, 1098, 1099, 1100, 1101, 1102, 1103,
  1104, 1105, 1106, 1114, 1115, 1117, 1121, 1123, 1124, 1125, 1128, 1129, 1136, 1137, 1144, 1145,
  1146, 1149, 1150, 1170, 1172, 1173, 1174, 1188, 1199, 1200, 1201, 1203, 1204, 1214, 1215, 1216,
  1221, 1232, 1233, 1237, 1239, 1242, 1263, 1267, 1269, 1283, 1284, 1286, 1291, 1302, 1303, 1305, 1306]

end Httpolice.Spec
