import Verif.Spec.Checks

/-!
# A concrete environment for examples about the checks

Values are parsed in the simplest way: numbers and dates are decimal, lists are split on commas.
-/

namespace Httpolice.Spec.Toy

open Httpolice.Model

/-- A decimal number. -/
def number (s : Str) : Option Nat :=
  if s ≠ [] ∧ ∀ c ∈ s, 48 ≤ c ∧ c ≤ 57 then some (s.foldl (fun n c => 10 * n + (c - 48)) 0) else none

/-- The parts between commas. -/
def split : Str → List Str
  | [] => [[]]
  | 44 :: s => [] :: split s
  | c :: s => match split s with
    | p :: ps => (c :: p) :: ps
    | [] => [[c]]

/-- `a=b` or `a`. -/
def pair (s : Str) : Str × Str := (s.takeWhile (· ≠ 61), (s.dropWhile (· ≠ 61)).drop 1)

/-- A directive with a number as argument, or without an argument. -/
def directive (s : Str) : Str × ArgVal CacheArg :=
  match number (pair s).2 with
  | some n => ((pair s).1, .parsed (.num n))
  | none => ((pair s).1, .none)

/-- A number, perhaps followed by `=resp`. -/
def silence (s : Str) : Option (Nat × Bool) :=
  (number (pair s).1).map fun n => (n, (pair s).2 == str "resp")

/-- `scheme=token`, `scheme=a=b,c=d` or `scheme`. -/
def auth (s : Str) : Str × AuthParams :=
  ((pair s).1, if (pair s).2.contains 61 then .params ((split (pair s).2).map pair)
    else if (pair s).2 = [] then .params [] else .token68 (pair s).2)

/-- `Wtag` or `tag`. -/
def tag : Str → EntityTag
  | 87 :: s => ⟨true, s⟩
  | s => ⟨false, s⟩

/-- `a=b` or `a`, as a preference. -/
def pref (s : Str) : Str × ArgVal PrefArg :=
  ((pair s).1, if (pair s).2 = [] then .none else .raw (pair s).2)

/-- A number, perhaps followed by a date. -/
def warn (s : Str) : Option WarningValue :=
  (number (pair s).1).map fun n => ⟨n, match number (pair s).2 with
    | some d => .val d
    | none => .none⟩

def grammars : Grammars where
  age e := number e.value
  contentDisposition e := some ((split e.value).map pair)
  contentLocation e := some e.value
  contentLength e := number e.value
  contentType e := some (e.value, [])
  date e := number e.value
  etag e := some (tag e.value)
  expect e := some e.value
  host e := some e.value
  http2Settings e := some e.value
  ifRange e := some (.tag (tag e.value))
  location e := some e.value
  range e := some (e.value, 1)
  referer e := some e.value
  authorization e := some (auth e.value)
  strictTransportSecurity e := some ((split e.value).map fun s => ((pair s).1, match number (pair s).2 with
    | some n => .parsed n
    | none => .none))
  userAgent e := some ((split e.value).map some)
  accept _ e := .list ((split e.value).map fun s => ((pair s).1, number (pair s).2))
  acceptPatch e := .list (split e.value)
  allow e := .list (split e.value)
  cacheControl e := .list ((split e.value).map directive)
  connection e := .list (split e.value)
  httpoliceSilence e := .list ((split e.value).filterMap silence)
  ifMatch e := if e.value = str "*" then .single ⟨false, str "*"⟩ else .list ((split e.value).map tag)
  link e := .list [if e.value = [] then .malformed else .rels (split e.value)]
  pragma e := .list ((split e.value).map .extension)
  prefer e := .list ((split e.value).map pref)
  preferenceApplied e := .list ((split e.value).map pref)
  te e := .list (split e.value)
  trailer e := .list (split e.value)
  transferEncoding e := .list (split e.value)
  upgrade e := .list ((split e.value).map fun s => (s, none))
  vary e := if e.value = str "*" then .single (str "*") else .list (split e.value)
  warning e := .list ((split e.value).filterMap warn)
  challenge e := .list [auth e.value]

def env : Env where
  lower := asciiLower
  upper s := s.map fun c => if 97 ≤ c ∧ c ≤ 122 then c - 32 else c
  now := 1000
  grammars := grammars
  kind _ _ := (.list [], [])
  parseTarget forms s := match forms, s with
    | f :: _, 47 :: _ => some (f, [])
    | _, 104 :: _ => if .absolute ∈ forms then some (.absolute, []) else none
    | _, [42] => if .asterisk ∈ forms then some (.asterisk, []) else none
    | _, _ => none
  oauthSyntax _ s := !s.contains 33
  mediaDeprecated _ := false
  mediaPatch s := if s = str "text/plain" then some false else none
  productLibrary s := s == str "curl"
  urlScheme s := s.takeWhile (· ≠ 58)
  urlFragment s := (s.dropWhile (· ≠ 35)).drop 1
  urlJoin _ s := s
  queryKeys s := (split ((s.dropWhile (· ≠ 63)).drop 1)).map fun x => (pair x).1
  b64decode s := if s.contains 33 then none else some s
  fnmatch a b := a == b || b == str "*"

/-- A header entry. -/
def h (name value : String) : Entry := ⟨str name, str value⟩

/-- A request. -/
def req (method : String) (headers : List Entry) (body : String := "") : Request where
  version := some (str "HTTP/1.1")
  fields := ⟨headers, []⟩
  body := .val (str body)
  payload := ⟨[], none, none⟩
  scheme := some (str "http")
  method := str method
  target := str "/"

/-- A response. -/
def resp (status : Int) (headers : List Entry) (body : String := "") : Response where
  version := some (str "HTTP/1.1")
  fields := ⟨headers, []⟩
  body := .val (str body)
  payload := ⟨[], none, none⟩
  status := status
  reason := none

/-- The IDs reported on an object, repeated ones included. -/
def ids (ex : Exchange) (t : Target) : List Nat :=
  (exchangeActs env ex).filterMap fun a => match a with
    | .op (.complain t' c) => if t' = t then some c.id else none
    | _ => none

end Httpolice.Spec.Toy
