import Verif.Model.Run
import Verif.Model.Har

/-!
# Model of a whole run on HAR files

`run_cli` (httpolice/cli.py 37-71) with `-i har` (httpolice/inputs/har.py 22-166). Exchanges are generated one
at a time: an exchange is read, silenced, checked, counted and reported before the next one is read.
-/

namespace Httpolice.Model

open HarLib

/-- The `Request` object (inputs/har.py 90-94, request.py 26-110). -/
def HarLib.HarRequest.request (r : HarRequest) : Request where
  version := r.version
  fields := ⟨r.headers, []⟩
  body := r.body
  payload := ⟨[], none, none⟩
  scheme := some r.scheme
  method := r.method
  target := r.target
  proxyUnknown := true

/-- The `Response` object (inputs/har.py 126-127, response.py 17-92). -/
def HarLib.HarResponse.response (r : HarResponse) : Response where
  version := r.version
  fields := ⟨r.headers, []⟩
  body := r.body
  payload := ⟨[], none, none⟩
  status := r.status
  reason := r.reason

/-- What `unicode_body` is set to, if it is a string (inputs/har.py 92-93, 144-145). -/
def harText : Option Json → Option Str
  | some (.text s) => some s
  | _ => none

/-- Whether `unicode_body` is a string or is not set (inputs/har.py 92-93, 144-145). -/
def isPlainText : Option Json → Bool
  | none => true
  | some (.text _) => true
  | some _ => false

/-- What is assigned to properties of messages (inputs/har.py 92-93, 142-145). -/
def harAssigned (x : HarRequest × List HarResponse) : Target → Assigned
  | .exch => {}
  | .req => { unicode := harText x.1.unicodeBody }
  | .resp i => match x.2[i]? with
    | some r => { decoded := r.decodedBody, unicode := harText r.unicodeBody }
    | none => {}

/-- The exchange as it is checked (inputs/har.py 40-43). -/
def Setup.harExchange (S : Setup) (x : HarRequest × List HarResponse) : Exchange :=
  loadPayloads S.libs (S.world.all S.base) S.world.codings (harAssigned x)
    ⟨some x.1.request, x.2.map HarResponse.response⟩

/-- The exchanges that reach the report, and whether a check raised an exception (cli.py 42-49). -/
def Setup.reportHar (S : Setup) : List (HarRequest × List HarResponse) → List (ExchBoards Ctx) × Bool
  | [] => ([], false)
  | x :: xs =>
    if S.raisesOn (S.harExchange x) then ([], true)
    else
      let r := S.reportHar xs
      (S.reportOn [] (S.harExchange x) :: r.1, r.2)

/-- A run on files with these contents (cli.py 42-66, inputs/har.py 22-38); `none` for a file that cannot be opened
or is not JSON in UTF-8. What reaches the report, and how it ends. What becomes of a body whose text is
not a string is not modelled; the result is `none` then. -/
def Setup.runHar (S : Setup) (L : HarLib) (files : List (Option Json)) : Option (List (ExchBoards Ctx) × InputEnd) :=
  let read := L.harInput files
  if read.1.all fun x => isPlainText x.1.unicodeBody && x.2.all fun r => isPlainText r.unicodeBody then
    let r := S.reportHar read.1
    some (r.1, if r.2 then .otherError else match read.2 with
      | .done => .finished
      | .inputError => .inputError
      | .crash _ => .otherError)
  else none

/-- The exit status (cli.py 37-71), `some none` if an exception escapes. -/
def Setup.exitHar (S : Setup) (L : HarLib) (files : List (Option Json)) : Option (Option Nat) :=
  (S.runHar L files).map fun r => runCli severityOf [] id S.failOn r.1 r.2

end Httpolice.Model
