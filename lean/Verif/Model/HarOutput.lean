import Verif.Model.HarRun
import Verif.Model.TextReport

/-!
# Model of what a whole run on HAR files prints

`text_report` (httpolice/reports/text.py 11-34) on the exchanges that reach it in a whole run of the command with
`-i har -o text` (httpolice/cli.py 37-71). What has been written when the run ends is left here, whichever way it ends.
-/

namespace Httpolice.Model

open HarLib

/-- What a run is not given by files: the texts that make up the title of a notice, with values in the
places of variables (reports/text.py 63-78), and titles of known status codes (known/status_code.csv). -/
structure HarWording where
  title : HarRequest × List HarResponse → Target → Complaint Ctx → List Str
  status : Int → Option Str

/-- The notices of an object, if it is there, as the report shows them (reports/text.py 26-34, 56-60). -/
def HarWording.lines (V : HarWording) (x : HarRequest × List HarResponse) (t : Target) : Option (Board Ctx) → List TComplaint
  | none => []
  | some b => b.complaints.map fun c => ⟨severityOf c.id, c.id, V.title x t c⟩

/-- Responses, numbered from `i`, with the blackboards of the exchange (reports/text.py 29-32, 50-53). -/
def HarWording.responses (V : HarWording) (x : HarRequest × List HarResponse) (b : ExchBoards Ctx) :
    Nat → List HarResponse → List TResp
  | _, [] => []
  | i, r :: rs =>
    ⟨r.status, findReasonPhrase (r.reason.getD []) (V.status r.status), V.lines x (.resp i) (b.get (.resp i))⟩ ::
      V.responses x b (i + 1) rs

/-- An exchange with its blackboards, as the report shows it (reports/text.py 21-34). -/
def HarWording.exchange (V : HarWording) (x : HarRequest × List HarResponse) (b : ExchBoards Ctx) : TExch :=
  ⟨some ⟨x.1.method, x.1.target, V.lines x .req (b.get .req)⟩, V.responses x b 0 x.2, V.lines x .exch (b.get .exch)⟩

/-- What the report writes before the input ends or a check raises an exception (cli.py 42-49, reports/text.py 21-34). -/
def Setup.writeHar (S : Setup) (V : HarWording) : List (HarRequest × List HarResponse) → Str
  | [] => []
  | x :: xs =>
    if S.raisesOn (S.harExchange x) then []
    else exchangeBlock (V.exchange x (S.reportOn [] (S.harExchange x))) ++ S.writeHar V xs

/-- What `httpolice -i har -o text` prints (cli.py 37-71, reports/text.py 11-34); `none` as for `Setup.runHar`. -/
def Setup.printHar (S : Setup) (V : HarWording) (L : HarLib) (files : List (Option Json)) : Option Str :=
  let read := L.harInput files
  if read.1.all fun x => isPlainText x.1.unicodeBody && x.2.all fun r => isPlainText r.unicodeBody then
    some (S.writeHar V read.1)
  else none

end Httpolice.Model
