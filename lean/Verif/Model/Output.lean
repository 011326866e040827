import Verif.Model.StreamRun
import Verif.Model.TextReport

/-!
# Model of what a whole run prints

`text_report` (httpolice/reports/text.py 11-34) on the exchanges that reach it in a whole run of the
command with `-o text` (httpolice/cli.py 37-71). The report writes while it is given exchanges; what has
been written when the run ends is left here, whichever way it ends.
-/

namespace Httpolice.Model

/-- What a run is not given by files: the texts that make up the title of a notice, with values in the
places of variables (reports/text.py 63-78), and titles of known status codes (known/status_code.csv). -/
structure Wording where
  title : Yield → Target → Complaint Ctx → List Str
  status : Nat → Option Str

/-- The notices of an object, if it is there, as the report shows them (reports/text.py 26-34, 56-60). -/
def Wording.lines (V : Wording) (y : Yield) (t : Target) : Option (Board Ctx) → List TComplaint
  | none => []
  | some b => b.complaints.map fun c => ⟨severityOf c.id, c.id, V.title y t c⟩

/-- Responses, numbered from `i`, with the blackboards of the exchange (reports/text.py 29-32, 50-53). -/
def Wording.responses (V : Wording) (y : Yield) (b : ExchBoards Ctx) : Nat → List FResp → List TResp
  | _, [] => []
  | i, r :: rs =>
    ⟨r.status, findReasonPhrase r.reason (V.status r.status), V.lines y (.resp i) (b.get (.resp i))⟩ ::
      V.responses y b (i + 1) rs

/-- An exchange with its blackboards, as the report shows it (reports/text.py 21-34). -/
def Wording.exchange (V : Wording) (y : Yield) (b : ExchBoards Ctx) : TExch :=
  match y with
  | .exch req resps =>
    ⟨req.map fun r => ⟨r.method, r.target, V.lines y .req (b.get .req)⟩, V.responses y b 0 resps,
      V.lines y .exch (b.get .exch)⟩
  | .box _ => ⟨none, [], V.lines y .exch (b.get .exch)⟩

/-- The exchanges that reach the report with `-i combined`, before they are checked (cli.py 42-49,
inputs/streams.py 344-348). -/
def Setup.reachedCombined (S : Setup) : List (Str × Option Str) → List (Option Str × Yield)
  | [] => []
  | (_, none) :: _ => []
  | (path, some data) :: files =>
    match parseCombined S.decodeUtf8 path data with
    | .error _ => []
    | .ok (inbound, outbound, scheme, _) =>
      let p := parseStreams (S.world.frame S.base.lower S.libs) (some (SS.new inbound)) (some (SS.new outbound))
      let now := (S.reached scheme p.1).map (scheme, ·)
      if (S.reportAll scheme p.1).2 then now
      else
        match p.2 with
        | .error _ => now
        | .ok _ => now ++ S.reachedCombined files

/-- What `httpolice -i combined -o text` prints (cli.py 37-71, reports/text.py 11-34). -/
def Setup.printCombined (S : Setup) (V : Wording) (files : List (Str × Option Str)) : Str :=
  textReport ((S.reachedCombined files).map fun x => V.exchange x.2 (S.report x.1 x.2))

/-- What the command prints with the other formats of streams (cli.py 37-71, reports/text.py 11-34); `none` as for
`Setup.runFormat`. -/
def Setup.printFormat (S : Setup) (V : Wording) (D : Disk) (format : StreamFormat) (paths : List Str) : Option Str :=
  (S.reachedFormat D format paths).map fun ys =>
    textReport (ys.map fun y => V.exchange y (S.report streamScheme y))

end Httpolice.Model
