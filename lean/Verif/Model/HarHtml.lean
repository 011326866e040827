import Verif.Model.HarOutput
import Verif.Model.HtmlRun

/-!
# Model of the HTML that a whole run on HAR files writes

`html_report` (httpolice/reports/html.py 24-63) on the exchanges that reach it in a whole run of the command with
`-i har -o html` (httpolice/cli.py 37-71). The beginning and the end of the document are left out, as in `HtmlRun`.
-/

namespace Httpolice.Model

open HarLib

/-- What a run is not given by the contents of files, for one exchange: identities of objects; the path of the file
(inputs/har.py 22-38); what is known of methods, status codes and headers (known/*.csv); the annotated values of
headers (message.py 58-66); what `displayable_body` looks at (message.py 198-241); notices with their contexts
(notices.xml, blackboard.py 13-24). -/
structure HarStaging where
  oid : Target → HSpot → Nat
  path : Str
  methodInfo : Str → Dict KCell
  statusInfo : Int → Dict KCell
  fieldInfo : Str → Dict KCell
  annotated : Target → HSpot → Entry → List HPiece
  body : Target → BodySource
  title : Target → Complaint Ctx → List NPiece
  explanation : Target → Complaint Ctx → List NPiece
  ctx : Target → Complaint Ctx → NoticeCtx

/-- The complaints of an object, if it is there (reports/html.py 216-220). -/
def HarStaging.complaints (V : HarStaging) (t : Target) : Option (Board Ctx) → List HComplaint
  | none => []
  | some b => b.complaints.map fun c => ⟨severityOf c.id, c.id, V.title t c, V.explanation t c, V.ctx t c⟩

/-- Header entries, each with its place (reports/html.py 198-204). -/
def HarStaging.entries (V : HarStaging) (t : Target) (es : List Entry) : List HEntry :=
  es.zipIdx.map fun (e, i) =>
    ⟨V.oid t (.entry i), ⟨V.oid t (.entry i), e.name, V.fieldInfo e.name⟩, V.annotated t (.entry i) e⟩

/-- A message with its remark; it has no trailer (reports/html.py 177-195, inputs/har.py 90-91, 127-128). -/
def HarStaging.message (V : HarStaging) (b : ExchBoards Ctx) (t : Target) (es : List Entry) : HMessage where
  remark := some (str "from " ++ V.path)
  entries := V.entries t es
  bodyOid := V.oid t .body
  body := V.body t
  trailers := []
  complaints := V.complaints t (b.get t)

/-- A request (reports/html.py 138-154). -/
def HarStaging.request (V : HarStaging) (b : ExchBoards Ctx) (r : HarRequest) : HReq :=
  ⟨⟨V.oid .req .method, r.method, V.methodInfo r.method⟩, ⟨V.oid .req .target, r.target⟩,
    r.version.map fun v => ⟨V.oid .req .version, v⟩, V.message b .req r.headers⟩

/-- A response, with its place among the responses (reports/html.py 157-174). -/
def HarStaging.response (V : HarStaging) (b : ExchBoards Ctx) (r : HarResponse) (i : Nat) : HResp :=
  ⟨r.version.map fun v => ⟨V.oid (.resp i) .version, v⟩,
    ⟨V.oid (.resp i) .status, intText r.status, V.statusInfo r.status⟩, r.reason.getD [], V.message b (.resp i) r.headers⟩

/-- An exchange with its blackboards, as the report shows it (reports/html.py 117-135). -/
def HarStaging.exchange (V : HarStaging) (x : HarRequest × List HarResponse) (b : ExchBoards Ctx) : HExch :=
  ⟨some (V.request b x.1), x.2.zipIdx.map fun (r, i) => V.response b r i, V.complaints .exch (b.get .exch)⟩

/-- The exchanges that reach the report (cli.py 42-49). -/
def Setup.reachedHar (S : Setup) (xs : List (HarRequest × List HarResponse)) : List (HarRequest × List HarResponse) :=
  xs.takeWhile fun x => !S.raisesOn (S.harExchange x)

/-- The blocks that `httpolice -i har -o html` writes, and whether it writes the end of the document (cli.py 37-71,
reports/html.py 58-63); `V` has what is not given by files for each exchange in turn, `seen` has the keys of
`_seen_ids` before; `none` as for `Setup.runHar`. -/
def Setup.htmlHar (S : Setup) (V : Nat → HarStaging) (L : HarLib) (seen : List Nat) (files : List (Option Json)) :
    Option (List Doc × Bool) :=
  (S.runHar L files).map fun r =>
    ((htmlReport seen ((S.reachedHar (L.harInput files).1).zipIdx.map fun (x, k) =>
      (V k).exchange x (S.reportOn [] (S.harExchange x)))).1, r.2 == .finished)

end Httpolice.Model
