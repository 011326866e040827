import Verif.Model.Output
import Verif.Model.Html

/-!
# Model of the HTML that a whole run writes

`html_report` (httpolice/reports/html.py 24-63) on the exchanges that reach it in a whole run of the command with
`-o html` (httpolice/cli.py 37-71). The report writes the beginning of the document, then a block for each exchange while
it is given exchanges, then the end of the document; the beginning and the end do not depend on the exchanges and are
left out. What has been written when the run ends is left here, whichever way it ends.
-/

namespace Httpolice.Model

/-- Objects of a message that have places of their own in the report (reports/html.py 148-152, 163-172, 182, 200). -/
inductive HSpot
  | method
  | target
  | version
  | status
  | body
  | entry (i : Nat)
  | trailer (i : Nat)

/-- What a run is not given by files: identities of objects; names of streams (inputs/streams.py 215-218, 376-378); what is
known of methods, status codes and headers (known/*.csv); the annotated values of headers (message.py 58-66); what
`displayable_body` looks at (message.py 198-241); notices with their contexts (notices.xml, blackboard.py 13-24). -/
structure Staging where
  oid : Yield → Target → HSpot → Nat
  source : Yield → Target → Str
  methodInfo : Str → Dict KCell
  statusInfo : Nat → Dict KCell
  fieldInfo : Str → Dict KCell
  annotated : Yield → Target → HSpot → Entry → List HPiece
  body : Yield → Target → BodySource
  title : Yield → Target → Complaint Ctx → List NPiece
  explanation : Yield → Target → Complaint Ctx → List NPiece
  ctx : Yield → Target → Complaint Ctx → NoticeCtx

/-- The complaints of an object, if it is there (reports/html.py 216-220). -/
def Staging.complaints (V : Staging) (y : Yield) (t : Target) : Option (Board Ctx) → List HComplaint
  | none => []
  | some b => b.complaints.map fun c => ⟨severityOf c.id, c.id, V.title y t c, V.explanation y t c, V.ctx y t c⟩

/-- Header entries, each with its place (reports/html.py 198-204). -/
def Staging.entries (V : Staging) (y : Yield) (t : Target) (part : Nat → HSpot) (es : List Entry) : List HEntry :=
  es.zipIdx.map fun (e, i) => ⟨V.oid y t (part i), ⟨V.oid y t (part i), e.name, V.fieldInfo e.name⟩, V.annotated y t (part i) e⟩

/-- A message with its remark (reports/html.py 177-195, framing1.py 117, 197). -/
def Staging.message (V : Staging) (y : Yield) (b : ExchBoards Ctx) (t : Target) (m : FMsg) : HMessage where
  remark := some (str "from " ++ V.source y t ++ str ", offset " ++ decimalText m.start)
  entries := V.entries y t .entry m.entries
  bodyOid := V.oid y t .body
  body := V.body y t
  trailers := V.entries y t .trailer m.trailers
  complaints := V.complaints y t (b.get t)

/-- A request (reports/html.py 138-154). -/
def Staging.request (V : Staging) (y : Yield) (b : ExchBoards Ctx) (r : FReq) : HReq :=
  ⟨⟨V.oid y .req .method, r.method, V.methodInfo r.method⟩, ⟨V.oid y .req .target, r.target⟩,
    some ⟨V.oid y .req .version, r.version⟩, V.message y b .req r.msg⟩

/-- A response, with its place among the responses (reports/html.py 157-174). -/
def Staging.response (V : Staging) (y : Yield) (b : ExchBoards Ctx) (r : FResp) (i : Nat) : HResp :=
  ⟨some ⟨V.oid y (.resp i) .version, r.version⟩,
    ⟨V.oid y (.resp i) .status, decimalText r.status, V.statusInfo r.status⟩, r.reason, V.message y b (.resp i) r.msg⟩

/-- An exchange with its blackboards, as the report shows it (reports/html.py 117-135). -/
def Staging.exchange (V : Staging) (y : Yield) (b : ExchBoards Ctx) : HExch :=
  match y with
  | .exch req resps => ⟨req.map (V.request y b), resps.zipIdx.map fun (r, i) => V.response y b r i,
      V.complaints y .exch (b.get .exch)⟩
  | .box _ => ⟨none, [], V.complaints y .exch (b.get .exch)⟩

/-- The blocks that `httpolice -i combined -o html` writes, and whether it writes the end of the document
(cli.py 37-71, reports/html.py 58-63); `V` has what is not given by files for each exchange in turn, `seen` has the keys of
`_seen_ids` before. -/
def Setup.htmlCombined (S : Setup) (V : Nat → Staging) (seen : List Nat) (files : List (Str × Option Str)) : List Doc × Bool :=
  ((htmlReport seen ((S.reachedCombined files).zipIdx.map fun z => (V z.2).exchange z.1.2 (S.report z.1.1 z.1.2))).1,
    (S.runCombined files).2 == .finished)

/-- The same with the other formats of streams (cli.py 37-71, reports/html.py 58-63); `none` as for `Setup.runFormat`. -/
def Setup.htmlFormat (S : Setup) (V : Nat → Staging) (seen : List Nat) (D : Disk) (format : StreamFormat) (paths : List Str) :
    Option (List Doc × Bool) :=
  match S.reachedFormat D format paths, S.runFormat D format paths with
  | some ys, some r =>
    some ((htmlReport seen (ys.zipIdx.map fun z => (V z.2).exchange z.1 (S.report streamScheme z.1))).1, r.2 == .finished)
  | _, _ => none

end Httpolice.Model
