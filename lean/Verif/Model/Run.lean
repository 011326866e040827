import Verif.Model.Analysis
import Verif.Model.Inputs
import Verif.Model.Cli
import Verif.Model.LinkRaise

/-!
# Model of a whole run on combined files

`run_cli` (httpolice/cli.py 37-71) with `-i combined` (httpolice/inputs/streams.py 344-380), from the
bytes of files to what is on the blackboards when the report gets an exchange, and the exit status.
Exchanges are generated one at a time: an exchange is read, silenced, checked, counted and reported
before the next one is read. What reports write is in `TextReport` and `Html`.
-/

namespace Httpolice.Model

/-- What a run is given: the world of headers and libraries, the keyword arguments of what framing
says (their values are left open), the UTF-8 codec, and the options `--silence` and `--fail-on`
(cli.py 14-34, 37-49). -/
structure Setup where
  world : World
  base : Env
  libs : Libs
  said : Target → FNote → Ctx
  decodeUtf8 : Str → Option Str
  silence : List Nat
  failOn : Option Severity

/-- `complain` for everything that framing has to say about a message (framing1.py 103-137, 146-169, 205-214). -/
def noteOps (said : Target → FNote → Ctx) (t : Target) (notes : List FNote) : List (BoardOp Ctx) :=
  notes.map fun n => .complain t ⟨n.id, said t n⟩

/-- The same for responses, numbered from `i` (framing1.py 161-214). -/
def responseOps (said : Target → FNote → Ctx) : Nat → List FResp → List (BoardOp Ctx)
  | _, [] => []
  | i, r :: rs => noteOps said (.resp i) r.msg.notes ++ responseOps said (i + 1) rs

/-- All that has been said on an exchange when it is yielded: by framing, or by `complaint_box`
(framing1.py 34-90, exchange.py 46-54). -/
def Yield.ops (said : Target → FNote → Ctx) : Yield → List (BoardOp Ctx)
  | .exch req resps =>
    (match req with
      | some r => noteOps said .req r.msg.notes
      | none => []) ++ responseOps said 0 resps
  | .box id => noteOps said .exch [⟨id, none⟩]

/-- The exchange that is yielded: a complaint box has no messages (framing1.py 34-90, exchange.py 46-54). -/
def Setup.exchange (S : Setup) (scheme : Option Str) : Yield → Exchange
  | .exch req resps => S.world.heard S.base S.libs scheme req resps
  | .box _ => ⟨none, []⟩

/-- Whether `check_exchange` raises, itself or in reading links (cli.py 45). -/
def Setup.raisesOn (S : Setup) (ex : Exchange) : Bool :=
  exchangeRaises (S.world.all S.base) ex || S.world.exchangeLinkRaises S.base.lower ex

/-- The same for what framing yields (cli.py 45). -/
def Setup.raises (S : Setup) (scheme : Option Str) (y : Yield) : Bool := S.raisesOn (S.exchange scheme y)

/-- An exchange as it is given to the report: silenced and checked, after what has been said already
(cli.py 42-49). -/
def Setup.reportOn (S : Setup) (ops : List (BoardOp Ctx)) (ex : Exchange) : ExchBoards Ctx :=
  let start := (ExchBoards.fresh Ctx ex.request.isSome ex.responses.length).run ops
  processExchange S.silence
    (fun b => b.run (untilRaise (exchangeActs (S.world.all S.base) ex))) start

/-- The same for what framing yields (cli.py 42-49). -/
def Setup.report (S : Setup) (scheme : Option Str) (y : Yield) : ExchBoards Ctx :=
  S.reportOn (y.ops S.said) (S.exchange scheme y)

/-- The exchanges of one connection that reach the report, and whether a check raised an exception
(cli.py 42-49). -/
def Setup.reportAll (S : Setup) (scheme : Option Str) : List Yield → List (ExchBoards Ctx) × Bool
  | [] => ([], false)
  | y :: ys =>
    if S.raises scheme y then ([], true)
    else
      let r := S.reportAll scheme ys
      (S.report scheme y :: r.1, r.2)

/-- The exchanges of one connection that reach the report, before they are checked (cli.py 42-49). -/
def Setup.reached (S : Setup) (scheme : Option Str) (ys : List Yield) : List Yield :=
  ys.takeWhile fun y => !S.raises scheme y

/-- `combined_input` (inputs/streams.py 344-348) within `run_cli` (cli.py 42-66): files with their
contents, or nothing if they cannot be opened or read (`EnvironmentError`). What reaches the report,
and how it ends. -/
def Setup.runCombined (S : Setup) : List (Str × Option Str) → List (ExchBoards Ctx) × InputEnd
  | [] => ([], .finished)
  | (_, none) :: _ => ([], .inputError)
  | (path, some data) :: files =>
    match parseCombined S.decodeUtf8 path data with
    | .error _ => ([], .inputError)
    | .ok (inbound, outbound, scheme, _) =>
      let p := parseStreams (S.world.frame S.base.lower S.libs) (some (SS.new inbound)) (some (SS.new outbound))
      let r := S.reportAll scheme p.1
      if r.2 then (r.1, .otherError)
      else
        match p.2 with
        | .error _ => (r.1, .otherError)
        | .ok _ =>
          let rest := S.runCombined files
          (r.1 ++ rest.1, rest.2)

/-- `complaint.severity` (blackboard.py 22-24, notice.py 55): that of the notice in the catalogue. An ID
that is not there is a `KeyError`; `C98_catalogue` shows that there is none. -/
def severityOf (id : Nat) : Severity :=
  match noticeRows.find? fun row => row.id = id with
  | some row => row.severity
  | none => .error

/-- The exit status of `httpolice -i combined` (cli.py 37-71), `none` if an exception escapes. The
exchanges have been silenced and checked already. -/
def Setup.exitCode (S : Setup) (files : List (Str × Option Str)) : Option Nat :=
  runCli severityOf [] id S.failOn (S.runCombined files).1 (S.runCombined files).2

end Httpolice.Model
