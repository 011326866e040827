import Verif.Model.Run
import Verif.Model.Captures

/-!
# Model of a whole run on streams and captures

`run_cli` (httpolice/cli.py 37-71) with `-i streams`, `req-stream`, `resp-stream`, `tcpick` or `tcpflow`
(httpolice/inputs/streams.py 15-302). Files are read when they are needed; here they are given, and what a
run does when a file cannot be opened, or `parse_streams` raises, is not modelled.
-/

namespace Httpolice.Model

/-- The input formats for streams (inputs/__init__.py 25-31). -/
inductive StreamFormat
  | streams
  | reqStream
  | respStream
  | tcpick
  | tcpflow
deriving DecidableEq, Repr

/-- Formats for which `sniff_direction` and `complain_on_one_sided` are set (inputs/streams.py 15-29, 57-58, 93-94). -/
def StreamFormat.captures : StreamFormat → Bool
  | .tcpick => true
  | .tcpflow => true
  | _ => false

/-- What is found where paths lead: the names of files in directories, and the contents of files, `none` if
a file cannot be opened; `digit` is what `\d` and `int` make of a character (inputs/streams.py 40, 73, 215, 218).
Directories can be listed. -/
structure Disk where
  digit : Nat → Option Nat
  listing : Str → List Str
  contents : Str → Option Str

/-- Why there are no pairs (inputs/streams.py 16-17, 46-47, 78-83, 88). -/
inductive PairsError
  | odd
  | capture (e : CaptureError)
deriving DecidableEq, Repr

/-- Two paths, at least one of them there, and a time hint (inputs/streams.py 160-166). -/
abbrev PathPair := Option Str × Option Str × Option Int

/-- The pairs that are given to `_path_pairs_input` (inputs/streams.py 15-94). -/
def Disk.pairs (D : Disk) : StreamFormat → List Str → Except PairsError (List PathPair)
  | .streams, paths =>
    match pairUp paths with
    | none => .error .odd
    | some ps => .ok (ps.map fun p => (some p.1, some p.2, none))
  | .reqStream, paths => .ok (paths.map fun p => (some p, none, none))
  | .respStream, paths => .ok (paths.map fun p => (none, some p, none))
  | .tcpick, dirs =>
    match tcpickPairs D.digit D.listing dirs with
    | .error e => .error (.capture e)
    | .ok ps => .ok (ps.map fun p => (some p.1, p.2))
  | .tcpflow, dirs =>
    match tcpflowPairs D.digit D.listing dirs with
    | .error e => .error (.capture e)
    | .ok ps => .ok (ps.map fun p => (some p.1, p.2))

/-- The contents of a file if there is a path; `none` if it cannot be opened (inputs/streams.py 214-219). -/
def Disk.at (D : Disk) : Option Str → Option (Option Str)
  | none => some none
  | some path => (D.contents path).map some

/-- An exchange of a connection, from a complaint box or from the streams (inputs/streams.py 177-202). -/
def ConnItem.yield : ConnItem Yield → Yield
  | .box notice => .box notice
  | .parsed y => y

/-- The exchanges from one pair (inputs/streams.py 166-226). `none` if a file cannot be opened or parsing
raises. -/
def Setup.connection (S : Setup) (D : Disk) (captures : Bool) (pair : PathPair) : Option (List Yield) :=
  match D.at pair.1, D.at pair.2.1 with
  | some data1, some data2 =>
    let parse := fun (inbound outbound : Option Str) =>
      parseStreams (S.world.frame S.base.lower S.libs) (inbound.map SS.new) (outbound.map SS.new)
    let dir := resolveDirection id captures data1 data2
    match (parse dir.2.1 dir.2.2).2 with
    | .error _ => none
    | .ok _ =>
      some ((connectionSequence id (fun i o => (parse i o).1) captures captures data1 data2).map ConnItem.yield)
  | _, _ => none

/-- `headers.date.is_okay` and the value (inputs/streams.py 309-314, header.py 187-200). -/
def Setup.date (S : Setup) (m : Msg) : Option Int :=
  match (S.world.all S.base).single m "Date" (S.world.all S.base).grammars.date with
  | .val d => some (d : Int)
  | _ => none

/-- `headers.age.is_okay` and the value (inputs/streams.py 313-315, header.py 187-200). -/
def Setup.age (S : Setup) (m : Msg) : Option Nat :=
  match (S.world.all S.base).single m "Age" (S.world.all S.base).grammars.age with
  | .val n => some n
  | _ => none

/-- What `_exchange_time` looks at (inputs/streams.py 305-317). Headers are read here before they are
checked; what is said of them is the same then. -/
def Setup.timed (S : Setup) (scheme : Option Str) (y : Yield) : Exch Yield :=
  let ex := S.exchange scheme y
  ⟨y, ex.request.bind fun req => S.date req.fields, ex.responses.map fun r => (S.date r.fields, S.age r.fields)⟩

/-- The default of `scheme` in `_parse_paths` (inputs/streams.py 209). -/
def streamScheme : Option Str := some (str "http")

/-- The exchanges of connections in the order of `_rearrange_by_time`, checked and reported (inputs/streams.py
205-206, cli.py 42-66): what reaches the report, and how it ends. -/
def Setup.runConnections (S : Setup) (conns : List (List Yield × Option Int)) : List (ExchBoards Ctx) × InputEnd :=
  let out := rearrangeByTime (conns.map fun c => (c.1.map (S.timed streamScheme), c.2))
  let r := S.reportAll streamScheme (out.1.map (·.tag))
  (r.1, if r.2 then .otherError else match out.2 with
    | .finished => .finished
    | _ => .otherError)

/-- All connections with their time hints, if everything can be read (inputs/streams.py 160-206). -/
def Setup.connections (S : Setup) (D : Disk) (captures : Bool) : List PathPair → Option (List (List Yield × Option Int))
  | [] => some []
  | pair :: pairs =>
    match S.connection D captures pair, S.connections D captures pairs with
    | some ys, some rest => some ((ys, pair.2.2) :: rest)
    | _, _ => none

/-- A run on streams (cli.py 42-66). `none` is for what is not modelled: a file cannot be opened, parsing a
stream raises, or a time is out of range for the platform (inputs/streams.py 88). -/
def Setup.runFormat (S : Setup) (D : Disk) (format : StreamFormat) (paths : List Str) :
    Option (List (ExchBoards Ctx) × InputEnd) :=
  match D.pairs format paths with
  | .error (.capture .outOfRange) => none
  | .error _ => some ([], .inputError)
  | .ok pairs => (S.connections D format.captures pairs).map S.runConnections

/-- The exchanges that reach the report, before they are checked (cli.py 42-49); `none` as above. -/
def Setup.reachedFormat (S : Setup) (D : Disk) (format : StreamFormat) (paths : List Str) : Option (List Yield) :=
  match D.pairs format paths with
  | .error (.capture .outOfRange) => none
  | .error _ => some []
  | .ok pairs => (S.connections D format.captures pairs).map fun conns =>
    S.reached streamScheme
      ((rearrangeByTime (conns.map fun c => (c.1.map (S.timed streamScheme), c.2))).1.map (·.tag))

/-- The exit status (cli.py 37-71), `some none` if an exception escapes. -/
def Setup.exitFormat (S : Setup) (D : Disk) (format : StreamFormat) (paths : List Str) : Option (Option Nat) :=
  (S.runFormat D format paths).map fun r => runCli severityOf [] id S.failOn r.1 r.2

end Httpolice.Model
