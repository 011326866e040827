import Verif.Model.Blackboard

/-!
# Model of `httpolice/cli.py`

`Severity` from `httpolice/notice.py`. Argument parsing, output and messages are left out: the report
is any consumer of the exchanges. The severity of a notice is a table lookup by ID.
-/

namespace Httpolice.Model

/-- `Severity` (notice.py 28-43). -/
inductive Severity
  | error
  | comment
  | debug
deriving DecidableEq, Repr

/-- The values of the enumeration (notice.py 41-43), which order it (util/ordered_enum.py 14-17). -/
def Severity.value : Severity → Nat
  | .error => 2
  | .comment => 1
  | .debug => 0

/-- `for severity in Severity`: members in the order of definition (httpolice/notice.py 28-49). -/
def Severity.all : List Severity := [.error, .comment, .debug]

/-- `[exch] + exch.children` (cli.py 47, exchange.py 37-43). -/
def ExchBoards.boards {Ctx : Type} (e : ExchBoards Ctx) : List (Board Ctx) :=
  [e.own] ++ (e.request.toList ++ e.responses)

/-- The severities counted for an exchange (cli.py 46-48). -/
def ExchBoards.severities {Ctx : Type} (severity : Nat → Severity) (e : ExchBoards Ctx) :
    List Severity :=
  e.boards.flatMap fun obj => obj.complaints.map fun complaint => severity complaint.id

/-- A `Counter` of severities (httpolice/cli.py 37-71). -/
abbrev Counter := Severity → Nat

/-- `counter.update(iterable)` (httpolice/cli.py 37-71). -/
def Counter.update (n : Counter) (xs : List Severity) : Counter :=
  xs.foldl (fun n x => fun s => if s = x then n s + 1 else n s) n

/-- How an input ends (httpolice/cli.py 37-71). -/
inductive InputEnd
  | finished
  /-- `EnvironmentError` or `InputError` -/
  | inputError
  /-- any other exception -/
  | otherError
deriving DecidableEq, Repr

/-- What happens to an exchange before it is reported (cli.py 43-45). `check` is
`check_exchange`. -/
def processExchange {Ctx : Type} (silence : List Nat) (check : ExchBoards Ctx → ExchBoards Ctx)
    (exch : ExchBoards Ctx) : ExchBoards Ctx :=
  check (if silence.isEmpty then exch else exch.silenceAll silence)

/-- `generate_exchanges` consumed to its end (cli.py 41-49): the exchanges as reported and the final
value of `n_notices`. -/
def generateExchanges {Ctx : Type} (severity : Nat → Severity) (silence : List Nat)
    (check : ExchBoards Ctx → ExchBoards Ctx) :
    List (ExchBoards Ctx) → Counter → List (ExchBoards Ctx) × Counter
  | [], n => ([], n)
  | exch :: exchs, n =>
    let exch' := processExchange silence check exch
    let r := generateExchanges severity silence check exchs (n.update (exch'.severities severity))
    (exch' :: r.1, r.2)

/-- The decision at the end of `run_cli` (cli.py 67-71). -/
def exitStatus (failOn : Option Severity) (n : Counter) : Nat :=
  match failOn with
  | none => 0
  | some threshold =>
    if Severity.all.any fun severity => severity.value ≥ threshold.value && n severity > 0 then 1
    else 0

/-- `run_cli` (cli.py 37-71) on an input that yields `exchs` and then ends in the given way: its
return value; `none` if another exception escapes. -/
def runCli {Ctx : Type} (severity : Nat → Severity) (silence : List Nat)
    (check : ExchBoards Ctx → ExchBoards Ctx) (failOn : Option Severity)
    (exchs : List (ExchBoards Ctx)) (inputEnd : InputEnd) : Option Nat :=
  match inputEnd with
  | .otherError => none
  | .inputError => some 1
  | .finished =>
    some (exitStatus failOn (generateExchanges severity silence check exchs fun _ => 0).2)

end Httpolice.Model
