import Verif.Model.StreamRun

/-!
# Model of a whole run on streams and captures, some of which cannot be read

As Model/StreamRun (`run_cli`, httpolice/cli.py 37-71, on httpolice/inputs/streams.py 15-302), but files that cannot be
opened and streams on which `parse_streams` raises an exception are covered as well. Generators raise when
they are asked for more exchanges. Paths are taken not to be empty.
-/

namespace Httpolice.Model

/-- The kinds of exceptions that reading a connection can end with: an `EnvironmentError`, or another one (inputs/streams.py 209-226,
cli.py 62). -/
inductive Fate
  | environment
  | other
deriving DecidableEq, Repr

/-- `position[i]`, what `sequences[i][0]` will still yield, and the exception it will raise after that, if any
(inputs/streams.py 254-256). -/
structure FConn (α : Type) where
  pos : Option (Option Int × Option (Exch α))
  rest : List (Exch α)
  fate : Option Fate

/-- Exceptions that escape from `_rearrange_by_time`: from `_exchange_time`, or from a sequence (inputs/streams.py 229-317). -/
inductive FErr
  | time (e : RErr)
  | fate (f : Fate)
deriving DecidableEq, Repr

/-- One round of the main loop: what it yields if anything, and the state afterwards (`none` if the loop ended) or an
exception (inputs/streams.py 229-302). -/
structure FRound (α : Type) where
  out : Option (Exch α)
  next : Except FErr (Option (List (FConn α)))

/-- The end of a round of the main loop: yield `exchange` and proceed (inputs/streams.py 293-302). -/
def proceedF {α : Type} (cs : List (FConn α)) (i : Nat) (time : Option Int) (exchange : Exch α)
    (rest : List (Exch α)) (fate : Option Fate) : FRound α :=
  match rest with
  | [] =>
    match fate with
    | none => ⟨some exchange, .ok (some (cs.set i ⟨none, [], none⟩))⟩
    | some f => ⟨some exchange, .error (.fate f)⟩
  | e :: rest =>
    match exchangeTime (some e) time with
    | .error err => ⟨some exchange, .error (.time err)⟩
    | .ok t => ⟨some exchange, .ok (some (cs.set i ⟨some (t, some e), rest, fate⟩))⟩

/-- A round for a sequence that is not started yet (inputs/streams.py 281-291). -/
def startF {α : Type} (cs : List (FConn α)) (i : Nat) (time : Option Int) (rest : List (Exch α)) (fate : Option Fate) : FRound α :=
  match rest with
  | [] =>
    match fate with
    | none => ⟨none, .error (.time .attribute)⟩
    | some f => ⟨none, .error (.fate f)⟩
  | e :: rest =>
    match exchangeTime (some e) time with
    | .error err => ⟨none, .error (.time err)⟩
    | .ok newTime =>
      if startsLater time newTime then ⟨none, .ok (some (cs.set i ⟨some (newTime, some e), rest, fate⟩))⟩
      else proceedF cs i time e rest fate

/-- One round of the main loop of `_rearrange_by_time` (inputs/streams.py 258-302). -/
def roundF {α : Type} (cs : List (FConn α)) : FRound α :=
  match minLoop (cs.map fun c => ⟨c.pos, c.rest⟩) 0 none none with
  | none => ⟨none, .ok none⟩
  | some i =>
    match cs[i]? with
    | some ⟨some (time, some exchange), rest, fate⟩ => proceedF cs i time exchange rest fate
    | some ⟨some (time, none), rest, fate⟩ => startF cs i time rest fate
    | _ => ⟨none, .ok none⟩

/-- How the generator ends; `diverge` is not Python, see `REnd` (inputs/streams.py 229-302). -/
inductive FEnd
  | finished
  | raised (e : FErr)
  | diverge
deriving DecidableEq, Repr

/-- At most `n` rounds of the main loop (inputs/streams.py 229-302). -/
def loopF {α : Type} : Nat → List (FConn α) → List (Exch α) × FEnd
  | 0, _ => ([], .diverge)
  | n + 1, cs =>
    match (roundF cs).next with
    | .error e => ((roundF cs).out.toList, .raised e)
    | .ok none => ((roundF cs).out.toList, .finished)
    | .ok (some cs') => ((roundF cs).out.toList ++ (loopF n cs').1, (loopF n cs').2)

/-- `_rearrange_by_time` (inputs/streams.py 229-302), with more rounds than it can need. -/
def rearrangeFailing {α : Type} (sequences : List ((List (Exch α) × Option Fate) × Option Int)) : List (Exch α) × FEnd :=
  loopF ((sequences.map fun s => 2 * (s.1.1.length + s.1.2.toList.length) + 2).sum + 1)
    (sequences.map fun s => ⟨some (s.2, none), s.1.1, s.1.2⟩)

/-- `path and sniff(path)`; `none` if the file cannot be opened (inputs/streams.py 320-341). -/
def Disk.sniffed (D : Disk) (sniff : Str → Bool) : Option Str → Option Bool
  | none => some false
  | some path => (D.contents path).map sniff

/-- `_sniff_direction` (inputs/streams.py 320-329); `none` if a file that it looks at cannot be opened. -/
def Disk.direction (D : Disk) (path1 path2 : Option Str) : Option (Option (Option Str × Option Str)) :=
  match D.sniffed sniffOutbound path1 with
  | none => none
  | some true => some (some (path2, path1))
  | some false =>
    match D.sniffed sniffOutbound path2 with
    | none => none
    | some true => some (some (path1, path2))
    | some false =>
      match D.sniffed sniffInbound path1 with
      | none => none
      | some true => some (some (path1, path2))
      | some false =>
        match D.sniffed sniffInbound path2 with
        | none => none
        | some true => some (some (path2, path1))
        | some false => some none

/-- `_parse_paths` (inputs/streams.py 209-226): what it yields, and the exception it raises, if any. -/
def Setup.parsePaths (S : Setup) (D : Disk) (inbound outbound : Option Str) : List Yield × Option Fate :=
  match D.at inbound, D.at outbound with
  | some a, some b =>
    let r := parseStreams (S.world.frame S.base.lower S.libs) (a.map SS.new) (b.map SS.new)
    (r.1, match r.2 with
      | .ok _ => none
      | .error _ => some .other)
  | _, _ => ([], some .environment)

/-- The body of the loop of `_path_pairs_input` (inputs/streams.py 166-204); `none` if it raises an `EnvironmentError`. -/
def Setup.sequence (S : Setup) (D : Disk) (captures : Bool) (pair : PathPair) : Option (List Yield × Option Fate) :=
  if captures then
    let boxes := if pair.1.isNone || pair.2.1.isNone then [Yield.box 1278] else []
    match D.direction pair.1 pair.2.1 with
    | none => none
    | some none => some (boxes ++ [.box 1279], none)
    | some (some (inbound, outbound)) =>
      let r := S.parsePaths D inbound outbound
      some (boxes ++ r.1, r.2)
  else some (S.parsePaths D pair.1 pair.2.1)

/-- The loop of `_path_pairs_input` (inputs/streams.py 160-204). -/
def Setup.sequences (S : Setup) (D : Disk) (captures : Bool) : List PathPair → Option (List ((List Yield × Option Fate) × Option Int))
  | [] => some []
  | pair :: pairs =>
    match S.sequence D captures pair with
    | none => none
    | some s =>
      match S.sequences D captures pairs with
      | none => none
      | some rest => some ((s, pair.2.2) :: rest)

/-- The exchanges in the order of `_rearrange_by_time`, checked and reported (inputs/streams.py 205-206, cli.py 42-66): what reaches
the report, and how it ends. -/
def Setup.runSequences (S : Setup) (sequences : List ((List Yield × Option Fate) × Option Int)) : List (ExchBoards Ctx) × InputEnd :=
  let out := rearrangeFailing (sequences.map fun s => ((s.1.1.map (S.timed streamScheme), s.1.2), s.2))
  let r := S.reportAll streamScheme (out.1.map (·.tag))
  (r.1, if r.2 then .otherError else match out.2 with
    | .finished => .finished
    | .raised (.fate .environment) => .inputError
    | _ => .otherError)

/-- A run on streams (cli.py 42-66). `none` only if a time is out of range for the platform (inputs/streams.py 88). -/
def Setup.runPaths (S : Setup) (D : Disk) (format : StreamFormat) (paths : List Str) : Option (List (ExchBoards Ctx) × InputEnd) :=
  match D.pairs format paths with
  | .error (.capture .outOfRange) => none
  | .error _ => some ([], .inputError)
  | .ok pairs =>
    match S.sequences D format.captures pairs with
    | none => some ([], .inputError)
    | some sequences => some (S.runSequences sequences)

/-- The exit status (cli.py 37-71), `some none` if an exception escapes. -/
def Setup.exitPaths (S : Setup) (D : Disk) (format : StreamFormat) (paths : List Str) : Option (Option Nat) :=
  (S.runPaths D format paths).map fun r => runCli severityOf [] id S.failOn r.1 r.2

end Httpolice.Model
