import Verif.Model.Framing
import Verif.Model.Inputs

/-!
# Model of reading directories of captured streams (httpolice/inputs/streams.py 32-94)

Which files there are in a directory is a parameter, in the order in which `os.listdir` gives them, and so is which characters
are decimal digits (`\d` and `int()` know all of Unicode) with their values. The names are text already (`decode_path`).
-/

namespace Httpolice.Model

/-- How reading a directory fails: `InputError` about a name, or about two files with the same addresses (inputs/streams.py 45-47,
78-85), or `datetime.utcfromtimestamp` on a number that is too large (inputs/streams.py 89). -/
inductive CaptureError
  | wrongName (name : Str)
  | duplicate (path seen : Str)
  | outOfRange
deriving DecidableEq, Repr

/-- `int(s)` on text matched by `\d+` (inputs/streams.py 44, 49, 77, 82), `none` if `s` is not such text. -/
def digitsValue (digit : Nat → Option Nat) (s : Str) : Option Nat :=
  if s = [] then none else s.foldlM (fun n c => (digit c).map (n * 10 + ·)) 0

/-- `os.path.join(dir_path, name)` for a name without slashes (inputs/streams.py 42, 76). -/
def joinPath (dir name : Str) : Str :=
  if dir = [] ∨ dir.getLast? = some 47 then dir ++ name else dir ++ 47 :: name

/-- What `$` ignores at the end (inputs/streams.py 44, 77): one newline. -/
def chopNewline (s : Str) : Str := if s.getLast? = some 10 then s.dropLast else s

/-- `[^.]+.(serv|clnt)\.dat$` (inputs/streams.py 44): is it `serv`? -/
def tcpickTail (s : Str) : Option Bool :=
  let t := chopNewline s
  let front := t.take (t.length - 8)
  if front.length ≥ 2 ∧ 46 ∉ front.dropLast ∧ front.getLast? ≠ some 10 then
    if t.drop (t.length - 8) = str "serv.dat" then some true
    else if t.drop (t.length - 8) = str "clnt.dat" then some false
    else none
  else none

/-- `re.match(r'^tcpick_(\d+)_([^_]+)_([^_]+)_[^.]+.(serv|clnt)\.dat$', name)` (inputs/streams.py 43-44, 48-49): the counter, the
two addresses, and whether it is `serv`. -/
def tcpickName (digit : Nat → Option Nat) (name : Str) : Option (Nat × Str × Str × Bool) :=
  if (str "tcpick_").isPrefixOf name then
    match partitionOn 95 (name.drop 7) with
    | none => none
    | some (ds, r2) =>
      match digitsValue digit ds, partitionOn 95 r2 with
      | some n, some (a, r3) =>
        match partitionOn 95 r3 with
        | none => none
        | some (b, r4) =>
          if a = [] ∨ b = [] then none else (tcpickTail r4).map fun serv => (n, a, b, serv)
      | _, _ => none
  else none

/-- What is known of a stream from the name of its file (inputs/streams.py 48-54). -/
def tcpickStream (digit : Nat → Option Nat) (dir name : Str) : Option StreamInfo :=
  (tcpickName digit name).map fun (n, a, b, serv) =>
    ⟨joinPath dir name, if serv then b else a, if serv then a else b, some n, none, n⟩

/-- The loop over a directory (inputs/streams.py 40-54). -/
def tcpickDir (digit : Nat → Option Nat) (dir : Str) : List Str → Except CaptureError (List StreamInfo)
  | [] => .ok []
  | name :: names =>
    match tcpickStream digit dir name with
    | none => .error (.wrongName name)
    | some si => (tcpickDir digit dir names).map (si :: ·)

/-- `path_pairs` in `tcpick_input` (inputs/streams.py 32-55). -/
def tcpickPairs (digit : Nat → Option Nat) (listing : Str → List Str) :
    List Str → Except CaptureError (List (Str × Option Str × Option Int))
  | [] => .ok []
  | dir :: dirs =>
    match tcpickDir digit dir (listing dir) with
    | .error e => .error e
    | .ok sis => (tcpickPairs digit listing dirs).map (recombineStreams sis ++ ·)

/-- `re.match(r'^(\d+)-([^-]+-\d+)-([^-]+-\d+)-\d+$', name)` (inputs/streams.py 77, 81-82): the timestamp and the two addresses. -/
def tcpflowName (digit : Nat → Option Nat) (name : Str) : Option (Nat × Str × Str) :=
  match splitOn 45 name with
  | [ts, a, p, b, q, v] =>
    match digitsValue digit ts, digitsValue digit p, digitsValue digit q, digitsValue digit (chopNewline v) with
    | some n, some _, some _, some _ =>
      if a = [] ∨ b = [] then none else some (n, a ++ 45 :: p, b ++ 45 :: q)
    | _, _, _, _ => none
  | _ => none

/-- Seconds from the beginning of year 1 to the beginning of 1970 (inputs/streams.py 89). -/
def unixEpoch : Int := 62135596800

/-- `datetime.utcfromtimestamp(timestamp)` (inputs/streams.py 89), in seconds from the beginning of year 1. -/
def utcFromTimestamp (n : Nat) : Option Int :=
  if unixEpoch + n ≤ maxTime then some (unixEpoch + n) else none

/-- The loop over a directory (inputs/streams.py 72-90). -/
def tcpflowDir (digit : Nat → Option Nat) (dir : Str) :
    List ((Str × Str) × Str) → List Str → Except CaptureError (List StreamInfo)
  | _, [] => .ok []
  | seen, name :: names =>
    if name = str "report.xml" ∨ name = str "alerts.txt" then tcpflowDir digit dir seen names
    else match tcpflowName digit name with
      | none => .error (.wrongName name)
      | some (n, a, b) =>
        match seen.find? fun x => x.1 = (a, b) with
        | some x => .error (.duplicate (joinPath dir name) x.2)
        | none =>
          match utcFromTimestamp n with
          | none => .error .outOfRange
          | some t =>
            (tcpflowDir digit dir (seen ++ [((a, b), joinPath dir name)]) names).map
              (⟨joinPath dir name, a, b, none, some t, n⟩ :: ·)

/-- `path_pairs` in `tcpflow_input` (inputs/streams.py 61-91). -/
def tcpflowPairs (digit : Nat → Option Nat) (listing : Str → List Str) :
    List Str → Except CaptureError (List (Str × Option Str × Option Int))
  | [] => .ok []
  | dir :: dirs =>
    match tcpflowDir digit dir [] (listing dir) with
    | .error e => .error e
    | .ok sis => (tcpflowPairs digit listing dirs).map (recombineStreams sis ++ ·)

/-- The exchanges of connections found in directories, with time hints, before they are rearranged (inputs/streams.py 57-58,
93-94, 160-206). -/
def captureSequences {X : Type} (contents : Str → Str) (parse : Option Str → Option Str → List X)
    (pairs : List (Str × Option Str × Option Int)) : List (List (ConnItem X) × Option Int) :=
  pairs.map fun (p, q, t) => (connectionSequence contents parse true true (some p) q, t)

end Httpolice.Model
