import Verif.Model.Helpers

/-!
# Model of `httpolice/inputs/streams.py`

Times (`datetime`) are seconds since 0001-01-01T00:00:00; the dates and hints that occur have no
fractions of a second. Paths are of any type; a path is never empty, so `if path` tests for `None`.
What reading a file yields is a parameter. Generators are lists: what they yield, and how they end.
-/

namespace Httpolice.Model

/-! ## Interleaving connections -/

/-- `datetime.max`, in whole seconds: 9999-12-31T23:59:59 (httpolice/inputs/streams.py 229-317). -/
def maxTime : Int := 315537897599

/-- What `_rearrange_by_time` sees of an exchange: the value of the request's `Date` header if it is
okay (`none` also if there is no request), the same and the value of `Age` for every response, and
anything else (`tag`) (httpolice/inputs/streams.py 305-317). -/
structure Exch (α : Type) where
  tag : α
  reqDate : Option Int
  resps : List (Option Int × Option Nat)
deriving DecidableEq, Repr

/-- Exceptions that escape from `_rearrange_by_time` (httpolice/inputs/streams.py 229-317). -/
inductive RErr
  /-- `AttributeError`: `None` has no attribute `request`. -/
  | attribute
  /-- `OverflowError`: from `timedelta(seconds=…)` or from adding it. -/
  | overflow
deriving DecidableEq, Repr

/-- The loop of `_exchange_time` over the responses (inputs/streams.py 311-317). `timedelta` fails
for seconds that make more than 999999999 days, but then the sum is out of range as well. -/
def respsTime (hint : Option Int) : List (Option Int × Option Nat) → Except RErr (Option Int)
  | [] => .ok hint
  | (some d, some a) :: _ => if d + (a : Int) > maxTime then .error .overflow else .ok (some (d + a))
  | (some d, none) :: _ => .ok (some d)
  | (none, _) :: resps => respsTime hint resps

/-- `_exchange_time` (inputs/streams.py 305-317). -/
def exchangeTime {α : Type} (exchange : Option (Exch α)) (hint : Option Int) :
    Except RErr (Option Int) :=
  match exchange with
  | none => .error .attribute
  | some e =>
    match e.reqDate with
    | some d => .ok (some d)
    | none => respsTime hint e.resps

/-- `position[i]` and what `sequences[i][0]` will still yield (inputs/streams.py 254-256). -/
structure Conn (α : Type) where
  pos : Option (Option Int × Option (Exch α))
  rest : List (Exch α)
deriving DecidableEq, Repr

/-- The search for the earliest position (inputs/streams.py 259-274), continued at index `i` with
`min_i` and `min_time`. -/
def minLoop {α : Type} : List (Conn α) → Nat → Option Nat → Option Int → Option Nat
  | [], _, minI, _ => minI
  | c :: cs, i, minI, minTime =>
    match c.pos with
    | none => minLoop cs (i + 1) minI minTime
    | some (none, _) => some i
    | some (some t, _) =>
      match minTime with
      | none => minLoop cs (i + 1) (some i) (some t)
      | some m =>
        if t < m then minLoop cs (i + 1) (some i) (some t) else minLoop cs (i + 1) minI minTime

/-- One round of the main loop: what it yields if anything, and the state afterwards (`none` if the
loop ended) or an exception (httpolice/inputs/streams.py 229-302). -/
structure Round (α : Type) where
  out : Option (Exch α)
  next : Except RErr (Option (List (Conn α)))

/-- The end of a round of the main loop: yield `exchange` and proceed
(inputs/streams.py 293-302). -/
def proceed {α : Type} (cs : List (Conn α)) (i : Nat) (time : Option Int) (exchange : Exch α)
    (rest : List (Exch α)) : Round α :=
  match rest with
  | [] => ⟨some exchange, .ok (some (cs.set i ⟨none, []⟩))⟩
  | e :: rest =>
    match exchangeTime (some e) time with
    | .error err => ⟨some exchange, .error err⟩
    | .ok t => ⟨some exchange, .ok (some (cs.set i ⟨some (t, some e), rest⟩))⟩

/-- `time is None or new_time > time` (inputs/streams.py 285). `new_time` is only `None` if `time`
is. -/
def startsLater (time newTime : Option Int) : Bool :=
  match time, newTime with
  | none, _ => true
  | some t, some n => n > t
  | some _, none => false

/-- A round for a sequence that is not started yet (inputs/streams.py 281-291). -/
def startConn {α : Type} (cs : List (Conn α)) (i : Nat) (time : Option Int)
    (rest : List (Exch α)) : Round α :=
  match rest with
  | [] => ⟨none, .error .attribute⟩
  | e :: rest =>
    match exchangeTime (some e) time with
    | .error err => ⟨none, .error err⟩
    | .ok newTime =>
      if startsLater time newTime then ⟨none, .ok (some (cs.set i ⟨some (newTime, some e), rest⟩))⟩
      else proceed cs i time e rest

/-- One round of the main loop of `_rearrange_by_time` (inputs/streams.py 258-302). -/
def round {α : Type} (cs : List (Conn α)) : Round α :=
  match minLoop cs 0 none none with
  | none => ⟨none, .ok none⟩
  | some i =>
    match cs[i]? with
    | some ⟨some (time, some exchange), rest⟩ => proceed cs i time exchange rest
    | some ⟨some (time, none), rest⟩ => startConn cs i time rest
    | _ => ⟨none, .ok none⟩

/-- How the generator ends. `diverge` is not Python: more rounds than `rounds` allows, see
`C35_interleaving` (httpolice/inputs/streams.py 229-302). -/
inductive REnd
  | finished
  | raised (e : RErr)
  | diverge
deriving DecidableEq, Repr

/-- At most `n` rounds of the main loop (httpolice/inputs/streams.py 229-302). -/
def rearrangeLoop {α : Type} : Nat → List (Conn α) → List (Exch α) × REnd
  | 0, _ => ([], .diverge)
  | n + 1, cs =>
    match (round cs).next with
    | .error e => ((round cs).out.toList, .raised e)
    | .ok none => ((round cs).out.toList, .finished)
    | .ok (some cs') =>
      ((round cs).out.toList ++ (rearrangeLoop n cs').1, (rearrangeLoop n cs').2)

/-- More rounds than `_rearrange_by_time` can need (httpolice/inputs/streams.py 229-302). -/
def roundsFor {α : Type} (sequences : List (List (Exch α) × Option Int)) : Nat :=
  (sequences.map fun s => 2 * s.1.length + 2).sum + 1

/-- `_rearrange_by_time` (inputs/streams.py 229-302). -/
def rearrangeByTime {α : Type} (sequences : List (List (Exch α) × Option Int)) :
    List (Exch α) × REnd :=
  rearrangeLoop (roundsFor sequences) (sequences.map fun s => ⟨some (s.2, none), s.1⟩)

/-! ## Recombining streams -/

/-- `_StreamInfo` (inputs/streams.py 97-117). Addresses are strings; `connection_hint` and
`sort_hint` are numbers in all uses. -/
structure StreamInfo where
  path : Str
  source : Str
  destination : Str
  connectionHint : Option Nat
  timeHint : Option Int
  sortHint : Nat
deriving DecidableEq, Repr

/-- The key of a stream in `streams_map` (inputs/streams.py 130). -/
def StreamInfo.key (si : StreamInfo) : Option Nat × Str × Str :=
  (si.connectionHint, si.source, si.destination)

/-- The key of the reverse direction (inputs/streams.py 139-140). -/
def StreamInfo.reverseKey (si : StreamInfo) : Option Nat × Str × Str :=
  (si.connectionHint, si.destination, si.source)

/-- `streams_map[key] = si` on an `OrderedDict` whose values determine their keys: a key that is
there keeps its place (httpolice/inputs/streams.py 120-157). -/
def odSet : List StreamInfo → StreamInfo → List StreamInfo
  | [], si => [si]
  | x :: xs, si => if x.key = si.key then si :: xs else x :: odSet xs si

/-- Insertion into a sorted list, after equal elements (httpolice/inputs/streams.py 131). -/
def insertSorted (si : StreamInfo) : List StreamInfo → List StreamInfo
  | [] => [si]
  | x :: xs => if si.sortHint < x.sortHint then si :: x :: xs else x :: insertSorted si xs

/-- `sorted(streams_info, key=lambda si: si.sort_hint)`, a stable sort (inputs/streams.py 131). -/
def sortStreams (sis : List StreamInfo) : List StreamInfo :=
  sis.foldl (fun acc si => insertSorted si acc) []

/-- `streams_map` (inputs/streams.py 129-131). -/
def streamsMap (sis : List StreamInfo) : List StreamInfo := (sortStreams sis).foldl odSet []

/-- `streams_map.pop(key)`: the value, if any, and the rest (inputs/streams.py 137-143). -/
def odPop (key : Option Nat × Str × Str) : List StreamInfo → Option StreamInfo × List StreamInfo
  | [] => (none, [])
  | x :: xs => if x.key = key then (some x, xs) else ((odPop key xs).1, x :: (odPop key xs).2)

/-- `min(available_time_hints) if available_time_hints else None` for the time hints of two
streams (inputs/streams.py 145-149). -/
def pairTime : Option Int → Option Int → Option Int
  | none, t => t
  | some t, none => some t
  | some t, some u => if u < t then some u else some t

/-- What is appended to `path_pairs` (inputs/streams.py 151-155). -/
def pairOf (si : StreamInfo) (other : Option StreamInfo) : Str × Option Str × Option Int :=
  (si.path, other.map (·.path), pairTime si.timeHint (other.bind (·.timeHint)))

/-- Popping does not make the dictionary longer. -/
theorem odPop_length (key : Option Nat × Str × Str) (m : List StreamInfo) :
    (odPop key m).2.length ≤ m.length := by
  induction m with
  | nil => exact Nat.le_refl _
  | cons x xs ih => rw [odPop]; split <;> simp <;> omega

/-- The loop of `_recombine_streams` (inputs/streams.py 133-157), at most `n` rounds. -/
def recombineLoop : Nat → List StreamInfo → List (Str × Option Str × Option Int)
  | 0, _ => []
  | _ + 1, [] => []
  | n + 1, si :: m => pairOf si (odPop si.reverseKey m).1 :: recombineLoop n (odPop si.reverseKey m).2

/-- `_recombine_streams` (inputs/streams.py 120-157). Every round removes a stream. -/
def recombineStreams (sis : List StreamInfo) : List (Str × Option Str × Option Int) :=
  recombineLoop (streamsMap sis).length (streamsMap sis)

/-! ## Sniffing the direction -/

/-- `[0-9]` in a regular expression over bytes (httpolice/inputs/streams.py 332-341). -/
def isDigitByte (c : Nat) : Bool := 48 ≤ c && c ≤ 57

/-- White space for `bytes.rstrip()` (httpolice/inputs/streams.py 332-341). -/
def isSpaceByte (c : Nat) : Bool :=
  c = 32 || c = 9 || c = 10 || c = 13 || c = 11 || c = 12

/-- `bytes.rstrip()` (httpolice/inputs/streams.py 332-341). -/
def rstripBytes (s : Str) : Str := (s.reverse.dropWhile isSpaceByte).reverse

/-- `f.readline()` on a file with the given contents (httpolice/inputs/streams.py 332-341). -/
def firstLine : Str → Str
  | [] => []
  | c :: s => if c = 10 then [10] else c :: firstLine s

/-- `re.match(br'HTTP/1\.[0-9] [0-9]{3} ', line)` (inputs/streams.py 335). -/
def matchStatusLine (line : Str) : Bool :=
  (str "HTTP/1.").isPrefixOf line &&
    match line.drop 7 with
    | v :: 32 :: a :: b :: c :: 32 :: _ =>
      isDigitByte v && isDigitByte a && isDigitByte b && isDigitByte c
    | _ => false

/-- `HTTP/1\.[0-9]$` at the end of a line that has no trailing newline (httpolice/inputs/streams.py 332-341). -/
def matchVersion (s : Str) : Bool :=
  (str "HTTP/1.").isPrefixOf s &&
    match s.drop 7 with
    | [v] => isDigitByte v
    | _ => false

/-- `re.match(br'[^ ]+ [^ ]+ HTTP/1\.[0-9]$', line)` (inputs/streams.py 341). As `[^ ]+` does not
match spaces, the only way to match is to cut the line at its spaces. `$` also matches before a
newline at the end, but the line was stripped. -/
def matchRequestLine (line : Str) : Bool :=
  match splitOn 32 line with
  | [method, target, version] => !method.isEmpty && !target.isEmpty && matchVersion version
  | _ => false

/-- `_sniff_outbound` (inputs/streams.py 332-335) on a file with the given contents. -/
def sniffOutbound (contents : Str) : Bool := matchStatusLine (firstLine contents)

/-- `_sniff_inbound` (inputs/streams.py 338-341) on a file with the given contents. -/
def sniffInbound (contents : Str) : Bool := matchRequestLine (rstripBytes (firstLine contents))

/-- `path and sniff(path)` (httpolice/inputs/streams.py 320-329). -/
def pathAnd {P : Type} (sniff : P → Bool) (path : Option P) : Bool :=
  match path with
  | none => false
  | some p => sniff p

/-- `_sniff_direction` (inputs/streams.py 320-329): the inbound and the outbound path. -/
def sniffDirection {P : Type} (contents : P → Str) (path1 path2 : Option P) :
    Option (Option P × Option P) :=
  if pathAnd (fun p => sniffOutbound (contents p)) path1 then some (path2, path1)
  else if pathAnd (fun p => sniffOutbound (contents p)) path2 then some (path1, path2)
  else if pathAnd (fun p => sniffInbound (contents p)) path1 then some (path1, path2)
  else if pathAnd (fun p => sniffInbound (contents p)) path2 then some (path2, path1)
  else none

/-- The inbound and outbound path, and whether 1279 is reported (inputs/streams.py 179-195). -/
def resolveDirection {P : Type} (contents : P → Str) (sniff : Bool) (path1 path2 : Option P) :
    Bool × Option P × Option P :=
  if sniff then
    match sniffDirection contents path1 path2 with
    | none => (true, none, none)
    | some (inbound, outbound) => (false, inbound, outbound)
  else (false, path1, path2)

/-- An exchange of a connection: a complaint box with one notice about the connection, or what
`parse_streams` yields (httpolice/inputs/streams.py 160-206). -/
inductive ConnItem (X : Type)
  | box (notice : Nat)
  | parsed (x : X)
deriving DecidableEq, Repr

/-- The sequence of exchanges from a connection (body of the loop of `_path_pairs_input`,
inputs/streams.py 166-204). `parse` stands for `_parse_paths`, see `parseStreams`. -/
def connectionSequence {P X : Type} (contents : P → Str) (parse : Option P → Option P → List X)
    (sniff oneSided : Bool) (path1 path2 : Option P) : List (ConnItem X) :=
  let dir := resolveDirection contents sniff path1 path2
  (if oneSided && (path1.isNone || path2.isNone) then [.box 1278] else []) ++
    (if dir.1 then [.box 1279] else []) ++
    (if dir.2.1.isSome || dir.2.2.isSome then (parse dir.2.1 dir.2.2).map .parsed else [])

/-- `streams_input` up to pairing (inputs/streams.py 15-18); `none` for `InputError`. -/
def pairUp {P : Type} : List P → Option (List (P × P))
  | [] => some []
  | [_] => none
  | a :: b :: ps =>
    match pairUp ps with
    | none => none
    | some rest => some ((a, b) :: rest)

/-! ## Combined files -/

/-- `data.split(sep, 1)` if `sep` occurs in `data` (it gives a list of two then): what precedes its
first occurrence and what follows it (httpolice/inputs/streams.py 351-380). -/
def splitFirst (sep : Str) : Str → Option (Str × Str)
  | [] => if sep.isPrefixOf [] then some ([], []) else none
  | c :: s =>
    if sep.isPrefixOf (c :: s) then some ([], (c :: s).drop sep.length)
    else
      match splitFirst sep s with
      | none => none
      | some (a, b) => some (c :: a, b)

/-- `b'======== BEGIN INBOUND STREAM ========\r\n'` (inputs/streams.py 362). -/
def inboundMarker : Str := str "======== BEGIN INBOUND STREAM ========\r\n"

/-- `b'======== BEGIN OUTBOUND STREAM ========\r\n'` (inputs/streams.py 370). -/
def outboundMarker : Str := str "======== BEGIN OUTBOUND STREAM ========\r\n"

/-- `s.endswith(t)` (httpolice/inputs/streams.py 351-380). -/
def endsWith (s t : Str) : Bool := t.reverse.isPrefixOf s.reverse

/-- The scheme for a combined file (inputs/streams.py 353-358). -/
def combinedScheme (path : Str) : Option Str :=
  if endsWith path (str ".https") then some (str "https")
  else if endsWith path (str ".noscheme") then none
  else some (str "http")

/-- The three cases in which `parse_combined` raises `InputError` (httpolice/inputs/streams.py 351-380). -/
inductive CombinedError
  | noInbound
  | badUtf8
  | noOutbound
deriving DecidableEq, Repr

/-- `parse_combined` (inputs/streams.py 351-380) on a file with contents `data`: inbound data,
outbound data, scheme and preamble. `decodeUtf8` is the codec. -/
def parseCombined (decodeUtf8 : Str → Option Str) (path data : Str) :
    Except CombinedError (Str × Str × Option Str × Str) :=
  match splitFirst inboundMarker data with
  | none => .error .noInbound
  | some (preamble, rest) =>
    match decodeUtf8 preamble with
    | none => .error .badUtf8
    | some text =>
      match splitFirst outboundMarker rest with
      | none => .error .noOutbound
      | some (inbound, outbound) => .ok (inbound, outbound, combinedScheme path, text)

end Httpolice.Model
