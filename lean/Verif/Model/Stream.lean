import Verif.Model.Text

/-!
# Model of `httpolice/stream.py`

The wrapped file is a buffered reader over a finite byte string: its state is what remains to be
read and the position. Its `peek` returns at least one byte unless the file is at its end.
A complaint is a notice ID and the offset of the line it is about; the offset is a ghost: the code
does not store it (these complaints have an empty context until they are dumped on a message).
The symbol being parsed, used for the text of parse errors only, is left out.
-/

namespace Httpolice.Model

/-- The state of a `Stream` (stream.py 18-25). -/
structure SS where
  rest : Str
  pos : Nat
  eof : Bool
  sane : Bool
  complaints : List (Nat × Nat)
deriving DecidableEq, Repr

/-- A new `Stream` on a file (stream.py 18-25). -/
def SS.new (data : Str) : SS := ⟨data, 0, false, true, []⟩

/-- `Stream.good` (stream.py 44-46). -/
def SS.good (s : SS) : Bool := s.sane && !s.eof

/-- Exceptions: `ParseError` at an offset, `BodyTooLongError` with its size, `ValueError` from the
file object, and (not a Python exception) a loop that does not end, see `C12_terminates`
(httpolice/stream.py 39-90, framing1.py 287-293). -/
inductive Exc
  | parse (pos : Nat)
  | tooLong (size : Int)
  | value
  | diverge
deriving DecidableEq, Repr

/-- The outcome of a call that reads from a stream: normal or exceptional, with the stream
afterwards (httpolice/stream.py 54-90). -/
inductive Out (α : Type)
  | ok (a : α) (s : SS)
  | exc (e : Exc) (s : SS)
deriving DecidableEq, Repr

/-- `stream.max_line_length` (stream.py 16). -/
def maxLineLength : Nat := 16384

/-- `file.peek(1)[:1]` (stream.py 51-52). -/
def SS.peek (s : SS) : Option Nat := s.rest.head?

/-- Take `n` bytes off the file, then `if self.peek() == b'': self.eof = True`
(stream.py 57-58, 66-67). -/
def SS.advance (s : SS) (n : Nat) : SS :=
  { s with rest := s.rest.drop n, pos := s.pos + n, eof := s.eof || (s.rest.drop n).isEmpty }

/-- `raise self.error(pos)` (stream.py 39-42). -/
def SS.error {α : Type} (s : SS) (pos : Nat) : Out α := .exc (.parse pos) { s with sane := false }

/-- `Stream.complain` (stream.py 92-93). -/
def SS.complain (s : SS) (id offset : Nat) : SS :=
  { s with complaints := s.complaints ++ [(id, offset)] }

/-- What `file.read(n)` returns (stream.py 56), for `n ≥ -1`: at most `n` bytes, or everything. -/
def SS.taken (s : SS) (n : Int) : Str := if n = -1 then s.rest else s.rest.take n.toNat

/-- `Stream.read` (stream.py 54-61). `file.read(n)` reads everything for `n = -1` and raises
`ValueError` for smaller `n`. -/
def SS.read (s : SS) (n : Int) : Out Str :=
  if n < -1 then .exc .value s
  else
    let s' := s.advance (s.taken n).length
    if ((s.taken n).length : Int) < n ∧ n > 0 then s'.error s.pos else .ok (s.taken n) s'

/-- `file.readline(limit)` of the underlying file: up to and including the first LF, but no more
than `limit` bytes (httpolice/stream.py 63-85). -/
def fileLine : Nat → Str → Str
  | 0, _ => []
  | _ + 1, [] => []
  | n + 1, c :: s => if c = 10 then [c] else c :: fileLine n s

/-- `Stream.readline` (stream.py 63-85); decoding is the identity. -/
def SS.readline (s : SS) : Out Str :=
  let r := fileLine maxLineLength s.rest
  let s' := s.advance r.length
  if r.getLast? ≠ some 10 then s'.error s.pos
  else if r.length ≥ 2 ∧ (r.dropLast).getLast? = some 13 then .ok (r.take (r.length - 2)) s'
  else .ok (r.take (r.length - 1)) (s'.complain 1224 s.pos)

/-- `Stream.readlineend` (stream.py 87-90). -/
def SS.readlineend (s : SS) : Out Unit :=
  match s.readline with
  | .exc e s' => .exc e s'
  | .ok r s' => if r ≠ [] then s'.error s.pos else .ok () s'

/-- `Stream.dump_complaints` (stream.py 95-99): what is reported, and the cleared stream. -/
def SS.dumpComplaints (s : SS) : List (Nat × Nat) × SS := (s.complaints, { s with complaints := [] })

end Httpolice.Model
