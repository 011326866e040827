/-!
# Model of `httpolice/util/text.py`

Text (Python `str`) and octet strings (`bytes`) are both lists of natural numbers: code points,
respectively octet values. Decoding ISO-8859-1 is then the identity.
-/

namespace Httpolice.Model

/-- Python text or bytes (httpolice/util/text.py 1-236). -/
abbrev Str := List Nat

/-- A literal, as code points (httpolice/util/text.py 1-236). -/
def str (s : String) : Str := s.toList.map Char.toNat

/-- Python `s[:n]` for an integer `n` (negative `n` counts from the end) (httpolice/util/text.py 149-159). -/
def pyTake {α : Type} (s : List α) (n : Int) : List α :=
  if 0 ≤ n then s.take n.toNat else s.take ((s.length : Int) + n).toNat

/-- Python `sep.join(xs)` (httpolice/util/text.py 25-44). -/
def joinWith (sep : Str) : List Str → Str
  | [] => []
  | [x] => x
  | x :: y :: xs => x ++ sep ++ joinWith sep (y :: xs)

/-- Body of the loop of `nicely_join` (util/text.py 35-43); `n` is `len(strings)`. -/
def nicelyJoinStep (n : Nat) (joined : Str) (si : Str × Nat) : Str :=
  let (s, i) := si
  let joined :=
    if (i : Int) = (n : Int) - 1 then
      if n > 2 then joined ++ str "and "
      else if n > 1 then joined ++ str " and "
      else joined
    else joined
  let joined := joined ++ s
  if n > 2 ∧ (i : Int) < (n : Int) - 1 then joined ++ str ", " else joined

/-- `nicely_join` (util/text.py 25-44). -/
def nicelyJoin (strings : List Str) : Str :=
  strings.zipIdx.foldl (nicelyJoinStep strings.length) []

/-- State of the loop of `_char_ranges` (util/text.py 48-57): the finished intervals and the
current `(min_, max_)`, `none` if both are still `None`. -/
def charRangesStep (st : List (Nat × Nat) × Option (Nat × Nat)) (point : Nat) :
    List (Nat × Nat) × Option (Nat × Nat) :=
  match st with
  | (intervals, none) => (intervals, some (point, point))
  | (intervals, some (mn, mx)) =>
    if (mx : Int) = (point : Int) - 1 then (intervals, some (mn, point))
    else (intervals ++ [(mn, mx)], some (point, point))

/-- The intervals computed by `_char_ranges` (util/text.py 48-59). -/
def charIntervals (chars : Str) : List (Nat × Nat) :=
  match chars.foldl charRangesStep ([], none) with
  | (intervals, none) => intervals
  | (intervals, some p) => intervals ++ [p]

/-- One lower-case hexadecimal digit (httpolice/util/text.py 47-63). -/
def hexDigit (n : Nat) : Nat := if n < 10 then 48 + n else 87 + n

/-- `u'%#04x' % point` (util/text.py 60), for `point < 256`. -/
def showHex (point : Nat) : Str := str "0x" ++ [hexDigit (point / 16 % 16), hexDigit (point % 16)]

/-- The list comprehension at the end of `_char_ranges` (util/text.py 60-63); `–` is U+2013. -/
def showInterval (sh : Nat → Str) (p : Nat × Nat) : Str :=
  if p.1 = p.2 then sh p.1 else sh p.1 ++ [0x2013] ++ sh p.2

/-- `_char_ranges` (util/text.py 47-63). -/
def charRanges (chars : Str) (asHex : Bool) : List Str :=
  (charIntervals chars).map (showInterval (if asHex then showHex else fun p => [p]))

/-- `CHAR_NAMES` (util/text.py 7-19). -/
def charName : Nat → Option Str
  | 9 => some (str "tab")
  | 10 => some (str "LF")
  | 13 => some (str "CR")
  | 32 => some (str "space")
  | 34 => some (str "double quote (\")")
  | 39 => some (str "single quote (')")
  | 44 => some (str "comma (,)")
  | 46 => some (str "period (.)")
  | 58 => some (str "colon (:)")
  | 59 => some (str "semicolon (;)")
  | 45 => some (str "dash (-)")
  | _ => none

/-- `c in string.ascii_letters` (httpolice/util/text.py 66-101). -/
def isAsciiLetter (c : Nat) : Bool := (65 ≤ c && c ≤ 90) || (97 ≤ c && c ≤ 122)

/-- `c in string.digits` (httpolice/util/text.py 66-101). -/
def isAsciiDigit (c : Nat) : Bool := 48 ≤ c && c ≤ 57

/-- The five groups of `format_chars` (util/text.py 85-96). -/
structure CharGroups where
  letters : Str
  digits : Str
  named : Str
  visible : Str
  other : Str

/-- The loop body of `format_chars` (util/text.py 86-96). -/
def groupChar (g : CharGroups) (c : Nat) : CharGroups :=
  if isAsciiLetter c then { g with letters := g.letters ++ [c] }
  else if isAsciiDigit c then { g with digits := g.digits ++ [c] }
  else if (charName c).isSome then { g with named := g.named ++ [c] }
  else if 0x21 ≤ c ∧ c < 0x7F then { g with visible := g.visible ++ [c] }
  else { g with other := g.other ++ [c] }

/-- `format_chars` (util/text.py 66-101). -/
def formatChars (chars : Str) : Str :=
  let g := chars.foldl groupChar ⟨[], [], [], [], []⟩
  let pieces := charRanges g.letters false ++ charRanges g.digits false ++
    g.named.map (fun c => (charName c).getD []) ++ [g.visible] ++ charRanges g.other true
  joinWith (str " or ") (pieces.filter fun p => !p.isEmpty)

/-- `ellipsize` (util/text.py 149-159). -/
def ellipsize (s : Str) (maxLength : Int) : Str :=
  if (s.length : Int) ≤ maxLength then s else pyTake s (maxLength - 3) ++ str "..."

/-- `s.replace(c, r)` for a one-character pattern `c` (httpolice/util/text.py 162-174). -/
def replaceChar (c : Nat) (r : Str) (s : Str) : Str :=
  s.flatMap fun x => if x = c then r else [x]

/-- `detypographize` (util/text.py 162-173). -/
def detypographize (s : Str) : Str :=
  let s := replaceChar 0x201D (str "\"") (replaceChar 0x201C (str "\"") s)
  let s := replaceChar 0x2019 (str "'") (replaceChar 0x2018 (str "'") s)
  let s := replaceChar 0x2014 (str "--") s
  let s := replaceChar 0x2013 (str "-") s
  let s := replaceChar 0x2212 (str "-") s
  replaceChar 0x00A0 (str " ") s

/-- The character class of the regular expression in `printable` (util/text.py 185-186). -/
def unprintableRanges : List (Nat × Nat) :=
  [(0x0000, 0x0008), (0x000B, 0x000B), (0x000C, 0x000C), (0x000E, 0x001F), (0x007F, 0x009F),
   (0xD800, 0xDFFF), (0xFDD0, 0xFDEF), (0xFFFE, 0xFFFE), (0xFFFF, 0xFFFF)]

/-- `printable` (util/text.py 177-189): every match of the class is replaced by U+FFFD. -/
def printable (s : Str) : Str :=
  s.map fun c => if unprintableRanges.any (fun r => r.1 ≤ c && c ≤ r.2) then 0xFFFD else c

end Httpolice.Model
