import Verif.Model.Text

/-!
# Model of `CaseInsensitive` (httpolice/structure.py 153-172)

`lower` is Python's `str.lower` and `h` is Python's `hash` on plain strings; both are parameters,
so that the properties hold whatever the details of Unicode case mapping and of string hashing.
-/

namespace Httpolice.Model

/-- A Python string object: an instance of (a subclass of) `CaseInsensitive`, or any other
`str` (httpolice/structure.py 143-172). -/
structure PStr where
  ci : Bool
  s : Str
deriving DecidableEq, Repr

/-- `a == b`. `CaseInsensitive.__eq__` (structure.py 157-160) is used if either operand is an
instance of it: Python tries the reflected method of a subclass first. -/
def PStr.eq (lower : Str → Str) (a b : PStr) : Bool :=
  if a.ci || b.ci then lower a.s == lower b.s else a.s == b.s

/-- `a != b`: `CaseInsensitive.__ne__` (structure.py 162-163), `str.__ne__`. -/
def PStr.ne (lower : Str → Str) (a b : PStr) : Bool := !(PStr.eq lower a b)

/-- `hash(a)`: `CaseInsensitive.__hash__` (structure.py 165-166), `str.__hash__`. -/
def PStr.hash (lower : Str → Str) (h : Str → Nat) (a : PStr) : Nat :=
  if a.ci then h (lower a.s) else h a.s

/-- `a.startswith(b)` (structure.py 168-169). -/
def PStr.startsWith (lower : Str → Str) (a b : PStr) : Bool :=
  if a.ci then (lower b.s).isPrefixOf (lower a.s) else b.s.isPrefixOf a.s

/-- `a.endswith(b)` (structure.py 171-172). -/
def PStr.endsWith (lower : Str → Str) (a b : PStr) : Bool :=
  if a.ci then (lower b.s).isSuffixOf (lower a.s) else b.s.isSuffixOf a.s

/-- Lookup in a Python `dict`: an entry is found if its key has the same hash and is equal.
(A linear search instead of hash buckets.) (httpolice/structure.py 165-166). -/
def hashLookup {V : Type} (lower : Str → Str) (h : Str → Nat) (d : List (PStr × V)) (k : PStr) :
    Option V :=
  (d.find? fun e => e.1.hash lower h == k.hash lower h && e.1.eq lower k).map Prod.snd

/-- ASCII lower-casing of one code point (httpolice/structure.py 157-172). -/
def lowerChar (c : Nat) : Nat := if 65 ≤ c ∧ c ≤ 90 then c + 32 else c

/-- ASCII upper-casing of one code point (httpolice/structure.py 157-172). -/
def upperChar (c : Nat) : Nat := if 97 ≤ c ∧ c ≤ 122 then c - 32 else c

/-- `str.lower` restricted to ASCII (other code points unchanged) (httpolice/structure.py 157-172). -/
def asciiLower (s : Str) : Str := s.map lowerChar

end Httpolice.Model
