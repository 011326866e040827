/-!
# Model of parts of `httpolice/structure.py` and `httpolice/util/data.py`

Simplification: keys are compared with a decidable equality (for `CaseInsensitive` keys see
`Model/CaseInsens.lean`, where equality and hash are modelled).
Python dictionaries are association lists in insertion order.
-/

namespace Httpolice.Model

/-- `r.setdefault(k, []).append(v)` on an insertion-ordered dict (structure.py 94). -/
def dictAppend {K V : Type} [DecidableEq K] : List (K × List V) → K → V → List (K × List V)
  | [], k, v => [(k, [v])]
  | (k', vs) :: d, k, v =>
    if k' = k then (k', vs ++ [v]) :: d else (k', vs) :: dictAppend d k v

/-- `dict.get(k)` on an association list (httpolice/structure.py 87-131). -/
def dictGet {K V : Type} [DecidableEq K] (d : List (K × V)) (k : K) : Option V :=
  (d.find? fun p => p.1 = k).map Prod.snd

/-- `MultiDict` (structure.py 76-130): just the sequence of pairs. -/
structure MultiDict (K V : Type) where
  sequence : List (K × V)

namespace MultiDict
variable {K V : Type} [DecidableEq K]

/-- `MultiDict.dictionary` (structure.py 87-95). -/
def dictionary (m : MultiDict K V) : List (K × List V) :=
  m.sequence.foldl (fun r kv => dictAppend r kv.1 kv.2) []

/-- `MultiDict.__getitem__` (structure.py 108-109); `none` models `KeyError` (the inner
`[0]` cannot fail, see `C31_getitem`). -/
def getItem (m : MultiDict K V) (k : K) : Option V :=
  match dictGet m.dictionary k with
  | none => none
  | some vs => vs.head?

/-- `MultiDict.__contains__` (structure.py 111-112). -/
def contains (m : MultiDict K V) (k : K) : Bool := (m.dictionary.map Prod.fst).contains k

/-- `MultiDict.__iter__` (structure.py 114-115): iterates over the dict's keys. -/
def iter (m : MultiDict K V) : List K := m.dictionary.map Prod.fst

/-- `MultiDict.__len__` (structure.py 117-118). -/
def len (m : MultiDict K V) : Nat := m.sequence.length

/-- `MultiDict.get` (structure.py 120-121). -/
def get (m : MultiDict K V) (k : K) (dflt : V) : V :=
  if m.contains k then (m.getItem k).getD dflt else dflt

/-- `MultiDict.getall` (structure.py 123-124). -/
def getAll (m : MultiDict K V) (k : K) : List V := (dictGet m.dictionary k).getD []

/-- `MultiDict.duplicates` (structure.py 126-127). -/
def duplicates (m : MultiDict K V) : List K :=
  (m.dictionary.filter fun p => p.2.length > 1).map Prod.fst

/-- `MultiDict.index` (structure.py 129-130); `none` models `ValueError`. -/
def index (m : MultiDict K V) (k : K) : Option Nat :=
  (m.sequence.map Prod.fst).findIdx? (fun k' => k' = k)

end MultiDict

/-- One step of `collections.Counter(xs)` (util/data.py 9): increment in insertion order. -/
def counterAdd {K : Type} [DecidableEq K] : List (K × Nat) → K → List (K × Nat)
  | [], k => [(k, 1)]
  | (k', n) :: d, k => if k' = k then (k', n + 1) :: d else (k', n) :: counterAdd d k

/-- `duplicates` (util/data.py 4-10). -/
def duplicates {K : Type} [DecidableEq K] (xs : List K) : List K :=
  ((xs.foldl counterAdd []).filter fun p => p.2 > 1).map Prod.fst

/-- `EntityTag` (structure.py 296-307). -/
structure EntityTag where
  weak : Bool
  opaqueTag : List Nat
deriving DecidableEq, Repr

/-- `EntityTag.weak_equiv` (structure.py 300-302). -/
def EntityTag.weakEquiv (a b : EntityTag) : Bool := a.opaqueTag == b.opaqueTag

/-- `EntityTag.strong_equiv` (structure.py 304-307). -/
def EntityTag.strongEquiv (a b : EntityTag) : Bool :=
  !a.weak && !b.weak && a.opaqueTag == b.opaqueTag

end Httpolice.Model
