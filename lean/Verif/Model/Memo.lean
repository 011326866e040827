import Verif.Model.Text

/-!
# Model of `parse()` and its memo (httpolice/parse.py 53-143)

The Earley parser proper (`_inner_parse`) is a parameter `inner` here: a function of the bytes, the
symbol and the annotated classes (it reads nothing else and is deterministic; it is modelled in
`Model/Earley.lean`). Values are immutable: mutation of a memoized result by a caller is not
modelled (the callers copy: framing1.py 144, 223, header.py 413).
-/

namespace Httpolice.Model

/-- The `data` argument of `parse` (httpolice/parse.py 53-100). -/
inductive Data
  | bytes (b : Str)
  | text (s : Str)
deriving DecidableEq, Repr

/-- `data.encode('iso-8859-1')` (parse.py 91-94); `none` models `UnicodeError`. -/
def Data.encode : Data → Option Str
  | .bytes b => some b
  | .text s => if s.all (· < 256) then some s else none

/-- A value in the context of a complaint (httpolice/parse.py 53-131). -/
inductive CtxVal (Err X : Type)
  | err (e : Err)
  | unicodeErr (s : Data)
  | other (x : X)
deriving DecidableEq

/-- The keyword arguments of a complaint: a dict (httpolice/parse.py 53-131). -/
abbrev Context (Err X : Type) := List (Str × CtxVal Err X)

/-- `dict(extra, **ctx)` (parse.py 123): keys of `ctx` override those of `extra`. -/
def mergeContext {Err X : Type} (extra ctx : Context Err X) : Context Err X :=
  extra.map (fun p => (p.1, (ctx.lookup p.1).getD p.2)) ++
    ctx.filter fun p => (extra.lookup p.1).isNone

/-- A chunk of an annotated string: bytes, or an object (httpolice/parse.py 134-143). -/
inductive Chunk (Obj : Type)
  | bytes (b : Str)
  | obj (o : Obj)
deriving DecidableEq, Repr

/-- An annotation `(start, end, obj)` (httpolice/parse.py 134-143). -/
structure Annot (Obj : Type) where
  start : Nat
  stop : Nat
  obj : Obj
deriving DecidableEq, Repr

/-- The loop of `_splice_annotations` (parse.py 135-142) from index `i`, without the final filter;
the list built so far is what precedes. -/
def spliceFrom {Obj : Type} (data : Str) (i : Nat) : List (Annot Obj) → List (Chunk Obj)
  | [] => [.bytes (data.drop i)]
  | a :: anns =>
    if i ≤ a.start then
      .bytes ((data.take a.start).drop i) :: .obj a.obj :: spliceFrom data a.stop anns
    else spliceFrom data i anns

/-- `_splice_annotations` (parse.py 134-143). -/
def spliceAnnotations {Obj : Type} (data : Str) (anns : List (Annot Obj)) : List (Chunk Obj) :=
  (spliceFrom data 0 anns).filter fun c => match c with
    | .bytes b => !b.isEmpty
    | .obj _ => true

/-- The result of `_inner_parse` (parse.py 725-800): value, complaints, annotations. -/
structure ParseRes (V Err X Obj : Type) where
  value : V
  complaints : List (Nat × Context Err X)
  annotations : List (Annot Obj)

/-- A returned value: parsed, or `Unavailable(data)` (httpolice/parse.py 53-131). -/
inductive Val (V : Type)
  | ok (v : V)
  | unavailable (d : Data)

/-- A key of the memo (parse.py 102). -/
abbrev MemoKey (Sym Cls : Type) := Str × Sym × List Cls

/-- A call of `parse` (httpolice/parse.py 53-131). -/
structure ParseCall (Sym Cls Err X : Type) where
  data : Data
  symbol : Sym
  /-- is a `complain` callback given? -/
  complain : Bool
  failId : Option Nat
  classes : List Cls
  extra : Context Err X

/-- What the caller of `parse` can observe (httpolice/parse.py 53-131). -/
inductive ParseOutcome (V Err X Obj : Type)
  | raised (e : Err)
  | raisedUnicode
  /-- calling `complain` when it is `None` (parse.py 97) -/
  | typeError
  /-- the calls to `complain`, the value, and (if classes were given) the annotated input -/
  | returned (complaints : List (Nat × Context Err X)) (value : Val V)
      (annotated : Option (Option (List (Chunk Obj))))

variable {V Err X Obj Sym Cls : Type} [DecidableEq Sym] [DecidableEq Cls]

/-- The memo: an `OrderedDict`, oldest first (parse.py 129). -/
abbrev Memo (V Err X Obj Sym Cls : Type) :=
  List (MemoKey Sym Cls × ParseRes V Err X Obj)

/-- `MEMO_LIMIT` (parse.py 131). -/
def memoLimit : Nat := 500

/-- `while len(_memo) > MEMO_LIMIT: _memo.popitem(last=False)` (parse.py 117-118). -/
def memoTrim {α : Type} : List α → List α
  | [] => []
  | a :: m => if (a :: m).length > memoLimit then memoTrim m else a :: m

/-- `_memo.pop(key, None)` (parse.py 103). -/
def memoPop (m : Memo V Err X Obj Sym Cls) (k : MemoKey Sym Cls) :
    Option (ParseRes V Err X Obj) × Memo V Err X Obj Sym Cls :=
  ((m.find? fun e => e.1 = k).map Prod.snd, m.filter fun e => e.1 ≠ k)

/-- The end of `parse` (parse.py 120-127). -/
def parseFinish (c : ParseCall Sym Cls Err X) (data : Str) (value : Val V)
    (complaints : List (Nat × Context Err X)) (anns : List (Annot Obj)) :
    ParseOutcome V Err X Obj :=
  .returned
    (if c.complain then complaints.map fun p => (p.1, mergeContext c.extra p.2) else [])
    value
    (if c.classes.isEmpty then none else some (some (spliceAnnotations data anns)))

/-- `parse` (parse.py 53-127): takes the memo, returns the outcome and the new memo. -/
def parseMemo (inner : MemoKey Sym Cls → Except Err (ParseRes V Err X Obj))
    (m : Memo V Err X Obj Sym Cls) (c : ParseCall Sym Cls Err X) :
    ParseOutcome V Err X Obj × Memo V Err X Obj Sym Cls :=
  match c.data.encode with
  | none =>
    match c.failId with
    | none => (.raisedUnicode, m)
    | some id =>
      if c.complain then
        (.returned [(id, mergeContext c.extra [(str "error", .unicodeErr c.data)])]
          (.unavailable c.data) (if c.classes.isEmpty then none else some none), m)
      else (.typeError, m)
  | some data =>
    let key := (data, c.symbol, c.classes)
    match memoPop m key with
    | (some r, m') => (parseFinish c data (.ok r.value) r.complaints r.annotations, m' ++ [(key, r)])
    | (none, m') =>
      match inner key with
      | .error e =>
        match c.failId with
        | none => (.raised e, m')
        | some id =>
          (parseFinish c data (.unavailable (.bytes data)) [(id, [(str "error", .err e)])] [], m')
      | .ok r =>
        (parseFinish c data (.ok r.value) r.complaints r.annotations, memoTrim (m' ++ [(key, r)]))

/-- A history of calls: the outcomes in order, and the final memo (httpolice/parse.py 53-131). -/
def parseHistory (inner : MemoKey Sym Cls → Except Err (ParseRes V Err X Obj)) :
    Memo V Err X Obj Sym Cls → List (ParseCall Sym Cls Err X) →
      List (ParseOutcome V Err X Obj) × Memo V Err X Obj Sym Cls
  | m, [] => ([], m)
  | m, c :: cs =>
    let (o, m') := parseMemo inner m c
    let (os, m'') := parseHistory inner m' cs
    (o :: os, m'')

end Httpolice.Model
