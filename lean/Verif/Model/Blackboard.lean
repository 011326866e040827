/-!
# Model of `httpolice/blackboard.py` and of the container part of `httpolice/exchange.py`

Simplifications: a complaint context is any type with decidable equality (Python compares
contexts with `==` on dicts); notices are identified by their ID (`all_notices[notice_id]` is a
table lookup that does not influence anything modelled here).
-/

namespace Httpolice.Model

/-- `Complaint` (blackboard.py 7-29): a notice (by ID) together with its context. -/
structure Complaint (Ctx : Type) where
  id : Nat
  ctx : Ctx
deriving DecidableEq, Repr

/-- `Blackboard.__init__` (blackboard.py 43-46): `_complaints` is a list, `_silenced` a set
(here: a list of which only membership is used). `memoized` is modelled in `Model/Derived.lean`. -/
structure Board (Ctx : Type) where
  stored : List (Complaint Ctx)
  silenced : List Nat
deriving DecidableEq, Repr

/-- A fresh blackboard (blackboard.py 43-46). -/
def Board.new {Ctx : Type} : Board Ctx := { stored := [], silenced := [] }

/-- `Blackboard.complain` (blackboard.py 52-58): append unless an equal complaint is there. -/
def Board.complain {Ctx : Type} [DecidableEq Ctx] (b : Board Ctx) (c : Complaint Ctx) :
    Board Ctx :=
  if c ∈ b.stored then b else { b with stored := b.stored ++ [c] }

/-- `Blackboard.silence` (blackboard.py 60-69) on an object without children, for a list of IDs. -/
def Board.silence {Ctx : Type} (b : Board Ctx) (ids : List Nat) : Board Ctx :=
  { b with silenced := b.silenced ++ ids }

/-- `Blackboard.complaints`, also known as `notices` (blackboard.py 71-84). -/
def Board.complaints {Ctx : Type} (b : Board Ctx) : List (Complaint Ctx) :=
  b.stored.filter fun c => c.id ∉ b.silenced

/-- `Exchange` (exchange.py 6-43): its own board, and the boards of its children. -/
structure ExchBoards (Ctx : Type) where
  own : Board Ctx
  request : Option (Board Ctx)
  responses : List (Board Ctx)
deriving DecidableEq, Repr

/-- The blackboards a user can address: the exchange, its request, its `i`-th response
(httpolice/exchange.py 38-43). -/
inductive Target where
  | exch
  | req
  | resp (i : Nat)
deriving DecidableEq, Repr

/-- Access to one blackboard of an exchange (httpolice/exchange.py 38-43). -/
def ExchBoards.get {Ctx : Type} (e : ExchBoards Ctx) : Target → Option (Board Ctx)
  | .exch => some e.own
  | .req => e.request
  | .resp i => e.responses[i]?

/-- `Blackboard.silence` (blackboard.py 60-69) on an exchange: update the own set, then recurse
into `Exchange.children` = request (if any) + responses (exchange.py 37-43). -/
def ExchBoards.silenceAll {Ctx : Type} (e : ExchBoards Ctx) (ids : List Nat) : ExchBoards Ctx :=
  { own := e.own.silence ids
    request := e.request.map (·.silence ids)
    responses := e.responses.map (·.silence ids) }

/-- Change one blackboard in place (httpolice/exchange.py 38-43). -/
def ExchBoards.modify {Ctx : Type} (e : ExchBoards Ctx) (t : Target)
    (f : Board Ctx → Board Ctx) : ExchBoards Ctx :=
  match t with
  | .exch => { e with own := f e.own }
  | .req => { e with request := e.request.map f }
  | .resp i => { e with responses := e.responses.modify i f }

/-- The public calls that write on an exchange or one of its messages (httpolice/blackboard.py 52-70). -/
inductive BoardOp (Ctx : Type) where
  | complain (t : Target) (c : Complaint Ctx)
  | silence (t : Target) (ids : List Nat)
deriving DecidableEq, Repr

/-- One call: `obj.complain(...)` or `obj.silence(ids)`; silencing the exchange recurses
(httpolice/blackboard.py 52-70). -/
def ExchBoards.step {Ctx : Type} [DecidableEq Ctx] (e : ExchBoards Ctx) :
    BoardOp Ctx → ExchBoards Ctx
  | .complain t c => e.modify t (·.complain c)
  | .silence .exch ids => e.silenceAll ids
  | .silence .req ids => e.modify .req (·.silence ids)
  | .silence (.resp i) ids => e.modify (.resp i) (·.silence ids)

/-- A whole history of calls (httpolice/blackboard.py 52-70). -/
def ExchBoards.run {Ctx : Type} [DecidableEq Ctx] (e : ExchBoards Ctx)
    (ops : List (BoardOp Ctx)) : ExchBoards Ctx :=
  ops.foldl ExchBoards.step e

/-- A freshly constructed exchange with or without a request and with `n` responses
(httpolice/blackboard.py 43-46, exchange.py 17-36). -/
def ExchBoards.fresh (Ctx : Type) (hasReq : Bool) (n : Nat) : ExchBoards Ctx :=
  { own := Board.new
    request := if hasReq then some Board.new else none
    responses := List.replicate n Board.new }

/-- A Python iterable of notice IDs: a re-iterable collection or a one-shot iterator
(httpolice/blackboard.py 60-70). -/
inductive IdIter where
  | reusable (ids : List Nat)
  | oneShot (ids : List Nat)
deriving DecidableEq, Repr

/-- What iterating over the iterable yields now, and the iterable afterwards (httpolice/blackboard.py 60-70). -/
def IdIter.consume : IdIter → List Nat × IdIter
  | .reusable ids => (ids, .reusable ids)
  | .oneShot ids => (ids, .oneShot [])

/-- All IDs the caller put into the iterable (httpolice/blackboard.py 60-70). -/
def IdIter.ids : IdIter → List Nat
  | .reusable ids => ids
  | .oneShot ids => ids

/-- `silence` of one board with an iterable (blackboard.py 67, no children). -/
def Board.silenceIter {Ctx : Type} (b : Board Ctx) (it : IdIter) : Board Ctx × IdIter :=
  (b.silence it.consume.1, it.consume.2)

/-- The loop of blackboard.py 68-69 over a list of children, sharing the iterable. -/
def silenceChildren {Ctx : Type} : List (Board Ctx) → IdIter → List (Board Ctx) × IdIter
  | [], it => ([], it)
  | b :: bs, it =>
    let (b', it') := b.silenceIter it
    let (bs', it'') := silenceChildren bs it'
    (b' :: bs', it'')

/-- `Exchange.silence(iterable)` (blackboard.py 60-69 with exchange.py 37-43). -/
def ExchBoards.silenceIter {Ctx : Type} (e : ExchBoards Ctx) (it : IdIter) : ExchBoards Ctx :=
  let (own, it1) := e.own.silenceIter it
  match e.request with
  | none => { own := own, request := none, responses := (silenceChildren e.responses it1).1 }
  | some r =>
    let (r', it2) := r.silenceIter it1
    { own := own, request := some r', responses := (silenceChildren e.responses it2).1 }

end Httpolice.Model
