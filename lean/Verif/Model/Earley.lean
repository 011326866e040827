import Verif.Model.Memo

/-!
# Model of the Earley parser in `httpolice/parse.py`

A grammar is a heap of nonterminal objects and a heap of rule objects, both referred to by index:
an index stands for the identity of the object. (The same rule object may belong to several
nonterminals, because ephemeral symbols are inlined.) Semantic actions are total functions.
A generator is modelled by the list of everything it would yield. Python's limits on recursion depth
and memory are left out.
-/

namespace Httpolice.Model

/-- The result of parsing a symbol: `_SKIP` or anything else (parse.py 492-497). -/
inductive Node (V : Type)
  | skip
  | val (v : V)
deriving DecidableEq, Repr

/-- A symbol: a terminal with its set of octets, or a nonterminal (parse.py 304-382). -/
inductive GSym
  | term (bits : Nat → Bool)
  | nt (n : Nat)

/-- A semantic action: from the nodes to other nodes and complaints (parse.py 478-489). -/
abbrev Action (V C : Type) := List (Node V) → List (Node V) × List C

/-- `Rule` (parse.py 440-456). -/
structure GRule (V C : Type) where
  symbols : List GSym
  action : Option (Action V C)

/-- `Nonterminal` (parse.py 344-437): its rules; is it a `RepeatedNonterminal`, `is_pivot`. -/
structure Nonterm where
  rules : List Nat
  repeated : Bool
  pivot : Bool
deriving DecidableEq, Repr

/-- A grammar (httpolice/parse.py 344-458). -/
structure Grammar (V C : Type) where
  nts : List Nonterm
  rls : List (GRule V C)

variable {V C : Type}

/-- `symbol.rules` (httpolice/parse.py 393-395, 421-437). -/
def Grammar.rulesOf (g : Grammar V C) (n : Nat) : List Nat :=
  match g.nts[n]? with
  | some x => x.rules
  | none => []

/-- `rule.symbols` (httpolice/parse.py 449-456). -/
def Grammar.symbolsOf (g : Grammar V C) (r : Nat) : List GSym :=
  match g.rls[r]? with
  | some x => x.symbols
  | none => []

/-- `rule.action` (httpolice/parse.py 449-456). -/
def Grammar.actionOf (g : Grammar V C) (r : Nat) : Option (Action V C) :=
  match g.rls[r]? with
  | some x => x.action
  | none => none

/-- `isinstance(symbol, RepeatedNonterminal)` (httpolice/parse.py 408-437). -/
def Grammar.isRepeated (g : Grammar V C) (n : Nat) : Bool :=
  match g.nts[n]? with
  | some x => x.repeated
  | none => false

/-- `symbol.is_pivot` (httpolice/parse.py 180-201). -/
def Grammar.isPivot (g : Grammar V C) (n : Nat) : Bool :=
  match g.nts[n]? with
  | some x => x.pivot
  | none => false

/-- An Earley item (parse.py 702-722). -/
structure Item where
  sym : Nat
  rule : Nat
  pos : Nat
  start : Nat
deriving DecidableEq, Repr

/-- The same item, one position further (httpolice/parse.py 725-800). -/
def Item.advance (it : Item) : Item := { it with pos := it.pos + 1 }

/-- `rule.xsymbols[pos]` (parse.py 752). -/
def Grammar.next (g : Grammar V C) (it : Item) : Option GSym := (g.symbolsOf it.rule)[it.pos]?

/-- Is the next symbol this nonterminal? (httpolice/parse.py 702-722). -/
def Grammar.nextIs (g : Grammar V C) (n : Nat) (it : Item) : Bool :=
  match g.next it with
  | some (.nt m) => m == n
  | _ => false

/-- Is the item completed? (httpolice/parse.py 725-800). -/
def Grammar.completed (g : Grammar V C) (it : Item) : Bool := (g.next it).isNone

/-- `all(sym.is_nullable() for sym in rule.symbols)` (parse.py 379-380). -/
def allNullable (f : Nat → Option Bool) : List GSym → Option Bool
  | [] => some true
  | .term _ :: _ => some false
  | .nt n :: l =>
    match f n with
    | none => none
    | some false => some false
    | some true => allNullable f l

/-- `any(... for rule in self.rules)` (parse.py 379-381). -/
def anyNullable (g : Grammar V C) (f : Nat → Option Bool) : List Nat → Option Bool
  | [] => some false
  | r :: rs =>
    match allNullable f (g.symbolsOf r) with
    | none => none
    | some true => some true
    | some false => anyNullable g f rs

/-- `Nonterminal.is_nullable` (parse.py 377-382), with a bound on the depth of the recursion; the
cache does not change the result. -/
def nullableTo (g : Grammar V C) : Nat → Nat → Option Bool
  | 0, _ => none
  | fuel + 1, n => anyNullable g (nullableTo g fuel) (g.rulesOf n)

/-- `Nonterminal.is_nullable`; `none` means that it recurses into itself, without end
(`nullable_adequate` in `Lemmas/Nullable.lean`) (httpolice/parse.py 377-382). -/
def Grammar.nullable (g : Grammar V C) (n : Nat) : Option Bool := nullableTo g (g.nts.length + 1) n

/-- What a `ParseError` says (parse.py 146-172): where, what was found there, and what was expected:
the terminals (each by its octets, with the pivots found for it), and `end of data`. -/
structure ParseErr where
  position : Nat
  found : Option Nat
  expected : List (List Nat × List Nat)
  endOfData : Bool
deriving DecidableEq, Repr

/-- How parsing may fail: `ParseError`; `RecursionError` in `is_nullable`; `IndexError` in
`_build_parse_error`; and (not a Python exception) a loop that does not end (httpolice/parse.py 377-382,
725-800, 974-998). -/
inductive PErr
  | parse (e : ParseErr)
  | recursion
  | index
  | diverge
deriving DecidableEq, Repr

/-- `_add_item` (parse.py 702-722). The index by next symbols is not stored: the list for a symbol
is the list of items with this next symbol, in the same order. -/
def addItem (items : List Item) (it : Item) : List Item :=
  if it ∈ items then items else items ++ [it]

/-- `items_idx.get(symbol, [])` (httpolice/parse.py 702-722, 725-800). -/
def candidates (g : Grammar V C) (items : List Item) (n : Nat) : List Item :=
  items.filter (g.nextIs n)

/-- The loop over candidates (parse.py 760-762) when the completed item started at the current
position: the list being iterated over may then grow on the way. -/
def completeLive (g : Grammar V C) (n : Nat) : Nat → Nat → List Item → Except PErr (List Item)
  | 0, _, _ => .error .diverge
  | fuel + 1, k, cur =>
    match (candidates g cur n)[k]? with
    | none => .ok cur
    | some x => completeLive g n fuel (k + 1) (addItem cur x.advance)

/-- `for ...: _add_item(...)` (httpolice/parse.py 702-722). -/
def addItems (items : List Item) (new : List Item) : List Item := new.foldl addItem items

/-- The body of the inner loop of `_inner_parse` (parse.py 750-787) for one item: the items at the
current position and at the next one. `done` are the items at earlier positions. -/
def stepItem (g : Grammar V C) (fuel : Nat) (done : List (List Item)) (token : Option Nat)
    (it : Item) (cur nxt : List Item) : Except PErr (List Item × List Item) :=
  match g.next it with
  | none =>
    if it.start = done.length then
      match completeLive g it.sym fuel 0 cur with
      | .error e => .error e
      | .ok cur' => .ok (cur', nxt)
    else .ok (addItems cur ((candidates g (done.getD it.start []) it.sym).map Item.advance), nxt)
  | some (.nt n) =>
    match g.nullable n with
    | none => .error .recursion
    | some b =>
      .ok (addItems (if b then addItem cur it.advance else cur)
        ((g.rulesOf n).map fun r => ⟨n, r, 0, done.length⟩), nxt)
  | some (.term bits) =>
    match token with
    | none => .ok (cur, nxt)
    | some c => .ok (cur, if bits c then addItem nxt it.advance else nxt)

/-- The inner loop of `_inner_parse` (parse.py 748-791). -/
def colLoop (g : Grammar V C) (bound : Nat) (done : List (List Item)) (token : Option Nat) :
    Nat → Nat → List Item → List Item → Except PErr (List Item × List Item)
  | 0, _, _, _ => .error .diverge
  | fuel + 1, j, cur, nxt =>
    match cur[j]? with
    | none => .ok (cur, nxt)
    | some it =>
      match stepItem g bound done token it cur nxt with
      | .error e => .error e
      | .ok (cur', nxt') => colLoop g bound done token fuel (j + 1) cur' nxt'

/-- A bound on the number of items at position `i` (httpolice/parse.py 702-722). -/
def colBound (g : Grammar V C) (i : Nat) : Nat :=
  (i + 1) * (g.nts.map fun x =>
    (x.rules.map fun r => (g.symbolsOf r).length + 1).sum).sum

/-- The outer loop of `_inner_parse` (parse.py 734-791): the chart when the loop ends. -/
def chartLoop (g : Grammar V C) (done : List (List Item)) (cur : List Item) :
    Str → Except PErr (List (List Item))
  | [] =>
    if cur.isEmpty then .ok (done ++ [cur, []])
    else
      match colLoop g (colBound g done.length + 1) done none (colBound g done.length + 1) 0 cur [] with
      | .error e => .error e
      | .ok (cur', nxt) => .ok (done ++ [cur', nxt])
  | c :: rest =>
    if cur.isEmpty then .ok (done ++ [cur, []])
    else
      match colLoop g (colBound g done.length + 1) done (some c) (colBound g done.length + 1) 0 cur []
        with
      | .error e => .error e
      | .ok (cur', nxt) => chartLoop g (done ++ [cur']) nxt rest

/-- What the parser needs to know about values: the text of one octet, a tuple, a list, and
`isinstance(_, annotate_classes)` (httpolice/parse.py 803-971). -/
structure ParseOps (V : Type) where
  char : Nat → V
  tuple : List V → V
  list : List (Node V) → V
  annotated : V → Bool

/-- What `_find_results` yields (parse.py 803-971). -/
structure PRes (V C : Type) where
  start : Nat
  item : Option Item
  node : Node V
  complaints : List C
  annots : List (Annot V)

/-- All results for all elements, in order; `none` if any of them does not end (httpolice/parse.py 803-971). -/
def collect {α β : Type} (f : α → Option (List β)) : List α → Option (List β)
  | [] => some []
  | a :: l =>
    match f a with
    | none => none
    | some x =>
      match collect f l with
      | none => none
      | some y => some (x ++ y)

/-- The nodes that are not `_SKIP` (parse.py 894). -/
def noSkips : List (Node V) → List V
  | [] => []
  | .skip :: l => noSkips l
  | .val v :: l => v :: noSkips l

/-- One node out of several (parse.py 894-900). -/
def packNodes (ops : ParseOps V) (nodes : List (Node V)) : Node V :=
  match noSkips nodes with
  | [] => .skip
  | [v] => .val v
  | vs => .val (ops.tuple vs)

/-- Annotate if needed (parse.py 902-904). -/
def annotateNode (ops : ParseOps V) (start stop : Nat) : Node V → List (Annot V)
  | .skip => []
  | .val v => if ops.annotated v then [⟨start, stop, v⟩] else []

/-- `rule.action(complain, tuple(nodes))`, if any (parse.py 889-893). -/
def runAction (action : Option (Action V C)) (nodes : List (Node V)) : List (Node V) × List C :=
  match action with
  | none => (nodes, [])
  | some f => f nodes

/-- A complete parse for a rule (parse.py 875-908), given the results for its symbols. -/
def ruleResult (g : Grammar V C) (ops : ParseOps V) (stop : Nat) (item : Item)
    (rs : List (PRes V C)) : PRes V C :=
  let out := runAction (g.actionOf item.rule) (rs.map (·.node))
  let node := packNodes ops out.1
  ⟨item.start, some item, node, rs.flatMap (·.complaints) ++ out.2,
    rs.flatMap (·.annots) ++ annotateNode ops item.start stop node⟩

/-- A complete parse for `RepeatedNonterminal` (parse.py 946-957). -/
def repeatResult (ops : ParseOps V) (item : Item) (rs : List (PRes V C)) : PRes V C :=
  ⟨item.start, some item, .val (ops.list (rs.map (·.node))), rs.flatMap (·.complaints),
    rs.flatMap (·.annots)⟩

/-- The `while True` loop over frames (parse.py 864-971) for an ordinary rule: `syms` are the
symbols still to do, from the right to the left; `acc` are the results for those to the right. -/
def findSeq (find : GSym → Nat → List Item → Option (List (PRes V C))) (start : Nat) :
    List GSym → Nat → List Item → List (PRes V C) → Option (List (List (PRes V C)))
  | [], i, _, acc => some (if i = start then [acc] else [])
  | y :: ys, i, parents, acc =>
    match find y i parents with
    | none => none
    | some rs => collect (fun r =>
        if r.start < start then some []
        else findSeq find start ys r.start (if r.start < i then [] else parents) (r :: acc)) rs

/-- The same loop when left recursion is unrolled (parse.py 856-862, 933-957). -/
def findRepeat (find : GSym → Nat → List Item → Option (List (PRes V C))) (start : Nat) (x : GSym) :
    Nat → Nat → List Item → List (PRes V C) → Option (List (List (PRes V C)))
  | 0, _, _, _ => none
  | fuel + 1, i, parents, acc =>
    match find x i parents with
    | none => none
    | some rs => collect (fun r =>
        match (if r.start < start then some []
          else findRepeat find start x fuel r.start
            (if r.start < i then [] else parents ++ r.item.toList) (r :: acc)) with
        | none => none
        | some more => some ((if r.start = start then [r :: acc] else []) ++ more)) rs

/-- `isinstance(symbol, RepeatedNonterminal) and rule.xsymbols[0] is symbol` (parse.py 856-857). -/
def Grammar.unrolled (g : Grammar V C) (it : Item) : Bool :=
  g.isRepeated it.sym && match (g.symbolsOf it.rule).head? with
    | some (.nt m) => m == it.sym
    | _ => false

/-- `_find_results` for a terminal (parse.py 806-812). -/
def termResults (ops : ParseOps V) (data : Str) (bits : Nat → Bool) : Nat → List (PRes V C)
  | 0 => []
  | i + 1 =>
    match data[i]? with
    | none => []
    | some c => if bits c then [⟨i, none, .val (ops.char c), [], []⟩] else []

/-- `_find_results` (parse.py 803-971). `fuel` bounds the depth of the recursion. -/
def findResults (g : Grammar V C) (ops : ParseOps V) (data : Str) (chart : List (List Item)) :
    Nat → GSym → Nat → List Item → Option (List (PRes V C))
  | 0, _, _, _ => none
  | _ + 1, .term bits, e, _ =>
    some (termResults ops data bits e)
  | fuel + 1, .nt n, e, outer =>
    collect (fun item =>
      if item ∈ outer then some []
      else if g.unrolled item then
        match (g.symbolsOf item.rule).getLast? with
        | none => some []
        | some x =>
          (findRepeat (findResults g ops data chart fuel) item.start x fuel e (outer ++ [item])
            []).map fun ls => ls.map (repeatResult ops item)
      else
        (findSeq (findResults g ops data chart fuel) item.start (g.symbolsOf item.rule).reverse e
          (outer ++ [item]) []).map fun ls => ls.map (ruleResult g ops e item))
    ((chart.getD e []).filter fun it => g.completed it && it.sym == n)

/-- `_find_pivots` (parse.py 1001-1011). -/
def findPivots (g : Grammar V C) (chart : List (List Item)) :
    Nat → Nat → Nat → List (Nat × Nat) → Option (List Nat)
  | 0, _, _, _ => none
  | fuel + 1, n, start, stack =>
    if g.isPivot n then some [n]
    else collect (fun it =>
        if (it.sym, it.start) ∈ stack ++ [(n, start)] then some []
        else findPivots g chart fuel it.sym it.start (stack ++ [(n, start)]))
      (candidates g (chart.getD start []) n)

/-- `Terminal.chars` (parse.py 312-313). -/
def termChars (bits : Nat → Bool) : List Nat := (List.range 256).filter bits

/-- The last position that has any items (parse.py 977-979). -/
def lastColumn : Nat → List (List Item) → Option (Nat × List Item)
  | _, [] => none
  | i, col :: cols =>
    match lastColumn (i + 1) cols with
    | some x => some x
    | none => if col.isEmpty then none else some (i, col)

/-- One item's contribution to the `expected` of a `ParseError` (parse.py 984-990). -/
def expectedBy (g : Grammar V C) (chart : List (List Item)) (fuel : Nat) (it : Item) :
    Option (List (List Nat × List Nat)) :=
  match g.next it with
  | some (.term bits) => (findPivots g chart fuel it.sym it.start []).map fun ps => [(termChars bits, ps)]
  | _ => some []

/-- `_build_parse_error` (parse.py 974-998). The wording is left out; entries that have the same wording
are not merged; the place of `end of data` among the others is left out. -/
def buildParseError (g : Grammar V C) (data : Str) (target : Nat) (chart : List (List Item)) : PErr :=
  match lastColumn 0 chart with
  | none => .index
  | some (i, items) =>
    match collect (expectedBy g chart (g.nts.length * (data.length + 1) + 1)) items with
    | none => .diverge
    | some expected => .parse ⟨i, data[i]?, expected,
        items.any fun it => it.sym == target && g.completed it⟩

/-- `_inner_parse` (parse.py 725-800). -/
def innerParse (g : Grammar V C) (ops : ParseOps V) (data : Str) (target : Nat) :
    Except PErr (Node V × List C × List (Annot V)) :=
  match chartLoop g [] (addItems [] ((g.rulesOf target).map fun r => ⟨target, r, 0, 0⟩)) data with
  | .error e => .error e
  | .ok chart =>
    if chart.length = data.length + 2 then
      match findResults g ops data chart
          (data.length * (colBound g data.length + 2) + colBound g data.length + 2)
          (.nt target) data.length [] with
      | none => .error .diverge
      | some rs =>
        match rs.find? fun r => r.start == 0 with
        | some r => .ok (r.node, r.complaints, r.annots)
        | none => .error (buildParseError g data target chart)
    else .error (buildParseError g data target chart)

/-- What `parse` (parse.py 53-127, `parseMemo`) computes when there is nothing in the memo:
`_inner_parse(data, symbol, annotate_classes)`. `isInst` is `isinstance`. A symbol that is a terminal
(`as_nonterminal`, parse.py 327-328) is to be given as a nonterminal with this one rule. -/
def parserInner {X Cls : Type} (g : Grammar V (Nat × Context PErr X)) (ops : ParseOps V)
    (isInst : V → Cls → Bool) (key : MemoKey Nat Cls) :
    Except PErr (ParseRes (Node V) PErr X V) :=
  match innerParse g { ops with annotated := fun v => key.2.2.any (isInst v) } key.1 key.2.1 with
  | .error e => .error e
  | .ok (v, cs, as) => .ok ⟨v, cs, as⟩

end Httpolice.Model
