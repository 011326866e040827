import Verif.Model.Earley

/-!
# Model of the grammar combinators in `httpolice/parse.py` (172-691)

Grammars are built by running Python code that allocates symbol and rule objects. The model is
the same code over an explicit heap of nonterminals and rules; every function takes the heap and
returns it together with its result. Terminals are immutable but for their names, so they are
values. Citations and the text of names are left out: they are only used in messages.

`SimpleNonterminal`s made by `recursive()` are marked (`hole`) until their `.rec` is set. The mark
does not influence anything that is computed; it is there to be able to speak of such symbols.
-/

namespace Httpolice.Model

/-- A nonterminal object (parse.py 176-205, 344-437). -/
structure NtObj where
  rules : List Nat
  repeated : Bool
  pivot : Bool
  named : Bool
  eph : Option Bool
  hole : Bool
deriving DecidableEq, Repr

/-- `Symbol.is_ephemeral` (parse.py 226-243). -/
def NtObj.ephemeral (x : NtObj) : Bool :=
  match x.eph with
  | some b => b
  | none => !x.named

/-- What the parser sees of a nonterminal (httpolice/parse.py 344-437). -/
def NtObj.plain (x : NtObj) : Nonterm := ⟨x.rules, x.repeated, x.pivot⟩

/-- All objects that exist (httpolice/parse.py 176-458). -/
structure Heap (V C : Type) where
  nts : List NtObj
  rls : List (GRule V C)

/-- A reference to a symbol; a terminal (parse.py 304-341) is kept as its octets and whether it has
a name. -/
inductive Sym
  | term (bits : Nat → Bool) (named : Bool)
  | nt (n : Nat)

/-- A symbol as it stands in a rule (httpolice/parse.py 440-458). -/
def Sym.g : Sym → GSym
  | .term bits _ => .term bits
  | .nt n => .nt n

variable {V C : Type}

/-- What the parser works with (httpolice/parse.py 725-800). -/
def Heap.grammar (h : Heap V C) : Grammar V C := ⟨h.nts.map NtObj.plain, h.rls⟩

/-- The heap when `parse.py` has been imported, with the one symbol `empty` (parse.py 500). -/
def Heap.init : Heap V C :=
  ⟨[{ rules := [0], repeated := false, pivot := false, named := true, eph := some true, hole := false }],
    [⟨[], none⟩]⟩

/-- `empty` (parse.py 500). -/
def emptySym : Sym := .nt 0

/-- Allocate a `Rule` (parse.py 449-456). -/
def Heap.newRule (h : Heap V C) (ru : GRule V C) : Nat × Heap V C :=
  (h.rls.length, { h with rls := h.rls ++ [ru] })

/-- Allocate a nonterminal (httpolice/parse.py 385-395). -/
def Heap.newNt (h : Heap V C) (x : NtObj) : Sym × Heap V C :=
  (.nt h.nts.length, { h with nts := h.nts ++ [x] })

/-- `SimpleNonterminal(rules=rules, is_ephemeral=eph)` (parse.py 387-391). -/
def Heap.simple (h : Heap V C) (rules : List Nat) (eph : Option Bool) : Sym × Heap V C :=
  h.newNt { rules := rules, repeated := false, pivot := false, named := false, eph := eph, hole := false }

/-- `symbol.rules` (parse.py 394-395, 421-437). -/
def Heap.rulesOf (h : Heap V C) : Sym → List Nat
  | .term _ _ => []
  | .nt n =>
    match h.nts[n]? with
    | some x => x.rules
    | none => []

/-- `as_rule` (parse.py 321-322, 364-367). -/
def Heap.asRule (h : Heap V C) : Sym → Nat × Heap V C
  | .term bits _ => h.newRule ⟨[.term bits], none⟩
  | .nt n =>
    match h.nts[n]? with
    | none => h.newRule ⟨[.nt n], none⟩
    | some x =>
      match x.ephemeral, x.rules with
      | true, [r] => (r, h)
      | _, _ => h.newRule ⟨[.nt n], none⟩

/-- `as_rules` (parse.py 324-325, 369-372). -/
def Heap.asRules (h : Heap V C) : Sym → List Nat × Heap V C
  | .term bits _ => ([h.rls.length], (h.newRule ⟨[.term bits], none⟩).2)
  | .nt n =>
    match h.nts[n]? with
    | none => ([h.rls.length], (h.newRule ⟨[.nt n], none⟩).2)
    | some x =>
      if x.ephemeral then (x.rules, h)
      else ([h.rls.length], (h.newRule ⟨[.nt n], none⟩).2)

/-- `concat_action` (parse.py 462-475). -/
def concatAction (len1 : Nat) : Option (Action V C) → Option (Action V C) → Option (Action V C)
  | none, none => none
  | a1, a2 => some fun nodes =>
      ((runAction a1 (nodes.take len1)).1 ++ (runAction a2 (nodes.drop len1)).1,
        (runAction a1 (nodes.take len1)).2 ++ (runAction a2 (nodes.drop len1)).2)

/-- `Rule.concat` (parse.py 461-476). -/
def Heap.concat (h : Heap V C) (r1 r2 : Nat) : Nat × Heap V C :=
  h.newRule ⟨h.grammar.symbolsOf r1 ++ h.grammar.symbolsOf r2,
    concatAction (h.grammar.symbolsOf r1).length (h.grammar.actionOf r1) (h.grammar.actionOf r2)⟩

/-- A function used with `<<`: from the positional arguments to the value and the complaints.
Exceptions raised by it are left out (httpolice/parse.py 278-292, 478-489). -/
abbrev Func (V C : Type) := List V → Node V × List C

/-- `wrapper_action` (parse.py 480-488). -/
def wrapAction (func : Func V C) (inner : Option (Action V C)) : Action V C := fun nodes =>
  (match (func (noSkips (runAction inner nodes).1)).1 with
    | .skip => []
    | .val v => [.val v],
   (runAction inner nodes).2 ++ (func (noSkips (runAction inner nodes).1)).2)

/-- `Rule.wrap` for every rule of a list (parse.py 478-489, 291). -/
def Heap.wrapAll (h : Heap V C) (func : Func V C) : List Nat → List Nat × Heap V C
  | [] => ([], h)
  | r :: rs =>
    let a := h.newRule ⟨h.grammar.symbolsOf r, some (wrapAction func (h.grammar.actionOf r))⟩
    let b := a.2.wrapAll func rs
    (a.1 :: b.1, b.2)

/-- `a | b` (parse.py 260-266, 330-334). -/
def Heap.or (h : Heap V C) : Sym → Sym → Sym × Heap V C
  | .term bits _, .term bits' _ => (.term (fun c => bits c || bits' c) false, h)
  | a, b =>
    let ra := h.asRules a
    let rb := ra.2.asRules b
    rb.2.simple (ra.1 ++ rb.1) none

/-- `a - b` for terminals (parse.py 336-338). -/
def termMinus (bits bits' : Nat → Bool) : Nat → Bool := fun c => bits c ^^ (bits c && bits' c)

/-- `a * b` (parse.py 268-276). -/
def Heap.mul (h : Heap V C) (a b : Sym) : Sym × Heap V C :=
  let ra := h.asRule a
  let rb := ra.2.asRule b
  let rc := rb.2.concat ra.1 rb.1
  rc.2.simple [rc.1] none

/-- `func << a` (parse.py 278-292). `isClass` says if `func` is a class other than `int`, `float`
and `str`. -/
def Heap.wrap (h : Heap V C) (func : Func V C) (a : Sym) (isClass : Bool := false) : Sym × Heap V C :=
  let ra := h.asRules a
  let rw := ra.2.wrapAll func ra.1
  rw.2.simple rw.1 (if isClass then some false else none)

/-- `a > named(...)` (parse.py 207-224). -/
def Heap.seal (h : Heap V C) (a : Sym) (pivot : Bool := false) : Sym × Heap V C :=
  match a with
  | .term bits false => (.term bits true, h)
  | .term bits true =>
    let r := h.newRule ⟨[.term bits], none⟩
    r.2.newNt { rules := [r.1], repeated := false, pivot, named := true, eph := none, hole := false }
  | .nt n =>
    match h.nts[n]? with
    | none => (.nt n, h)
    | some x =>
      if x.named then
        let r := h.newRule ⟨[.nt n], none⟩
        r.2.newNt { rules := [r.1], repeated := false, pivot, named := true, eph := none, hole := false }
      else (.nt n, { h with nts := h.nts.set n { x with named := true, pivot } })

/-- `group(a)` (parse.py 318-319, 397-400, 418-419, 538-539). -/
def Heap.group (h : Heap V C) : Sym → Sym × Heap V C
  | .term bits named => (.term bits named, h)
  | .nt n =>
    match h.nts[n]? with
    | none => (.nt n, h)
    | some x => if x.ephemeral then h.simple x.rules (some false) else (.nt n, h)

/-- `recursive()` (parse.py 532). -/
def Heap.recursive (h : Heap V C) : Sym × Heap V C :=
  h.newNt { rules := [], repeated := false, pivot := false, named := false, eph := none, hole := true }

/-- `n.rec = other` (parse.py 402-405), and the assignment in `RepeatedNonterminal.rules`
(parse.py 436). -/
def Heap.setRules (h : Heap V C) (n : Nat) (other : Sym) : Heap V C :=
  match h.nts[n]? with
  | none => h
  | some x => { h with nts := h.nts.set n { x with rules := h.rulesOf other, hole := false } }

/-! ## Values -/

/-- Python values that matter in the grammar; `obj` are the results of calling a class or another
function on some arguments (httpolice/parse.py 478-489, 661-680). -/
inductive GVal
  | none
  | skip
  | text (s : Str)
  | int (n : Int)
  | tuple (l : List GVal)
  | list (l : List GVal)
  | obj (cls : Str) (args : List GVal)
deriving Repr

/-- A node as a value (an element of a list) (httpolice/parse.py 672-680). -/
def GVal.ofNode : Node GVal → GVal
  | .skip => .skip
  | .val v => v

/-- What the parser needs to know about values (httpolice/parse.py 725-971). -/
def pyOps (annotated : GVal → Bool) : ParseOps GVal where
  char c := .text [c]
  tuple := .tuple
  list ns := .list (ns.map GVal.ofNode)
  annotated := annotated

/-- A complaint made by a semantic action: notice ID and context (httpolice/parse.py 478-489, 683-691). -/
abbrev PyComplaint := Nat × Context PErr GVal

/-- The heap of HTTPolice (httpolice/parse.py 176-458). -/
abbrev PyHeap := Heap GVal PyComplaint

/-- A function that does not complain (httpolice/parse.py 478-489). -/
def pureFunc (f : List GVal → GVal) : Func GVal PyComplaint := fun args => (.val (f args), [])

/-- `subst(r)` (parse.py 667-670). -/
def substF (r : GVal) : Func GVal PyComplaint := pureFunc fun _ => r

/-- `_skip_args` (parse.py 661-662). -/
def skipF : Func GVal PyComplaint := fun _ => (.skip, [])

/-- Concatenate texts; anything that is not text is left out here, but is a `TypeError` in Python
(httpolice/parse.py 664-665). -/
def joinTexts (l : List GVal) : Str := l.flatMap fun
  | .text s => s
  | _ => []

/-- `_join_args` (parse.py 664-665). -/
def joinArgsF : Func GVal PyComplaint := pureFunc fun args => .text (joinTexts args)

/-- `u''.join` (parse.py 575, 581, 587) of the one argument. -/
def joinF : Func GVal PyComplaint := pureFunc fun
  | [.list l] => .text (joinTexts l)
  | _ => .none

/-- `_as_list` (parse.py 672-673). -/
def asListF : Func GVal PyComplaint := pureFunc .list

/-- `args if len(args) > 1 else args[0]` (parse.py 676). -/
def oneOrTuple : List GVal → GVal
  | [] => .none
  | [x] => x
  | l => .tuple l

/-- `_begin_list` (parse.py 675-676). -/
def beginListF : Func GVal PyComplaint := pureFunc fun args => .list [oneOrTuple args]

/-- `_continue_right_list` (parse.py 678-681); without arguments this is an `IndexError` in Python. -/
def continueRightListF : Func GVal PyComplaint := pureFunc fun args =>
  match args.getLast? with
  | some (.list l) =>
    .list ((if args.length > 2 then .tuple args.dropLast else args.headD .none) :: l)
  | _ => .none

/-- `operator.add` (parse.py 295, 298) on texts and on lists. -/
def addF : Func GVal PyComplaint := pureFunc fun
  | [.text s, .text t] => .text (s ++ t)
  | [.list l, .list m] => .list (l ++ m)
  | _ => .none

/-! ## Derived combinators -/

/-- `a + b` (parse.py 294-298). -/
def Heap.add (h : PyHeap) (a b : Sym) : Sym × PyHeap :=
  let m := h.mul a b
  m.2.wrap addF m.1

/-- `a % b` (parse.py 300-301). -/
def Heap.mod (h : PyHeap) (a b : Sym) : Sym × PyHeap :=
  let m := h.mul a b
  m.2.wrap continueRightListF m.1

/-- `octet_range(min_, max_)` (parse.py 503-508), for `max_ < 256`. -/
def octetRange (lo hi : Nat) : Sym := .term (fun c => decide (lo ≤ c ∧ c ≤ hi)) false

/-- `octet(value)` (parse.py 510-512). -/
def octet (c : Nat) : Sym := octetRange c c

/-- `str.lower` of an ASCII character (httpolice/parse.py 514-522). -/
def litLower (c : Nat) : Nat := if 65 ≤ c ∧ c ≤ 90 then c + 32 else c

/-- `str.upper` of an ASCII character (httpolice/parse.py 514-522). -/
def litUpper (c : Nat) : Nat := if 97 ≤ c ∧ c ≤ 122 then c - 32 else c

/-- The octets of `literal(c, case_sensitive)` for one ASCII character (parse.py 516-519). -/
def charBits (c : Nat) (caseSens : Bool) : Nat → Bool :=
  if caseSens then fun x => decide (c ≤ x ∧ x ≤ c)
  else fun x => decide (litLower c ≤ x ∧ x ≤ litLower c) || decide (litUpper c ≤ x ∧ x ≤ litUpper c)

/-- The loop of `literal` (parse.py 521-522) from `r` on. -/
def Heap.literalLoop (h : PyHeap) (r : Sym) (caseSens : Bool) : Str → Sym × PyHeap
  | [] => (r, h)
  | c :: s =>
    let m := h.mul r (.term (charBits c caseSens) false)
    m.2.literalLoop m.1 caseSens s

/-- `literal(s, case_sensitive)` (parse.py 514-526), for ASCII strings. -/
def Heap.literal (h : PyHeap) (s : Str) (caseSens : Bool := false) : Sym × PyHeap :=
  match s with
  | [c] => (.term (charBits c caseSens) false, h)
  | s =>
    let r := h.literalLoop emptySym caseSens s
    r.2.wrap joinArgsF r.1

/-- `skip(x)` (parse.py 535-536). -/
def Heap.skip (h : PyHeap) (a : Sym) : Sym × PyHeap := h.wrap skipF a

/-- `subst(r) << empty` (parse.py 424, 553, 621). -/
def Heap.substEmpty (h : PyHeap) (r : GVal) : Sym × PyHeap := h.wrap (substF r) emptySym

/-- `maybe(inner, default)` (parse.py 552-553). -/
def Heap.maybe (h : PyHeap) (a : Sym) (default : GVal := .none) : Sym × PyHeap :=
  let e := h.substEmpty default
  e.2.or a e.1

/-- `maybe_str(inner)` (parse.py 555-556). -/
def Heap.maybeStr (h : PyHeap) (a : Sym) : Sym × PyHeap := h.maybe a (.text [])

/-- `RepeatedNonterminal(max_count=None, inner=inner)` (parse.py 408-437). The rules are made at once;
in the code they are made when first needed. -/
def Heap.repeatAll (h : PyHeap) (inner : Sym) : Sym × PyHeap :=
  let n := h.nts.length
  let s := h.newNt { rules := [], repeated := true, pivot := false, named := false, eph := some false, hole := true }
  let e := s.2.substEmpty (.list [])
  let y := e.2.group inner
  let m := y.2.mul s.1 y.1
  let r := m.2.or e.1 m.1
  (.nt n, r.2.setRules n r.1)

/-- `RepeatedNonterminal(max_count=k + 1, inner=inner)` (parse.py 408-437). The rules are made at once;
in the code they are made when first needed. -/
def Heap.repeatUpTo (h : PyHeap) (inner : Sym) : Nat → Sym × PyHeap
  | 0 =>
    let e := h.substEmpty (.list [])
    let b := e.2.wrap beginListF inner
    let r := b.2.or e.1 b.1
    r.2.newNt { rules := r.2.rulesOf r.1, repeated := true, pivot := false, named := false, eph := some false, hole := false }
  | k + 1 =>
    let next := h.repeatUpTo inner k
    let e := next.2.substEmpty (.list [])
    let m := e.2.mul inner next.1
    let c := m.2.wrap continueRightListF m.1
    let r := c.2.or e.1 c.1
    r.2.newNt { rules := r.2.rulesOf r.1, repeated := true, pivot := false, named := false, eph := some false, hole := false }

/-- `RepeatedNonterminal(max_count, inner)`; a count below one is treated like one (parse.py 425-435). -/
def Heap.repeated (h : PyHeap) (max : Option Int) (inner : Sym) : Sym × PyHeap :=
  match max with
  | none => h.repeatAll inner
  | some k => h.repeatUpTo inner (k - 1).toNat

/-- The loop in `times` (parse.py 564-565) from `r` on. -/
def Heap.timesLoop (h : PyHeap) (inner r : Sym) : Nat → Sym × PyHeap
  | 0 => (r, h)
  | k + 1 =>
    let y := h.group inner
    let m := y.2.mul r y.1
    m.2.timesLoop inner m.1 k

/-- `times(min_, max_, inner)` (parse.py 559-572). -/
def Heap.times (h : PyHeap) (min : Nat) (max : Option Nat) (inner : Sym) : Sym × PyHeap :=
  if min = 0 then h.repeated (max.map Int.ofNat) inner
  else
    let l := h.timesLoop inner emptySym min
    let m := l.2.wrap asListF l.1
    if max = some min then m
    else
      let r := m.2.repeated (max.map fun k : Nat => (k : Int) - (min : Int)) inner
      r.2.add m.1 r.1

/-- `string_times(min_, max_, inner)` (parse.py 574-575). -/
def Heap.stringTimes (h : PyHeap) (min : Nat) (max : Option Nat) (inner : Sym) : Sym × PyHeap :=
  let t := h.times min max inner
  t.2.wrap joinF t.1

/-- `many(inner)` (parse.py 577-578). -/
def Heap.many (h : PyHeap) (inner : Sym) : Sym × PyHeap := h.times 0 none inner

/-- `string(inner)` (parse.py 580-581). -/
def Heap.string (h : PyHeap) (inner : Sym) : Sym × PyHeap :=
  let t := h.many inner
  t.2.wrap joinF t.1

/-- `many1(inner)` (parse.py 583-584). -/
def Heap.many1 (h : PyHeap) (inner : Sym) : Sym × PyHeap := h.times 1 none inner

/-- `string1(inner)` (parse.py 586-587). -/
def Heap.string1 (h : PyHeap) (inner : Sym) : Sym × PyHeap :=
  let t := h.many1 inner
  t.2.wrap joinF t.1

/-- `[s[1:] for s in excluding if s[0:1].lower() == c]` (parse.py 618). -/
def continuations (c : Nat) : List Str → List Str
  | [] => []
  | [] :: xs => continuations c xs
  | (d :: s) :: xs => if litLower d = c then s :: continuations c xs else continuations c xs

/-- `s[0:1].lower() for s in excluding if s` (parse.py 610). -/
def initialsOf : List Str → List Nat
  | [] => []
  | [] :: xs => initialsOf xs
  | (d :: _) :: xs => litLower d :: initialsOf xs

/-- `free = terminal`, `free = free - literal(c)` (parse.py 612-614). -/
def freeBits (bits : Nat → Bool) : List Nat → Nat → Bool
  | [] => bits
  | c :: cs => freeBits (termMinus bits (charBits c false)) cs

/-- The loop of `string_excluding` (parse.py 617-619) from `r` on; `rec` stands for the recursive call. -/
def Heap.excludeLoop (rec : PyHeap → List Str → Sym × PyHeap) (xs : List Str) (h : PyHeap) (r : Sym) :
    List Nat → Sym × PyHeap
  | [] => (r, h)
  | c :: cs =>
    let e := rec h (continuations c xs)
    let a := e.2.add (.term (charBits c false) false) e.1
    let o := a.2.or r a.1
    Heap.excludeLoop rec xs o.2 o.1 cs

/-- The end of `string_excluding` (parse.py 620-622). -/
def Heap.excludeEnd (xs : List Str) (h : PyHeap) (r : Sym) : Sym × PyHeap :=
  if [] ∈ xs then (r, h)
  else
    let e := h.substEmpty (.text [])
    e.2.or r e.1

/-- `string_excluding(terminal, excluding)` (parse.py 590-622), for ASCII words no longer than the
first argument. `order` is the order in which Python iterates over a set. -/
def stringExcludingTo (order : List Nat → List Nat) (bits : Nat → Bool) (named : Bool) :
    Nat → PyHeap → List Str → Sym × PyHeap
  | 0, h, xs =>
    let s := h.string (.term bits named)
    let r := s.2.add (.term bits named) s.1
    r.2.excludeEnd xs r.1
  | n + 1, h, xs =>
    let s := h.string (.term bits named)
    let r := s.2.add (.term (freeBits bits (order (initialsOf xs)))
      (named && (initialsOf xs).isEmpty)) s.1
    let l := Heap.excludeLoop (stringExcludingTo order bits named n) xs r.2 r.1 (order (initialsOf xs))
    l.2.excludeEnd xs l.1

/-- The length of the longest word (httpolice/parse.py 590-622). -/
def maxLength : List Str → Nat
  | [] => 0
  | s :: xs => max s.length (maxLength xs)

/-- `string_excluding(terminal, excluding)` (parse.py 590-622), for ASCII words. -/
def Heap.stringExcluding (h : PyHeap) (order : List Nat → List Nat) (bits : Nat → Bool) (named : Bool)
    (xs : List Str) : Sym × PyHeap :=
  stringExcludingTo order bits named (maxLength xs) h xs

end Httpolice.Model
